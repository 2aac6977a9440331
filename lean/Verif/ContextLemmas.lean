import Verif.ContextSpec
import Verif.KeepLemmas

/-!
# Context objects: the pointer level implements the specification
-/

namespace Leaf
namespace PtrStore

/-- The `slot<E>` elements of a tuple. -/
def objSlots (f : List PCell) : List (Ty × Addr) := f.flatMap fun x => match x with | .obj ty a => [(ty, a)] | .da _ => []

theorem objSlots_cons (x : PCell) (f : List PCell) : objSlots (x :: f) = (match x with | .obj ty a => [(ty, a)] | .da _ => []) ++ objSlots f := by simp [objSlots]

theorem objSlots_sub {dmem : Addr → Option PDa} {f : List PCell} {p : Ty × Addr} (h : p ∈ objSlots f) : p ∈ frameSlots dmem f := by
  induction f with
  | nil => simp [objSlots] at h
  | cons x f ih =>
    rw [objSlots_cons, List.mem_append] at h
    rw [frameSlots_cons, List.mem_append]
    rcases h with h | h
    · cases x with
      | obj ty a => exact .inl (by simpa [cellSlots] using h)
      | da a => simp at h
    · exact .inr (ih h)

/-- A context that is not active. -/
structure IdleOk (m : PtrStore) (f : List PCell) (pinned : Bool) : Prop where
  slots : ∀ p ∈ frameSlots m.dmem f, p.2 < m.next ∧ ∃ s, m.mem p.2 = some s
  das : ∀ a ∈ frameDas f, a < m.next ∧ ∃ d, m.dmem a = some d ∧ (d.key = 0#32 → d.nodes = [])
  tys : ((frameSlots m.dmem f).map Prod.fst).Nodup
  oneDa : (frameDas f).length ≤ 1
  nodup : ((frameSlots m.dmem f).map Prod.snd).Nodup
  prev : pinned = false → ∀ p ∈ objSlots f, ∀ s, m.mem p.2 = some s → s.prev = none
  dprev : pinned = false → ∀ a ∈ frameDas f, ∀ d, m.dmem a = some d → d.prev = none
  freeS : ∀ p ∈ frameSlots m.dmem f, ∀ q ∈ allSlots m.dmem m.ctxs, p.2 ≠ q.2
  freeD : ∀ a ∈ frameDas f, a ∉ allDas m.ctxs

/-- Two contexts share no storage. -/
structure Apart (m : PtrStore) (f g : List PCell) : Prop where
  slots : ∀ p ∈ frameSlots m.dmem f, ∀ q ∈ frameSlots m.dmem g, p.2 ≠ q.2
  das : ∀ a ∈ frameDas f, a ∉ frameDas g

theorem Apart.symm {m : PtrStore} {f g : List PCell} (h : Apart m f g) : Apart m g f :=
  ⟨fun p hp q hq e => h.slots q hq p hp e.symm, fun a ha hb => h.das a hb ha⟩

/-- A context stays as it is when its storage is not changed. -/
theorem IdleOk.keep {m m' : PtrStore} {f : List PCell} {b : Bool} (h : IdleOk m f b) (hd : ∀ a ∈ frameDas f, m'.dmem a = m.dmem a)
    (hm : ∀ p ∈ frameSlots m.dmem f, m'.mem p.2 = m.mem p.2) (hn : m.next ≤ m'.next)
    (h1 : ∀ p ∈ frameSlots m.dmem f, ∀ q ∈ allSlots m'.dmem m'.ctxs, p.2 ≠ q.2) (h2 : ∀ a ∈ frameDas f, a ∉ allDas m'.ctxs) :
    IdleOk m' f b ∧ absFrame m'.mem m'.dmem f = absFrame m.mem m.dmem f ∧ frameSlots m'.dmem f = frameSlots m.dmem f := by
  have hs := frameSlots_congr_on hd
  refine ⟨⟨?_, ?_, by rw [hs]; exact h.tys, h.oneDa, by rw [hs]; exact h.nodup, ?_, ?_, by rw [hs]; exact h1, h2⟩, absFrame_congr_on hd hm, hs⟩
  · rw [hs]
    intro p hp
    obtain ⟨g1, g2⟩ := h.slots p hp
    exact ⟨Nat.lt_of_lt_of_le g1 hn, by rw [hm p hp]; exact g2⟩
  · intro a ha
    obtain ⟨g1, g2⟩ := h.das a ha
    exact ⟨Nat.lt_of_lt_of_le g1 hn, by rw [hd a ha]; exact g2⟩
  · intro hb p hp s hs'
    rw [hm p (objSlots_sub hp)] at hs'
    exact h.prev hb p hp s hs'
  · intro hb a ha d hd'
    rw [hd a ha] at hd'
    exact h.dprev hb a ha d hd'

theorem IdleOk.untouched {m m' : PtrStore} {f : List PCell} {b : Bool} (h : IdleOk m f b) (hu : Untouched m m') :
    IdleOk m' f b ∧ absFrame m'.mem m'.dmem f = absFrame m.mem m.dmem f ∧ frameSlots m'.dmem f = frameSlots m.dmem f := by
  refine h.keep (fun a ha => hu.dmem a (h.das a ha).1 (h.freeD a ha)) (fun p hp => hu.mem p.2 (h.slots p hp).1 (fun q hq => Ne.symm (h.freeS p hp q hq))) hu.next ?_ ?_
  · intro p hp q hq e
    rcases hu.slots q hq with h1 | h1
    · exact h.freeS p hp q h1 e
    · exact Nat.lt_irrefl _ (Nat.lt_of_lt_of_le (h.slots p hp).1 (e ▸ h1))
  · intro a ha hq
    rcases hu.das a hq with h1 | h1
    · exact h.freeD a ha h1
    · exact Nat.lt_irrefl _ (Nat.lt_of_lt_of_le (h.das a ha).1 h1)

theorem IdleOk.notBound {m : PtrStore} {f : List PCell} {b : Bool} (h : IdleOk m f b) (hi : Inv m) {p : Ty × Addr} (hp : p ∈ frameSlots m.dmem f) (ty : Ty) : m.tls ty ≠ some p.2 := by
  intro e
  rw [hi.tls] at e
  exact h.freeS p hp _ (bind_mem e) rfl

theorem IdleOk.notBoundDa {m : PtrStore} {f : List PCell} {b : Bool} (h : IdleOk m f b) (hi : Inv m) {a : Addr} (ha : a ∈ frameDas f) : m.tlsDa ≠ some a := by
  intro e
  rw [hi.tlsDa] at e
  exact h.freeD a ha (mem_of_head? e)

theorem frameDas_nodup {f : List PCell} (h : (frameDas f).length ≤ 1) : (frameDas f).Nodup := by
  match hf : frameDas f with
  | [] => simp
  | [a] => simp
  | a :: b :: l => simp [hf] at h

end PtrStore

open PtrStore

/-- How a context object relates to its specification. -/
def CtxRel (m : PtrStore) (active : List Nat) (c : Nat) : Option UCtx → Option SCtx → Prop
  | none, none => True
  | some x, some .active => x.active = true ∧ x.spent = false ∧ c ∈ active
  | some x, some (.idle cells pinned spent) => x.active = false ∧ x.spent = spent ∧ c ∉ active ∧ cells = absFrame m.mem m.dmem x.cells ∧ IdleOk m x.cells pinned
  | _, _ => False

/-- The contexts that are active, innermost first, and their cells. -/
def ActRel (pool : Nat → Option UCtx) : List Nat → List (List PCell) → Prop
  | [], [] => True
  | c :: cs, f :: fs => (∃ x, pool c = some x ∧ x.active = true ∧ x.cells = f) ∧ ActRel pool cs fs
  | _, _ => False

/-- The thread and its context objects are represented. -/
structure CRel (u : UWorld) (s : SWorld) : Prop where
  inv : Inv u.w.mem
  w : absW u.w = s.w
  act : ActRel u.pool s.active u.w.mem.ctxs
  once : s.active.Nodup
  pool : ∀ c, CtxRel u.w.mem s.active c (u.pool c) (s.pool c)
  apart : ∀ c d x y, c ≠ d → u.pool c = some x → u.pool d = some y → x.active = false → y.active = false → Apart u.w.mem x.cells y.cells

theorem CRel.initial (counter : Id) : CRel (UWorld.initial counter) (SWorld.initial counter) :=
  ⟨inv_empty, rfl, trivial, by simp [SWorld.initial], fun _ => trivial, by intro c d x y _ h; simp [UWorld.initial] at h⟩

theorem CRel.frames {u : UWorld} {s : SWorld} (h : CRel u s) : s.w.mem.frames = absFrames u.w.mem.mem u.w.mem.dmem u.w.mem.ctxs := by rw [← h.w]; rfl

theorem CRel.get_idle {u : UWorld} {s : SWorld} (h : CRel u s) {c : Nat} {cells pinned spent} (hs : s.pool c = some (.idle cells pinned spent)) :
    ∃ x, u.pool c = some x ∧ u.idle c = some x ∧ x.active = false ∧ x.spent = spent ∧ c ∉ s.active ∧ cells = absFrame u.w.mem.mem u.w.mem.dmem x.cells ∧ IdleOk u.w.mem x.cells pinned := by
  have := h.pool c
  rw [hs] at this
  cases hx : u.pool c with
  | none => rw [hx] at this; exact this.elim
  | some x =>
    rw [hx] at this
    obtain ⟨h1, h2, h3, h4, h5⟩ := this
    exact ⟨x, rfl, by simp [UWorld.idle, hx, h1], h1, h2, h3, h4, h5⟩

theorem CRel.get_none {u : UWorld} {s : SWorld} (h : CRel u s) {c : Nat} (hs : s.pool c = none) : u.pool c = none := by
  have := h.pool c
  rw [hs] at this
  cases hx : u.pool c with
  | none => rfl
  | some x => rw [hx] at this; exact this.elim

/-- Pool entries that stay, in a memory where the storage of idle contexts is not changed. -/
theorem CtxRel.keep {m m' : PtrStore} {act act' : List Nat} {c : Nat} {x : Option UCtx} {y : Option SCtx} (h : CtxRel m act c x y) (ha : c ∈ act' ↔ c ∈ act)
    (hk : ∀ z b, x = some z → z.active = false → IdleOk m z.cells b → IdleOk m' z.cells b ∧ absFrame m'.mem m'.dmem z.cells = absFrame m.mem m.dmem z.cells) :
    CtxRel m' act' c x y := by
  match x, y with
  | none, none => trivial
  | some z, some .active => exact ⟨h.1, h.2.1, ha.mpr h.2.2⟩
  | some z, some (.idle cells pinned spent) =>
    obtain ⟨h1, h2, h3, h4, h5⟩ := h
    obtain ⟨k1, k2⟩ := hk z pinned rfl h1 h5
    exact ⟨h1, h2, fun hc => h3 (ha.mp hc), h4.trans k2.symm, k1⟩
  | none, some _ => exact h.elim
  | some _, none => exact h.elim

/-- The contexts' storage is not touched by what runs. -/
theorem CRel.untouched {u : UWorld} {s : SWorld} (h : CRel u s) {w2 : World PtrStore} (hi : Inv w2.mem) (hu : Untouched u.w.mem w2.mem) (hc : w2.mem.ctxs = u.w.mem.ctxs) :
    CRel { u with w := w2 } { s with w := absW w2 } := by
  have key : ∀ c x, u.pool c = some x → x.active = false → ∃ b, IdleOk u.w.mem x.cells b := by
    intro c x hx ha
    have := h.pool c
    rw [hx] at this
    cases hy : s.pool c with
    | none => rw [hy] at this; exact this.elim
    | some y =>
      rw [hy] at this
      cases y with
      | active => rw [this.1] at ha; simp at ha
      | idle cells pinned spent => exact ⟨_, this.2.2.2.2⟩
  refine ⟨hi, rfl, by rw [hc]; exact h.act, h.once, fun c => (h.pool c).keep Iff.rfl ?_, ?_⟩
  · intro z b hz ha hb
    have := hb.untouched hu
    exact ⟨this.1, this.2.1⟩
  · intro c d x y hne hx hy hax hay
    have hap := h.apart c d x y hne hx hy hax hay
    obtain ⟨b1, h1⟩ := key c x hx hax
    obtain ⟨b2, h2⟩ := key d y hy hay
    refine ⟨?_, hap.das⟩
    rw [show frameSlots ({ u with w := w2 } : UWorld).w.mem.dmem x.cells = _ from (h1.untouched hu).2.2,
      show frameSlots ({ u with w := w2 } : UWorld).w.mem.dmem y.cells = _ from (h2.untouched hu).2.2]
    exact hap.slots

/-- One step of code that is the same at both levels. -/
theorem sim_step {α : Type} {x : Comp PtrStore α} {y : Comp AbsStore α} (h : Sim 0 0 x y) {w : World PtrStore} (hi : Inv w.mem) {a : α} {w' : World AbsStore} (hy : y (absW w) = some (a, w')) :
    ∃ w2, x w = some (a, w2) ∧ absW w2 = w' ∧ Inv w2.mem ∧ Untouched w.mem w2.mem ∧ w2.mem.ctxs = w.mem.ctxs := by
  obtain ⟨w2, h1, h2, h3, h4⟩ := sim_run h w.mem w a w' hi (Keep.refl _) hy
  obtain ⟨pre, hp, hc⟩ := h4.ctxs
  have : pre = [] := List.eq_nil_of_length_eq_zero hp
  subst this
  exact ⟨w2, h1, h2, h3, h4.other, hc⟩

theorem CRel.sim {u : UWorld} {s : SWorld} (h : CRel u s) {α : Type} {x : Comp PtrStore α} {y : Comp AbsStore α} (hxy : Sim 0 0 x y) {a : α} {w' : World AbsStore} (hy : y s.w = some (a, w')) :
    ∃ w2, x u.w = some (a, w2) ∧ CRel { u with w := w2 } { s with w := w' } ∧ Untouched u.w.mem w2.mem := by
  rw [← h.w] at hy
  obtain ⟨w2, h1, h2, h3, h4, h5⟩ := sim_step hxy h.inv hy
  subst h2
  exact ⟨w2, h1, h.untouched h3 h4 h5, h4⟩

/-! ### create -/

namespace PtrStore

theorem build_ctxs (spec : List CellTy) (m : PtrStore) : (build spec m).2.ctxs = m.ctxs ∧ (build spec m).2.tls = m.tls ∧ (build spec m).2.tlsDa = m.tlsDa := by
  induction spec generalizing m with
  | nil => exact ⟨rfl, rfl, rfl⟩
  | cons c cs ih => cases c <;> (simp only [build]; exact ih _)

theorem build_keeps (spec : List CellTy) (m : PtrStore) :
    m.next ≤ (build spec m).2.next ∧ (∀ a, a < m.next → (build spec m).2.dmem a = m.dmem a) ∧ ∀ a, a < m.next → (build spec m).2.mem a = m.mem a := by
  induction spec generalizing m with
  | nil => exact ⟨Nat.le_refl _, fun _ _ => rfl, fun _ _ => rfl⟩
  | cons t spec ih =>
    cases t with
    | obj ty =>
      obtain ⟨h1, h2, h3⟩ := ih { m with mem := upd m.mem m.next (some ⟨none, none⟩), next := m.next + 1 }
      simp only [build]
      refine ⟨Nat.le_trans (Nat.le_succ _) h1, fun a ha => h2 a (Nat.lt_succ_of_lt ha), fun a ha => ?_⟩
      rw [h3 a (Nat.lt_succ_of_lt ha)]
      exact upd_ne _ _ (Nat.ne_of_lt ha)
    | da =>
      obtain ⟨h1, h2, h3⟩ := ih { m with dmem := upd m.dmem m.next (some ⟨0#32, [], none⟩), next := m.next + 1 }
      simp only [build]
      refine ⟨Nat.le_trans (Nat.le_succ _) h1, fun a ha => ?_, fun a ha => h3 a (Nat.lt_succ_of_lt ha)⟩
      rw [h2 a (Nat.lt_succ_of_lt ha)]
      exact upd_ne _ _ (Nat.ne_of_lt ha)

theorem build_inv {m : PtrStore} (h : Inv m) (spec : List CellTy) : Inv (build spec m).2 ∧ Untouched m (build spec m).2 ∧ abs (build spec m).2 = abs m := by
  obtain ⟨k1, k2, k3⟩ := build_keeps spec m
  obtain ⟨c1, c2, c3⟩ := build_ctxs spec m
  have hd : ∀ a ∈ allDas m.ctxs, (build spec m).2.dmem a = m.dmem a := fun a ha => k2 a (h.dlt a ha)
  have hm : ∀ p ∈ allSlots m.dmem m.ctxs, (build spec m).2.mem p.2 = m.mem p.2 := fun p hp => k3 p.2 (h.lt p hp)
  have hs := allSlots_congr_on hd
  refine ⟨⟨?_, ?_, ?_, ?_, ?_, ?_, ?_⟩, ⟨k1, ?_, ?_, fun a ha _ => k3 a ha, fun a ha _ => k2 a ha⟩, ?_⟩
  · rw [c1, hs]; exact h.nodup
  · rw [c1, hs]; exact fun p hp => Nat.lt_of_lt_of_le (h.lt p hp) k1
  · rw [c1]; exact h.dnodup
  · rw [c1]; exact fun a ha => Nat.lt_of_lt_of_le (h.dlt a ha) k1
  · rw [c1, hs, c2]; exact h.tls
  · rw [c1, c3]; exact h.tlsDa
  · rw [c1]; exact framesOk_congr_on h.frames hd hm
  · rw [c1, hs]; exact fun p hp => .inl hp
  · rw [c1]; exact fun p hp => .inl hp
  · simp only [abs, c1]; congr 1; exact absFrames_congr_on hd hm

/-- The new tuple. -/
theorem build_new (spec : List CellTy) (m : PtrStore) :
    frameSlots (build spec m).2.dmem (build spec m).1 = objSlots (build spec m).1 ∧
    (∀ p ∈ objSlots (build spec m).1, m.next ≤ p.2 ∧ p.2 < (build spec m).2.next ∧ (build spec m).2.mem p.2 = some ⟨none, none⟩) ∧
    (∀ a ∈ frameDas (build spec m).1, m.next ≤ a ∧ a < (build spec m).2.next ∧ (build spec m).2.dmem a = some ⟨0#32, [], none⟩) ∧
    (objSlots (build spec m).1).map (CellTy.obj ·.1) = spec.filter (· ≠ .da) ∧ (frameDas (build spec m).1).length = spec.count .da ∧
    ((objSlots (build spec m).1).map Prod.snd).Nodup ∧
    absFrame (build spec m).2.mem (build spec m).2.dmem (build spec m).1 = spec.map CellTy.empty := by
  induction spec generalizing m with
  | nil => simp [build, frameSlots, objSlots, frameDas, absFrame]
  | cons t spec ih =>
    cases t with
    | obj ty =>
      let m1 : PtrStore := { m with mem := upd m.mem m.next (some ⟨none, none⟩), next := m.next + 1 }
      obtain ⟨h1, h2, h3, h4, h5, h6, h7⟩ := ih m1
      obtain ⟨k1, k2, k3⟩ := build_keeps spec m1
      have hnew : (build spec m1).2.mem m.next = some ⟨none, none⟩ := by rw [k3 _ (Nat.lt_succ_self _)]; exact upd_same _ _ _
      simp only [build]
      show frameSlots (build spec m1).2.dmem (.obj ty m.next :: (build spec m1).1) = objSlots (.obj ty m.next :: (build spec m1).1) ∧ _
      rw [frameSlots_cons, objSlots_cons, frameDas_cons, h1]
      refine ⟨rfl, ?_, ?_, ?_, ?_, ?_, ?_⟩
      · intro p hp
        simp only [List.cons_append, List.nil_append, List.mem_cons] at hp
        rcases hp with rfl | hp
        · exact ⟨Nat.le_refl _, k1, hnew⟩
        · exact ⟨Nat.le_of_succ_le (h2 p hp).1, (h2 p hp).2⟩
      · intro a ha
        exact ⟨Nat.le_of_succ_le (h3 a ha).1, (h3 a ha).2⟩
      · simpa using h4
      · simpa [cellDas] using h5
      · simp only [List.cons_append, List.nil_append, List.map_cons, List.nodup_cons]
        refine ⟨fun hm => ?_, h6⟩
        obtain ⟨p, hp, e⟩ := List.mem_map.mp hm
        exact Nat.lt_irrefl _ (e ▸ (h2 p hp).1)
      · simp only [absFrame, List.map_cons, absCell, CellTy.empty]
        rw [show cellOf (build spec m1).2.mem m.next = none from by simp [cellOf, hnew]]
        exact congrArg _ h7
    | da =>
      let m1 : PtrStore := { m with dmem := upd m.dmem m.next (some ⟨0#32, [], none⟩), next := m.next + 1 }
      obtain ⟨h1, h2, h3, h4, h5, h6, h7⟩ := ih m1
      obtain ⟨k1, k2, k3⟩ := build_keeps spec m1
      have hnew : (build spec m1).2.dmem m.next = some ⟨0#32, [], none⟩ := by rw [k2 _ (Nat.lt_succ_self _)]; exact upd_same _ _ _
      simp only [build]
      show frameSlots (build spec m1).2.dmem (.da m.next :: (build spec m1).1) = objSlots (.da m.next :: (build spec m1).1) ∧ _
      rw [frameSlots_cons, objSlots_cons, frameDas_cons, h1]
      refine ⟨by simp [cellSlots, nodesOf, hnew], ?_, ?_, ?_, ?_, ?_, ?_⟩
      · intro p hp
        simp only [List.nil_append] at hp
        exact ⟨Nat.le_of_succ_le (h2 p hp).1, (h2 p hp).2⟩
      · intro a ha
        simp only [cellDas, List.cons_append, List.nil_append, List.mem_cons] at ha
        rcases ha with rfl | ha
        · exact ⟨Nat.le_refl _, k1, hnew⟩
        · exact ⟨Nat.le_of_succ_le (h3 a ha).1, (h3 a ha).2⟩
      · rw [List.nil_append, h4, List.filter_cons_of_neg (by simp)]
      · rw [List.length_append, h5, show (cellDas (.da m.next)).length = 1 from rfl, List.count_cons, Nat.add_comm]
        rfl
      · simpa using h6
      · simp only [absFrame, List.map_cons, absCell, CellTy.empty]
        rw [show keyOf (build spec m1).2.dmem m.next = 0#32 from by simp [keyOf, hnew], show nodesOf (build spec m1).2.dmem m.next = [] from by simp [nodesOf, hnew]]
        exact congrArg _ h7

theorem build_idle {m : PtrStore} (h : Inv m) {spec : List CellTy} (hn : spec.Nodup) : IdleOk (build spec m).2 (build spec m).1 false := by
  obtain ⟨h1, h2, h3, h4, h5, h6, h7⟩ := build_new spec m
  obtain ⟨c1, c2, c3⟩ := build_ctxs spec m
  obtain ⟨k1, k2, k3⟩ := build_keeps spec m
  have hs : allSlots (build spec m).2.dmem m.ctxs = allSlots m.dmem m.ctxs := allSlots_congr_on (fun a ha => k2 a (h.dlt a ha))
  refine ⟨?_, ?_, ?_, ?_, ?_, ?_, ?_, ?_, ?_⟩
  · rw [h1]; exact fun p hp => ⟨(h2 p hp).2.1, _, (h2 p hp).2.2⟩
  · exact fun a ha => ⟨(h3 a ha).2.1, _, (h3 a ha).2.2, fun _ => rfl⟩
  · rw [h1]
    have : ((objSlots (build spec m).1).map (CellTy.obj ·.1)).Nodup := by rw [h4]; exact hn.filter _
    rw [show (objSlots (build spec m).1).map (CellTy.obj ·.1) = ((objSlots (build spec m).1).map Prod.fst).map CellTy.obj from by rw [List.map_map]; rfl] at this
    exact List.Pairwise.imp (fun hab e => hab (congrArg _ e)) (List.pairwise_map.mp this)
  · rw [h5]; exact List.nodup_iff_count.mp hn _
  · rw [h1]; exact h6
  · intro _ p hp s hs
    rw [(h2 p hp).2.2] at hs
    cases hs; rfl
  · intro _ a ha d hd
    rw [(h3 a ha).2.2] at hd
    cases hd; rfl
  · rw [h1, c1, hs]
    intro p hp q hq e
    exact Nat.lt_irrefl _ (Nat.lt_of_lt_of_le (h.lt q hq) (e ▸ (h2 p hp).1))
  · rw [c1]
    intro a ha hq
    exact Nat.lt_irrefl _ (Nat.lt_of_lt_of_le (h.dlt a hq) (h3 a ha).1)

/-! ### Changes to the storage of one context -/

/-- Only the storage of `f` and new storage changed. -/
structure Local (m m' : PtrStore) (f : List PCell) : Prop where
  next : m.next ≤ m'.next
  ctxs : m'.ctxs = m.ctxs
  tls : m'.tls = m.tls
  tlsDa : m'.tlsDa = m.tlsDa
  mem : ∀ a, a < m.next → (∀ p ∈ frameSlots m.dmem f, p.2 ≠ a) → m'.mem a = m.mem a
  dmem : ∀ a, a < m.next → a ∉ frameDas f → m'.dmem a = m.dmem a

theorem Local.refl (m : PtrStore) (f : List PCell) : Local m m f := ⟨Nat.le_refl _, rfl, rfl, rfl, fun _ _ _ => rfl, fun _ _ _ => rfl⟩

theorem Local.inv {m m' : PtrStore} {f : List PCell} (hl : Local m m' f) (h : Inv m) (hS : ∀ p ∈ frameSlots m.dmem f, ∀ q ∈ allSlots m.dmem m.ctxs, p.2 ≠ q.2)
    (hD : ∀ a ∈ frameDas f, a ∉ allDas m.ctxs) : Inv m' ∧ abs m' = abs m ∧ allSlots m'.dmem m'.ctxs = allSlots m.dmem m.ctxs := by
  have hd : ∀ a ∈ allDas m.ctxs, m'.dmem a = m.dmem a := fun a ha => hl.dmem a (h.dlt a ha) (fun hf => hD a hf ha)
  have hm : ∀ p ∈ allSlots m.dmem m.ctxs, m'.mem p.2 = m.mem p.2 := fun p hp => hl.mem p.2 (h.lt p hp) (fun q hq => hS q hq p hp)
  have hs := allSlots_congr_on hd
  refine ⟨⟨?_, ?_, ?_, ?_, ?_, ?_, ?_⟩, ?_, by rw [hl.ctxs, hs]⟩
  · rw [hl.ctxs, hs]; exact h.nodup
  · rw [hl.ctxs, hs]; exact fun p hp => Nat.lt_of_lt_of_le (h.lt p hp) hl.next
  · rw [hl.ctxs]; exact h.dnodup
  · rw [hl.ctxs]; exact fun a ha => Nat.lt_of_lt_of_le (h.dlt a ha) hl.next
  · rw [hl.ctxs, hs, hl.tls]; exact h.tls
  · rw [hl.ctxs, hl.tlsDa]; exact h.tlsDa
  · rw [hl.ctxs]; exact framesOk_congr_on h.frames hd hm
  · simp only [abs, hl.ctxs]; congr 1; exact absFrames_congr_on hd hm

theorem IdleOk.local {m m' : PtrStore} {f g : List PCell} {b : Bool} (h : IdleOk m g b) (hl : Local m m' f) (hap : Apart m f g) (hs : allSlots m'.dmem m'.ctxs = allSlots m.dmem m.ctxs) :
    IdleOk m' g b ∧ absFrame m'.mem m'.dmem g = absFrame m.mem m.dmem g ∧ frameSlots m'.dmem g = frameSlots m.dmem g := by
  refine h.keep (fun a ha => hl.dmem a (h.das a ha).1 (fun hf => hap.das a hf ha)) (fun p hp => hl.mem p.2 (h.slots p hp).1 (fun q hq => hap.slots q hq p hp)) hl.next ?_ ?_
  · rw [hs]; exact h.freeS
  · rw [hl.ctxs]; exact h.freeD

end PtrStore

theorem ActRel.congr {pool pool' : Nat → Option UCtx} : ∀ {cs : List Nat} {fs : List (List PCell)}, ActRel pool cs fs → (∀ c ∈ cs, pool' c = pool c) → ActRel pool' cs fs
  | [], [], _, _ => trivial
  | c :: cs, f :: fs, h, hp => ⟨by rw [hp c (List.mem_cons_self ..)]; exact h.1, ActRel.congr h.2 (fun d hd => hp d (List.mem_cons_of_mem _ hd))⟩
  | [], _ :: _, h, _ => h.elim
  | _ :: _, [], h, _ => h.elim

theorem CRel.idleOk {u : UWorld} {s : SWorld} (h : CRel u s) {c : Nat} {x : UCtx} (hx : u.pool c = some x) (ha : x.active = false) : ∃ b, IdleOk u.w.mem x.cells b := by
  have := h.pool c
  rw [hx] at this
  cases hy : s.pool c with
  | none => rw [hy] at this; exact this.elim
  | some y =>
    rw [hy] at this
    cases y with
    | active => rw [this.1] at ha; simp at ha
    | idle cells pinned spent => exact ⟨_, this.2.2.2.2⟩

theorem CRel.change {u : UWorld} {s : SWorld} (h : CRel u s) {c : Nat} {x' : Option UCtx} {y' : Option SCtx} {m' : PtrStore} {f : List PCell} (hc : c ∉ s.active) (hl : Local u.w.mem m' f)
    (hS : ∀ p ∈ frameSlots u.w.mem.dmem f, ∀ q ∈ allSlots u.w.mem.dmem u.w.mem.ctxs, p.2 ≠ q.2) (hD : ∀ a ∈ frameDas f, a ∉ allDas u.w.mem.ctxs)
    (hap : ∀ d y, d ≠ c → u.pool d = some y → y.active = false → Apart u.w.mem f y.cells)
    (hr : CtxRel m' s.active c x' y')
    (hx : ∀ x, x' = some x → ∀ d y, d ≠ c → u.pool d = some y → y.active = false → Apart m' x.cells y.cells) :
    CRel ((u.setMem m').setPool c x') (s.setPool c y') := by
  obtain ⟨i1, i2, i3⟩ := hl.inv h.inv hS hD
  refine ⟨i1, ?_, ?_, h.once, fun d => ?_, ?_⟩
  · show absW { u.w with mem := m' } = s.w
    rw [← h.w]
    show _ = absW u.w
    simp only [absW, i2]
  · show ActRel (upd u.pool c x') s.active m'.ctxs
    rw [hl.ctxs]
    exact h.act.congr (fun d hd => upd_ne _ _ (fun e => hc (e ▸ hd)))
  · show CtxRel m' s.active d (upd u.pool c x' d) (upd s.pool c y' d)
    by_cases e : d = c
    · subst e; rw [upd_same, upd_same]; exact hr
    · rw [upd_ne _ _ e, upd_ne _ _ e]
      refine (h.pool d).keep Iff.rfl fun z b hz ha hb => ?_
      obtain ⟨k1, k2, _⟩ := hb.local hl (hap d z e hz ha) i3
      exact ⟨k1, k2⟩
  · intro d1 d2 x y hne hx1 hy1 hax hay
    replace hx1 : upd u.pool c x' d1 = some x := hx1
    replace hy1 : upd u.pool c x' d2 = some y := hy1
    show Apart m' x.cells y.cells
    by_cases e1 : d1 = c
    · subst e1
      rw [upd_same] at hx1
      rw [upd_ne _ _ (Ne.symm hne)] at hy1
      exact hx x hx1 d2 y (Ne.symm hne) hy1 hay
    · rw [upd_ne _ _ e1] at hx1
      by_cases e2 : d2 = c
      · subst e2
        rw [upd_same] at hy1
        exact (hx y hy1 d1 x e1 hx1 hax).symm
      · rw [upd_ne _ _ e2] at hy1
        have a0 := h.apart d1 d2 x y hne hx1 hy1 hax hay
        obtain ⟨b1, o1⟩ := h.idleOk hx1 hax
        obtain ⟨b2, o2⟩ := h.idleOk hy1 hay
        obtain ⟨_, _, s1⟩ := o1.local hl (hap d1 x e1 hx1 hax) i3
        obtain ⟨_, _, s2⟩ := o2.local hl (hap d2 y e2 hy1 hay) i3
        exact ⟨by rw [s1, s2]; exact a0.slots, a0.das⟩

/-- A step changes the storage and the entry of a context. -/
theorem CRel.changeOwn {u : UWorld} {s : SWorld} (h : CRel u s) {c : Nat} {x : UCtx} {x' : Option UCtx} {y' : Option SCtx} {m' : PtrStore} (hc : c ∉ s.active) (hx0 : u.pool c = some x) (ha : x.active = false)
    (hl : Local u.w.mem m' x.cells) (hr : CtxRel m' s.active c x' y')
    (hx : ∀ z, x' = some z → z.cells = x.cells ∧ ∀ p ∈ frameSlots m'.dmem x.cells, p ∈ frameSlots u.w.mem.dmem x.cells) :
    CRel ((u.setMem m').setPool c x') (s.setPool c y') := by
  obtain ⟨b, o⟩ := h.idleOk hx0 ha
  have hap : ∀ d y, d ≠ c → u.pool d = some y → y.active = false → Apart u.w.mem x.cells y.cells := fun d y hne hy hay => h.apart c d x y (Ne.symm hne) hx0 hy ha hay
  refine h.change hc hl o.freeS o.freeD hap hr fun z hz d y hne hy hay => ?_
  obtain ⟨e1, e2⟩ := hx z hz
  rw [e1]
  have a0 := hap d y hne hy hay
  obtain ⟨b', o'⟩ := h.idleOk hy hay
  obtain ⟨_, _, s2⟩ := o'.local hl a0 (hl.inv h.inv o.freeS o.freeD).2.2
  exact ⟨fun p hp q hq => a0.slots p (e2 p hp) q (by rw [s2] at hq; exact hq), a0.das⟩

end Leaf
