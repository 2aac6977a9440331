import Verif.CostLemmas
import Verif.PropStorage

/-!
# Counting accesses: lemmas
-/

namespace Leaf

/-- 1 if the accesses counted (those for which `q` holds) include some to the pointer to, or slots of, type `ty`. -/
def wTy (q : Access → Bool) (ty : Ty) : Nat := if q (.tls ty) || q (.slot ty) then 1 else 0
/-- The same for allocators. -/
def wDa (q : Access → Bool) : Nat := if q .tlsDa || q .da then 1 else 0
/-- The same for the counter and the current id. -/
def wId (q : Access → Bool) : Nat := if q .counter || q .cur then 1 else 0

def PCell.cellTy : PCell → CellTy
  | .obj ty _ => .obj ty
  | .da _ => .da

namespace Cost

variable {α β : Type} {q : Access → Bool}

theorem count_tls (q : Access → Bool) (ty : Ty) : [Access.tls ty].countP q ≤ wTy q ty := by
  unfold wTy; cases h : q (.tls ty) <;> simp [h]
theorem count_slot (q : Access → Bool) (ty : Ty) : [Access.slot ty].countP q ≤ wTy q ty := by
  unfold wTy; cases h : q (.slot ty) <;> simp [h]
theorem count_tlsDa (q : Access → Bool) : [Access.tlsDa].countP q ≤ wDa q := by
  unfold wDa; cases h : q .tlsDa <;> simp [h]
theorem count_da (q : Access → Bool) : [Access.da].countP q ≤ wDa q := by
  unfold wDa; cases h : q .da <;> simp [h]
theorem count_counter (q : Access → Bool) : [Access.counter].countP q ≤ wId q := by
  unfold wId; cases h : q .counter <;> simp [h]
theorem count_cur (q : Access → Bool) : [Access.cur].countP q ≤ wId q := by
  unfold wId; cases h : q .cur <;> simp [h]

/-- What the lemmas need: an empty allocator has no nodes; without `da` there is none; the active contexts. -/
structure St (da : Bool) (s : List (List CellTy)) (m : PtrStore) : Prop where
  empty : ∀ a d, m.tlsDa = some a → m.dmem a = some d → d.key = 0#32 → d.nodes = []
  none : da = false → m.tlsDa = .none
  shape : m.ctxs.map (·.map PCell.cellTy) = s

/-! ## Operations on the storage -/

/-- `x`, started where `P` holds, makes at most `n` accesses of those counted, and ends where `Q` holds. -/
def T (q : Access → Bool) (P : PtrStore → Prop) (x : Traced α) (n : Nat) (Q : α → PtrStore → Prop) : Prop :=
  ∀ m a m' l, P m → x m = some (a, m', l) → l.countP q ≤ n ∧ Q a m'

theorem T.pure {P : PtrStore → Prop} (a : α) : T q P (Pure.pure a) 0 (fun b m => b = a ∧ P m) := by
  intro m b m' l hp h
  cases h
  exact ⟨Nat.le_refl _, rfl, hp⟩

theorem T.ub {P : PtrStore → Prop} {n : Nat} {Q : α → PtrStore → Prop} : T q P (Traced.ub : Traced α) n Q := by
  intro m b m' l hp h
  cases h

theorem T.bind {P : PtrStore → Prop} {x : Traced α} {n1 n2 : Nat} {Q1 : α → PtrStore → Prop} {f : α → Traced β} {Q2 : β → PtrStore → Prop}
    (h1 : T q P x n1 Q1) (h2 : ∀ a, T q (Q1 a) (f a) n2 Q2) : T q P (x >>= f) (n1 + n2) Q2 := by
  intro m b m' l hp h
  change Traced.bind x f m = _ at h
  unfold Traced.bind at h
  cases hx : x m with
  | none => rw [hx] at h; cases h
  | some r =>
    obtain ⟨a, m1, l1⟩ := r
    rw [hx] at h
    simp only at h
    cases hf : f a m1 with
    | none => rw [hf] at h; cases h
    | some r =>
      obtain ⟨b', m2, l2⟩ := r
      rw [hf] at h
      cases h
      obtain ⟨c1, q1⟩ := h1 m a m1 l1 hp hx
      obtain ⟨c2, q2⟩ := h2 a m1 b m' l2 q1 hf
      exact ⟨by rw [List.countP_append]; omega, q2⟩

theorem T.weaken {P P' : PtrStore → Prop} {x : Traced α} {n n' : Nat} {Q Q' : α → PtrStore → Prop} (h : T q P x n Q) (hp : ∀ m, P' m → P m) (hn : n ≤ n')
    (hq : ∀ a m, Q a m → Q' a m) : T q P' x n' Q' := by
  intro m a m' l hpm hx
  obtain ⟨c, r⟩ := h m a m' l (hp m hpm) hx
  exact ⟨Nat.le_trans c hn, hq a m' r⟩

section
variable {da : Bool} {s : List (List CellTy)}

theorem T.rdTls (ty : Ty) : T q (St da s) (Traced.rdTls ty) (wTy q ty) (fun _ => St da s) := by
  intro m a m' l hp h; cases h; exact ⟨count_tls q ty, hp⟩
theorem T.wrTls (ty : Ty) (p : Option Addr) : T q (St da s) (Traced.wrTls ty p) (wTy q ty) (fun _ => St da s) := by
  intro m a m' l hp h; cases h; exact ⟨count_tls q ty, hp.empty, hp.none, hp.shape⟩
theorem T.rdSlot (ty : Ty) (a : Addr) : T q (St da s) (Traced.rdSlot ty a) (wTy q ty) (fun _ => St da s) := by
  intro m b m' l hp h
  unfold Traced.rdSlot at h
  cases hm : m.mem a with
  | none => rw [hm] at h; cases h
  | some x => rw [hm] at h; cases h; exact ⟨count_slot q ty, hp⟩
theorem T.wrSlot (ty : Ty) (a : Addr) (x : PSlot) : T q (St da s) (Traced.wrSlot ty a x) (wTy q ty) (fun _ => St da s) := by
  intro m b m' l hp h; cases h; exact ⟨count_slot q ty, hp.empty, hp.none, hp.shape⟩
theorem T.newSlot (ty : Ty) (x : PSlot) : T q (St da s) (Traced.newSlot ty x) (wTy q ty) (fun _ => St da s) := by
  intro m b m' l hp h; cases h; exact ⟨count_slot q ty, hp.empty, hp.none, hp.shape⟩
theorem T.delSlot (ty : Ty) (a : Addr) : T q (St da s) (Traced.delSlot ty a) (wTy q ty) (fun _ => St da s) := by
  intro m b m' l hp h
  unfold Traced.delSlot at h
  cases hm : m.mem a with
  | none => rw [hm] at h; cases h
  | some x => rw [hm] at h; cases h; exact ⟨count_slot q ty, hp.empty, hp.none, hp.shape⟩

theorem T.slotGet (ty : Ty) : T q (St da s) (Traced.slotGet ty) (2 * wTy q ty) (fun _ => St da s) := by
  unfold Traced.slotGet
  refine (T.bind (n2 := wTy q ty) (T.rdTls ty) fun p => ?_).weaken (fun _ h => h) (by omega) (fun _ _ h => h)
  cases p with
  | none => exact (T.pure _).weaken (fun _ h => h) (by omega) (fun _ _ h => h.2)
  | some a => exact (T.bind (T.rdSlot ty a) fun x => (T.pure _).weaken (fun _ h => h) (Nat.le_refl _) (fun _ _ h => h.2)).weaken (fun _ h => h) (by omega) (fun _ _ h => h)

theorem T.slotSet (ty : Ty) (id : Id) (v : Val) : T q (St da s) (Traced.slotSet ty id v) (3 * wTy q ty) (fun _ => St da s) := by
  unfold Traced.slotSet
  refine (T.bind (n2 := 2 * wTy q ty) (T.rdTls ty) fun p => ?_).weaken (fun _ h => h) (by omega) (fun _ _ h => h)
  cases p with
  | none => exact T.ub
  | some a => exact (T.bind (T.rdSlot ty a) fun x => T.wrSlot ty a _).weaken (fun _ h => h) (by omega) (fun _ _ h => h)

/-- The allocator bound, if any, has key `k`. -/
def Key (k : Option Id) (m : PtrStore) : Prop :=
  (k = none ↔ m.tlsDa = none) ∧ ∀ a d, m.tlsDa = some a → m.dmem a = some d → k = some d.key

theorem T.rdTlsDa : T q (St da s) Traced.rdTlsDa (wDa q) (fun p m => St da s m ∧ m.tlsDa = p) := by
  intro m a m' l hp h; cases h; exact ⟨count_tlsDa q, hp, rfl⟩

theorem T.rdDa {P : PtrStore → Prop} (a : Addr) : T q P (Traced.rdDa a) (wDa q) (fun d m => P m ∧ m.dmem a = some d) := by
  intro m d m' l hp h
  unfold Traced.rdDa at h
  cases hm : m.dmem a with
  | none => rw [hm] at h; cases h
  | some x => rw [hm] at h; cases h; exact ⟨count_da q, hp, hm⟩

theorem T.wrDa (a : Addr) (d : PDa) (hd : d.key = 0#32 → d.nodes = []) : T q (St da s) (Traced.wrDa a d) (wDa q) (fun _ => St da s) := by
  intro m b m' l hp h
  cases h
  refine ⟨count_da q, fun x e hx he hk => ?_, hp.none, hp.shape⟩
  simp only [upd] at he
  split at he
  · cases he; exact hd hk
  · exact hp.empty x e hx he hk

theorem T.daKey : T q (St da s) Traced.daKey (2 * wDa q) (fun k m => St da s m ∧ Key k m) := by
  unfold Traced.daKey
  refine (T.bind (n2 := wDa q) T.rdTlsDa fun p => ?_).weaken (fun _ h => h) (by omega) (fun _ _ h => h)
  cases p with
  | none =>
    refine (T.pure _).weaken (fun _ h => h) (by omega) ?_
    rintro _ m ⟨rfl, h, h1⟩
    exact ⟨h, by simp [h1], fun a d h => by rw [h1] at h; cases h⟩
  | some a =>
    refine (T.bind (T.rdDa a) fun d => (T.pure _).weaken (fun _ h => h) (Nat.le_refl _) ?_).weaken (fun _ h => h) (by omega) (fun _ _ h => h)
    rintro _ m ⟨rfl, ⟨h, h1⟩, h2⟩
    exact ⟨h, by simp [h1], fun b e hb he => by rw [h1] at hb; cases hb; rw [h2] at he; cases he; rfl⟩

/-- Resetting an empty allocator. -/
theorem T.daReset (id : Id) : T q (fun m => St da s m ∧ Key (some 0#32) m) (Traced.daReset id) (3 * wDa q) (fun _ => St da s) := by
  unfold Traced.daReset
  refine (T.bind (n1 := wDa q) (n2 := 2 * wDa q) (Q1 := fun p m => (St da s m ∧ Key (some 0#32) m) ∧ m.tlsDa = p) ?_ fun p => ?_).weaken (fun _ h => h) (by omega) (fun _ _ h => h)
  · intro m a m' l hp h; cases h; exact ⟨count_tlsDa q, hp, rfl⟩
  · cases p with
    | none => exact T.ub
    | some a =>
      refine (T.bind (n2 := wDa q) (T.rdDa a) fun d => ?_).weaken (fun _ h => h) (by omega) (fun _ _ h => h)
      intro m x m' l hp h
      obtain ⟨⟨⟨hs, hk⟩, h1⟩, h2⟩ := hp
      have hk0 : d.key = 0#32 := by have := hk.2 a d h1 h2; simpa using this.symm
      have hn := hs.empty a d h1 h2 hk0
      rw [hn] at h
      cases h
      refine ⟨count_da q, fun y e hy he hk => ?_, hs.none, hs.shape⟩
      simp only [upd] at he
      split at he
      · cases he; rfl
      · exact hs.empty y e hy he hk

theorem T.daAppend (ty : Ty) (id : Id) (v : Val) : T q (St da s) (Traced.daAppend ty id v) (3 * wDa q + 3 * wTy q ty) (fun _ => St da s) := by
  unfold Traced.daAppend
  refine (T.bind (n2 := 2 * wDa q + 3 * wTy q ty) T.rdTlsDa fun p => ?_).weaken (fun _ h => h) (by omega) (fun _ _ h => h)
  cases p with
  | none => exact T.ub
  | some a =>
    refine (T.bind (n2 := wDa q + 3 * wTy q ty) (T.rdDa a) fun d => ?_).weaken (fun _ h => h) (by omega) (fun _ _ h => h)
    split
    · exact T.ub
    · rename_i hk
      refine (T.bind (n2 := wDa q + 2 * wTy q ty) ((T.rdTls ty).weaken (fun _ h => h.1.1) (Nat.le_refl _) (fun _ _ h => h)) fun p => ?_).weaken (fun _ h => h) (by omega) (fun _ _ h => h)
      cases p with
      | some _ => exact T.ub
      | none =>
        refine T.weaken (n := wTy q ty + (wDa q + wTy q ty)) ?_ (fun _ h => h) (by omega) (fun _ _ h => h)
        exact T.bind (T.newSlot ty _) fun b => T.bind (T.wrDa a _ (fun h => absurd h hk)) fun _ => T.wrTls ty _

theorem T.freeSlot (ty : Ty) (a : Addr) : T q (St da s) (Traced.freeSlot ty a) (2 * wTy q ty) (fun _ => St da s) := by
  unfold Traced.freeSlot
  refine (T.bind (n2 := wTy q ty) (T.rdTls ty) fun p => ?_).weaken (fun _ h => h) (by omega) (fun _ _ h => h)
  split
  · exact T.ub
  · exact T.delSlot ty a

theorem T.deactSlot (ty : Ty) (a : Addr) : T q (St da s) (Traced.deactSlot ty a) (2 * wTy q ty) (fun _ => St da s) := by
  unfold Traced.deactSlot
  exact (T.bind (T.rdSlot ty a) fun x => T.wrTls ty _).weaken (fun _ h => h) (by omega) (fun _ _ h => h)

/-! ## Contexts without allocator -/

/-- How many slots of a context are counted. -/
def slots (q : Access → Bool) (spec : List CellTy) : Nat := (spec.map fun | .obj ty => wTy q ty | .da => 0).sum

theorem slots_cons (ty : Ty) (spec : List CellTy) : slots q (.obj ty :: spec) = wTy q ty + slots q spec := by simp [slots]

theorem T.activate {spec : List CellTy} (hd : .da ∉ spec) :
    T q (St da s) (Traced.activate spec) (3 * slots q spec) (fun ps m => St da s m ∧ ps.map PCell.cellTy = spec) := by
  induction spec with
  | nil => exact (T.pure _).weaken (fun _ h => h) (Nat.zero_le _) (by rintro _ m ⟨rfl, h⟩; exact ⟨h, rfl⟩)
  | cons c cs ih =>
    cases c with
    | da => exact absurd (List.mem_cons_self ..) hd
    | obj ty =>
      unfold Traced.activate
      refine (T.bind (T.rdTls ty) fun p => T.bind (T.newSlot ty _) fun a => T.bind (T.wrTls ty _) fun _ =>
        T.bind (ih fun h => hd (List.mem_cons_of_mem _ h)) fun ps => (T.pure _).weaken (fun _ h => h) (Nat.le_refl _) ?_).weaken (fun _ h => h)
          (by rw [slots_cons]; omega) (fun _ _ h => h)
      rintro _ m ⟨rfl, h, h1⟩
      exact ⟨h, by simp [h1, PCell.cellTy]⟩

theorem T.deactivate {f : List PCell} {spec : List CellTy} (hf : f.map PCell.cellTy = spec) (hd : .da ∉ spec) :
    T q (St da s) (Traced.deactivate f) (2 * slots q spec) (fun _ => St da s) := by
  induction f generalizing spec with
  | nil => exact (T.pure _).weaken (fun _ h => h) (Nat.zero_le _) (fun _ _ h => h.2)
  | cons c cs ih =>
    subst hf
    cases c with
    | da a => exact absurd (by simp [PCell.cellTy]) hd
    | obj ty a =>
      unfold Traced.deactivate
      refine (T.bind (ih rfl fun h => hd (by simp [h])) fun _ => T.deactSlot ty a).weaken (fun _ h => h) ?_ (fun _ _ h => h)
      simp only [List.map_cons, PCell.cellTy, slots_cons]
      omega

theorem T.readOut {f : List PCell} {spec : List CellTy} (hf : f.map PCell.cellTy = spec) (hd : .da ∉ spec) :
    T q (St da s) (Traced.readOut f) (slots q spec) (fun cs m => St da s m ∧ cs.map CtxCell.cellTy = spec) := by
  induction f generalizing spec with
  | nil => subst hf; exact (T.pure _).weaken (fun _ h => h) (Nat.zero_le _) (by rintro _ m ⟨rfl, h⟩; exact ⟨h, rfl⟩)
  | cons c cs ih =>
    subst hf
    cases c with
    | da a => exact absurd (by simp [PCell.cellTy]) hd
    | obj ty a =>
      unfold Traced.readOut
      refine (T.bind (T.rdSlot ty a) fun x => T.bind (ih rfl fun h => hd (by simp [h])) fun r => (T.pure _).weaken (fun _ h => h) (Nat.le_refl _) ?_).weaken (fun _ h => h) ?_ (fun _ _ h => h)
      · rintro _ m ⟨rfl, h, h1⟩
        exact ⟨h, by simp [h1, CtxCell.cellTy, PCell.cellTy]⟩
      · simp only [List.map_cons, PCell.cellTy, slots_cons]
        omega

theorem T.destroy {f : List PCell} {spec : List CellTy} (hf : f.map PCell.cellTy = spec) (hd : .da ∉ spec) :
    T q (St da s) (Traced.destroy f) (2 * slots q spec) (fun _ => St da s) := by
  induction f generalizing spec with
  | nil => exact (T.pure _).weaken (fun _ h => h) (Nat.zero_le _) (fun _ _ h => h.2)
  | cons c cs ih =>
    subst hf
    cases c with
    | da a => exact absurd (by simp [PCell.cellTy]) hd
    | obj ty a =>
      unfold Traced.destroy
      refine (T.bind (T.freeSlot ty a) fun _ => ih rfl fun h => hd (by simp [h])).weaken (fun _ h => h) ?_ (fun _ _ h => h)
      simp only [List.map_cons, PCell.cellTy, slots_cons]
      omega

theorem T.push {spec : List CellTy} (hd : .da ∉ spec) : T q (St da s) (Traced.push spec) (3 * slots q spec) (fun _ => St da (spec :: s)) := by
  unfold Traced.push
  split
  · refine (T.bind (n2 := 0) (T.activate hd) fun ps => ?_).weaken (fun _ h => h) (by omega) (fun _ _ h => h)
    intro m a m' l hp h
    cases h
    exact ⟨Nat.le_refl _, hp.1.empty, hp.1.none, by simp [hp.2, hp.1.shape]⟩
  · exact T.ub

theorem T.pop {spec : List CellTy} (hd : .da ∉ spec) :
    T q (St da (spec :: s)) Traced.pop (5 * slots q spec) (fun cs m => St da s m ∧ cs.map CtxCell.cellTy = spec) := by
  intro m a m' l hp h
  cases hc : m.ctxs with
  | nil => have := hp.shape; rw [hc] at this; cases this
  | cons f fs =>
    have hsh := hp.shape
    rw [hc] at hsh
    simp only [List.map_cons, List.cons.injEq] at hsh
    have key : T q (St da (spec :: s)) (Traced.deactivate f >>= fun _ => Traced.readOut f >>= fun cells => Traced.destroy f >>= fun _ => Traced.setFrames fs >>= fun _ => Pure.pure cells : Traced (List CtxCell))
        (5 * slots q spec) (fun cs m => St da s m ∧ cs.map CtxCell.cellTy = spec) := by
      refine (T.bind (T.deactivate hsh.1 hd) fun _ => T.bind (T.readOut hsh.1 hd) fun cells =>
        T.bind (n1 := 2 * slots q spec) (n2 := 0) (Q1 := fun _ m => St da (spec :: s) m ∧ cells.map CtxCell.cellTy = spec) ?_ fun _ => ?_).weaken (fun _ h => h)
          (Nat.le_of_eq ?_) (fun _ _ h => h)
      · intro m1 x m2 l2 hp1 h1
        obtain ⟨c, r⟩ := T.destroy hsh.1 hd m1 x m2 l2 hp1.1 h1
        exact ⟨c, r, hp1.2⟩
      · intro m1 x m2 l2 hp1 h1
        cases h1
        exact ⟨Nat.le_refl _, ⟨hp1.1.empty, hp1.1.none, hsh.2⟩, hp1.2⟩
      · omega
    apply key m a m' l hp
    rw [← h]
    unfold Traced.pop
    show _ = Traced.bind Traced.frames _ m
    simp only [Traced.bind, Traced.frames, hc, List.nil_append]
    generalize (Traced.deactivate f >>= _) m = r
    rcases r with _ | ⟨b, c, d⟩ <;> rfl

end
end Cost
end Leaf
