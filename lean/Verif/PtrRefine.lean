import Verif.AbsStore
import Verif.PtrStore

/-!
# The pointer-level storage refines the abstract storage
-/

namespace Leaf
namespace PtrStore

/-! ## Abstraction function -/

def cellOf (mem : Addr → Option PSlot) (a : Addr) : Cell :=
  match mem a with
  | some s => s.cell
  | none => none

def nodesOf (dmem : Addr → Option PDa) (a : Addr) : List (Ty × Addr) :=
  match dmem a with
  | some d => d.nodes
  | none => []

def keyOf (dmem : Addr → Option PDa) (a : Addr) : Id :=
  match dmem a with
  | some d => d.key
  | none => 0#32

def absNodes (mem : Addr → Option PSlot) (ns : List (Ty × Addr)) : List (Ty × Cell) :=
  ns.map fun n => (n.1, cellOf mem n.2)

def absCell (mem : Addr → Option PSlot) (dmem : Addr → Option PDa) : PCell → CtxCell
  | .obj ty a => .obj ty (cellOf mem a)
  | .da a => .da (keyOf dmem a) (absNodes mem (nodesOf dmem a))

def absFrame (mem : Addr → Option PSlot) (dmem : Addr → Option PDa) (f : List PCell) : List CtxCell :=
  f.map (absCell mem dmem)

def absFrames (mem : Addr → Option PSlot) (dmem : Addr → Option PDa) (fs : List (List PCell)) : List (List CtxCell) :=
  fs.map (absFrame mem dmem)

/-- The abstract storage represented by a pointer-level storage. -/
def abs (m : PtrStore) : AbsStore := ⟨absFrames m.mem m.dmem m.ctxs⟩

/-! ## Invariant -/

/-- All slots of a context, with their types: elements and nodes. -/
def cellSlots (dmem : Addr → Option PDa) : PCell → List (Ty × Addr)
  | .obj ty a => [(ty, a)]
  | .da a => nodesOf dmem a

def frameSlots (dmem : Addr → Option PDa) (f : List PCell) : List (Ty × Addr) := f.flatMap (cellSlots dmem)

def cellDas : PCell → List Addr
  | .obj _ _ => []
  | .da a => [a]

def frameDas (f : List PCell) : List Addr := f.flatMap cellDas

def allSlots (dmem : Addr → Option PDa) (fs : List (List PCell)) : List (Ty × Addr) := fs.flatMap (frameSlots dmem)
def allDas (fs : List (List PCell)) : List Addr := fs.flatMap frameDas

/-- The innermost slot of a type. -/
def bind (ty : Ty) : List (Ty × Addr) → Option Addr
  | [] => none
  | (t, a) :: ns => if t = ty then some a else bind ty ns

/-- One context above bindings `t0`, `d0`. -/
structure FrameOk (mem : Addr → Option PSlot) (dmem : Addr → Option PDa) (f : List PCell)
    (t0 : Ty → Option Addr) (d0 : Option Addr) : Prop where
  slots : ∀ p ∈ frameSlots dmem f, ∃ s, mem p.2 = some s ∧ s.prev = t0 p.1
  das : ∀ a ∈ frameDas f, ∃ d, dmem a = some d ∧ d.prev = d0 ∧ (d.key = 0#32 → d.nodes = [])
  tys : ((frameSlots dmem f).map Prod.fst).Nodup
  oneDa : (frameDas f).length ≤ 1

def FramesOk (mem : Addr → Option PSlot) (dmem : Addr → Option PDa) : List (List PCell) → Prop
  | [] => True
  | f :: fs => FrameOk mem dmem f (fun ty => bind ty (allSlots dmem fs)) (allDas fs).head? ∧ FramesOk mem dmem fs

/-- Representation invariant. -/
structure Inv (m : PtrStore) : Prop where
  nodup : ((allSlots m.dmem m.ctxs).map Prod.snd).Nodup
  lt : ∀ p ∈ allSlots m.dmem m.ctxs, p.2 < m.next
  dnodup : (allDas m.ctxs).Nodup
  dlt : ∀ a ∈ allDas m.ctxs, a < m.next
  tls : ∀ ty, m.tls ty = bind ty (allSlots m.dmem m.ctxs)
  tlsDa : m.tlsDa = (allDas m.ctxs).head?
  frames : FramesOk m.mem m.dmem m.ctxs

/-! ## Lemmas about lists of slots -/

theorem bind_append (ty : Ty) (l₁ l₂ : List (Ty × Addr)) :
    bind ty (l₁ ++ l₂) = (bind ty l₁).or (bind ty l₂) := by
  induction l₁ with
  | nil => simp [bind]
  | cons p l ih =>
    obtain ⟨t, a⟩ := p
    by_cases h : t = ty <;> simp [bind, h, ih]

theorem bind_mem {ty : Ty} {l : List (Ty × Addr)} {a : Addr} (h : bind ty l = some a) : (ty, a) ∈ l := by
  induction l with
  | nil => simp [bind] at h
  | cons p l ih =>
    obtain ⟨t, b⟩ := p
    by_cases ht : t = ty
    · simp [bind, ht] at h; subst h; simp [ht]
    · simp [bind, ht] at h; simp [ih h]

theorem bind_none {ty : Ty} {l : List (Ty × Addr)} : bind ty l = none ↔ ty ∉ l.map Prod.fst := by
  induction l with
  | nil => simp [bind]
  | cons p l ih =>
    obtain ⟨t, b⟩ := p
    by_cases ht : t = ty
    · simp [bind, ht]
    · simp only [bind, ht, if_false, ih, List.map_cons, List.mem_cons, not_or]
      exact ⟨fun h => ⟨fun e => ht e.symm, h⟩, fun h => h.2⟩

theorem upd_same {α β : Type} [DecidableEq α] (f : α → β) (a : α) (v : β) : upd f a v a = v := by simp [upd]
theorem upd_ne {α β : Type} [DecidableEq α] (f : α → β) {a x : α} (v : β) (h : x ≠ a) : upd f a v x = f x := by simp [upd, h]

theorem frameSlots_cons (dmem : Addr → Option PDa) (c : PCell) (f : List PCell) :
    frameSlots dmem (c :: f) = cellSlots dmem c ++ frameSlots dmem f := by simp [frameSlots]
theorem allSlots_cons (dmem : Addr → Option PDa) (f : List PCell) (fs : List (List PCell)) :
    allSlots dmem (f :: fs) = frameSlots dmem f ++ allSlots dmem fs := by simp [allSlots]
theorem frameDas_cons (c : PCell) (f : List PCell) : frameDas (c :: f) = cellDas c ++ frameDas f := by simp [frameDas]
theorem allDas_cons (f : List PCell) (fs : List (List PCell)) : allDas (f :: fs) = frameDas f ++ allDas fs := by
  simp [allDas]

/-! ## Lookup -/

theorem nodeCell_abs (mem : Addr → Option PSlot) (ty : Ty) (ns : List (Ty × Addr)) :
    nodeCell ty (absNodes mem ns) = (bind ty ns).map (cellOf mem) := by
  induction ns with
  | nil => simp [absNodes, nodeCell, bind]
  | cons p l ih =>
    obtain ⟨t, b⟩ := p
    simp only [absNodes, List.map_cons, nodeCell, bind] at ih ⊢
    by_cases ht : t = ty <;> simp [ht, ih]

theorem frameCell_abs (mem : Addr → Option PSlot) (dmem : Addr → Option PDa) (ty : Ty) (f : List PCell) :
    frameCell ty (absFrame mem dmem f) = (bind ty (frameSlots dmem f)).map (cellOf mem) := by
  induction f with
  | nil => simp [absFrame, frameCell, frameSlots, bind]
  | cons c f ih =>
    rw [frameSlots_cons, bind_append]
    cases c with
    | obj t a =>
      simp only [absFrame, List.map_cons, absCell, frameCell, cellSlots, bind] at ih ⊢
      by_cases ht : t = ty <;> simp [ht, ih]
    | da a =>
      simp only [absFrame, List.map_cons, absCell, frameCell, cellSlots, nodeCell_abs] at ih ⊢
      cases h : bind ty (nodesOf dmem a) <;> simp [ih]

theorem boundCell_abs (mem : Addr → Option PSlot) (dmem : Addr → Option PDa) (ty : Ty) (fs : List (List PCell)) :
    boundCell ty (absFrames mem dmem fs) = (bind ty (allSlots dmem fs)).map (cellOf mem) := by
  induction fs with
  | nil => simp [absFrames, boundCell, allSlots, bind]
  | cons f fs ih =>
    rw [allSlots_cons, bind_append]
    simp only [absFrames, List.map_cons, boundCell, frameCell_abs] at ih ⊢
    cases h : bind ty (frameSlots dmem f) <;> simp [ih]

theorem framesOk_live {mem : Addr → Option PSlot} {dmem : Addr → Option PDa} {fs : List (List PCell)}
    (h : FramesOk mem dmem fs) {p : Ty × Addr} (hp : p ∈ allSlots dmem fs) : ∃ s, mem p.2 = some s := by
  induction fs with
  | nil => simp [allSlots] at hp
  | cons f fs ih =>
    rw [allSlots_cons, List.mem_append] at hp
    rcases hp with hp | hp
    · obtain ⟨s, hs, _⟩ := h.1.slots p hp; exact ⟨s, hs⟩
    · exact ih h.2 hp

theorem framesOk_dlive {mem : Addr → Option PSlot} {dmem : Addr → Option PDa} {fs : List (List PCell)}
    (h : FramesOk mem dmem fs) {a : Addr} (hp : a ∈ allDas fs) :
    ∃ d, dmem a = some d ∧ (d.key = 0#32 → d.nodes = []) := by
  induction fs with
  | nil => simp [allDas] at hp
  | cons f fs ih =>
    rw [allDas_cons, List.mem_append] at hp
    rcases hp with hp | hp
    · obtain ⟨d, hd, _, h3⟩ := h.1.das a hp; exact ⟨d, hd, h3⟩
    · exact ih h.2 hp

theorem cellOf_upd_same (mem : Addr → Option PSlot) (a : Addr) (s : PSlot) : cellOf (upd mem a (some s)) a = s.cell := by
  simp [cellOf, upd]
theorem cellOf_upd_ne (mem : Addr → Option PSlot) {a b : Addr} (v : Option PSlot) (h : b ≠ a) :
    cellOf (upd mem a v) b = cellOf mem b := by simp [cellOf, upd, h]

/-! ## slotGet, slotSet -/

theorem slotGet_ok {m : PtrStore} (h : Inv m) (ty : Ty) : slotGet ty m = some (boundCell ty (abs m).frames) := by
  unfold slotGet
  rw [h.tls ty]
  simp only [abs, boundCell_abs]
  cases hb : bind ty (allSlots m.dmem m.ctxs) with
  | none => simp
  | some a =>
    obtain ⟨s, hs⟩ := framesOk_live h.frames (bind_mem hb)
    simp only at hs
    simp [hs, cellOf]

theorem absNodes_upd (mem : Addr → Option PSlot) (a : Addr) (v : Option PSlot) (ns : List (Ty × Addr))
    (h : a ∉ ns.map Prod.snd) : absNodes (upd mem a v) ns = absNodes mem ns := by
  unfold absNodes
  apply List.map_congr_left
  intro n hn
  have : n.2 ≠ a := fun e => h (e ▸ List.mem_map_of_mem hn)
  simp [cellOf, upd, this]

theorem absCell_upd (mem : Addr → Option PSlot) (dmem : Addr → Option PDa) (a : Addr) (v : Option PSlot) (c : PCell)
    (h : a ∉ (cellSlots dmem c).map Prod.snd) : absCell (upd mem a v) dmem c = absCell mem dmem c := by
  cases c with
  | obj t b =>
    simp only [cellSlots, List.map_cons, List.map_nil, List.mem_singleton] at h
    simp only [absCell, cellOf_upd_ne mem v (Ne.symm h)]
  | da b =>
    simp only [cellSlots] at h
    simp only [absCell]; rw [absNodes_upd _ _ _ _ h]

theorem absFrame_upd (mem : Addr → Option PSlot) (dmem : Addr → Option PDa) (a : Addr) (v : Option PSlot) (f : List PCell)
    (h : a ∉ (frameSlots dmem f).map Prod.snd) : absFrame (upd mem a v) dmem f = absFrame mem dmem f := by
  unfold absFrame
  apply List.map_congr_left
  intro c hc
  apply absCell_upd
  intro hm
  apply h
  simp only [frameSlots, List.mem_map, List.mem_flatMap] at hm ⊢
  obtain ⟨p, hp, e⟩ := hm
  exact ⟨p, ⟨c, hc, hp⟩, e⟩

theorem absFrames_upd (mem : Addr → Option PSlot) (dmem : Addr → Option PDa) (a : Addr) (v : Option PSlot)
    (fs : List (List PCell)) (h : a ∉ (allSlots dmem fs).map Prod.snd) :
    absFrames (upd mem a v) dmem fs = absFrames mem dmem fs := by
  unfold absFrames
  apply List.map_congr_left
  intro c hc
  apply absFrame_upd
  intro hm
  apply h
  simp only [allSlots, List.mem_map, List.mem_flatMap] at hm ⊢
  obtain ⟨p, hp, e⟩ := hm
  exact ⟨p, ⟨c, hc, hp⟩, e⟩

theorem setNode_abs (mem : Addr → Option PSlot) (ty : Ty) (a : Addr) (s : PSlot) (ns : List (Ty × Addr))
    (hb : bind ty ns = some a) (hn : (ns.map Prod.snd).Nodup) :
    setNode ty s.cell (absNodes mem ns) = absNodes (upd mem a (some s)) ns := by
  induction ns with
  | nil => simp [bind] at hb
  | cons p l ih =>
    obtain ⟨t, b⟩ := p
    simp only [List.map_cons, List.nodup_cons] at hn
    by_cases ht : t = ty
    · simp only [bind, ht, if_true, Option.some.injEq] at hb
      subst hb
      have := absNodes_upd mem b (some s) l hn.1
      simp only [absNodes] at this ⊢
      simp only [List.map_cons, setNode, ht, if_true, this, cellOf_upd_same]
    · simp only [bind, ht, if_false] at hb
      have hne : b ≠ a := fun e => hn.1 (e ▸ List.mem_map_of_mem (f := Prod.snd) (bind_mem hb))
      have := ih hb hn.2
      simp only [absNodes] at this ⊢
      simp only [List.map_cons, setNode, ht, if_false, this, cellOf_upd_ne mem _ hne]

theorem setFrame_abs (mem : Addr → Option PSlot) (dmem : Addr → Option PDa) (ty : Ty) (a : Addr) (s : PSlot) (f : List PCell)
    (hb : bind ty (frameSlots dmem f) = some a) (hn : ((frameSlots dmem f).map Prod.snd).Nodup) :
    setFrame ty s.cell (absFrame mem dmem f) = absFrame (upd mem a (some s)) dmem f := by
  induction f with
  | nil => simp [frameSlots, bind] at hb
  | cons c f ih =>
    rw [frameSlots_cons] at hb hn
    rw [List.map_append, List.nodup_append] at hn
    rw [bind_append] at hb
    cases c with
    | obj t b =>
      simp only [cellSlots, bind] at hb hn
      by_cases ht : t = ty
      · simp only [ht, if_true, Option.some_or, Option.some.injEq] at hb
        subst hb
        have hnot : b ∉ (frameSlots dmem f).map Prod.snd := fun hm => (hn.2.2 b (by simp) b hm) rfl
        have := absFrame_upd mem dmem b (some s) f hnot
        simp only [absFrame] at this ⊢
        simp only [List.map_cons, setFrame, absCell, ht, if_true, this, cellOf_upd_same]
      · simp only [ht, if_false, Option.none_or] at hb
        have hne : b ≠ a := fun e =>
          hn.2.2 b (by simp) b (e ▸ List.mem_map_of_mem (f := Prod.snd) (bind_mem hb)) rfl
        have := ih hb hn.2.1
        simp only [absFrame] at this ⊢
        simp only [List.map_cons, setFrame, absCell, ht, if_false, this, cellOf_upd_ne mem _ hne]
    | da b =>
      simp only [cellSlots] at hb hn
      simp only [absFrame, List.map_cons, absCell, setFrame, nodeCell_abs]
      cases hc : bind ty (nodesOf dmem b) with
      | some a' =>
        rw [hc] at hb
        simp only [Option.some_or, Option.some.injEq] at hb
        subst hb
        have hnot : a' ∉ (frameSlots dmem f).map Prod.snd := fun hm =>
          (hn.2.2 a' (List.mem_map_of_mem (f := Prod.snd) (bind_mem hc)) a' hm) rfl
        have := absFrame_upd mem dmem a' (some s) f hnot
        simp only [absFrame] at this
        simp [this, setNode_abs mem ty a' s _ hc hn.1]
      | none =>
        rw [hc] at hb
        simp only [Option.none_or] at hb
        have hnot : a ∉ (nodesOf dmem b).map Prod.snd := fun hm =>
          (hn.2.2 a hm a (List.mem_map_of_mem (f := Prod.snd) (bind_mem hb))) rfl
        have := ih hb hn.2.1
        simp only [absFrame] at this
        simp [this, absNodes_upd _ _ _ _ hnot]

theorem setBound_abs (mem : Addr → Option PSlot) (dmem : Addr → Option PDa) (ty : Ty) (a : Addr) (s : PSlot)
    (fs : List (List PCell)) (hb : bind ty (allSlots dmem fs) = some a) (hn : ((allSlots dmem fs).map Prod.snd).Nodup) :
    setBound ty s.cell (absFrames mem dmem fs) = absFrames (upd mem a (some s)) dmem fs := by
  induction fs with
  | nil => simp [allSlots, bind] at hb
  | cons f fs ih =>
    rw [allSlots_cons] at hb hn
    rw [List.map_append, List.nodup_append] at hn
    rw [bind_append] at hb
    simp only [absFrames, List.map_cons, setBound, frameCell_abs]
    cases hc : bind ty (frameSlots dmem f) with
    | some a' =>
      rw [hc] at hb
      simp only [Option.some_or, Option.some.injEq] at hb
      subst hb
      have hnot : a' ∉ (allSlots dmem fs).map Prod.snd := fun hm =>
        (hn.2.2 a' (List.mem_map_of_mem (f := Prod.snd) (bind_mem hc)) a' hm) rfl
      have := absFrames_upd mem dmem a' (some s) fs hnot
      simp only [absFrames] at this
      simp [this, setFrame_abs mem dmem ty a' s f hc hn.1]
    | none =>
      rw [hc] at hb
      simp only [Option.none_or] at hb
      have hnot : a ∉ (frameSlots dmem f).map Prod.snd := fun hm =>
        (hn.2.2 a hm a (List.mem_map_of_mem (f := Prod.snd) (bind_mem hb))) rfl
      have := ih hb hn.2.1
      simp only [absFrames] at this
      simp [this, absFrame_upd _ _ _ _ _ hnot]

/-- Memory changes that keep `prev_` keep the frames well formed. -/
theorem framesOk_mem {mem mem' : Addr → Option PSlot} {dmem : Addr → Option PDa} {fs : List (List PCell)}
    (h : FramesOk mem dmem fs)
    (hm : ∀ p ∈ allSlots dmem fs, ∀ s, mem p.2 = some s → ∃ s', mem' p.2 = some s' ∧ s'.prev = s.prev) :
    FramesOk mem' dmem fs := by
  induction fs with
  | nil => trivial
  | cons f fs ih =>
    refine ⟨⟨?_, h.1.das, h.1.tys, h.1.oneDa⟩, ih h.2 ?_⟩
    · intro p hp
      obtain ⟨s, hs, hpr⟩ := h.1.slots p hp
      obtain ⟨s', hs', hpr'⟩ := hm p (by rw [allSlots_cons]; exact List.mem_append_left _ hp) s hs
      exact ⟨s', hs', by rw [hpr', hpr]⟩
    · intro p hp; exact hm p (by rw [allSlots_cons]; exact List.mem_append_right _ hp)

theorem slotSet_ok {m : PtrStore} (h : Inv m) (ty : Ty) (id : Id) (v : Val) {x : AbsStore}
    (hx : Store.slotSet ty id v (abs m) = some x) :
    ∃ m', slotSet ty id v m = some m' ∧ abs m' = x ∧ Inv m' := by
  simp only [Store.slotSet, abs, boundCell_abs] at hx
  unfold slotSet
  rw [h.tls ty]
  cases hb : bind ty (allSlots m.dmem m.ctxs) with
  | none => simp [hb] at hx
  | some a =>
    obtain ⟨s, hs⟩ := framesOk_live h.frames (bind_mem hb)
    simp only at hs
    simp only [hb, Option.map_some, Option.some.injEq] at hx
    simp only [hs]
    refine ⟨_, rfl, ?_, ?_⟩
    · rw [← hx]
      simp only [abs]
      rw [← setBound_abs m.mem m.dmem ty a _ m.ctxs hb h.nodup]
    · refine ⟨h.nodup, h.lt, h.dnodup, h.dlt, h.tls, h.tlsDa, ?_⟩
      refine framesOk_mem h.frames ?_
      intro p hp s' hs'
      by_cases he : p.2 = a
      · subst he
        rw [hs] at hs'
        cases hs'
        exact ⟨_, upd_same _ _ _, rfl⟩
      · exact ⟨s', by simp [upd, he, hs'], rfl⟩

/-! ## daKey, daReset, daAppend -/

theorem frameDa_abs (mem : Addr → Option PSlot) (dmem : Addr → Option PDa) (f : List PCell) :
    frameDa (absFrame mem dmem f) = ((frameDas f).head?).map (fun a => (keyOf dmem a, absNodes mem (nodesOf dmem a))) := by
  induction f with
  | nil => simp [absFrame, frameDa, frameDas]
  | cons c f ih =>
    rw [frameDas_cons]
    cases c with
    | obj t a => simpa only [absFrame, List.map_cons, absCell, frameDa, cellDas, List.nil_append] using ih
    | da a => simp [absFrame, absCell, frameDa, cellDas]

theorem boundDa_abs (mem : Addr → Option PSlot) (dmem : Addr → Option PDa) (fs : List (List PCell)) :
    boundDa (absFrames mem dmem fs) =
      ((allDas fs).head?).map (fun a => (keyOf dmem a, absNodes mem (nodesOf dmem a))) := by
  induction fs with
  | nil => simp [absFrames, boundDa, allDas]
  | cons f fs ih =>
    rw [allDas_cons]
    simp only [absFrames, List.map_cons, boundDa, frameDa_abs] at ih ⊢
    cases h : frameDas f <;> simp [ih]

theorem daKey_ok {m : PtrStore} (h : Inv m) : daKey m = some ((boundDa (abs m).frames).map Prod.fst) := by
  unfold daKey
  rw [h.tlsDa]
  simp only [abs, boundDa_abs]
  cases hb : (allDas m.ctxs).head? with
  | none => simp
  | some a =>
    obtain ⟨d, hd, _⟩ := framesOk_dlive h.frames (List.mem_of_mem_head? (by rw [hb]; rfl))
    simp [hd, keyOf]

theorem mem_of_head? {l : List Addr} {a : Addr} (h : l.head? = some a) : a ∈ l :=
  List.mem_of_mem_head? (by rw [h]; rfl)

/-- Lookups in an allocator other than the one changed. -/
theorem nodesOf_upd_ne (dmem : Addr → Option PDa) {a b : Addr} (v : Option PDa) (h : b ≠ a) :
    nodesOf (upd dmem a v) b = nodesOf dmem b := by simp [nodesOf, upd, h]
theorem keyOf_upd_ne (dmem : Addr → Option PDa) {a b : Addr} (v : Option PDa) (h : b ≠ a) :
    keyOf (upd dmem a v) b = keyOf dmem b := by simp [keyOf, upd, h]

theorem frameSlots_upd (dmem : Addr → Option PDa) (a : Addr) (v : Option PDa) (f : List PCell) (h : a ∉ frameDas f) :
    frameSlots (upd dmem a v) f = frameSlots dmem f := by
  induction f with
  | nil => rfl
  | cons c f ih =>
    rw [frameDas_cons, List.mem_append, not_or] at h
    rw [frameSlots_cons, frameSlots_cons, ih h.2]
    cases c with
    | obj t b => rfl
    | da b =>
      have : b ≠ a := fun e => h.1 (by simp [cellDas, e])
      simp [cellSlots, nodesOf_upd_ne _ _ this]

theorem allSlots_upd (dmem : Addr → Option PDa) (a : Addr) (v : Option PDa) (fs : List (List PCell)) (h : a ∉ allDas fs) :
    allSlots (upd dmem a v) fs = allSlots dmem fs := by
  induction fs with
  | nil => rfl
  | cons c f ih =>
    rw [allDas_cons, List.mem_append, not_or] at h
    rw [allSlots_cons, allSlots_cons, ih h.2, frameSlots_upd _ _ _ _ h.1]

theorem absFrame_updD (mem : Addr → Option PSlot) (dmem : Addr → Option PDa) (a : Addr) (v : Option PDa) (f : List PCell)
    (h : a ∉ frameDas f) : absFrame mem (upd dmem a v) f = absFrame mem dmem f := by
  induction f with
  | nil => rfl
  | cons c f ih =>
    rw [frameDas_cons, List.mem_append, not_or] at h
    have ih := ih h.2
    simp only [absFrame, List.map_cons] at ih ⊢
    rw [ih]
    cases c with
    | obj t b => rfl
    | da b =>
      have : b ≠ a := fun e => h.1 (by simp [cellDas, e])
      simp [absCell, nodesOf_upd_ne _ _ this, keyOf_upd_ne _ _ this]

theorem absFrames_updD (mem : Addr → Option PSlot) (dmem : Addr → Option PDa) (a : Addr) (v : Option PDa)
    (fs : List (List PCell)) (h : a ∉ allDas fs) : absFrames mem (upd dmem a v) fs = absFrames mem dmem fs := by
  induction fs with
  | nil => rfl
  | cons c f ih =>
    rw [allDas_cons, List.mem_append, not_or] at h
    have ih := ih h.2
    simp only [absFrames, List.map_cons] at ih ⊢
    rw [ih, absFrame_updD _ _ _ _ _ h.1]

theorem setFrameDa_abs (mem : Addr → Option PSlot) (dmem : Addr → Option PDa) (a : Addr) (d : PDa) (f : List PCell)
    (hd : (frameDas f).head? = some a) (hn : (frameDas f).Nodup) :
    setFrameDa d.key (absNodes mem d.nodes) (absFrame mem dmem f) = absFrame mem (upd dmem a (some d)) f := by
  induction f with
  | nil => simp [frameDas] at hd
  | cons c f ih =>
    rw [frameDas_cons] at hd hn
    cases c with
    | obj t b =>
      simp only [cellDas, List.nil_append] at hd hn
      have := ih hd hn
      simp only [absFrame] at this ⊢
      simp [absCell, setFrameDa, this]
    | da b =>
      simp only [cellDas, List.cons_append, List.nil_append, List.head?_cons, Option.some.injEq, List.nodup_cons] at hd hn
      subst hd
      have := absFrame_updD mem dmem b (some d) f hn.1
      simp only [absFrame] at this ⊢
      simp [absCell, setFrameDa, this, keyOf, nodesOf, upd]

theorem setBoundDa_abs (mem : Addr → Option PSlot) (dmem : Addr → Option PDa) (a : Addr) (d : PDa) (fs : List (List PCell))
    (hd : (allDas fs).head? = some a) (hn : (allDas fs).Nodup) :
    setBoundDa d.key (absNodes mem d.nodes) (absFrames mem dmem fs) = absFrames mem (upd dmem a (some d)) fs := by
  induction fs with
  | nil => simp [allDas] at hd
  | cons f fs ih =>
    rw [allDas_cons] at hd hn
    rw [List.nodup_append] at hn
    simp only [absFrames, List.map_cons, setBoundDa, frameDa_abs]
    cases hc : (frameDas f).head? with
    | some b =>
      have hb : b = a := by
        cases hl : frameDas f with
        | nil => simp [hl] at hc
        | cons x l => simp [hl] at hc hd; rw [← hc, hd]
      subst hb
      have hnot : b ∉ allDas fs := fun hm => hn.2.2 b (mem_of_head? hc) b hm rfl
      have h1 := absFrames_updD mem dmem b (some d) fs hnot
      simp only [absFrames] at h1
      simp [h1, setFrameDa_abs mem dmem b d f hc hn.1]
    | none =>
      have hf : frameDas f = [] := by simpa using hc
      rw [hf, List.nil_append] at hd
      have := ih hd hn.2.1
      simp only [absFrames] at this
      have hnot : a ∉ frameDas f := by simp [hf]
      simp [this, absFrame_updD _ _ _ _ _ hnot]

/-- Changing an allocator without changing its nodes or `prev_`. -/
theorem slots_upd_samenodes (dmem : Addr → Option PDa) (a : Addr) (d d' : PDa) (hd : dmem a = some d)
    (hn : d'.nodes = d.nodes) : nodesOf (upd dmem a (some d')) = nodesOf dmem := by
  funext b
  by_cases h : b = a
  · subst h; simp [nodesOf, upd, hd, hn]
  · exact nodesOf_upd_ne _ _ h

theorem frameSlots_congr {dmem dmem' : Addr → Option PDa} (h : nodesOf dmem' = nodesOf dmem) (f : List PCell) :
    frameSlots dmem' f = frameSlots dmem f := by
  unfold frameSlots
  congr 1
  funext c
  cases c with
  | obj => rfl
  | da a => simp [cellSlots, h]

theorem allSlots_congr {dmem dmem' : Addr → Option PDa} (h : nodesOf dmem' = nodesOf dmem) (fs : List (List PCell)) :
    allSlots dmem' fs = allSlots dmem fs := by
  unfold allSlots
  congr 1
  funext c
  exact frameSlots_congr h c

theorem framesOk_samenodes {mem : Addr → Option PSlot} {dmem dmem' : Addr → Option PDa} {fs : List (List PCell)}
    (h : FramesOk mem dmem fs) (hn : nodesOf dmem' = nodesOf dmem)
    (hd : ∀ a d, dmem a = some d → (d.key = 0#32 → d.nodes = []) →
      ∃ d', dmem' a = some d' ∧ d'.prev = d.prev ∧ (d'.key = 0#32 → d'.nodes = [])) :
    FramesOk mem dmem' fs := by
  induction fs with
  | nil => trivial
  | cons f fs ih =>
    refine ⟨⟨?_, ?_, ?_, h.1.oneDa⟩, ih h.2⟩
    · rw [frameSlots_congr hn]
      intro p hp
      obtain ⟨s, hs, hp⟩ := h.1.slots p hp
      exact ⟨s, hs, by rw [hp, allSlots_congr hn]⟩
    · intro a ha
      obtain ⟨d, h1, h2, h3⟩ := h.1.das a ha
      obtain ⟨d', g1, g2, g3⟩ := hd a d h1 h3
      exact ⟨d', g1, g2.trans h2, g3⟩
    · rw [frameSlots_congr hn]; exact h.1.tys

theorem daReset_ok {m : PtrStore} (h : Inv m) (id : Id) {x : AbsStore}
    (hx : Store.daReset id (abs m) = some x) : ∃ m', daReset id m = some m' ∧ abs m' = x ∧ Inv m' := by
  simp only [Store.daReset, abs, boundDa_abs] at hx
  unfold daReset
  rw [h.tlsDa]
  cases hb : (allDas m.ctxs).head? with
  | none => simp [hb] at hx
  | some a =>
    obtain ⟨d, hd, hk⟩ := framesOk_dlive h.frames (mem_of_head? hb)
    cases hns : d.nodes with
    | cons n ns => simp [hb, nodesOf, hd, hns, absNodes] at hx
    | nil =>
      simp only [hb, nodesOf, hd, hns, absNodes, Option.map_some, List.map_nil, Option.some.injEq] at hx
      simp only [hd, hns, freeNodes]
      have hnn := slots_upd_samenodes m.dmem a d { d with key := id, nodes := [] } hd (by simp [hns])
      refine ⟨_, rfl, ?_, ?_⟩
      · rw [← hx]
        simp only [abs]
        rw [← setBoundDa_abs m.mem m.dmem a _ m.ctxs hb h.dnodup]
        simp [absNodes]
      · have hs := allSlots_congr hnn m.ctxs
        refine ⟨by simpa [hs] using h.nodup, by simpa [hs] using h.lt, h.dnodup, h.dlt, by simpa [hs] using h.tls, h.tlsDa, ?_⟩
        refine framesOk_samenodes h.frames hnn ?_
        intro b e hbe hke
        by_cases hba : b = a
        · subst hba
          rw [hd] at hbe; cases hbe
          exact ⟨_, upd_same _ _ _, rfl, fun _ => rfl⟩
        · exact ⟨e, by simp [upd, hba, hbe], rfl, hke⟩

/-! ### Congruence: only the slots and allocators of the frames matter -/

theorem frameSlots_congr_on {dmem dmem' : Addr → Option PDa} {f : List PCell} (h : ∀ a ∈ frameDas f, dmem' a = dmem a) :
    frameSlots dmem' f = frameSlots dmem f := by
  induction f with
  | nil => rfl
  | cons c f ih =>
    rw [frameDas_cons] at h
    rw [frameSlots_cons, frameSlots_cons, ih (fun a ha => h a (List.mem_append_right _ ha))]
    cases c with
    | obj t b => rfl
    | da b => simp [cellSlots, nodesOf, h b (by simp [cellDas])]

theorem allSlots_congr_on {dmem dmem' : Addr → Option PDa} {fs : List (List PCell)} (h : ∀ a ∈ allDas fs, dmem' a = dmem a) :
    allSlots dmem' fs = allSlots dmem fs := by
  induction fs with
  | nil => rfl
  | cons f fs ih =>
    rw [allDas_cons] at h
    rw [allSlots_cons, allSlots_cons, ih (fun a ha => h a (List.mem_append_right _ ha)),
      frameSlots_congr_on (fun a ha => h a (List.mem_append_left _ ha))]

theorem absFrame_congr_on {mem mem' : Addr → Option PSlot} {dmem dmem' : Addr → Option PDa} {f : List PCell}
    (h : ∀ a ∈ frameDas f, dmem' a = dmem a) (hm : ∀ p ∈ frameSlots dmem f, mem' p.2 = mem p.2) :
    absFrame mem' dmem' f = absFrame mem dmem f := by
  induction f with
  | nil => rfl
  | cons c f ih =>
    rw [frameDas_cons] at h
    rw [frameSlots_cons] at hm
    have := ih (fun a ha => h a (List.mem_append_right _ ha)) (fun a ha => hm a (List.mem_append_right _ ha))
    simp only [absFrame, List.map_cons] at this ⊢
    rw [this]
    cases c with
    | obj t b =>
      have := hm (t, b) (by simp [cellSlots])
      simp only at this
      simp [absCell, cellOf, this]
    | da b =>
      have h1 := h b (by simp [cellDas])
      have h2 : absNodes mem' (nodesOf dmem b) = absNodes mem (nodesOf dmem b) := by
        unfold absNodes
        apply List.map_congr_left
        intro n hn
        have := hm n (by simp [cellSlots, hn])
        simp [cellOf, this]
      have h3 : nodesOf dmem' b = nodesOf dmem b := by simp [nodesOf, h1]
      have h4 : keyOf dmem' b = keyOf dmem b := by simp [keyOf, h1]
      simp [absCell, h2, h3, h4]

theorem absFrames_congr_on {mem mem' : Addr → Option PSlot} {dmem dmem' : Addr → Option PDa} {fs : List (List PCell)}
    (h : ∀ a ∈ allDas fs, dmem' a = dmem a) (hm : ∀ p ∈ allSlots dmem fs, mem' p.2 = mem p.2) :
    absFrames mem' dmem' fs = absFrames mem dmem fs := by
  induction fs with
  | nil => rfl
  | cons f fs ih =>
    rw [allDas_cons] at h
    rw [allSlots_cons] at hm
    have := ih (fun a ha => h a (List.mem_append_right _ ha)) (fun a ha => hm a (List.mem_append_right _ ha))
    simp only [absFrames, List.map_cons] at this ⊢
    rw [this, absFrame_congr_on (fun a ha => h a (List.mem_append_left _ ha)) (fun a ha => hm a (List.mem_append_left _ ha))]

theorem frameOk_congr_on {mem mem' : Addr → Option PSlot} {dmem dmem' : Addr → Option PDa} {f : List PCell}
    {t0 t0' : Ty → Option Addr} {d0 : Option Addr} (hf : FrameOk mem dmem f t0 d0)
    (h : ∀ a ∈ frameDas f, dmem' a = dmem a) (hm : ∀ p ∈ frameSlots dmem f, mem' p.2 = mem p.2)
    (ht : ∀ p ∈ frameSlots dmem f, t0' p.1 = t0 p.1) : FrameOk mem' dmem' f t0' d0 := by
  have hs := frameSlots_congr_on h
  refine ⟨?_, ?_, ?_, hf.oneDa⟩
  · rw [hs]; intro p hp
    obtain ⟨s, h1, h2⟩ := hf.slots p hp
    exact ⟨s, by rw [hm p hp, h1], by rw [h2, ht p hp]⟩
  · intro a ha
    obtain ⟨d, h1, h2⟩ := hf.das a ha
    exact ⟨d, by rw [h a ha, h1], h2⟩
  · rw [hs]; exact hf.tys

theorem framesOk_congr_on {mem mem' : Addr → Option PSlot} {dmem dmem' : Addr → Option PDa} {fs : List (List PCell)}
    (hf : FramesOk mem dmem fs)
    (h : ∀ a ∈ allDas fs, dmem' a = dmem a) (hm : ∀ p ∈ allSlots dmem fs, mem' p.2 = mem p.2) :
    FramesOk mem' dmem' fs := by
  induction fs with
  | nil => trivial
  | cons f fs ih =>
    rw [allDas_cons] at h
    rw [allSlots_cons] at hm
    refine ⟨frameOk_congr_on hf.1 (fun a ha => h a (List.mem_append_left _ ha))
      (fun a ha => hm a (List.mem_append_left _ ha)) ?_,
      ih hf.2 (fun a ha => h a (List.mem_append_right _ ha)) (fun a ha => hm a (List.mem_append_right _ ha))⟩
    intro p _
    simp only [allSlots_congr_on (fun a ha => h a (List.mem_append_right _ ha))]

/-! ### daAppend -/

theorem nodesOf_append_same (dmem : Addr → Option PDa) (a : Addr) (d : PDa) (n : Ty × Addr) (hd : dmem a = some d) :
    nodesOf (upd dmem a (some { d with nodes := d.nodes ++ [n] })) a = nodesOf dmem a ++ [n] := by
  simp [nodesOf, upd, hd]

theorem ins_frame (dmem : Addr → Option PDa) (a : Addr) (d : PDa) (n : Ty × Addr) (hd : dmem a = some d)
    (f : List PCell) (ha : a ∈ frameDas f) (hn : (frameDas f).Nodup) :
    ∃ l₁ l₂, frameSlots dmem f = l₁ ++ l₂ ∧
      frameSlots (upd dmem a (some { d with nodes := d.nodes ++ [n] })) f = l₁ ++ n :: l₂ := by
  induction f with
  | nil => simp [frameDas] at ha
  | cons c f ih =>
    rw [frameDas_cons] at ha hn
    rw [frameSlots_cons, frameSlots_cons]
    cases c with
    | obj t b =>
      simp only [cellDas, List.nil_append] at ha hn
      obtain ⟨l₁, l₂, h1, h2⟩ := ih ha hn
      exact ⟨(t, b) :: l₁, l₂, by simp [cellSlots, h1], by simp [cellSlots, h2]⟩
    | da b =>
      simp only [cellDas, List.cons_append, List.nil_append, List.nodup_cons] at ha hn
      by_cases hb : b = a
      · subst hb
        refine ⟨nodesOf dmem b, frameSlots dmem f, rfl, ?_⟩
        rw [frameSlots_upd _ _ _ _ hn.1]
        simp [cellSlots, nodesOf_append_same dmem b d n hd]
      · have ha' : a ∈ frameDas f := by
          rcases List.mem_cons.1 ha with h | h
          · exact absurd h.symm hb
          · exact h
        obtain ⟨l₁, l₂, h1, h2⟩ := ih ha' hn.2
        exact ⟨nodesOf dmem b ++ l₁, l₂, by simp [cellSlots, h1], by simp [cellSlots, h2, nodesOf_upd_ne _ _ hb]⟩

theorem ins_all (dmem : Addr → Option PDa) (a : Addr) (d : PDa) (n : Ty × Addr) (hd : dmem a = some d)
    (fs : List (List PCell)) (ha : a ∈ allDas fs) (hn : (allDas fs).Nodup) :
    ∃ l₁ l₂, allSlots dmem fs = l₁ ++ l₂ ∧
      allSlots (upd dmem a (some { d with nodes := d.nodes ++ [n] })) fs = l₁ ++ n :: l₂ := by
  induction fs with
  | nil => simp [allDas] at ha
  | cons f fs ih =>
    rw [allDas_cons] at ha hn
    rw [allSlots_cons, allSlots_cons]
    rw [List.nodup_append] at hn
    by_cases hb : a ∈ frameDas f
    · obtain ⟨l₁, l₂, h1, h2⟩ := ins_frame dmem a d n hd f hb hn.1
      have hnot : a ∉ allDas fs := fun hm => hn.2.2 a hb a hm rfl
      exact ⟨l₁, l₂ ++ allSlots dmem fs, by simp [h1], by simp [h2, allSlots_upd _ _ _ _ hnot]⟩
    · have ha' : a ∈ allDas fs := by
        rcases List.mem_append.1 ha with h | h
        · exact absurd h hb
        · exact h
      obtain ⟨l₁, l₂, h1, h2⟩ := ih ha' hn.2.1
      exact ⟨frameSlots dmem f ++ l₁, l₂, by simp [h1], by simp [h2, frameSlots_upd _ _ _ _ hb]⟩

theorem bind_insert {ty : Ty} {b : Addr} {l₁ l₂ : List (Ty × Addr)} (h : bind ty (l₁ ++ l₂) = none) (ty' : Ty) :
    bind ty' (l₁ ++ (ty, b) :: l₂) = if ty' = ty then some b else bind ty' (l₁ ++ l₂) := by
  simp only [bind_append, bind] at h ⊢
  by_cases ht : ty' = ty
  · subst ht
    cases h1 : bind ty' l₁ with
    | none => simp
    | some x => simp [h1] at h
  · have : ¬ ty = ty' := fun e => ht e.symm
    simp [ht, this]

theorem framesOk_append {mem : Addr → Option PSlot} {dmem : Addr → Option PDa} {fs : List (List PCell)}
    {a b : Addr} {d : PDa} {ty : Ty} {s : PSlot}
    (hf : FramesOk mem dmem fs) (hn : (allDas fs).Nodup) (ha : a ∈ allDas fs) (hd : dmem a = some d)
    (hk : d.key ≠ 0#32)
    (hb : ∀ p ∈ allSlots dmem fs, p.2 ≠ b) (ht : bind ty (allSlots dmem fs) = none) (hs : s.prev = none) :
    FramesOk (upd mem b (some s)) (upd dmem a (some { d with nodes := d.nodes ++ [(ty, b)] })) fs := by
  induction fs with
  | nil => trivial
  | cons f fs ih =>
    have hall := allSlots_cons dmem f fs
    rw [allDas_cons] at ha hn
    rw [List.nodup_append] at hn
    rw [hall] at hb ht
    have hmem : ∀ p ∈ frameSlots dmem f ++ allSlots dmem fs, upd mem b (some s) p.2 = mem p.2 :=
      fun p hp => upd_ne _ _ (hb p hp)
    have htf : ∀ p ∈ frameSlots dmem f ++ allSlots dmem fs, p.1 ≠ ty := by
      intro p hp e
      exact (bind_none.1 ht) (e ▸ List.mem_map_of_mem (f := Prod.fst) hp)
    by_cases haf : a ∈ frameDas f
    · have hnot : a ∉ allDas fs := fun hm => hn.2.2 a haf a hm rfl
      have hdr : ∀ x ∈ allDas fs, upd dmem a (some { d with nodes := d.nodes ++ [(ty, b)] }) x = dmem x := by
        intro x hx
        exact upd_ne _ _ (fun e => hnot (e ▸ hx))
      refine ⟨?_, framesOk_congr_on hf.2 hdr (fun p hp => hmem p (List.mem_append_right _ hp))⟩
      obtain ⟨l₁, l₂, h1, h2⟩ := ins_frame dmem a d (ty, b) hd f haf hn.1
      have hr := allSlots_congr_on hdr
      refine ⟨?_, ?_, ?_, hf.1.oneDa⟩
      · rw [h2, hr]
        intro p hp
        rw [List.mem_append, List.mem_cons] at hp
        by_cases hpe : p = (ty, b)
        · subst hpe
          refine ⟨s, upd_same _ _ _, ?_⟩
          rw [hs]
          rw [bind_append] at ht
          cases h3 : bind ty (frameSlots dmem f) with
          | none => rw [h3] at ht; simpa using ht.symm
          | some _ => simp [h3] at ht
        · have hp' : p ∈ frameSlots dmem f := by
            rw [h1, List.mem_append]
            rcases hp with hp | hp | hp
            · exact .inl hp
            · exact absurd hp hpe
            · exact .inr hp
          obtain ⟨s', g1, g2⟩ := hf.1.slots p hp'
          exact ⟨s', by rw [hmem p (List.mem_append_left _ hp'), g1], g2⟩
      · intro x hx
        by_cases hxa : x = a
        · subst hxa
          obtain ⟨d', g1, g2, g3⟩ := hf.1.das x hx
          rw [hd] at g1; cases g1
          exact ⟨_, upd_same _ _ _, g2, fun e => absurd e hk⟩
        · obtain ⟨d', g1, g2⟩ := hf.1.das x hx
          exact ⟨d', by rw [upd_ne _ _ hxa, g1], g2⟩
      · rw [h2]
        have h3 := hf.1.tys
        rw [h1] at h3
        rw [List.map_append, List.map_cons]
        have hperm : (List.map Prod.fst l₁ ++ ty :: List.map Prod.fst l₂).Perm
            (ty :: (List.map Prod.fst l₁ ++ List.map Prod.fst l₂)) := List.perm_middle
        rw [hperm.nodup_iff, List.nodup_cons]
        rw [List.map_append] at h3
        refine ⟨?_, h3⟩
        intro hm
        rw [← List.map_append, ← h1] at hm
        obtain ⟨p, hp, e⟩ := List.mem_map.1 hm
        exact htf p (List.mem_append_left _ hp) e
    · have hafs : a ∈ allDas fs := by
        rcases List.mem_append.1 ha with h | h
        · exact absurd h haf
        · exact h
      have ht2 : bind ty (allSlots dmem fs) = none := by
        rw [bind_none] at ht ⊢
        intro hm; apply ht; rw [List.map_append]; exact List.mem_append_right _ hm
      refine ⟨?_, ih hf.2 hn.2.1 hafs (fun p hp => hb p (List.mem_append_right _ hp)) ht2⟩
      refine frameOk_congr_on hf.1 ?_ (fun p hp => hmem p (List.mem_append_left _ hp)) ?_
      · intro x hx
        exact upd_ne _ _ (fun e => haf (e ▸ hx))
      · intro p hp
        obtain ⟨l₁, l₂, h1, h2⟩ := ins_all dmem a d (ty, b) hd fs hafs hn.2.1
        rw [h1] at ht2
        simp only [h2, h1, bind_insert ht2]
        rw [if_neg (htf p (List.mem_append_left _ hp))]

theorem daAppend_ok {m : PtrStore} (h : Inv m) (ty : Ty) (id : Id) (v : Val) {x : AbsStore}
    (hx : Store.daAppend ty id v (abs m) = some x) : ∃ m', daAppend ty id v m = some m' ∧ abs m' = x ∧ Inv m' := by
  simp only [Store.daAppend, abs, boundDa_abs, boundCell_abs] at hx
  unfold daAppend
  rw [h.tlsDa]
  cases hb : (allDas m.ctxs).head? with
  | none => simp [hb] at hx
  | some a =>
    have ham := mem_of_head? hb
    obtain ⟨d, hd, hk⟩ := framesOk_dlive h.frames ham
    simp only [hb, Option.map_some, keyOf, nodesOf, hd] at hx
    simp only [hd]
    by_cases hk0 : d.key = 0#32
    · simp [hk0] at hx
    simp only [hk0, if_false] at hx ⊢
    cases ht : bind ty (allSlots m.dmem m.ctxs) with
    | some _ => simp [ht] at hx
    | none =>
      simp only [ht, Option.map_none, Option.some.injEq] at hx
      have htl : m.tls ty = none := by rw [h.tls, ht]
      simp only [htl]
      have hfresh : ∀ p ∈ allSlots m.dmem m.ctxs, p.2 ≠ m.next := fun p hp => Nat.ne_of_lt (h.lt p hp)
      have hnotin : m.next ∉ (allSlots m.dmem m.ctxs).map Prod.snd := by
        intro hm
        obtain ⟨p, hp, e⟩ := List.mem_map.1 hm
        exact hfresh p hp e
      obtain ⟨l₁, l₂, h1, h2⟩ := ins_all m.dmem a d (ty, m.next) hd m.ctxs ham h.dnodup
      refine ⟨_, rfl, ?_, ?_⟩
      · rw [← hx]
        simp only [abs]
        congr 1
        rw [← setBoundDa_abs _ m.dmem a _ m.ctxs hb h.dnodup, absFrames_upd _ _ _ _ _ hnotin]
        have hsub : m.next ∉ d.nodes.map Prod.snd := by
          intro hm
          apply hnotin
          obtain ⟨p, hp, e⟩ := List.mem_map.1 hm
          refine List.mem_map.2 ⟨p, ?_, e⟩
          simp only [allSlots, List.mem_flatMap, allDas] at ham ⊢
          obtain ⟨f, hf, haf⟩ := ham
          refine ⟨f, hf, ?_⟩
          simp only [frameSlots, frameDas, List.mem_flatMap] at haf ⊢
          obtain ⟨c, hc, hac⟩ := haf
          refine ⟨c, hc, ?_⟩
          cases c with
          | obj t b => simp [cellDas] at hac
          | da b =>
            simp only [cellDas, List.mem_singleton] at hac
            subst hac
            simp [cellSlots, nodesOf, hd, hp]
        have e1 := absNodes_upd m.mem m.next (some ⟨some (id, v), none⟩) d.nodes hsub
        congr 1
        simp only [absNodes] at e1 ⊢
        rw [List.map_append, e1]
        simp [cellOf_upd_same]
      · refine ⟨?_, ?_, h.dnodup, ?_, ?_, ?_, ?_⟩
        · simp only [h2]
          rw [List.map_append, List.map_cons]
          have hperm : (List.map Prod.snd l₁ ++ m.next :: List.map Prod.snd l₂).Perm
              (m.next :: (List.map Prod.snd l₁ ++ List.map Prod.snd l₂)) := List.perm_middle
          rw [hperm.nodup_iff, List.nodup_cons, ← List.map_append, ← h1]
          exact ⟨hnotin, h.nodup⟩
        · simp only [h2]
          intro p hp
          rw [List.mem_append, List.mem_cons] at hp
          have := h.lt p
          rw [h1, List.mem_append] at this
          rcases hp with hp | hp | hp
          · exact Nat.lt_succ_of_lt (this (.inl hp))
          · subst hp; simp
          · exact Nat.lt_succ_of_lt (this (.inr hp))
        · intro x hx'
          exact Nat.lt_succ_of_lt (h.dlt x hx')
        · intro ty'
          simp only [h2]
          rw [h1] at ht
          rw [bind_insert ht, ← h1, ← h.tls ty']
          rfl
        · simp only [hb]
        · exact framesOk_append h.frames h.dnodup ham hd hk0 hfresh ht rfl

/-! ### push -/

theorem frameSlots_append (dmem : Addr → Option PDa) (f g : List PCell) :
    frameSlots dmem (f ++ g) = frameSlots dmem f ++ frameSlots dmem g := by simp [frameSlots]
theorem frameDas_append (f g : List PCell) : frameDas (f ++ g) = frameDas f ++ frameDas g := by simp [frameDas]
theorem absFrame_append (mem : Addr → Option PSlot) (dmem : Addr → Option PDa) (f g : List PCell) :
    absFrame mem dmem (f ++ g) = absFrame mem dmem f ++ absFrame mem dmem g := by simp [absFrame]

/-- Activate one more `slot<E>` at the end of the innermost context. -/
theorem extend_obj {m : PtrStore} {f : List PCell} {fs : List (List PCell)} {ty : Ty} (h : Inv m) (hc : m.ctxs = f :: fs)
    (ht : ty ∉ (frameSlots m.dmem f).map Prod.fst) :
    let m' : PtrStore := { m with
      mem := upd m.mem m.next (some ⟨none, m.tls ty⟩)
      tls := upd m.tls ty (some m.next)
      next := m.next + 1
      ctxs := (f ++ [.obj ty m.next]) :: fs }
    Inv m' ∧ absFrame m'.mem m'.dmem f = absFrame m.mem m.dmem f ∧
      absFrames m'.mem m'.dmem fs = absFrames m.mem m.dmem fs ∧
      absFrame m'.mem m'.dmem [.obj ty m.next] = [.obj ty none] := by
  intro m'
  have hS : allSlots m.dmem m.ctxs = frameSlots m.dmem f ++ allSlots m.dmem fs := by rw [hc, allSlots_cons]
  have hD : allDas m.ctxs = frameDas f ++ allDas fs := by rw [hc, allDas_cons]
  have hfr := h.frames
  rw [hc] at hfr
  have hlt : ∀ p ∈ frameSlots m.dmem f ++ allSlots m.dmem fs, p.2 < m.next := by rw [← hS]; exact h.lt
  have hmem : ∀ p ∈ frameSlots m.dmem f ++ allSlots m.dmem fs, m'.mem p.2 = m.mem p.2 :=
    fun p hp => upd_ne _ _ (Nat.ne_of_lt (hlt p hp))
  have hS' : allSlots m'.dmem m'.ctxs = frameSlots m.dmem f ++ (ty, m.next) :: allSlots m.dmem fs := by
    simp [m', allSlots_cons, frameSlots, cellSlots]
  have hD' : allDas m'.ctxs = frameDas f ++ allDas fs := by
    simp [m', allDas_cons, frameDas, cellDas]
  have hbf : bind ty (frameSlots m.dmem f) = none := bind_none.2 ht
  have htls : m.tls ty = bind ty (allSlots m.dmem fs) := by
    rw [h.tls, hS, bind_append, hbf]; rfl
  refine ⟨⟨?_, ?_, ?_, ?_, ?_, ?_, ?_, ?_⟩, ?_, ?_, ?_⟩
  · rw [hS', List.map_append, List.map_cons, List.perm_middle.nodup_iff, List.nodup_cons, ← List.map_append, ← hS]
    refine ⟨?_, h.nodup⟩
    intro hm
    obtain ⟨p, hp, e⟩ := List.mem_map.1 hm
    exact Nat.ne_of_lt (h.lt p hp) e
  · rw [hS']
    intro p hp
    rw [List.mem_append, List.mem_cons] at hp
    rcases hp with hp | hp | hp
    · exact Nat.lt_succ_of_lt (hlt p (List.mem_append_left _ hp))
    · subst hp; exact Nat.lt_succ_self _
    · exact Nat.lt_succ_of_lt (hlt p (List.mem_append_right _ hp))
  · rw [hD', ← hD]; exact h.dnodup
  · rw [hD', ← hD]; exact fun a ha => Nat.lt_succ_of_lt (h.dlt a ha)
  · intro ty'
    rw [hS', bind_append]
    by_cases e : ty' = ty
    · subst e
      simp [m', upd, hbf, bind]
    · have e' : ¬ ty = ty' := fun x => e x.symm
      simp only [m', upd, e, if_false, bind, e']
      rw [h.tls, hS, bind_append]
  · rw [hD', ← hD]; exact h.tlsDa
  · refine ⟨?_, ?_, ?_, ?_⟩
    · intro p hp
      simp only [frameSlots_append, List.mem_append] at hp
      rcases hp with hp | hp
      · obtain ⟨s, h1, h2⟩ := hfr.1.slots p hp
        exact ⟨s, by rw [hmem p (List.mem_append_left _ hp), h1], h2⟩
      · have : p = (ty, m.next) := by simpa [frameSlots, cellSlots] using hp
        subst this
        exact ⟨_, upd_same _ _ _, htls⟩
    · intro a ha
      simp only [frameDas_append, List.mem_append] at ha
      rcases ha with ha | ha
      · exact hfr.1.das a ha
      · simp [frameDas, cellDas] at ha
    · show ((frameSlots m.dmem (f ++ [PCell.obj ty m.next])).map Prod.fst).Nodup
      rw [frameSlots_append, List.map_append, List.nodup_append]
      refine ⟨hfr.1.tys, by simp [frameSlots, cellSlots], ?_⟩
      intro a ha b hb e
      simp [frameSlots, cellSlots] at hb
      exact ht (hb ▸ e ▸ ha)
    · have := hfr.1.oneDa
      simpa [frameDas_append, frameDas, cellDas] using this
  · exact framesOk_congr_on hfr.2 (fun a _ => rfl) (fun p hp => hmem p (List.mem_append_right _ hp))
  · exact absFrame_congr_on (fun a _ => rfl) (fun p hp => hmem p (List.mem_append_left _ hp))
  · exact absFrames_congr_on (fun a _ => rfl) (fun p hp => hmem p (List.mem_append_right _ hp))
  · simp [m', absFrame, absCell, cellOf_upd_same]

/-- Activate a `slot<dynamic_allocator>` at the end of the innermost context. -/
theorem extend_da {m : PtrStore} {f : List PCell} {fs : List (List PCell)} (h : Inv m) (hc : m.ctxs = f :: fs)
    (ht : frameDas f = []) :
    let m' : PtrStore := { m with
      dmem := upd m.dmem m.next (some ⟨0#32, [], m.tlsDa⟩)
      tlsDa := some m.next
      next := m.next + 1
      ctxs := (f ++ [.da m.next]) :: fs }
    Inv m' ∧ absFrame m'.mem m'.dmem f = absFrame m.mem m.dmem f ∧
      absFrames m'.mem m'.dmem fs = absFrames m.mem m.dmem fs ∧
      absFrame m'.mem m'.dmem [.da m.next] = [.da 0#32 []] := by
  intro m'
  have hS : allSlots m.dmem m.ctxs = frameSlots m.dmem f ++ allSlots m.dmem fs := by rw [hc, allSlots_cons]
  have hD : allDas m.ctxs = allDas fs := by rw [hc, allDas_cons, ht]; rfl
  have hfr := h.frames
  rw [hc] at hfr
  have hdm : ∀ a ∈ allDas fs, m'.dmem a = m.dmem a := by
    intro a ha
    exact upd_ne _ _ (Nat.ne_of_lt (h.dlt a (hD ▸ ha)))
  have hdf : ∀ a ∈ frameDas f, m'.dmem a = m.dmem a := by simp [ht]
  have hn : nodesOf m'.dmem m.next = [] := by simp [m', nodesOf, upd]
  have hSf : frameSlots m'.dmem f = frameSlots m.dmem f := frameSlots_congr_on hdf
  have hSfs : allSlots m'.dmem fs = allSlots m.dmem fs := allSlots_congr_on hdm
  have hSn : frameSlots m'.dmem (f ++ [.da m.next]) = frameSlots m.dmem f := by
    rw [frameSlots_append, hSf]; simp [frameSlots, cellSlots, hn]
  have hS' : allSlots m'.dmem m'.ctxs = frameSlots m.dmem f ++ allSlots m.dmem fs := by
    show allSlots m'.dmem ((f ++ [.da m.next]) :: fs) = _
    rw [allSlots_cons, hSn, hSfs]
  have hDn : frameDas (f ++ [.da m.next]) = [m.next] := by
    rw [frameDas_append, ht]; simp [frameDas, cellDas]
  have hD' : allDas m'.ctxs = m.next :: allDas fs := by
    show allDas ((f ++ [.da m.next]) :: fs) = _
    rw [allDas_cons, hDn]; rfl
  refine ⟨⟨?_, ?_, ?_, ?_, ?_, ?_, ?_, ?_⟩, ?_, ?_, ?_⟩
  · rw [hS', ← hS]; exact h.nodup
  · rw [hS', ← hS]; exact fun p hp => Nat.lt_succ_of_lt (h.lt p hp)
  · rw [hD', List.nodup_cons, ← hD]
    exact ⟨fun hm => Nat.lt_irrefl _ (h.dlt _ hm), h.dnodup⟩
  · rw [hD']
    intro a ha
    rcases List.mem_cons.1 ha with e | e
    · subst e; exact Nat.lt_succ_self _
    · exact Nat.lt_succ_of_lt (h.dlt a (hD ▸ e))
  · intro ty; rw [hS', ← hS]; exact h.tls ty
  · rw [hD']; rfl
  · refine ⟨?_, ?_, ?_, ?_⟩
    · intro p hp
      rw [hSn] at hp
      rw [hSfs]
      exact hfr.1.slots p hp
    · intro a ha
      rw [hDn] at ha
      have : a = m.next := by simpa using ha
      subst this
      refine ⟨_, upd_same _ _ _, ?_, fun _ => rfl⟩
      show m.tlsDa = _
      rw [h.tlsDa, hD]
    · rw [hSn]; exact hfr.1.tys
    · rw [hDn]; simp
  · exact framesOk_congr_on hfr.2 hdm (fun p _ => rfl)
  · exact absFrame_congr_on hdf (fun p _ => rfl)
  · exact absFrames_congr_on hdm (fun p _ => rfl)
  · simp [m', absFrame, absCell, keyOf, hn, absNodes, upd]

/-- The types of the elements of a context. -/
def pty : PCell → CellTy
  | .obj ty _ => .obj ty
  | .da _ => .da

theorem activate_ctxs (spec : List CellTy) (m : PtrStore) : (activate spec m).2.ctxs = m.ctxs := by
  induction spec generalizing m with
  | nil => rfl
  | cons c cs ih =>
    cases c with
    | obj ty => simp only [activate]; rw [ih]
    | da => simp only [activate]; rw [ih]

/-- `activate` does not look at `ctxs`. -/
theorem activate_ctxs_irrel (spec : List CellTy) (m : PtrStore) (c : List (List PCell)) :
    activate spec { m with ctxs := c } = ((activate spec m).1, { (activate spec m).2 with ctxs := c }) := by
  induction spec generalizing m with
  | nil => rfl
  | cons x cs ih =>
    cases x with
    | obj ty =>
      simp only [activate]
      rw [ih { m with mem := upd m.mem m.next (some ⟨none, m.tls ty⟩), tls := upd m.tls ty (some m.next), next := m.next + 1 }]
    | da =>
      simp only [activate]
      rw [ih { m with dmem := upd m.dmem m.next (some ⟨0#32, [], m.tlsDa⟩), tlsDa := some m.next, next := m.next + 1 }]

theorem activate_ok (spec : List CellTy) (m : PtrStore) (f : List PCell) (fs : List (List PCell))
    (h : Inv { m with ctxs := f :: fs }) (hnodes : ∀ a ∈ frameDas f, nodesOf m.dmem a = [])
    (hn : (f.map pty ++ spec).Nodup) :
    Inv { (activate spec m).2 with ctxs := (f ++ (activate spec m).1) :: fs } ∧
    absFrames (activate spec m).2.mem (activate spec m).2.dmem ((f ++ (activate spec m).1) :: fs) =
      (absFrame m.mem m.dmem f ++ spec.map CellTy.empty) :: absFrames m.mem m.dmem fs := by
  induction spec generalizing m f with
  | nil => simpa [activate, absFrames] using h
  | cons c cs ih =>
    have hslots : ∀ (d : Addr → Option PDa), (∀ a ∈ frameDas f, nodesOf d a = []) →
        ∀ ty, (CellTy.obj ty ∈ f.map pty ↔ ty ∈ (frameSlots d f).map Prod.fst) := by
      intro d hd ty
      clear hn ih h hnodes
      induction f with
      | nil => simp [frameSlots]
      | cons x f ih =>
        rw [frameDas_cons] at hd
        have := ih (fun a ha => hd a (List.mem_append_right _ ha))
        rw [frameSlots_cons, List.map_append, List.mem_append, ← this]
        cases x with
        | obj t b => simp [pty, cellSlots]
        | da b => simp [pty, cellSlots, hd b (by simp [cellDas])]
    have hdas : CellTy.da ∉ f.map pty → frameDas f = [] := by
      intro hd
      clear hn ih h hnodes hslots
      induction f with
      | nil => rfl
      | cons x f ih =>
        cases x with
        | obj t b =>
          rw [frameDas_cons, ih (by intro hm; apply hd; simp only [List.map_cons, List.mem_cons]; exact .inr hm)]; rfl
        | da b => simp [pty] at hd
    have hn' : (f.map pty ++ [c] ++ cs).Nodup := by simpa using hn
    cases c with
    | obj ty =>
      have hnot : CellTy.obj ty ∉ f.map pty := by
        rw [List.nodup_append] at hn
        intro hm; exact hn.2.2 _ hm _ (by simp) rfl
      obtain ⟨hi, ha1, ha2, ha3⟩ := extend_obj h rfl (fun hm => hnot ((hslots m.dmem hnodes ty).2 hm))
      have := ih { m with
          mem := upd m.mem m.next (some ⟨none, m.tls ty⟩)
          tls := upd m.tls ty (some m.next)
          next := m.next + 1 } (f ++ [.obj ty m.next]) hi
        (by intro a ha; apply hnodes; simpa [frameDas_append, frameDas, cellDas] using ha)
        (by simpa [pty] using hn')
      simp only [activate]
      refine ⟨by simpa using this.1, ?_⟩
      have h2 := this.2
      simp only at ha1 ha2 ha3
      rw [absFrame_append, ha1, ha2, ha3] at h2
      simpa [CellTy.empty] using h2
    | da =>
      have hnot : CellTy.da ∉ f.map pty := by
        rw [List.nodup_append] at hn
        intro hm; exact hn.2.2 _ hm _ (by simp) rfl
      obtain ⟨hi, ha1, ha2, ha3⟩ := extend_da h rfl (hdas hnot)
      have := ih { m with
          dmem := upd m.dmem m.next (some ⟨0#32, [], m.tlsDa⟩)
          tlsDa := some m.next
          next := m.next + 1 } (f ++ [.da m.next]) hi
        (by
          intro a ha
          rw [frameDas_append, hdas hnot] at ha
          have : a = m.next := by simpa [frameDas, cellDas] using ha
          subst this
          simp [nodesOf, upd])
        (by simpa [pty] using hn')
      simp only [activate]
      refine ⟨by simpa using this.1, ?_⟩
      have h2 := this.2
      simp only at ha1 ha2 ha3
      rw [absFrame_append, ha1, ha2, ha3] at h2
      simpa [CellTy.empty] using h2

theorem push_ok {m : PtrStore} (h : Inv m) (spec : List CellTy) {x : AbsStore}
    (hx : Store.push spec (abs m) = some x) : ∃ m', push spec m = some m' ∧ abs m' = x ∧ Inv m' := by
  simp only [Store.push] at hx
  by_cases hn : spec.Nodup
  · simp only [hn, if_true, Option.some.injEq] at hx
    have h0 : Inv { m with ctxs := [] :: m.ctxs } := by
      refine ⟨?_, ?_, ?_, ?_, ?_, ?_, ?_, h.frames⟩
      · simpa [allSlots_cons, frameSlots] using h.nodup
      · simpa [allSlots_cons, frameSlots] using h.lt
      · simpa [allDas_cons, frameDas] using h.dnodup
      · simpa [allDas_cons, frameDas] using h.dlt
      · simpa [allSlots_cons, frameSlots] using h.tls
      · simpa [allDas_cons, frameDas] using h.tlsDa
      · exact ⟨by simp [frameSlots], by simp [frameDas], by simp [frameSlots], by simp [frameDas]⟩
    obtain ⟨h1, h2⟩ := activate_ok spec m [] m.ctxs h0 (by simp [frameDas]) (by simpa using hn)
    refine ⟨{ (activate spec m).2 with ctxs := (activate spec m).1 :: m.ctxs }, ?_, ?_, by simpa using h1⟩
    · simp [push, hn, activate_ctxs]
    · rw [← hx]
      simp only [abs]
      congr 1
  · simp [hn] at hx

/-! ### pop -/

theorem deactNodes_ok (ns : List (Ty × Addr)) (m : PtrStore) (t0 : Ty → Option Addr)
    (h : ∀ p ∈ ns, ∃ s, m.mem p.2 = some s ∧ s.prev = t0 p.1) :
    ∃ t, deactNodes ns m = some { m with tls := t } ∧
      ∀ ty, t ty = if ty ∈ ns.map Prod.fst then t0 ty else m.tls ty := by
  induction ns generalizing m with
  | nil => exact ⟨m.tls, rfl, by simp⟩
  | cons p ns ih =>
    obtain ⟨ty, a⟩ := p
    obtain ⟨s, hs, hp⟩ := h (ty, a) (by simp)
    simp only at hs hp
    obtain ⟨t, h1, h2⟩ := ih { m with tls := upd m.tls ty s.prev } (fun p hp => h p (by simp [hp]))
    refine ⟨t, ?_, ?_⟩
    · simp [deactNodes, deactSlot, hs, h1]
    · intro ty'
      rw [h2]
      simp only [upd]
      by_cases e : ty' ∈ ns.map Prod.fst
      · simp [e]
      · by_cases e2 : ty' = ty
        · subst e2; simp [e, hp]
        · simp [e, e2]

theorem deactivate_ok (f : List PCell) (m : PtrStore) (t0 : Ty → Option Addr) (d0 : Option Addr)
    (hs : ∀ p ∈ frameSlots m.dmem f, ∃ s, m.mem p.2 = some s ∧ s.prev = t0 p.1)
    (hd : ∀ a ∈ frameDas f, ∃ d, m.dmem a = some d ∧ d.prev = d0 ∧ (d.key = 0#32 → d.nodes = [])) :
    ∃ t d, deactivate f m = some { m with tls := t, tlsDa := d } ∧
      (∀ ty, t ty = if ty ∈ (frameSlots m.dmem f).map Prod.fst then t0 ty else m.tls ty) ∧
      d = if frameDas f = [] then m.tlsDa else d0 := by
  induction f with
  | nil => exact ⟨m.tls, m.tlsDa, rfl, by simp [frameSlots], by simp [frameDas]⟩
  | cons c f ih =>
    rw [frameSlots_cons] at hs
    rw [frameDas_cons] at hd
    obtain ⟨t, d, h1, h2, h3⟩ := ih (fun p hp => hs p (List.mem_append_right _ hp)) (fun p hp => hd p (List.mem_append_right _ hp))
    cases c with
    | obj ty a =>
      obtain ⟨s, g1, g2⟩ := hs (ty, a) (by simp [cellSlots])
      simp only at g1 g2
      refine ⟨upd t ty s.prev, d, ?_, ?_, ?_⟩
      · simp [deactivate, h1, deactSlot, g1]
      · intro ty'
        rw [frameSlots_cons]
        simp only [upd, cellSlots, List.cons_append, List.nil_append, List.map_cons, List.mem_cons]
        by_cases e : ty' = ty
        · subst e; simp [g2]
        · rw [h2]; by_cases hz : ty' ∈ (frameSlots m.dmem f).map Prod.fst <;> simp only [e, hz, if_true, if_false, or_true, or_false]
      · rw [h3, frameDas_cons]; by_cases hz : frameDas f = [] <;> simp [cellDas, hz]
    | da a =>
      obtain ⟨d', g1, g2, g3⟩ := hd a (by simp [cellDas])
      have hnodes : nodesOf m.dmem a = d'.nodes := by simp [nodesOf, g1]
      simp only [cellSlots, hnodes] at hs
      obtain ⟨t', k1, k2⟩ := deactNodes_ok d'.nodes { m with tls := t, tlsDa := d } t0
        (fun p hp => hs p (List.mem_append_left _ hp))
      have hstep : (if d'.key ≠ 0#32 then deactNodes d'.nodes { m with tls := t, tlsDa := d } else
          some { m with tls := t, tlsDa := d }) = some { m with tls := t', tlsDa := d } := by
        by_cases hk : d'.key = 0#32
        · have hnn := g3 hk
          rw [hnn] at k1
          simp only [deactNodes, Option.some.injEq] at k1
          simp [hk, k1]
        · simp [hk, k1]
      refine ⟨t', d0, ?_, ?_, ?_⟩
      · simp only [deactivate, h1, Option.bind_some, deactDa, g1]
        rw [hstep]
        simp [g2]
      · intro ty
        rw [frameSlots_cons, k2]
        simp only [cellSlots, hnodes, List.map_append, List.mem_append]
        by_cases e : ty ∈ d'.nodes.map Prod.fst
        · simp [e]
        · simp only [e, if_false, false_or]; exact h2 ty
      · rw [frameDas_cons]; simp [cellDas]

theorem readNodes_ok (ns : List (Ty × Addr)) (m : PtrStore) (h : ∀ p ∈ ns, ∃ s, m.mem p.2 = some s) :
    readNodes ns m = some (absNodes m.mem ns) := by
  induction ns with
  | nil => rfl
  | cons p ns ih =>
    obtain ⟨ty, a⟩ := p
    obtain ⟨s, hs⟩ := h (ty, a) (by simp)
    simp only at hs
    have := ih (fun p hp => h p (by simp [hp]))
    simp [readNodes, hs, this, absNodes, cellOf]

theorem readOut_ok (f : List PCell) (m : PtrStore)
    (hs : ∀ p ∈ frameSlots m.dmem f, ∃ s, m.mem p.2 = some s) (hd : ∀ a ∈ frameDas f, ∃ d, m.dmem a = some d) :
    readOut f m = some (absFrame m.mem m.dmem f) := by
  induction f with
  | nil => rfl
  | cons c f ih =>
    rw [frameSlots_cons] at hs
    rw [frameDas_cons] at hd
    have h1 := ih (fun p hp => hs p (List.mem_append_right _ hp)) (fun p hp => hd p (List.mem_append_right _ hp))
    cases c with
    | obj ty a =>
      obtain ⟨s, g⟩ := hs (ty, a) (by simp [cellSlots])
      simp only at g
      simp [readOut, g, h1, absFrame, absCell, cellOf]
    | da a =>
      obtain ⟨d, g⟩ := hd a (by simp [cellDas])
      have hn : nodesOf m.dmem a = d.nodes := by simp [nodesOf, g]
      simp only [cellSlots, hn] at hs
      have := readNodes_ok d.nodes m (fun p hp => hs p (List.mem_append_left _ hp))
      simp [readOut, g, h1, this, absFrame, absCell, keyOf, hn]

theorem freeNodes_ok (ns : List (Ty × Addr)) (m : PtrStore)
    (hl : ∀ p ∈ ns, ∃ s, m.mem p.2 = some s) (ht : ∀ p ∈ ns, m.tls p.1 ≠ some p.2) (hn : (ns.map Prod.snd).Nodup) :
    ∃ M, freeNodes ns m = some { m with mem := M } ∧ ∀ x, M x = if x ∈ ns.map Prod.snd then none else m.mem x := by
  induction ns generalizing m with
  | nil => exact ⟨m.mem, rfl, by simp⟩
  | cons p ns ih =>
    obtain ⟨ty, a⟩ := p
    obtain ⟨s, hs⟩ := hl (ty, a) (by simp)
    have h0 := ht (ty, a) (by simp)
    simp only at hs h0
    simp only [List.map_cons, List.nodup_cons] at hn
    obtain ⟨M, h1, h2⟩ := ih { m with mem := upd m.mem a none }
      (by
        intro p hp
        obtain ⟨s, h⟩ := hl p (by simp [hp])
        have : p.2 ≠ a := fun e => hn.1 (e ▸ List.mem_map_of_mem (f := Prod.snd) hp)
        exact ⟨s, by rw [← h]; exact upd_ne _ _ this⟩)
      (fun p hp => ht p (by simp [hp])) hn.2
    refine ⟨M, ?_, ?_⟩
    · simp [freeNodes, freeSlot, hs, h0, h1]
    · intro x
      rw [h2]
      simp only [upd]
      by_cases e : x ∈ ns.map Prod.snd
      · simp [e]
      · by_cases e2 : x = a
        · subst e2; simp [e]
        · simp [e, e2]

theorem destroy_ok (f : List PCell) (m : PtrStore)
    (hl : ∀ p ∈ frameSlots m.dmem f, ∃ s, m.mem p.2 = some s) (ht : ∀ p ∈ frameSlots m.dmem f, m.tls p.1 ≠ some p.2)
    (hn : ((frameSlots m.dmem f).map Prod.snd).Nodup)
    (hd : ∀ a ∈ frameDas f, ∃ d, m.dmem a = some d) (htd : ∀ a ∈ frameDas f, m.tlsDa ≠ some a) (hdn : (frameDas f).Nodup) :
    ∃ M D, destroy f m = some { m with mem := M, dmem := D } ∧
      (∀ x, M x = if x ∈ (frameSlots m.dmem f).map Prod.snd then none else m.mem x) ∧
      (∀ x, D x = if x ∈ frameDas f then none else m.dmem x) := by
  induction f generalizing m with
  | nil => exact ⟨m.mem, m.dmem, rfl, by simp [frameSlots], by simp [frameDas]⟩
  | cons c f ih =>
    rw [frameSlots_cons] at hl ht hn ⊢
    rw [frameDas_cons] at hd htd hdn ⊢
    rw [List.map_append, List.nodup_append] at hn
    cases c with
    | obj ty a =>
      simp only [cellSlots, List.map_cons, List.map_nil, cellDas, List.nil_append, List.cons_append] at hl ht hn hd htd hdn ⊢
      obtain ⟨s, hs⟩ := hl (ty, a) (by simp)
      have h0 := ht (ty, a) (by simp)
      simp only at hs h0
      have hna : a ∉ (frameSlots m.dmem f).map Prod.snd := fun hm => hn.2.2 a (by simp) a hm rfl
      obtain ⟨M, D, h1, h2, h3⟩ := ih { m with mem := upd m.mem a none }
        (by
          intro p hp
          obtain ⟨s, h⟩ := hl p (by simp only [List.mem_cons]; exact .inr hp)
          have : p.2 ≠ a := fun e => hna (e ▸ List.mem_map_of_mem (f := Prod.snd) hp)
          exact ⟨s, by rw [← h]; exact upd_ne _ _ this⟩)
        (fun p hp => ht p (by simp only [List.mem_cons]; exact .inr hp)) hn.2.1 hd htd hdn
      refine ⟨M, D, by simp [destroy, freeSlot, hs, h0, h1], ?_, h3⟩
      intro x
      rw [h2]
      simp only [List.mem_cons, upd]
      by_cases e : x ∈ (frameSlots m.dmem f).map Prod.snd
      · simp [e]
      · by_cases e2 : x = a
        · subst e2; simp [e]
        · simp [e, e2]
    | da a =>
      simp only [cellSlots, cellDas, List.cons_append, List.nil_append, List.nodup_cons] at hl ht hn hd htd hdn ⊢
      obtain ⟨d, g⟩ := hd a (by simp)
      have hnd : nodesOf m.dmem a = d.nodes := by simp [nodesOf, g]
      rw [hnd] at hl ht hn
      obtain ⟨M1, k1, k2⟩ := freeNodes_ok d.nodes m (fun p hp => hl p (List.mem_append_left _ hp))
        (fun p hp => ht p (List.mem_append_left _ hp)) hn.1
      have hSf : frameSlots (upd m.dmem a none) f = frameSlots m.dmem f := frameSlots_upd _ _ _ _ hdn.1
      obtain ⟨M, D, h1, h2, h3⟩ := ih { m with mem := M1, dmem := upd m.dmem a none }
        (by
          simp only [hSf]
          intro p hp
          obtain ⟨s, h⟩ := hl p (List.mem_append_right _ hp)
          have : p.2 ∉ d.nodes.map Prod.snd := fun hm => hn.2.2 _ hm _ (List.mem_map_of_mem (f := Prod.snd) hp) rfl
          exact ⟨s, by rw [k2, if_neg this, h]⟩)
        (by simp only [hSf]; exact fun p hp => ht p (List.mem_append_right _ hp))
        (by simp only [hSf]; exact hn.2.1)
        (by
          intro b hb
          obtain ⟨d, h⟩ := hd b (by simp [hb])
          have : b ≠ a := fun e => hdn.1 (e ▸ hb)
          exact ⟨d, by rw [← h]; exact upd_ne _ _ this⟩)
        (fun b hb => htd b (by simp [hb])) hdn.2
      refine ⟨M, D, ?_, ?_, ?_⟩
      · have := htd a (by simp)
        simp [destroy, g, this, k1, h1]
      · intro x
        rw [h2]
        simp only [hSf, k2, hnd, List.map_append, List.mem_append]
        by_cases e : x ∈ (frameSlots m.dmem f).map Prod.snd
        · simp [e]
        · by_cases e2 : x ∈ d.nodes.map Prod.snd <;> simp only [e, e2, if_true, if_false, or_false]
      · intro x
        rw [h3]
        simp only [upd, List.mem_cons]
        by_cases e : x ∈ frameDas f
        · simp [e]
        · by_cases e2 : x = a
          · subst e2; simp [e]
          · simp [e, e2]

theorem pop_ok {m : PtrStore} (h : Inv m) {c : List CtxCell} {x : AbsStore}
    (hx : Store.pop (abs m) = some (c, x)) : ∃ m', pop m = some (c, m') ∧ abs m' = x ∧ Inv m' := by
  unfold pop
  simp only [Store.pop, abs, absFrames] at hx
  cases hc : m.ctxs with
  | nil => simp [hc] at hx
  | cons f fs =>
    simp only [hc, List.map_cons, Option.some.injEq, Prod.mk.injEq] at hx
    obtain ⟨hx1, hx2⟩ := hx
    have hfr := h.frames
    rw [hc] at hfr
    have hS : allSlots m.dmem m.ctxs = frameSlots m.dmem f ++ allSlots m.dmem fs := by rw [hc, allSlots_cons]
    have hD : allDas m.ctxs = frameDas f ++ allDas fs := by rw [hc, allDas_cons]
    have hnd := h.nodup
    rw [hS, List.map_append, List.nodup_append] at hnd
    have hdn := h.dnodup
    rw [hD, List.nodup_append] at hdn
    obtain ⟨t, d, h1, h2, h3⟩ := deactivate_ok f m (fun ty => bind ty (allSlots m.dmem fs)) _ hfr.1.slots hfr.1.das
    have ht : t = fun ty => bind ty (allSlots m.dmem fs) := by
      funext ty
      rw [h2]
      split
      · rfl
      · rename_i hn
        rw [h.tls, hS, bind_append, bind_none.2 hn]; rfl
    have hd' : d = (allDas fs).head? := by
      rw [h3]
      split
      · rename_i hn
        rw [h.tlsDa, hD, hn]; rfl
      · rfl
    subst ht hd'
    simp only [h1]
    have hl : ∀ p ∈ frameSlots m.dmem f, ∃ s, m.mem p.2 = some s := by
      intro p hp; obtain ⟨s, hs, _⟩ := hfr.1.slots p hp; exact ⟨s, hs⟩
    have hdl : ∀ a ∈ frameDas f, ∃ d, m.dmem a = some d := by
      intro p hp; obtain ⟨s, hs, _⟩ := hfr.1.das p hp; exact ⟨s, hs⟩
    rw [readOut_ok f { m with tls := fun ty => bind ty (allSlots m.dmem fs), tlsDa := (allDas fs).head? } hl hdl]
    obtain ⟨M, D, k1, k2, k3⟩ := destroy_ok f
      { m with tls := fun ty => bind ty (allSlots m.dmem fs), tlsDa := (allDas fs).head? } hl
      (by
        intro p hp e
        simp only at e
        exact hnd.2.2 _ (List.mem_map_of_mem (f := Prod.snd) hp) _
          (List.mem_map_of_mem (f := Prod.snd) (bind_mem e)) rfl)
      hnd.1 hdl
      (by
        intro a ha e
        exact hdn.2.2 _ ha _ (mem_of_head? e) rfl)
      hdn.1
    simp only [k1, hx1]
    have hMm : ∀ p ∈ allSlots m.dmem fs, M p.2 = m.mem p.2 := by
      intro p hp
      rw [k2, if_neg]
      exact fun hm => hnd.2.2 _ hm _ (List.mem_map_of_mem (f := Prod.snd) hp) rfl
    have hDm : ∀ a ∈ allDas fs, D a = m.dmem a := by
      intro p hp
      rw [k3, if_neg]
      exact fun hm => hdn.2.2 _ hm _ hp rfl
    have hS2 : allSlots D fs = allSlots m.dmem fs := allSlots_congr_on hDm
    refine ⟨_, rfl, ?_, ?_⟩
    · rw [← hx2]
      simp only [abs]
      congr 1
      exact absFrames_congr_on hDm hMm
    · refine ⟨?_, ?_, ?_, ?_, ?_, rfl, framesOk_congr_on hfr.2 hDm hMm⟩
      · simp only [hS2]; exact hnd.2.1
      · simp only [hS2]; intro p hp; exact h.lt p (by rw [hS]; exact List.mem_append_right _ hp)
      · exact hdn.2.1
      · intro a ha; exact h.dlt a (by rw [hD]; exact List.mem_append_right _ ha)
      · intro ty; simp only [hS2]

theorem inv_empty : Inv empty := by
  refine ⟨by simp [empty, allSlots], by simp [empty, allSlots], by simp [empty, allDas], by simp [empty, allDas],
    by simp [empty, allSlots, bind], by simp [empty, allDas], trivial⟩

end PtrStore
end Leaf
