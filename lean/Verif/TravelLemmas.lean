import Verif.PropFlow
import Verif.SlotLists

/-!
# Lemmas for C22: objects attached to an error
-/

namespace Leaf

/-- Only bound slots hold objects of error `id`. -/
def TopOnly (id : Id) (fs : List (List CtxCell)) : Prop := ∀ ty, ∀ c ∈ (cellsOf ty fs).tail, c.hasValue id = none

/-- The objects `A` are attached to error `id`: available wherever their type is wanted, and stored nowhere else. -/
def Attached (cfg : Cfg) (id : Id) (A : Ty → Option Val) (fs : List (List CtxCell)) : Prop :=
  (∀ ty, wanted cfg ty fs = true → avail ty id fs = A ty) ∧ TopOnly id fs

theorem topOnly_putObj {cfg : Cfg} {keep : Bool} {id : Id} {ty : Ty} {v : Val} {fs : List (List CtxCell)} (h : TopOnly id fs) :
    TopOnly id (putObj cfg keep id ty v fs) := by
  intro t c hc
  rw [cellsOf_putObj] at hc
  split at hc
  · split at hc
    · split at hc <;> simp at hc
    · rename_i p r hl
      simp only [List.tail_cons] at hc
      exact h t c (by rw [hl]; exact hc)
  · exact h t c hc

theorem attached_putItems {cfg : Cfg} {keep : Bool} {id : Id} {A : Ty → Option Val} {items : List Item} {fs : List (List CtxCell)}
    (h : Attached cfg id A fs) : Attached cfg id (fun t => items.foldl (Item.step cfg keep t) (A t)) (putItems cfg keep id items fs) := by
  constructor
  · intro ty hw
    rw [wanted_putItems] at hw
    rw [avail_putItems cfg keep id items hw, h.1 ty hw]
  · have := h.2
    clear h
    induction items generalizing fs with
    | nil => exact this
    | cons i is ih => exact ih (topOnly_putObj this)

theorem attached_fresh {cfg : Cfg} {id : Id} {fs : List (List CtxCell)} (h : ∀ ty v, ¬ Stored ty id v fs) : Attached cfg id (fun _ => none) fs := by
  constructor
  · intro ty _
    cases ha : avail ty id fs with
    | none => rfl
    | some v => exact absurd (avail_stored ha) (h ty v)
  · intro ty c hc
    cases hv : c.hasValue id with
    | none => rfl
    | some v =>
      rw [hasValue_eq_some] at hv
      subst hv
      exact absurd (mem_cellsOf.mp (List.mem_of_mem_tail hc)) (h ty v)

theorem slotsOf_eq_filter (ty : Ty) (f : List CtxCell) : slotsOf ty f = ((slotsIn f).filter fun n => n.1 = ty).map Prod.snd := by
  induction f with
  | nil => rfl
  | cons x f ih =>
    cases x with
    | obj u d =>
      rw [slotsOf_consObj, slotsIn_obj, ih]
      by_cases hu : u = ty <;> simp [hu]
    | da k ns => rw [slotsOf_consDa, slotsIn_da, ih]; simp

theorem slotsOf_le_one {ty : Ty} {f : List CtxCell} (h : (frameTys f).Nodup) : slotsOf ty f = [] ∨ ∃ c, slotsOf ty f = [c] := by
  rw [slotsOf_eq_filter]
  rw [← slotsIn_tys] at h
  generalize slotsIn f = l at h
  induction l with
  | nil => exact Or.inl rfl
  | cons n l ih =>
    simp only [List.map_cons, List.nodup_cons] at h
    by_cases hn : n.1 = ty
    · right
      have : (l.filter fun n => n.1 = ty) = [] := by
        rw [List.filter_eq_nil_iff]
        intro m hm
        simp only [decide_eq_true_eq]
        intro hmt
        exact h.1 (List.mem_map.mpr ⟨m, hm, by rw [hmt, hn]⟩)
      exact ⟨n.2, by simp [hn, this]⟩
    · simpa [hn] using ih h.2

theorem wanted_cons {cfg : Cfg} {ty : Ty} {s : List CtxCell} {ss : List (List CtxCell)} (h : wanted cfg ty ss = true) : wanted cfg ty (s :: ss) = true := by
  rw [wanted_iff] at h ⊢
  rcases h with ⟨f, hf, h⟩ | ⟨hc, f, hf, h⟩
  · exact Or.inl ⟨f, List.mem_cons_of_mem _ hf, h⟩
  · exact Or.inr ⟨hc, f, List.mem_cons_of_mem _ hf, h⟩

theorem topOnly_unloadFs {cfg : Cfg} {id : Id} {s : List CtxCell} {ss : List (List CtxCell)} (h : TopOnly id ss) : TopOnly id (unloadFs cfg id s ss) := by
  have hobj : ∀ ty c fs, TopOnly id fs → TopOnly id (unloadObj cfg id ty c fs) := by
    intro ty c fs h
    unfold unloadObj
    split
    · exact topOnly_putObj h
    · exact h
  induction s with
  | nil => exact h
  | cons x s ih =>
    cases x with
    | obj t c => exact hobj t c _ ih
    | da k ns =>
      simp only [unloadFs, unloadCellFs]
      generalize unloadFs cfg id s ss = fs at ih
      clear h
      induction ns generalizing fs with
      | nil => exact ih
      | cons n ns ih2 => exact ih2 _ (hobj _ _ _ ih)

/-- Leaving a scope that does not handle the error keeps the objects attached. -/
theorem attached_leave {cfg : Cfg} {id : Id} {A : Ty → Option Val} {s : List CtxCell} {ss : List (List CtxCell)} (hs : (frameTys s).Nodup)
    (h : Attached cfg id A (s :: ss)) : Attached cfg id A (unloadFs cfg id s ss) := by
  constructor
  · intro ty hw
    rw [wanted_unloadFs] at hw
    rw [avail_unloadFs cfg id s hs hw]
    have h1 := h.1 ty (wanted_cons hw)
    have h2 := h.2 ty
    rw [avail_eq_cells, cellsOf_cons] at h1
    rw [cellsOf_cons] at h2
    have hsv : scopeVal ty id s = (slotsOf ty s).head?.bind (Cell.hasValue · id) := by
      unfold scopeVal; rw [frameCell_eq_head]
    rw [hsv, avail_eq_cells]
    rcases slotsOf_le_one (ty := ty) hs with hl | ⟨c, hl⟩
    · rw [hl] at h1 ⊢
      simpa using h1
    · rw [hl] at h1 h2 ⊢
      simp only [List.cons_append, List.nil_append, List.head?_cons, Option.bind_some, List.tail_cons] at h1 h2 ⊢
      rw [h1]
      cases hc : cellsOf ty ss with
      | nil => simp
      | cons d l => simp [h2 d (by rw [hc]; simp)]
  · apply topOnly_unloadFs
    intro ty c hc
    apply h.2 ty c
    rw [cellsOf_cons]
    cases hl : slotsOf ty s with
    | nil => simpa using hc
    | cons d l => simp only [List.cons_append, List.tail_cons, List.mem_append]; exact Or.inr (List.mem_of_mem_tail hc)

theorem unloadCur_self (id : Id) (s : List CtxCell) : unloadCur id s id = id := by
  induction s with
  | nil => rfl
  | cons x s ih =>
    cases x with
    | obj t c => exact ih
    | da k ns =>
      simp only [unloadCur]
      split
      · rfl
      · exact ih

end Leaf
