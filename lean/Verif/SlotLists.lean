import Verif.PropLoad
import Verif.Stored

/-!
# The slots of one type, innermost first
-/

namespace Leaf

/-- The contents of all slots for `ty`, innermost first. The first is the one bound. -/
def cellsOf (ty : Ty) (fs : List (List CtxCell)) : List Cell := fs.flatMap (slotsOf ty)

theorem cellsOf_cons (ty : Ty) (f : List CtxCell) (fs : List (List CtxCell)) : cellsOf ty (f :: fs) = slotsOf ty f ++ cellsOf ty fs := by
  simp [cellsOf]

theorem slotsOf_cons (ty : Ty) (x : CtxCell) (f : List CtxCell) : slotsOf ty (x :: f) = slotsOf ty [x] ++ slotsOf ty f := by simp [slotsOf]

theorem slotsOf_append (ty : Ty) (f g : List CtxCell) : slotsOf ty (f ++ g) = slotsOf ty f ++ slotsOf ty g := by simp [slotsOf]

theorem boundCell_eq_head (ty : Ty) (fs : List (List CtxCell)) : boundCell ty fs = (cellsOf ty fs).head? := by
  induction fs with
  | nil => rfl
  | cons f fs ih =>
    rw [cellsOf_cons, List.head?_append, ← ih, ← frameCell_eq_head]
    cases hf : frameCell ty f <;> simp [boundCell, hf]

theorem slotsOf_da (ty : Ty) (k : Id) (ns : List (Ty × Cell)) : slotsOf ty [.da k ns] = (ns.filter fun n => n.1 = ty).map Prod.snd := by
  simp [slotsOf]

theorem slotsOf_obj (t ty : Ty) (c : Cell) : slotsOf t [.obj ty c] = if ty = t then [c] else [] := by
  simp [slotsOf]

theorem slotsOf_consObj (t ty : Ty) (c : Cell) (f : List CtxCell) : slotsOf t (.obj ty c :: f) = (if ty = t then [c] else []) ++ slotsOf t f := by
  rw [slotsOf_cons, slotsOf_obj]

theorem slotsOf_consDa (t : Ty) (k : Id) (ns : List (Ty × Cell)) (f : List CtxCell) :
    slotsOf t (.da k ns :: f) = (ns.filter fun n => n.1 = t).map Prod.snd ++ slotsOf t f := by
  rw [slotsOf_cons, slotsOf_da]

theorem filter_setNode {t ty : Ty} {c : Cell} {ns : List (Ty × Cell)} :
    ((setNode ty c ns).filter fun n => n.1 = t).map Prod.snd =
      if t = ty then (match (ns.filter fun n => n.1 = t).map Prod.snd with | [] => [] | _ :: r => c :: r) else (ns.filter fun n => n.1 = t).map Prod.snd := by
  induction ns with
  | nil => simp [setNode]
  | cons n ns ih =>
    obtain ⟨u, d⟩ := n
    by_cases hu : u = ty
    · subst hu
      by_cases ht : t = u
      · subst ht; simp [setNode]
      · have : ¬ u = t := fun h => ht h.symm
        simp [setNode, ht, this]
    · by_cases ht : t = ty
      · subst ht
        simp only [if_true] at ih
        simp [setNode, hu, ih]
      · simp only [ht, if_false] at ih
        by_cases hut : u = t
        · simp [setNode, ht, hut, ih]
        · simp [setNode, hu, ht, hut, ih]

theorem slotsOf_setFrame {t ty : Ty} {c : Cell} {f : List CtxCell} :
    slotsOf t (setFrame ty c f) = if t = ty then (match slotsOf t f with | [] => [] | _ :: r => c :: r) else slotsOf t f := by
  induction f with
  | nil => simp [setFrame, slotsOf]
  | cons x f ih =>
    cases x with
    | obj u d =>
      by_cases hu : u = ty
      · subst hu
        simp only [setFrame, if_true]
        rw [slotsOf_consObj, slotsOf_consObj]
        by_cases ht : t = u
        · subst ht; simp
        · have : ¬ u = t := fun h => ht h.symm
          simp [ht, this]
      · simp only [setFrame, hu, if_false]
        rw [slotsOf_consObj, slotsOf_consObj, ih]
        by_cases ht : t = ty
        · subst ht; simp [hu]
        · simp [ht]
    | da k ns =>
      simp only [setFrame]
      cases hn : nodeCell ty ns with
      | some d =>
        simp only
        rw [slotsOf_consDa, slotsOf_consDa, filter_setNode]
        by_cases ht : t = ty
        · subst ht
          rw [nodeCell_eq_head] at hn
          cases hl : (ns.filter fun n => n.1 = t).map Prod.snd with
          | nil => simp [hl] at hn
          | cons a l => simp
        · simp [ht]
      | none =>
        simp only
        rw [slotsOf_consDa, slotsOf_consDa, ih]
        by_cases ht : t = ty
        · subst ht
          rw [nodeCell_eq_head, List.head?_eq_none_iff] at hn
          rw [hn]
          simp
        · simp [ht]

theorem cellsOf_setBound {t ty : Ty} {c : Cell} {fs : List (List CtxCell)} :
    cellsOf t (setBound ty c fs) = if t = ty then (match cellsOf t fs with | [] => [] | _ :: r => c :: r) else cellsOf t fs := by
  induction fs with
  | nil => simp [setBound, cellsOf]
  | cons f fs ih =>
    simp only [setBound]
    cases hf : frameCell ty f with
    | some d =>
      simp only
      rw [cellsOf_cons, cellsOf_cons, slotsOf_setFrame]
      by_cases ht : t = ty
      · subst ht
        rw [frameCell_eq_head] at hf
        cases hl : slotsOf t f with
        | nil => simp [hl] at hf
        | cons a l => simp
      · simp [ht]
    | none =>
      simp only
      rw [cellsOf_cons, cellsOf_cons, ih]
      by_cases ht : t = ty
      · subst ht
        rw [frameCell_eq_head, List.head?_eq_none_iff] at hf
        simp [hf]
      · simp [ht]

theorem cellsOf_appendNode {t ty : Ty} {c : Cell} {k k' : Id} {ns : List (Ty × Cell)} {fs : List (List CtxCell)} (hd : boundDa fs = some (k, ns))
    (hb : boundCell ty fs = none) :
    cellsOf t (setBoundDa k' (ns ++ [(ty, c)]) fs) = if t = ty then [c] else cellsOf t fs := by
  obtain ⟨inner, pre, post, outer, h1, h2, h3⟩ := setBoundDa_split hd
  rw [h3]
  have key : ∀ m : List (Ty × Cell), cellsOf t (inner ++ (pre ++ .da k m :: post) :: outer) =
      cellsOf t inner ++ (slotsOf t pre ++ ((m.filter fun n => n.1 = t).map Prod.snd ++ (slotsOf t post ++ cellsOf t outer))) := by
    intro m
    simp only [cellsOf, List.flatMap_append, List.flatMap_cons]
    rw [slotsOf_append, slotsOf_consDa]
    simp [List.append_assoc]
  have key' : ∀ m : List (Ty × Cell), cellsOf t (inner ++ (pre ++ .da k' m :: post) :: outer) =
      cellsOf t inner ++ (slotsOf t pre ++ ((m.filter fun n => n.1 = t).map Prod.snd ++ (slotsOf t post ++ cellsOf t outer))) := by
    intro m
    simp only [cellsOf, List.flatMap_append, List.flatMap_cons]
    rw [slotsOf_append, slotsOf_consDa]
    simp [List.append_assoc]
  rw [key']
  by_cases ht : t = ty
  · subst ht
    rw [h1, boundCell_eq_head, List.head?_eq_none_iff, key] at hb
    simp only [List.append_eq_nil_iff] at hb
    obtain ⟨e1, e2, e3, e4, e5⟩ := hb
    rw [List.filter_append, List.map_append, e1, e2, e3, e4, e5]
    simp
  · rw [h1, key]
    have : ¬ ty = t := fun h => ht h.symm
    simp [ht, this]

/-- What storing an object does to the slots of every type. -/
theorem cellsOf_putObj {cfg : Cfg} {keep : Bool} {id : Id} {ty t : Ty} {v : Val} {fs : List (List CtxCell)} :
    cellsOf t (putObj cfg keep id ty v fs) =
      if t = ty then (match cellsOf t fs with
        | [] => if wanted cfg t fs then [some (id, v)] else []
        | p :: r => (if !keep || (p.hasValue id).isNone then some (id, v) else p) :: r)
      else cellsOf t fs := by
  unfold putObj
  cases hb : boundCell ty fs with
  | some p =>
    simp only
    have hb' := hb
    rw [boundCell_eq_head] at hb'
    cases hc : cellsOf ty fs with
    | nil => simp [hc] at hb'
    | cons a l =>
      simp only [hc, List.head?_cons, Option.some.injEq] at hb'
      subst hb'
      split
      · rename_i hk
        rw [cellsOf_setBound]
        by_cases ht : t = ty
        · subst ht; simp [hc, hk]
        · simp [ht]
      · rename_i hk
        by_cases ht : t = ty
        · subst ht; simp only [hc, if_true]; rw [if_neg hk]
        · simp [ht]
  | none =>
    simp only
    have hb' := hb
    rw [boundCell_eq_head, List.head?_eq_none_iff] at hb'
    by_cases hcap : cfg.capture = true
    · simp only [hcap, if_true]
      cases hd : boundDa fs with
      | none =>
        simp only
        by_cases ht : t = ty
        · subst ht; simp [hb', wanted, hb, hd]
        · simp [ht]
      | some p =>
        obtain ⟨k, ns⟩ := p
        simp only
        rw [cellsOf_appendNode hd hb]
        by_cases ht : t = ty
        · subst ht; simp [hb', wanted, hd, hcap]
        · simp [ht]
    · simp only [hcap]
      by_cases ht : t = ty
      · subst ht; simp [hb', wanted, hb, hcap]
      · simp [ht]

theorem mem_slotsOf {ty : Ty} {c : Cell} {f : List CtxCell} : c ∈ slotsOf ty f ↔ (ty, c) ∈ slotsIn f := by
  induction f with
  | nil => simp [slotsOf, slotsIn]
  | cons x f ih =>
    cases x with
    | obj u d =>
      rw [slotsIn_obj, slotsOf_consObj, List.mem_append, List.mem_cons, ih]
      by_cases hu : u = ty
      · simp [hu]
      · have : ¬ ty = u := fun h => hu h.symm
        simp [hu, this]
    | da k ns =>
      rw [slotsIn_da, slotsOf_consDa, List.mem_append, List.mem_append, ih]
      simp only [List.mem_map, List.mem_filter, decide_eq_true_eq]
      constructor
      · rintro (⟨⟨u, d⟩, ⟨h1, rfl⟩, rfl⟩ | h)
        · exact Or.inl h1
        · exact Or.inr h
      · rintro (h | h)
        · exact Or.inl ⟨_, ⟨h, rfl⟩, rfl⟩
        · exact Or.inr h

theorem mem_cellsOf {ty : Ty} {id : Id} {v : Val} {fs : List (List CtxCell)} : some (id, v) ∈ cellsOf ty fs ↔ Stored ty id v fs := by
  simp only [cellsOf, List.mem_flatMap, Stored, mem_slotsOf]

theorem avail_eq_cells (ty : Ty) (id : Id) (fs : List (List CtxCell)) : avail ty id fs = (cellsOf ty fs).head?.bind (Cell.hasValue · id) := by
  unfold avail; rw [boundCell_eq_head]

end Leaf
