import Verif.LoadLemmas

/-!
# Objects stored anywhere in the active scopes
-/

namespace Leaf

/-- All slots of a context, nodes of its allocator included, with their types. -/
def slotsIn (f : List CtxCell) : List (Ty × Cell) := f.flatMap fun
  | .obj t c => [(t, c)]
  | .da _ ns => ns

/-- An object `v` of type `ty` for error `id` is stored in one of the scopes. -/
def Stored (ty : Ty) (id : Id) (v : Val) (fs : List (List CtxCell)) : Prop := ∃ f ∈ fs, (ty, some (id, v)) ∈ slotsIn f

theorem slotsIn_append (f g : List CtxCell) : slotsIn (f ++ g) = slotsIn f ++ slotsIn g := by simp [slotsIn]
theorem slotsIn_obj (t : Ty) (c : Cell) (g : List CtxCell) : slotsIn (.obj t c :: g) = (t, c) :: slotsIn g := by simp [slotsIn]
theorem slotsIn_da (k : Id) (ns : List (Ty × Cell)) (g : List CtxCell) : slotsIn (.da k ns :: g) = ns ++ slotsIn g := by simp [slotsIn]
theorem slotsIn_nil : slotsIn [] = [] := rfl

theorem stored_nil {ty : Ty} {id : Id} {v : Val} : ¬ Stored ty id v [] := by rintro ⟨f, hf, _⟩; simp at hf

theorem stored_empty {spec : List CellTy} {ty : Ty} {x : Id × Val} : (ty, some x) ∉ slotsIn (spec.map CellTy.empty) := by
  induction spec with
  | nil => simp [slotsIn_nil]
  | cons t spec ih =>
    intro h
    cases t <;> simp [CellTy.empty, slotsIn_obj, slotsIn_da] at h <;> exact ih h

theorem stored_cons {ty : Ty} {id : Id} {v : Val} {f : List CtxCell} {fs : List (List CtxCell)} :
    Stored ty id v (f :: fs) ↔ (ty, some (id, v)) ∈ slotsIn f ∨ Stored ty id v fs := by
  simp [Stored]

theorem stored_append {ty : Ty} {id : Id} {v : Val} {fs gs : List (List CtxCell)} :
    Stored ty id v (fs ++ gs) ↔ Stored ty id v fs ∨ Stored ty id v gs := by
  induction fs with
  | nil => simp [stored_nil]
  | cons f fs ih => rw [List.cons_append, stored_cons, stored_cons, ih, or_assoc]

theorem stored_setBound {t ty : Ty} {k : Id} {x : Val} {c c0 : Cell} {fs : List (List CtxCell)} (hb : boundCell ty fs = some c0)
    (h : Stored t k x (setBound ty c fs)) : Stored t k x fs ∨ (t = ty ∧ c = some (k, x)) := by
  obtain ⟨inner, f, outer, h1, _, h3, h4⟩ := setBound_split hb
  rw [h4 c] at h
  rw [h1]
  rw [stored_append, stored_cons] at h ⊢
  rcases h with h | h | h
  · exact Or.inl (Or.inl h)
  · rcases setFrame_split h3 with ⟨pre, post, e1, e2⟩ | ⟨pre, k', n1, n2, post, e1, e2⟩
    · rw [e2 c] at h
      rw [e1]
      simp only [slotsIn_append, slotsIn_obj, List.mem_append, List.mem_cons, Prod.mk.injEq] at h ⊢
      rcases h with h | ⟨h, h'⟩ | h
      · exact Or.inl (Or.inr (Or.inl (Or.inl h)))
      · exact Or.inr ⟨h, h'.symm⟩
      · exact Or.inl (Or.inr (Or.inl (Or.inr (Or.inr h))))
    · rw [e2 c] at h
      rw [e1]
      simp only [slotsIn_append, slotsIn_da, List.mem_append, List.mem_cons, Prod.mk.injEq] at h ⊢
      rcases h with h | (h | ⟨h, h'⟩ | h) | h
      · exact Or.inl (Or.inr (Or.inl (Or.inl h)))
      · exact Or.inl (Or.inr (Or.inl (Or.inr (Or.inl (Or.inl h)))))
      · exact Or.inr ⟨h, h'.symm⟩
      · exact Or.inl (Or.inr (Or.inl (Or.inr (Or.inl (Or.inr (Or.inr h))))))
      · exact Or.inl (Or.inr (Or.inl (Or.inr (Or.inr h))))
  · exact Or.inl (Or.inr (Or.inr h))

theorem stored_append_node {t ty : Ty} {k : Id} {x : Val} {c : Cell} {k0 k' : Id} {ns : List (Ty × Cell)} {fs : List (List CtxCell)}
    (hb : boundDa fs = some (k0, ns)) (h : Stored t k x (setBoundDa k' (ns ++ [(ty, c)]) fs)) : Stored t k x fs ∨ (t = ty ∧ c = some (k, x)) := by
  obtain ⟨inner, pre, post, outer, h1, h2, h3⟩ := setBoundDa_split hb
  rw [h3] at h
  rw [h1]
  simp only [stored_append, stored_cons, slotsIn_append, slotsIn_da, List.mem_append, List.mem_cons, List.not_mem_nil, or_false, Prod.mk.injEq] at h ⊢
  rcases h with h | (h | (h | ⟨h, h'⟩) | h) | h
  · exact Or.inl (Or.inl h)
  · exact Or.inl (Or.inr (Or.inl (Or.inl h)))
  · exact Or.inl (Or.inr (Or.inl (Or.inr (Or.inl h))))
  · exact Or.inr ⟨h, h'.symm⟩
  · exact Or.inl (Or.inr (Or.inl (Or.inr (Or.inr h))))
  · exact Or.inl (Or.inr (Or.inr h))

theorem stored_putObj {cfg : Cfg} {keep : Bool} {id : Id} {ty : Ty} {v : Val} {fs : List (List CtxCell)} {t : Ty} {k : Id} {x : Val}
    (h : Stored t k x (putObj cfg keep id ty v fs)) : Stored t k x fs ∨ (t = ty ∧ k = id ∧ x = v) := by
  unfold putObj at h
  split at h
  · rename_i p hp
    split at h
    · rcases stored_setBound hp h with h | ⟨h1, h⟩
      · exact Or.inl h
      · exact Or.inr ⟨h1, (Prod.mk.inj (Option.some.inj h)).1.symm, (Prod.mk.inj (Option.some.inj h)).2.symm⟩
    · exact Or.inl h
  · split at h
    · split at h
      · rename_i hd
        rcases stored_append_node hd h with h | ⟨h1, h⟩
        · exact Or.inl h
        · exact Or.inr ⟨h1, (Prod.mk.inj (Option.some.inj h)).1.symm, (Prod.mk.inj (Option.some.inj h)).2.symm⟩
      · exact Or.inl h
    · exact Or.inl h

theorem hasValue_eq_some {c : Cell} {id : Id} {v : Val} : c.hasValue id = some v ↔ c = some (id, v) := by
  cases c with
  | none => simp [Cell.hasValue]
  | some p =>
    obtain ⟨k, x⟩ := p
    simp only [Cell.hasValue, Option.some.injEq, Prod.mk.injEq]
    split
    · rename_i h; simp [h]
    · rename_i h; simp [h]

theorem stored_unloadObj {cfg : Cfg} {id : Id} {ty : Ty} {c : Cell} {fs : List (List CtxCell)} {t : Ty} {k : Id} {x : Val}
    (h : Stored t k x (unloadObj cfg id ty c fs)) : Stored t k x fs ∨ (k = id ∧ t = ty ∧ c = some (id, x)) := by
  unfold unloadObj at h
  split at h
  · rename_i v hv
    rw [hasValue_eq_some] at hv
    rcases stored_putObj h with h | ⟨h1, h2, h3⟩
    · exact Or.inl h
    · exact Or.inr ⟨h2, h1, by rw [hv, h3]⟩
  · exact Or.inl h

theorem stored_unloadDaFs {cfg : Cfg} {id : Id} {ns : List (Ty × Cell)} {fs : List (List CtxCell)} {t : Ty} {k : Id} {x : Val}
    (h : Stored t k x (unloadDaFs cfg id ns fs)) : Stored t k x fs ∨ (k = id ∧ (t, some (id, x)) ∈ ns) := by
  induction ns generalizing fs with
  | nil => exact Or.inl h
  | cons n ns ih =>
    obtain ⟨ty, c⟩ := n
    rcases ih h with h | ⟨h1, h2⟩
    · rcases stored_unloadObj h with h | ⟨h1, h2, h3⟩
      · exact Or.inl h
      · exact Or.inr ⟨h1, by simp [h2, h3]⟩
    · exact Or.inr ⟨h1, by simp [h2]⟩

/-- Only objects of error `id` leave the scope. -/
theorem stored_unloadFs {cfg : Cfg} {id : Id} {cs : List CtxCell} {fs : List (List CtxCell)} {t : Ty} {k : Id} {x : Val}
    (h : Stored t k x (unloadFs cfg id cs fs)) : Stored t k x fs ∨ (k = id ∧ Stored t id x [cs]) := by
  induction cs with
  | nil => exact Or.inl h
  | cons c cs ih =>
    cases c with
    | obj ty c =>
      rcases stored_unloadObj h with h | ⟨h1, h2, h3⟩
      · rcases ih h with h | ⟨h1, h2⟩
        · exact Or.inl h
        · refine Or.inr ⟨h1, ?_⟩
          simp only [stored_cons, slotsIn_obj, List.mem_cons, stored_nil, or_false] at h2 ⊢
          exact Or.inr h2
      · refine Or.inr ⟨h1, ?_⟩
        simp only [stored_cons, slotsIn_obj, List.mem_cons, stored_nil, or_false]
        exact Or.inl (by rw [h2, h3])
    | da key ns =>
      rcases stored_unloadDaFs h with h | ⟨h1, h2⟩
      · rcases ih h with h | ⟨h1, h2⟩
        · exact Or.inl h
        · refine Or.inr ⟨h1, ?_⟩
          simp only [stored_cons, slotsIn_da, List.mem_append, stored_nil, or_false] at h2 ⊢
          exact Or.inr h2
      · refine Or.inr ⟨h1, ?_⟩
        simp only [stored_cons, slotsIn_da, List.mem_append, stored_nil, or_false]
        exact Or.inl h2

theorem slotsIn_tys (f : List CtxCell) : (slotsIn f).map Prod.fst = frameTys f := by
  induction f with
  | nil => rfl
  | cons c f ih =>
    rw [frameTys_cons, ← ih]
    cases c <;> simp [slotsIn, CtxCell.tys]

/-- The slot found by type is among the slots. -/
theorem nodeCell_mem {ty : Ty} {ns : List (Ty × Cell)} {c : Cell} (h : nodeCell ty ns = some c) : (ty, c) ∈ ns := by
  induction ns with
  | nil => simp [nodeCell] at h
  | cons n ns ih =>
    obtain ⟨t, d⟩ := n
    simp only [nodeCell] at h
    split at h
    · rename_i ht; simp only [Option.some.injEq] at h; simp [ht, h]
    · exact List.mem_cons_of_mem _ (ih h)

theorem frameCell_mem {ty : Ty} {f : List CtxCell} {c : Cell} (h : frameCell ty f = some c) : (ty, c) ∈ slotsIn f := by
  induction f with
  | nil => simp [frameCell] at h
  | cons x f ih =>
    cases x with
    | obj t d =>
      rw [slotsIn_obj]
      simp only [frameCell] at h
      split at h
      · rename_i ht; simp only [Option.some.injEq] at h; simp [ht, h]
      · exact List.mem_cons_of_mem _ (ih h)
    | da k ns =>
      rw [slotsIn_da]
      simp only [frameCell] at h
      split at h
      · rename_i c' hc
        simp only [Option.some.injEq] at h
        subst h
        exact List.mem_append_left _ (nodeCell_mem hc)
      · exact List.mem_append_right _ (ih h)

theorem boundCell_mem {ty : Ty} {fs : List (List CtxCell)} {c : Cell} (h : boundCell ty fs = some c) : ∃ f ∈ fs, (ty, c) ∈ slotsIn f := by
  induction fs with
  | nil => simp [boundCell] at h
  | cons f fs ih =>
    simp only [boundCell] at h
    split at h
    · rename_i c' hc
      simp only [Option.some.injEq] at h
      subst h
      exact ⟨f, by simp, frameCell_mem hc⟩
    · obtain ⟨g, hg, hm⟩ := ih h
      exact ⟨g, by simp [hg], hm⟩

theorem avail_stored {ty : Ty} {id : Id} {fs : List (List CtxCell)} {v : Val} (h : avail ty id fs = some v) : Stored ty id v fs := by
  unfold avail at h
  cases hb : boundCell ty fs with
  | none => simp [hb] at h
  | some c =>
    simp only [hb, Option.bind_some] at h
    rw [hasValue_eq_some] at h
    subst h
    exact boundCell_mem hb

/-- Types of which the scope has no object for `id` are not affected by unloading. -/
theorem boundCell_unloadObj_none {cfg : Cfg} {id : Id} {ty : Ty} {c : Cell} {fs : List (List CtxCell)} {t : Ty}
    (h : t = ty → c.hasValue id = none) : boundCell t (unloadObj cfg id ty c fs) = boundCell t fs := by
  unfold unloadObj
  split
  · rename_i v hv
    refine boundCell_putObj_ne _ _ _ _ _ ?_
    intro e
    rw [h e] at hv
    simp at hv
  · rfl

theorem boundCell_unloadDaFs_none {cfg : Cfg} {id : Id} {ns : List (Ty × Cell)} {fs : List (List CtxCell)} {t : Ty}
    (h : ∀ x, (t, some (id, x)) ∉ ns) : boundCell t (unloadDaFs cfg id ns fs) = boundCell t fs := by
  induction ns generalizing fs with
  | nil => rfl
  | cons n ns ih =>
    obtain ⟨ty, c⟩ := n
    simp only [unloadDaFs]
    rw [ih (fun x hx => h x (by simp [hx])), boundCell_unloadObj_none]
    rintro rfl
    cases hc : c.hasValue id with
    | none => rfl
    | some x =>
      rw [hasValue_eq_some] at hc
      exact absurd (by simp [hc]) (h x)

theorem boundCell_unloadFs_none {cfg : Cfg} {id : Id} {cs : List CtxCell} {fs : List (List CtxCell)} {t : Ty}
    (h : ∀ x, (t, some (id, x)) ∉ slotsIn cs) : boundCell t (unloadFs cfg id cs fs) = boundCell t fs := by
  induction cs with
  | nil => rfl
  | cons c cs ih =>
    cases c with
    | obj ty c =>
      simp only [slotsIn_obj, List.mem_cons, not_or] at h
      simp only [unloadFs, unloadCellFs]
      rw [boundCell_unloadObj_none, ih (fun x => (h x).2)]
      rintro rfl
      cases hc : c.hasValue id with
      | none => rfl
      | some x =>
        rw [hasValue_eq_some] at hc
        exact absurd (by simp [hc]) (h x).1
    | da k ns =>
      simp only [slotsIn_da, List.mem_append, not_or] at h
      simp only [unloadFs, unloadCellFs]
      rw [boundCell_unloadDaFs_none (fun x => (h x).1), ih (fun x => (h x).2)]

/-! ### Nothing is lost except objects of other errors that are replaced -/

theorem kept_setBound {t ty : Ty} {k : Id} {x : Val} {c c0 : Cell} {fs : List (List CtxCell)} (hb : boundCell ty fs = some c0)
    (h : Stored t k x fs) : Stored t k x (setBound ty c fs) ∨ (t = ty ∧ c0 = some (k, x)) := by
  obtain ⟨inner, f, outer, h1, _, h3, h4⟩ := setBound_split hb
  rw [h4 c]
  rw [h1] at h
  rw [stored_append, stored_cons] at h ⊢
  rcases h with h | h | h
  · exact Or.inl (Or.inl h)
  · rcases setFrame_split h3 with ⟨pre, post, e1, e2⟩ | ⟨pre, k', n1, n2, post, e1, e2⟩
    · rw [e2 c]
      rw [e1] at h
      simp only [slotsIn_append, slotsIn_obj, List.mem_append, List.mem_cons, Prod.mk.injEq] at h ⊢
      rcases h with h | ⟨h, h'⟩ | h
      · exact Or.inl (Or.inr (Or.inl (Or.inl h)))
      · exact Or.inr ⟨h, h'.symm⟩
      · exact Or.inl (Or.inr (Or.inl (Or.inr (Or.inr h))))
    · rw [e2 c]
      rw [e1] at h
      simp only [slotsIn_append, slotsIn_da, List.mem_append, List.mem_cons, Prod.mk.injEq] at h ⊢
      rcases h with h | (h | ⟨h, h'⟩ | h) | h
      · exact Or.inl (Or.inr (Or.inl (Or.inl h)))
      · exact Or.inl (Or.inr (Or.inl (Or.inr (Or.inl (Or.inl h)))))
      · exact Or.inr ⟨h, h'.symm⟩
      · exact Or.inl (Or.inr (Or.inl (Or.inr (Or.inl (Or.inr (Or.inr h))))))
      · exact Or.inl (Or.inr (Or.inl (Or.inr (Or.inr h))))
  · exact Or.inl (Or.inr (Or.inr h))

theorem kept_append_node {t ty : Ty} {k : Id} {x : Val} {c : Cell} {k0 k' : Id} {ns : List (Ty × Cell)} {fs : List (List CtxCell)}
    (hb : boundDa fs = some (k0, ns)) (h : Stored t k x fs) : Stored t k x (setBoundDa k' (ns ++ [(ty, c)]) fs) := by
  obtain ⟨inner, pre, post, outer, h1, h2, h3⟩ := setBoundDa_split hb
  rw [h3]
  rw [h1] at h
  simp only [stored_append, stored_cons, slotsIn_append, slotsIn_da, List.mem_append, List.mem_cons, List.not_mem_nil, or_false, Prod.mk.injEq] at h ⊢
  rcases h with h | (h | h | h) | h
  · exact Or.inl h
  · exact Or.inr (Or.inl (Or.inl h))
  · exact Or.inr (Or.inl (Or.inr (Or.inl (Or.inl h))))
  · exact Or.inr (Or.inl (Or.inr (Or.inr h)))
  · exact Or.inr (Or.inr h)

theorem kept_putObj {cfg : Cfg} {id : Id} {ty : Ty} {v : Val} {fs : List (List CtxCell)} {t : Ty} {k : Id} {x : Val}
    (h : Stored t k x fs) : Stored t k x (putObj cfg true id ty v fs) ∨ (t = ty ∧ k ≠ id ∧ avail t k fs = some x) := by
  unfold putObj
  split
  · rename_i p hp
    split
    · rename_i hk
      rcases kept_setBound (c := some (id, v)) hp h with h | ⟨h1, h2⟩
      · exact Or.inl h
      · subst h1
        subst h2
        refine Or.inr ⟨rfl, ?_, ?_⟩
        · rintro rfl; simp [Cell.hasValue] at hk
        · unfold avail; rw [hp]; simp [Cell.hasValue]
    · exact Or.inl h
  · split
    · split
      · rename_i hd
        exact Or.inl (kept_append_node hd h)
      · exact Or.inl h
    · exact Or.inl h

theorem kept_unloadObj {cfg : Cfg} {id : Id} {ty : Ty} {c : Cell} {fs : List (List CtxCell)} {t : Ty} {k : Id} {x : Val}
    (h : Stored t k x fs) : Stored t k x (unloadObj cfg id ty c fs) ∨ (t = ty ∧ k ≠ id ∧ avail t k fs = some x ∧ ∃ v, c = some (id, v)) := by
  unfold unloadObj
  split
  · rename_i v hv
    rw [hasValue_eq_some] at hv
    rcases kept_putObj (cfg := cfg) (id := id) (ty := ty) (v := v) h with h | ⟨h1, h2, h3⟩
    · exact Or.inl h
    · exact Or.inr ⟨h1, h2, h3, v, hv⟩
  · exact Or.inl h

theorem kept_unloadDaFs {cfg : Cfg} {id : Id} {ns : List (Ty × Cell)} {fs : List (List CtxCell)} {t : Ty} {k : Id} {x : Val}
    (h : Stored t k x fs) :
    Stored t k x (unloadDaFs cfg id ns fs) ∨ (k ≠ id ∧ avail t k fs = some x ∧ ∃ v, (t, some (id, v)) ∈ ns) := by
  induction ns generalizing fs with
  | nil => exact Or.inl h
  | cons n ns ih =>
    obtain ⟨ty, c⟩ := n
    rcases kept_unloadObj (cfg := cfg) (id := id) (ty := ty) (c := c) h with h | ⟨h1, h2, h3, v, h4⟩
    · rcases ih h with h | ⟨h1, h2, v, h3⟩
      · exact Or.inl h
      · exact Or.inr ⟨h1, avail_unloadObj_other cfg h1 ty c t fs h2, v, by simp [h3]⟩
    · exact Or.inr ⟨h2, h3, v, by simp [h1, h4]⟩

theorem kept_unloadFs {cfg : Cfg} {id : Id} {cs : List CtxCell} {fs : List (List CtxCell)} {t : Ty} {k : Id} {x : Val} (h : Stored t k x fs) :
    Stored t k x (unloadFs cfg id cs fs) ∨ (k ≠ id ∧ avail t k fs = some x ∧ ∃ v, Stored t id v [cs]) := by
  induction cs with
  | nil => exact Or.inl h
  | cons c cs ih =>
    have lift : ∀ v, Stored t id v [cs] → Stored t id v [c :: cs] := by
      intro v hv
      simp only [stored_cons, stored_nil, or_false] at hv ⊢
      cases c with
      | obj ty c => rw [slotsIn_obj]; exact List.mem_cons_of_mem _ hv
      | da k ns => rw [slotsIn_da]; exact List.mem_append_right _ hv
    rcases ih with h | ⟨h1, h2, v, h3⟩
    · cases c with
      | obj ty c =>
        rcases kept_unloadObj (cfg := cfg) (id := id) (ty := ty) (c := c) h with h | ⟨h1, h2, h3, v, h4⟩
        · exact Or.inl h
        · refine Or.inr ⟨h2, avail_unloadFs_other cfg h2 cs t fs h3, v, ?_⟩
          simp [stored_cons, slotsIn_obj, stored_nil, h1, h4]
      | da key ns =>
        rcases kept_unloadDaFs (cfg := cfg) (id := id) (ns := ns) h with h | ⟨h2, h3, v, h4⟩
        · exact Or.inl h
        · refine Or.inr ⟨h2, avail_unloadFs_other cfg h2 cs t fs h3, v, ?_⟩
          simp [stored_cons, slotsIn_da, stored_nil, h4]
    · exact Or.inr ⟨h1, h2, v, lift v h3⟩

end Leaf
