import Verif.AbsFlow

/-!
# Where the abstract storage puts an object: decomposition lemmas
-/

namespace Leaf

theorem setNode_split {ty : Ty} {c : Cell} {ns : List (Ty × Cell)} (h : nodeCell ty ns = some c) :
    ∃ n1 n2, ns = n1 ++ (ty, c) :: n2 ∧ ∀ c', setNode ty c' ns = n1 ++ (ty, c') :: n2 := by
  induction ns with
  | nil => simp [nodeCell] at h
  | cons n ns ih =>
    obtain ⟨t, d⟩ := n
    by_cases ht : t = ty
    · simp only [nodeCell, ht, if_true, Option.some.injEq] at h
      exact ⟨[], ns, by simp [h, ht], by simp [setNode, ht]⟩
    · simp only [nodeCell, ht, if_false] at h
      obtain ⟨n1, n2, h1, h2⟩ := ih h
      exact ⟨(t, d) :: n1, n2, by simp [h1], by intro c'; simp [setNode, ht, h2 c']⟩

theorem setFrame_split {ty : Ty} {c : Cell} {f : List CtxCell} (h : frameCell ty f = some c) :
    (∃ pre post, f = pre ++ .obj ty c :: post ∧ ∀ c', setFrame ty c' f = pre ++ .obj ty c' :: post) ∨
    (∃ pre k n1 n2 post, f = pre ++ .da k (n1 ++ (ty, c) :: n2) :: post ∧
      ∀ c', setFrame ty c' f = pre ++ .da k (n1 ++ (ty, c') :: n2) :: post) := by
  induction f with
  | nil => simp [frameCell] at h
  | cons x f ih =>
    have lift : ∀ (h0 : frameCell ty f = some c) (h1 : ∀ c', setFrame ty c' (x :: f) = x :: setFrame ty c' f), 
        (∃ pre post, x :: f = pre ++ .obj ty c :: post ∧ ∀ c', setFrame ty c' (x :: f) = pre ++ .obj ty c' :: post) ∨
        (∃ pre k n1 n2 post, x :: f = pre ++ .da k (n1 ++ (ty, c) :: n2) :: post ∧
          ∀ c', setFrame ty c' (x :: f) = pre ++ .da k (n1 ++ (ty, c') :: n2) :: post) := by
      intro h0 h1
      rcases ih h0 with ⟨pre, post, e1, e2⟩ | ⟨pre, k, n1, n2, post, e1, e2⟩
      · exact Or.inl ⟨x :: pre, post, by simp [← e1], by intro c'; rw [h1, e2]; simp⟩
      · exact Or.inr ⟨x :: pre, k, n1, n2, post, by simp [← e1], by intro c'; rw [h1, e2]; simp⟩
    cases x with
    | obj t d =>
      by_cases ht : t = ty
      · simp only [frameCell, ht, if_true, Option.some.injEq] at h
        exact Or.inl ⟨[], f, by simp [h, ht], by simp [setFrame, ht]⟩
      · simp only [frameCell, ht, if_false] at h
        exact lift h (by simp [setFrame, ht])
    | da k ns =>
      cases hn : nodeCell ty ns with
      | some d =>
        simp only [frameCell, hn, Option.some.injEq] at h
        subst h
        obtain ⟨n1, n2, h1, h2⟩ := setNode_split hn
        exact Or.inr ⟨[], k, n1, n2, f, by simp [h1], by intro c'; simp [setFrame, hn, h2 c']⟩
      | none =>
        simp only [frameCell, hn] at h
        exact lift h (by simp [setFrame, hn])

theorem setBound_split {ty : Ty} {c : Cell} {fs : List (List CtxCell)} (h : boundCell ty fs = some c) :
    ∃ inner f outer, fs = inner ++ f :: outer ∧ (∀ s ∈ inner, ty ∉ frameTys s) ∧ frameCell ty f = some c ∧
      ∀ c', setBound ty c' fs = inner ++ setFrame ty c' f :: outer := by
  induction fs with
  | nil => simp [boundCell] at h
  | cons f fs ih =>
    cases hf : frameCell ty f with
    | some d =>
      simp only [boundCell, hf, Option.some.injEq] at h
      subst h
      exact ⟨[], f, fs, rfl, by simp, hf, by intro c'; simp [setBound, hf]⟩
    | none =>
      simp only [boundCell, hf] at h
      obtain ⟨inner, g, outer, h1, h2, h3, h4⟩ := ih h
      refine ⟨f :: inner, g, outer, by simp [h1], ?_, h3, by intro c'; simp [setBound, hf, h4 c']⟩
      intro s hs
      simp only [List.mem_cons] at hs
      rcases hs with rfl | hs
      · exact frameCell_none hf
      · exact h2 s hs

theorem boundCell_none {ty : Ty} {fs : List (List CtxCell)} (h : boundCell ty fs = none) : ∀ s ∈ fs, ty ∉ frameTys s := by
  induction fs with
  | nil => simp
  | cons f fs ih =>
    cases hf : frameCell ty f with
    | some d => simp [boundCell, hf] at h
    | none =>
      simp only [boundCell, hf] at h
      intro s hs
      simp only [List.mem_cons] at hs
      rcases hs with rfl | hs
      · exact frameCell_none hf
      · exact ih h s hs

theorem boundCell_eq_none {ty : Ty} {fs : List (List CtxCell)} (h : ∀ s ∈ fs, ty ∉ frameTys s) : boundCell ty fs = none := by
  induction fs with
  | nil => rfl
  | cons f fs ih =>
    have h1 := ih (fun s hs => h s (by simp [hs]))
    cases hf : frameCell ty f with
    | some d => exact absurd (frameCell_some_mem hf) (h f (by simp))
    | none => simp [boundCell, hf, h1]

theorem frameDa_none_iff (f : List CtxCell) : frameDa f = none ↔ ∀ k ns, CtxCell.da k ns ∉ f := by
  induction f with
  | nil => simp [frameDa]
  | cons x f ih =>
    cases x with
    | obj t c => simp [frameDa, ih]
    | da k ns =>
      simp only [frameDa, reduceCtorEq, List.mem_cons, not_or, false_iff, Classical.not_forall]
      exact ⟨k, ns, by simp⟩

theorem boundDa_none_iff (fs : List (List CtxCell)) : boundDa fs = none ↔ ∀ f ∈ fs, ∀ k ns, CtxCell.da k ns ∉ f := by
  induction fs with
  | nil => simp [boundDa]
  | cons f fs ih =>
    cases hf : frameDa f with
    | none =>
      have := (frameDa_none_iff f).mp hf
      simp only [boundDa, hf, ih, List.mem_cons, forall_eq_or_imp]
      exact ⟨fun h => ⟨this, h⟩, fun h => h.2⟩
    | some d =>
      simp only [boundDa, hf, List.mem_cons, forall_eq_or_imp, reduceCtorEq, false_iff, not_and]
      intro h
      rw [(frameDa_none_iff f).mpr h] at hf
      simp at hf

theorem setFrameDa_split {k : Id} {ns : List (Ty × Cell)} {f : List CtxCell} (h : frameDa f = some (k, ns)) :
    ∃ pre post, f = pre ++ .da k ns :: post ∧ ∀ k' ns', setFrameDa k' ns' f = pre ++ .da k' ns' :: post := by
  induction f with
  | nil => simp [frameDa] at h
  | cons x f ih =>
    cases x with
    | obj t c =>
      simp only [frameDa] at h
      obtain ⟨pre, post, h1, h2⟩ := ih h
      exact ⟨.obj t c :: pre, post, by simp [h1], by intro k' ns'; simp [setFrameDa, h2]⟩
    | da k0 ns0 =>
      simp only [frameDa, Option.some.injEq, Prod.mk.injEq] at h
      exact ⟨[], f, by simp [h], by simp [setFrameDa]⟩

theorem setBoundDa_split {k : Id} {ns : List (Ty × Cell)} {fs : List (List CtxCell)} (h : boundDa fs = some (k, ns)) :
    ∃ inner pre post outer, fs = inner ++ (pre ++ .da k ns :: post) :: outer ∧ (∀ s ∈ inner, ∀ k ns, CtxCell.da k ns ∉ s) ∧
      ∀ k' ns', setBoundDa k' ns' fs = inner ++ (pre ++ .da k' ns' :: post) :: outer := by
  induction fs with
  | nil => simp [boundDa] at h
  | cons f fs ih =>
    cases hf : frameDa f with
    | some d =>
      simp only [boundDa, hf, Option.some.injEq] at h
      subst h
      obtain ⟨pre, post, h1, h2⟩ := setFrameDa_split hf
      exact ⟨[], pre, post, fs, by simp [h1], by simp, by intro k' ns'; simp [setBoundDa, hf, h2]⟩
    | none =>
      simp only [boundDa, hf] at h
      obtain ⟨inner, pre, post, outer, h1, h2, h3⟩ := ih h
      refine ⟨f :: inner, pre, post, outer, by simp [h1], ?_, by intro k' ns'; simp [setBoundDa, hf, h3]⟩
      intro s hs
      simp only [List.mem_cons] at hs
      rcases hs with rfl | hs
      · exact (frameDa_none_iff _).mp hf
      · exact h2 s hs

end Leaf
