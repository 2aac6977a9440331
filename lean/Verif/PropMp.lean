import Verif.MpModel

/-!
# C65: the compile-time list functions
-/

namespace Leaf
open Mp

/-! ## Proofs -/

section
variable {α : Type} [DecidableEq α]

omit [DecidableEq α] in
theorem Mp.append_eq (ls : List (List α)) : append ls = ls.flatten := by
  induction h : ls.length generalizing ls with
  | zero => rw [List.length_eq_zero_iff.mp h]; simp [append]
  | succ n ih =>
    match ls, h with
    | [l], _ => simp [append]
    | l1 :: l2 :: lr, h =>
      rw [append, ih _ (by simpa using h)]
      simp

theorem Mp.setPushBack_eq (l u : List α) (hu : u.Nodup) :
    setPushBack u l = some (l.foldl (fun acc x => if x ∈ acc then acc else acc ++ [x]) u) := by
  induction l generalizing u with
  | nil => rfl
  | cons x l ih =>
    simp only [setPushBack, setContains, hu, if_true, Option.bind_eq_bind, Option.bind_some, List.foldl_cons]
    by_cases hx : x ∈ u
    · simp only [hx, decide_true, mpIf, if_true]
      exact ih u hu
    · simp only [hx, decide_false, mpIf, if_false]
      refine ih _ ?_
      rw [List.nodup_append]
      refine ⟨hu, by simp, fun a ha b hb => ?_⟩
      rw [List.mem_singleton] at hb
      subst hb
      exact fun e => hx (e ▸ ha)

omit [DecidableEq α] in
theorem Mp.removeIf_eq (l : List α) (p : α → Bool) : removeIf l p = l.filter (fun x => !p x) := by
  rw [removeIf, append_eq, List.flatten_cons, List.nil_append]
  induction l with
  | nil => rfl
  | cons x l ih => rw [List.map_cons, List.flatten_cons, ih]; cases h : p x <;> simp [mpIf, h]

end

theorem Mp.appendSeq_range (m n : Nat) : appendSeq (List.range m) (List.range n) = List.range (m + n) := by
  rw [appendSeq, List.range_add, List.length_range]
  congr 1
  refine List.map_congr_left fun x _ => Nat.add_comm x m

mutual
theorem Mp.fwd_eq : ∀ t : HTree, fwd t = t.mpArgs
  | .fn _ _ => rfl
  | .tup ts => by rw [fwd, append_eq, fwdAll_eq ts, HTree.mpArgs]
theorem Mp.fwdAll_eq : ∀ ts : List HTree, (fwdAll ts).flatten = mpArgsAll ts
  | [] => rfl
  | t :: ts => by rw [fwdAll, List.flatten_cons, fwdAll_eq ts, fwd_eq t, mpArgsAll]
end

/-! ## The properties -/

section
variable {α : Type} [DecidableEq α]

omit [DecidableEq α] in
/-- **C65, `mp_append`.** The concatenation of the lists. -/
theorem C65_append (ls : List (List α)) : Mp.append ls = ls.flatten := append_eq ls

/-- **C65, `mp_unique`.** It can be instantiated for every list of types; the result has the same elements, each once, in the order in which they occur first. -/
theorem C65_unique (l : List α) :
    ∃ u, Mp.unique l = some u ∧ u.Nodup ∧ (∀ x, x ∈ u ↔ x ∈ l) ∧ ∀ x ∈ l, ∀ y, u.idxOf x < u.idxOf y ↔ l.idxOf x < l.idxOf y := by
  have h : Mp.unique l = some (mpUnique l) := setPushBack_eq l [] (by simp)
  refine ⟨_, h, ?_, mem_mpUnique l, fun x hx y => idxOf_mpUnique_lt l x y hx⟩
  clear h
  induction l with
  | nil => simp [mpUnique]
  | cons x l ih => rw [mpUnique_cons]; exact List.nodup_cons.mpr ⟨by simp, ih.filter _⟩

omit [DecidableEq α] in
/-- **C65, `mp_remove_if`.** The elements without the property, in order. -/
theorem C65_remove_if (l : List α) (p : α → Bool) : Mp.removeIf l p = l.filter (fun x => !p x) := removeIf_eq l p

omit [DecidableEq α] in
/-- **C65, `mp_first`, `mp_rest`.** They take a list apart; they cannot be instantiated exactly for the empty list. The arguments of a handler with `operator()` are those of the member function, without the object
(function_traits.hpp:48). -/
theorem C65_first_rest (l : List α) :
    (∀ t ts, (Mp.first l = some t ∧ Mp.rest l = some ts) ↔ l = t :: ts) ∧ (Mp.first l = none ↔ l = []) ∧ (Mp.rest l = none ↔ l = []) := by
  cases l <;> simp [Mp.first, Mp.rest]

example : Mp.first [3, 1, 3] = some 3 ∧ Mp.rest [3, 1, 3] = some [1, 3] := by decide

/-- **C65, `make_index_sequence`.** The numbers below `n`, in order. -/
theorem C65_sequence (n : Nat) : Mp.makeSeq n = List.range n := by
  induction n using Nat.strongRecOn with
  | ind n ih =>
    rw [makeSeq]
    split
    · simp_all
    · split
      · simp_all [List.range_succ]
      · simp only [ih (n / 2) (by omega), ih (n % 2) (by omega), appendSeq_range]
        congr 1
        omega

/-- **C65, `type_index`.** The position of the type in the list; if the type occurs more than once, the first one. It can be instantiated exactly if the type occurs. -/
theorem C65_type_index (t : α) (l : List α) :
    (Mp.typeIndex t l = none ↔ t ∉ l) ∧ ∀ i, Mp.typeIndex t l = some i ↔ l[i]? = some t ∧ ∀ j < i, l[j]? ≠ some t := by
  induction l with
  | nil => simp [typeIndex]
  | cons a l ih =>
    by_cases h : a = t
    · subst h
      simp only [typeIndex, if_true, List.mem_cons, true_or, not_true, reduceCtorEq, iff_self, true_and, Option.some.injEq]
      intro i
      constructor
      · rintro rfl; simp
      · rintro ⟨_, h2⟩
        cases i with
        | zero => rfl
        | succ i => exact absurd rfl (h2 0 (Nat.succ_pos i))
    · have h' : ¬ t = a := fun e => h e.symm
      simp only [typeIndex, h, if_false, Option.map_eq_none_iff, ih.1, List.mem_cons, h', false_or, iff_self, true_and]
      intro i
      cases i with
      | zero =>
        simp only [Option.map_eq_some_iff, List.getElem?_cons_zero, Option.some.injEq, h, false_and, iff_false, not_exists, not_and]
        intro x _; omega
      | succ i =>
        have : (Option.map (1 + ·) (typeIndex t l) = some (i + 1)) ↔ typeIndex t l = some i := by
          cases typeIndex t l with
          | none => simp
          | some x => simp only [Option.map_some, Option.some.injEq]; omega
        rw [this, ih.2 i]
        simp only [List.getElem?_cons_succ]
        refine and_congr_right fun _ => ⟨fun hj j hlt => ?_, fun hj j hlt => ?_⟩
        · cases j with
          | zero => simpa using h
          | succ j => simpa using hj j (by omega)
        · simpa using hj (j + 1) (by omega)

end

/-- **C65, contexts.** What the templates compute for any handlers, in tuples or not, is the list of slots used throughout this development (its properties: C17); the
computation never fails. -/
theorem C65_context (cfg : Cfg) (ts : List HTree) : Mp.fromHandlers cfg ts = some (deduce cfg ((flatAll ts).map Prod.snd)) := by
  have h : ∀ l : List CellTy, Mp.unique l = some (mpUnique l) := fun l => setPushBack_eq l [] (by simp)
  rw [fromHandlers, deduceTypes, append_eq, append_eq, fwdAll_eq, h]
  show some (removeIf _ _) = _
  rw [removeIf_eq, ← C16_same_slots]
  rfl

/-- **C65, finding a slot.** `find_in_tuple` and `std::get` with `tuple_type_index` give the slot of the type asked for, if the context has one. -/
theorem C65_find (ty : Ty) (s : Scope) : Mp.findInTuple ty s 0 = findCell ty s ∧ Mp.getSlot ty s = findCell ty s := by
  constructor
  · have key : ∀ n i, i + n = s.length → findInTuple ty s i = if i < s.length then findCell ty (s.drop i) else findInTuple ty s i := by
      intro n
      induction n with
      | zero => intro i h; simp [show ¬ i < s.length by omega]
      | succ n ih =>
        intro i h
        have hi : i < s.length := by omega
        have hs : s ≠ [] := by rintro rfl; simp at hi
        rw [if_pos hi, findInTuple, if_neg hs, List.drop_eq_getElem_cons hi, List.getElem?_eq_getElem hi, Option.bind_some]
        by_cases hl : i = s.length - 1
        · rw [if_pos hl]
          have hd : s.drop (i + 1) = [] := List.drop_eq_nil_of_le (by omega)
          rw [hd]
          cases s[i] with
          | obj t c => by_cases ht : t = ty <;> simp [dispatch, findCell, ht]
          | da k ns => rfl
        · rw [if_neg hl, dif_pos (by omega)]
          have := ih (i + 1) (by omega)
          rw [if_pos (by omega)] at this
          rw [this]
          cases s[i] with
          | obj t c => by_cases ht : t = ty <;> simp [dispatch, findCell, ht]
          | da k ns => rfl
    cases s with
    | nil => simp [findInTuple, findCell]
    | cons x xs => rw [key (x :: xs).length 0 (by simp), if_pos (by simp), List.drop_zero]
  · induction s with
    | nil => rfl
    | cons x xs ih =>
      cases x with
      | obj t c =>
        by_cases ht : t = ty
        · simp [getSlot, typeIndex, CtxCell.cellTy, findCell, ht]
        · rw [findCell, if_neg ht, ← ih]
          simp only [getSlot, List.map_cons, CtxCell.cellTy, typeIndex, CellTy.obj.injEq, ht, if_false]
          cases typeIndex (CellTy.obj ty) (xs.map CtxCell.cellTy) with
          | none => rfl
          | some i => simp [Nat.add_comm 1 i]
      | da k ns =>
        rw [findCell, ← ih]
        simp only [getSlot, List.map_cons, CtxCell.cellTy, typeIndex, reduceCtorEq, if_false]
        cases typeIndex (CellTy.obj ty) (xs.map CtxCell.cellTy) with
        | none => rfl
        | some i => simp [Nat.add_comm 1 i]

/-- Some computations. -/
example : Mp.unique [3, 1, 3, 2, 1] = some [3, 1, 2] ∧ Mp.makeSeq 5 = [0, 1, 2, 3, 4] ∧ Mp.typeIndex 2 [3, 1, 2] = some 2 ∧ Mp.typeIndex 7 [3, 1, 2] = none := by
  rw [C65_sequence]; decide

/-- A list with a repeated type is not a set: asking whether it contains a type would not compile. -/
example : Mp.setContains [1, 2, 1] 2 = none := rfl

/-- Handlers in nested tuples. -/
example : Mp.fromHandlers exCfg [.tup [.fn 0 [.req 10, .ptr 11], .tup [.fn 1 [.req 11]]], .fn 2 [.info]] = some [.obj 10, .obj 11] := by
  rw [C65_context]; decide

end Leaf
