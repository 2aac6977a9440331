import Verif.CommonModel
import Verif.PredModel

/-!
# C74: printing system errors; C75: LEAF's error codes and conditions
-/

namespace Leaf

/-- The C string `s`, in memory: no zeros in it, one after it, then anything. -/
def cString (s rest : List Nat) : Buf := s ++ 0 :: rest

theorem end_cString {s : List Nat} (h : 0 ∉ s) (rest : List Nat) : (cString s rest).end_ = some s.length := by
  induction s with
  | nil => simp [cString, Buf.end_]
  | cons c cs ih =>
    have hc : c ≠ 0 := fun e => h (by simp [e])
    have := ih fun hm => h (List.mem_cons_of_mem _ hm)
    simp only [cString, List.cons_append] at *
    simp [Buf.end_, hc, this]

theorem trim_last {s : List Nat} (c x : Nat) (rest : List Nat) :
    Buf.trim c (cString (s ++ [x]) rest, (s ++ [x]).length) = some (if x = c then (cString s (0 :: rest), s.length) else (cString (s ++ [x]) rest, (s ++ [x]).length)) := by
  have h1 : (cString (s ++ [x]) rest).before (s ++ [x]).length = some x := by simp [Buf.before, cString]
  unfold Buf.trim
  rw [h1]
  simp only [Option.bind_eq_bind, Option.bind_some]
  split
  · simp [cString]
  · rfl

theorem trim_empty (c : Nat) (rest : List Nat) : Buf.trim c (cString [] rest, 0) = none := rfl

theorem take_cString (s rest : List Nat) : (cString s rest).take s.length = s := by simp [cString]

/-! ## C74 -/

/-- What is left of a message: without `"\r\n"`, `"\n"` or `"\r"` at its end. -/
inductive Trimmed : List Nat → List Nat → Prop
  | crlf (t : List Nat) : Trimmed (t ++ [13, 10]) t
  | lf (t : List Nat) (h : ∀ u, t ≠ u ++ [13]) : Trimmed (t ++ [10]) t
  | cr (t : List Nat) : Trimmed (t ++ [13]) t
  | other (t : List Nat) (h : ∀ u, t ≠ u ++ [10] ∧ t ≠ u ++ [13]) : Trimmed t t

theorem split_last (s : List Nat) : s = [] ∨ ∃ t x, s = t ++ [x] := by
  rcases List.eq_nil_or_concat s with h | ⟨t, x, h⟩
  · exact .inl h
  · exact .inr ⟨t, x, by simpa using h⟩

/-- The message of the system is printed without the end of line at its end, and nothing outside of its buffer is read or written; unless the message is empty or consists of one line feed. -/
theorem C74_message_partial {s : List Nat} (h0 : 0 ∉ s) (h1 : s ≠ []) (h2 : s ≠ [10]) (rest : List Nat) : ∃ t, lastErrorMessage (cString s rest) = some t ∧ Trimmed s t := by
  unfold lastErrorMessage
  rw [end_cString h0]
  rcases split_last s with rfl | ⟨s, x, rfl⟩
  · exact absurd rfl h1
  simp only [Option.bind_eq_bind, Option.bind_some]
  rw [trim_last]
  simp only [Option.bind_some]
  have h0' : 0 ∉ s := fun h => h0 (List.mem_append_left _ h)
  split
  · rename_i hx
    subst hx
    rcases split_last s with rfl | ⟨s, y, rfl⟩
    · exact absurd rfl h2
    rw [trim_last]
    simp only [Option.bind_some]
    have h0'' : 0 ∉ s := fun h => h0' (List.mem_append_left _ h)
    split
    · rename_i hy
      subst hy
      refine ⟨s, ?_, by simpa using Trimmed.crlf s⟩
      rw [end_cString h0'']
      simp only [Option.bind_some, take_cString]
      rfl
    · rename_i hy
      refine ⟨s ++ [y], ?_, .lf _ ?_⟩
      · rw [end_cString h0']
        simp only [Option.bind_some, take_cString]
        rfl
      · intro u hu
        have := List.append_inj' hu rfl
        exact hy (by simpa using this.2)
  · rename_i hx
    rw [trim_last]
    simp only [Option.bind_some]
    split
    · rename_i hy
      subst hy
      refine ⟨s, ?_, .cr s⟩
      rw [end_cString h0']
      simp only [Option.bind_some, take_cString]
      rfl
    · rename_i hy
      refine ⟨s ++ [x], ?_, .other _ ?_⟩
      · rw [end_cString h0]
        simp only [Option.bind_some, take_cString]
        rfl
      · intro u
        constructor
        · intro hu
          exact hx (by simpa using (List.append_inj' hu rfl).2)
        · intro hu
          exact hy (by simpa using (List.append_inj' hu rfl).2)

theorem trimmed_unique {s t t' : List Nat} (h : Trimmed s t) (h' : Trimmed s t') : t = t' := by
  have e : ∀ {a b : List Nat} {x y : Nat}, a ++ [x] = b ++ [y] → a = b ∧ x = y := fun {a b x y} h => by
    have := List.append_inj' h rfl
    exact ⟨this.1, by simpa using this.2⟩
  have e2 : ∀ t : List Nat, t ++ [13, 10] = (t ++ [13]) ++ [10] := by simp
  generalize hs : s = s' at h'
  cases h with
  | crlf t =>
    cases h' with
    | crlf t' => simpa using hs
    | lf t' hn => rw [e2] at hs; exact absurd (e hs).1.symm (hn t)
    | cr t' => rw [e2] at hs; exact absurd (e hs).2 (by decide)
    | other t' hn => rw [e2] at hs; exact absurd hs.symm (hn _).1
  | lf t hn =>
    cases h' with
    | crlf t' => rw [e2] at hs; exact absurd (e hs).1 (hn t')
    | lf t' hn' => exact (e hs).1
    | cr t' => exact absurd (e hs).2 (by decide)
    | other t' hn' => exact absurd hs.symm (hn' _).1
  | cr t =>
    cases h' with
    | crlf t' => rw [e2] at hs; exact absurd (e hs).2 (by decide)
    | lf t' hn' => exact absurd (e hs).2 (by decide)
    | cr t' => exact (e hs).1
    | other t' hn' => exact absurd hs.symm (hn' _).2
  | other t hn =>
    cases h' with
    | crlf t' => rw [e2] at hs; exact absurd hs (hn _).1
    | lf t' hn' => exact absurd hs (hn _).1
    | cr t' => exact absurd hs (hn _).2
    | other t' hn' => exact hs

/-- What is printed, and that the buffer is freed, once, if one was allocated, whether or not the stream throws. -/
theorem C74_print_partial {num s : List Nat} (h0 : 0 ∉ s) (h1 : s ≠ []) (h2 : s ≠ [10]) (rest : List Nat) (room : Option Nat) {t : List Nat} (ht : Trimmed s t) :
    ∃ r, printLastError num (some (cString s rest)) room = some r ∧ r.allocated = 1 ∧ r.freed = 1 ∧
      (r.done = true → r.text = num ++ [44, 32, 34] ++ t ++ [34]) ∧ (r.done = false → ∃ k, room = some k ∧ r.text = (num ++ [44, 32, 34] ++ t ++ [34]).take k) := by
  obtain ⟨t', h, ht'⟩ := C74_message_partial h0 h1 h2 rest
  rw [trimmed_unique ht' ht] at h
  unfold printLastError
  simp only [h, Option.bind_eq_bind, Option.bind_some]
  cases room with
  | none => exact ⟨_, rfl, rfl, rfl, fun _ => rfl, fun h => by cases h⟩
  | some k =>
    simp only []
    split
    · exact ⟨_, rfl, rfl, rfl, fun _ => rfl, fun h => by cases h⟩
    · exact ⟨_, rfl, rfl, rfl, (fun h => by cases h), fun _ => ⟨k, rfl, rfl⟩⟩

/-- **Finding.** For a message that consists of one line feed (or of none), the character before the buffer is read. -/
theorem C74_refuted_short (num rest : List Nat) (room : Option Nat) : printLastError num (some (cString [10] rest)) room = none ∧ printLastError num (some (cString [] rest)) room = none :=
  ⟨rfl, rfl⟩

/-- **Finding.** For a number that has no message, nothing is printed at all, not even the number. -/
theorem C74_refuted_unknown (num : List Nat) (room : Option Nat) : printLastError num none room = some ⟨true, [], 0, 0⟩ := rfl

/-- "Access denied.\r\n", the end of line is not printed. -/
example : printLastError [53] (some (cString [65, 46, 13, 10] [7])) none = some ⟨true, [53, 44, 32, 34, 65, 46, 34], 1, 1⟩ ∧ Trimmed [65, 46, 13, 10] [65, 46] ∧
    0 ∉ [65, 46, 13, 10] := ⟨rfl, .crlf [65, 46], by decide⟩

/-- An `e_errno` is printed in the same form: as an `e_LastError` with the same number and message, if there is no end of line to remove. -/
theorem C74_errno {num s : List Nat} (h0 : 0 ∉ s) (h1 : s ≠ []) (h2 : s ≠ [10]) (ht : Trimmed s s) (rest : List Nat) :
    printLastError num (some (cString s rest)) none = some ⟨true, printErrno num s, 1, 1⟩ := by
  obtain ⟨t, e1, e2⟩ := C74_message_partial h0 h1 h2 rest
  have e : t = s := trimmed_unique e2 ht
  subst e
  simp only [printLastError, e1, Option.bind_eq_bind, Option.bind_some]
  rfl

/-- Number and message can be told from the text printed, as numbers contain no comma. -/
theorem C74_errno_readable {num num' : List Nat} (h : 44 ∉ num) (h' : 44 ∉ num') (msg msg' : List Nat) :
    printErrno num msg = printErrno num' msg' ↔ num = num' ∧ msg = msg' := by
  refine ⟨fun e => ?_, fun ⟨e1, e2⟩ => e1 ▸ e2 ▸ rfl⟩
  unfold printErrno at e
  replace e := List.append_cancel_right e
  induction num generalizing num' with
  | nil =>
    cases num' with
    | nil => exact ⟨rfl, by simpa using e⟩
    | cons x xs =>
      simp only [List.nil_append, List.cons_append, List.cons.injEq] at e
      exact absurd (e.1 ▸ List.mem_cons_self ..) h'
  | cons y ys ih =>
    cases num' with
    | nil =>
      simp only [List.nil_append, List.cons_append, List.cons.injEq] at e
      exact absurd (e.1 ▸ List.mem_cons_self ..) h
    | cons x xs =>
      simp only [List.cons_append, List.cons.injEq] at e
      obtain ⟨e1, e2⟩ := ih (fun k => h (List.mem_cons_of_mem _ k)) (fun k => h' (List.mem_cons_of_mem _ k)) (by simpa using e.2)
      exact ⟨by rw [e.1, e1], e2⟩

/-- `2, "No"`. -/
example : printErrno [50] [78, 111] = [50, 44, 32, 34, 78, 111, 34] ∧ 44 ∉ [50] ∧ 0 ∉ [78, 111] ∧ Trimmed [78, 111] [78, 111] :=
  ⟨by decide, by decide, by decide, .other _ fun u => by rcases u with _ | ⟨a, _ | ⟨b, u⟩⟩ <;> simp⟩

/-! ## C75 -/

section
variable (cats : Nat → Category) (hl : cats leafCat = leafCategory)
include hl

/-- The code made from an id equals a condition exactly if the category of the condition says so. -/
theorem C75_iff (id : Id) (cond : ErrorCond) : codeEqCond cats (toErrorCode id) cond = true ↔ cond.cat ≠ leafCat ∧ (cats cond.cat).ofCond (toErrorCode id) cond.value = true := by
  have hc : (cats (toErrorCode id).cat) = leafCategory := hl
  unfold codeEqCond
  rw [hc]
  by_cases h : cond.cat = leafCat
  · rw [h, hl]
    simp [leafCategory]
  · simp [leafCategory, h]

/-- It equals no condition of a category that has the functions of `std::error_category` (such as `std::generic_category()`). -/
theorem C75_standard (id : Id) (cond : ErrorCond) {dflt : Id → ErrorCond} (hs : cond.cat ≠ leafCat → cats cond.cat = stdCategory cond.cat dflt) : codeEqCond cats (toErrorCode id) cond = false := by
  rw [Bool.eq_false_iff]
  intro h
  obtain ⟨h1, h2⟩ := (C75_iff cats hl id cond).mp h
  rw [hs h1] at h2
  simp only [stdCategory, Bool.and_eq_true, beq_iff_eq, toErrorCode] at h2
  exact h1 h2.1.symm

/-- **Finding.** It does not even equal the condition it maps to, as codes of other categories do. -/
theorem C75_refuted_default (id : Id) : codeEqCond cats (toErrorCode id) (leafDefaultCondition (toErrorCode id)) = false := by
  rw [Bool.eq_false_iff]
  intro h
  exact ((C75_iff cats hl id _).mp h).1 rfl

/-- No code at all equals a condition of LEAF's category, unless the category of the code says so. -/
theorem C75_leaf_condition (code : ErrorCode) (v : Id) : codeEqCond cats code ⟨v, leafCat⟩ = (cats code.cat).ofCode code.value ⟨v, leafCat⟩ := by
  unfold codeEqCond
  simp only [hl]
  simp [leafCategory]

/-- So predicates on conditions, `match<condition<Enum>, ...>`, whose category has the functions of `std::error_category`, do not accept it, whatever the values listed. -/
theorem C75_match (id : Id) {dec : Val → ErrorCode} {enc : Val → ErrorCond} {dflt : Id → ErrorCond} (hs : ∀ v, (enc v).cat ≠ leafCat → cats (enc v).cat = stdCategory (enc v).cat dflt) {e : Val}
    (he : dec e = toErrorCode id) (v : Val) (vs : List Val) :
    (Predicate.match_ 0 (fun e v => codeEqCond cats (dec e) (enc v)) (.value v) (vs.map .value)).evalObj e = false := by
  have h1 : ∀ v, codeEqCond cats (dec e) (enc v) = false := fun v => by
    rw [he]
    exact C75_standard cats hl id (enc v) (hs v)
  change cmpValuePack _ e _ _ = false
  induction vs generalizing v with
  | nil => exact h1 v
  | cons x xs ih =>
    simp only [List.map_cons, cmpValuePack, cmpOne, h1, Bool.false_or]
    exact ih x

end

/-- As a message, all ids are the same. -/
theorem C75_message (id : Id) : leafMessage id = leafName := rfl

/-- Two categories besides LEAF's: one with the standard functions, and one whose conditions are equal to every code of LEAF's category. -/
def exCats : Nat → Category
  | 0 => leafCategory
  | 1 => stdCategory 1 fun v => ⟨v, 1⟩
  | _ => ⟨fun _ _ => false, fun code _ => code.cat == leafCat⟩

example : exCats leafCat = leafCategory ∧ codeEqCond exCats (toErrorCode 5#32) ⟨5#32, 2⟩ = true ∧ codeEqCond exCats (toErrorCode 5#32) ⟨5#32, 1⟩ = false ∧
    codeEqCond exCats ⟨5#32, 1⟩ ⟨5#32, 1⟩ = true ∧ codeEqCond exCats (toErrorCode 5#32) ⟨5#32, leafCat⟩ = false := ⟨rfl, by decide, by decide, by decide, by decide⟩

end Leaf
