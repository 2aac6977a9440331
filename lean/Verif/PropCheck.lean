import Verif.CheckModel
import Verif.PropHandlers

/-!
# C69: which predicates are called, and what happens if one throws
-/

namespace Leaf

/-! ## Specification -/

section
variable (cfg : Cfg) (cells : List CtxCell) (id : Id) (ex : Option Exc)

/-- The first `j` arguments of handler `h` are suitable. -/
def FirstHold (h : List XArg) (j : Nat) : Prop := ∀ j', j' < j → ∀ a, h[j']? = some a → a.check cfg cells id ex = some true

/-- The handler is not suitable: one of its arguments is not, those before it are. -/
def Unsuitable (h : List XArg) : Prop := ∃ j a, h[j]? = some a ∧ a.check cfg cells id ex = some false ∧ FirstHold cfg cells id ex h j

/-- The predicate that is argument `j` of handler `i` has its turn, and is applied to `s`: the handlers before `i` are not suitable, the arguments before `j` are, and the object is there. -/
def Called (specs : List (List XArg)) (i j : Nat) (s : Subject) : Prop :=
  ∃ h a, specs[i]? = some h ∧ h[j]? = some a ∧ a.subject cfg cells id ex = some s ∧ FirstHold cfg cells id ex h j ∧
    ∀ i', i' < i → ∀ h', specs[i']? = some h' → Unsuitable cfg cells id ex h'

/-- The calls in the order of handlers and arguments. -/
def InOrder (l : List PredCall) : Prop := l.Pairwise fun a b => a.handler < b.handler ∨ (a.handler = b.handler ∧ a.arg < b.arg)


/-! ## Lemmas -/

variable {cfg cells id ex}

theorem firstHold_zero (h : List XArg) : FirstHold cfg cells id ex h 0 := fun _ hj => absurd hj (Nat.not_lt_zero _)

theorem firstHold_succ {a : XArg} {h : List XArg} {j : Nat} : FirstHold cfg cells id ex (a :: h) (j + 1) ↔ a.check cfg cells id ex = some true ∧ FirstHold cfg cells id ex h j := by
  constructor
  · intro hh
    exact ⟨hh 0 (Nat.succ_pos j) a rfl, fun j' hj b hb => hh (j' + 1) (Nat.succ_lt_succ hj) b hb⟩
  · rintro ⟨h1, h2⟩ j' hj b hb
    cases j' with
    | zero =>
      simp only [List.getElem?_cons_zero, Option.some.injEq] at hb
      rw [← hb]; exact h1
    | succ j' => exact h2 j' (Nat.lt_of_succ_lt_succ hj) b hb

theorem unsuitable_cons {a : XArg} {h : List XArg} :
    Unsuitable cfg cells id ex (a :: h) ↔ a.check cfg cells id ex = some false ∨ (a.check cfg cells id ex = some true ∧ Unsuitable cfg cells id ex h) := by
  constructor
  · rintro ⟨j, b, h1, h2, h3⟩
    cases j with
    | zero =>
      simp only [List.getElem?_cons_zero, Option.some.injEq] at h1
      subst h1
      exact Or.inl h2
    | succ j => exact Or.inr ⟨(firstHold_succ.mp h3).1, j, b, h1, h2, (firstHold_succ.mp h3).2⟩
  · rintro (h1 | ⟨h1, j, b, h2, h3, h4⟩)
    · exact ⟨0, a, rfl, h1, firstHold_zero _⟩
    · exact ⟨j + 1, b, h2, h3, firstHold_succ.mpr ⟨h1, h4⟩⟩

theorem checkArgsX_calls (i j0 : Nat) (as : List XArg) (c : PredCall) :
    c ∈ (checkArgsX cfg cells id ex i j0 as).1 ↔
      ∃ j a, as[j]? = some a ∧ a.subject cfg cells id ex = some c.subject ∧ FirstHold cfg cells id ex as j ∧ c.handler = i ∧ c.arg = j0 + j := by
  induction as generalizing j0 with
  | nil => simp [checkArgsX]
  | cons a as ih =>
    have h0 : c ∈ ((a.subject cfg cells id ex).map fun s => (⟨i, j0, s⟩ : PredCall)).toList ↔ a.subject cfg cells id ex = some c.subject ∧ c.handler = i ∧ c.arg = j0 := by
      cases hs : a.subject cfg cells id ex with
      | none => simp
      | some s =>
        simp only [Option.map_some, Option.toList_some, List.mem_singleton, Option.some.injEq]
        constructor
        · rintro rfl; exact ⟨rfl, rfl, rfl⟩
        · rintro ⟨rfl, rfl, rfl⟩; rfl
    have hsplit : (∃ j b, (a :: as)[j]? = some b ∧ b.subject cfg cells id ex = some c.subject ∧ FirstHold cfg cells id ex (a :: as) j ∧ c.handler = i ∧ c.arg = j0 + j) ↔
        (a.subject cfg cells id ex = some c.subject ∧ c.handler = i ∧ c.arg = j0) ∨
        (a.check cfg cells id ex = some true ∧ ∃ j b, as[j]? = some b ∧ b.subject cfg cells id ex = some c.subject ∧ FirstHold cfg cells id ex as j ∧ c.handler = i ∧ c.arg = (j0 + 1) + j) := by
      constructor
      · rintro ⟨j, b, h1, h2, h3, h4, h5⟩
        cases j with
        | zero =>
          simp only [List.getElem?_cons_zero, Option.some.injEq] at h1
          subst h1
          exact Or.inl ⟨h2, h4, h5⟩
        | succ j => exact Or.inr ⟨(firstHold_succ.mp h3).1, j, b, h1, h2, (firstHold_succ.mp h3).2, h4, by omega⟩
      · rintro (⟨h1, h2, h3⟩ | ⟨h1, j, b, h2, h3, h4, h5, h6⟩)
        · exact ⟨0, a, rfl, h1, firstHold_zero _, h2, h3⟩
        · exact ⟨j + 1, b, h2, h3, firstHold_succ.mpr ⟨h1, h4⟩, h5, by omega⟩
    rw [hsplit]
    unfold checkArgsX
    split <;> rename_i hc
    · simp only [h0, hc]; simp
    · simp only [h0, hc]; simp
    · simp only [List.mem_append, h0, hc, ih, true_and]

theorem checkArgsX_true (i j0 : Nat) (as : List XArg) : (checkArgsX cfg cells id ex i j0 as).2 = some true ↔ ∀ a ∈ as, a.check cfg cells id ex = some true := by
  induction as generalizing j0 with
  | nil => simp [checkArgsX]
  | cons a as ih =>
    unfold checkArgsX
    split <;> rename_i hc
    · simp [hc]
    · simp [hc]
    · simp [hc, ih]

theorem checkArgsX_false (i j0 : Nat) (as : List XArg) : (checkArgsX cfg cells id ex i j0 as).2 = some false ↔ Unsuitable cfg cells id ex as := by
  induction as generalizing j0 with
  | nil => simp [checkArgsX, Unsuitable]
  | cons a as ih =>
    rw [unsuitable_cons]
    unfold checkArgsX
    split <;> rename_i hc
    · simp [hc]
    · simp [hc]
    · simp [hc, ih]

theorem checkArgsX_none (i j0 : Nat) (as : List XArg) :
    (checkArgsX cfg cells id ex i j0 as).2 = none ↔ ∃ j a, as[j]? = some a ∧ a.check cfg cells id ex = none ∧ FirstHold cfg cells id ex as j := by
  induction as generalizing j0 with
  | nil => simp [checkArgsX]
  | cons a as ih =>
    have hsplit : (∃ j b, (a :: as)[j]? = some b ∧ b.check cfg cells id ex = none ∧ FirstHold cfg cells id ex (a :: as) j) ↔
        a.check cfg cells id ex = none ∨ (a.check cfg cells id ex = some true ∧ ∃ j b, as[j]? = some b ∧ b.check cfg cells id ex = none ∧ FirstHold cfg cells id ex as j) := by
      constructor
      · rintro ⟨j, b, h1, h2, h3⟩
        cases j with
        | zero =>
          simp only [List.getElem?_cons_zero, Option.some.injEq] at h1
          subst h1
          exact Or.inl h2
        | succ j => exact Or.inr ⟨(firstHold_succ.mp h3).1, j, b, h1, h2, (firstHold_succ.mp h3).2⟩
      · rintro (h1 | ⟨h1, j, b, h2, h3, h4⟩)
        · exact ⟨0, a, rfl, h1, firstHold_zero _⟩
        · exact ⟨j + 1, b, h2, h3, firstHold_succ.mpr ⟨h1, h4⟩⟩
    rw [hsplit]
    unfold checkArgsX
    split <;> rename_i hc
    · simp [hc]
    · simp [hc]
    · simp [hc, ih]

theorem checkArgsX_order (i j0 : Nat) (as : List XArg) : InOrder (checkArgsX cfg cells id ex i j0 as).1 := by
  induction as generalizing j0 with
  | nil => simp [checkArgsX, InOrder]
  | cons a as ih =>
    have h1 : InOrder ((a.subject cfg cells id ex).map fun s => (⟨i, j0, s⟩ : PredCall)).toList := by
      cases a.subject cfg cells id ex <;> simp [InOrder]
    unfold checkArgsX
    split
    · exact h1
    · exact h1
    · refine List.pairwise_append.mpr ⟨h1, ih (j0 + 1), ?_⟩
      intro c hc d hd
      rw [checkArgsX_calls] at hd
      obtain ⟨j, _, _, _, _, e1, e2⟩ := hd
      right
      cases hs : a.subject cfg cells id ex with
      | none => simp [hs] at hc
      | some s =>
        simp only [hs, Option.map_some, Option.toList_some, List.mem_singleton] at hc
        subst hc
        exact ⟨e1.symm, by show j0 < d.arg; omega⟩

theorem always_check {a : XArg} (h : a.always = true) : a.check cfg cells id ex = some true ∧ a.subject cfg cells id ex = none := by
  cases a with
  | plain a => cases a <;> simp [XArg.always, Arg.always] at h <;> exact ⟨rfl, rfl⟩
  | pred ty p => simp [XArg.always] at h
  | catch_ p => simp [XArg.always] at h

/-- A handler that matches any error could as well be checked. -/
theorem selectSomeX_cons (i : Nat) (h : List XArg) (hs : List (List XArg)) :
    selectSomeX cfg cells id ex i (h :: hs) = match checkArgsX cfg cells id ex i 0 h with
      | (calls, none) => (calls, none)
      | (calls, some true) => (calls, some (some i))
      | (calls, some false) => (calls ++ (selectSomeX cfg cells id ex (i + 1) hs).1, (selectSomeX cfg cells id ex (i + 1) hs).2) := by
  rw [selectSomeX]
  by_cases ha : h.all XArg.always = true
  · simp only [ha, if_true]
    have h1 : checkArgsX cfg cells id ex i 0 h = ([], some true) := by
      refine Prod.ext ?_ ?_
      · refine List.eq_nil_iff_forall_not_mem.mpr fun c hc => ?_
        rw [checkArgsX_calls] at hc
        obtain ⟨j, a, e1, e2, _⟩ := hc
        have := (always_check (cfg := cfg) (cells := cells) (id := id) (ex := ex) (List.all_eq_true.mp ha a (List.mem_of_getElem? e1))).2
        simp [this] at e2
      · exact (checkArgsX_true i 0 h).mpr fun a hm => (always_check (List.all_eq_true.mp ha a hm)).1
    rw [h1]
  · exact if_neg ha

/-- The calls, with handlers counted from `i0`. -/
theorem selectSomeX_calls (i0 : Nat) (specs : List (List XArg)) (c : PredCall) :
    c ∈ (selectSomeX cfg cells id ex i0 specs).1 ↔ ∃ i, c.handler = i0 + i ∧ Called cfg cells id ex specs i c.arg c.subject := by
  induction specs generalizing i0 with
  | nil => simp [selectSomeX, Called]
  | cons h hs ih =>
    have hsplit : (∃ i, c.handler = i0 + i ∧ Called cfg cells id ex (h :: hs) i c.arg c.subject) ↔
        c ∈ (checkArgsX cfg cells id ex i0 0 h).1 ∨ (Unsuitable cfg cells id ex h ∧ ∃ i, c.handler = (i0 + 1) + i ∧ Called cfg cells id ex hs i c.arg c.subject) := by
      rw [checkArgsX_calls]
      constructor
      · rintro ⟨i, e, h', a, h1, h2, h3, h4, h5⟩
        cases i with
        | zero =>
          simp only [List.getElem?_cons_zero, Option.some.injEq] at h1
          subst h1
          exact Or.inl ⟨c.arg, a, h2, h3, h4, e, by omega⟩
        | succ i =>
          exact Or.inr ⟨h5 0 (Nat.succ_pos i) h rfl, i, by omega, h', a, h1, h2, h3, h4, fun i' hi h'' e => h5 (i' + 1) (Nat.succ_lt_succ hi) h'' e⟩
      · rintro (⟨j, a, h1, h2, h3, h4, h5⟩ | ⟨h0, i, e, h', a, h1, h2, h3, h4, h5⟩)
        · have : c.arg = j := by omega
          subst this
          exact ⟨0, h4, h, a, rfl, h1, h2, h3, fun i' hi => absurd hi (Nat.not_lt_zero _)⟩
        · refine ⟨i + 1, by omega, h', a, h1, h2, h3, h4, ?_⟩
          intro i' hi h'' e
          cases i' with
          | zero =>
            simp only [List.getElem?_cons_zero, Option.some.injEq] at e
            rw [← e]; exact h0
          | succ i' => exact h5 i' (Nat.lt_of_succ_lt_succ hi) h'' e
    rw [hsplit, selectSomeX_cons, ← checkArgsX_false i0 0 h]
    cases hc : checkArgsX cfg cells id ex i0 0 h with
    | mk l r =>
      cases r with
      | none => simp
      | some b => cases b <;> simp [ih]

theorem selectSomeX_none (i0 : Nat) (specs : List (List XArg)) :
    (selectSomeX cfg cells id ex i0 specs).2 = none ↔
      ∃ (i j : Nat) (h : List XArg) (a : XArg), specs[i]? = some h ∧ h[j]? = some a ∧ a.check cfg cells id ex = none ∧ FirstHold cfg cells id ex h j ∧ ∀ i', i' < i → ∀ h', specs[i']? = some h' → Unsuitable cfg cells id ex h' := by
  induction specs generalizing i0 with
  | nil => simp [selectSomeX]
  | cons h hs ih =>
    have hsplit : (∃ (i j : Nat) (h' : List XArg) (a : XArg), (h :: hs)[i]? = some h' ∧ h'[j]? = some a ∧ a.check cfg cells id ex = none ∧ FirstHold cfg cells id ex h' j ∧ ∀ i', i' < i → ∀ h'', (h :: hs)[i']? = some h'' →
        Unsuitable cfg cells id ex h'') ↔
        (checkArgsX cfg cells id ex i0 0 h).2 = none ∨ (Unsuitable cfg cells id ex h ∧ ∃ (i j : Nat) (h' : List XArg) (a : XArg), hs[i]? = some h' ∧ h'[j]? = some a ∧ a.check cfg cells id ex = none ∧
          FirstHold cfg cells id ex h' j ∧ ∀ i', i' < i → ∀ h'', hs[i']? = some h'' → Unsuitable cfg cells id ex h'') := by
      rw [checkArgsX_none]
      constructor
      · rintro ⟨i, j, h', a, h1, h2, h3, h4, h5⟩
        cases i with
        | zero =>
          simp only [List.getElem?_cons_zero, Option.some.injEq] at h1
          subst h1
          exact Or.inl ⟨j, a, h2, h3, h4⟩
        | succ i =>
          exact Or.inr ⟨h5 0 (Nat.succ_pos i) h rfl, i, j, h', a, h1, h2, h3, h4, fun i' hi h'' e => h5 (i' + 1) (Nat.succ_lt_succ hi) h'' e⟩
      · rintro (⟨j, a, h1, h2, h3⟩ | ⟨h0, i, j, h', a, h1, h2, h3, h4, h5⟩)
        · exact ⟨0, j, h, a, rfl, h1, h2, h3, fun i' hi => absurd hi (Nat.not_lt_zero _)⟩
        · refine ⟨i + 1, j, h', a, h1, h2, h3, h4, ?_⟩
          intro i' hi h'' e
          cases i' with
          | zero =>
            simp only [List.getElem?_cons_zero, Option.some.injEq] at e
            rw [← e]; exact h0
          | succ i' => exact h5 i' (Nat.lt_of_succ_lt_succ hi) h'' e
    rw [hsplit, selectSomeX_cons, ← checkArgsX_false i0 0 h]
    cases hc : checkArgsX cfg cells id ex i0 0 h with
    | mk l r =>
      cases r with
      | none => simp
      | some b => cases b <;> simp [ih]

theorem selectSomeX_some (i0 k : Nat) (specs : List (List XArg)) :
    (selectSomeX cfg cells id ex i0 specs).2 = some (some k) ↔
      ∃ (i : Nat) (h : List XArg), k = i0 + i ∧ specs[i]? = some h ∧ (∀ a ∈ h, a.check cfg cells id ex = some true) ∧ ∀ i', i' < i → ∀ h', specs[i']? = some h' → Unsuitable cfg cells id ex h' := by
  induction specs generalizing i0 with
  | nil => simp [selectSomeX]
  | cons h hs ih =>
    have hsplit : (∃ (i : Nat) (h' : List XArg), k = i0 + i ∧ (h :: hs)[i]? = some h' ∧ (∀ a ∈ h', a.check cfg cells id ex = some true) ∧ ∀ i', i' < i → ∀ h'', (h :: hs)[i']? = some h'' → Unsuitable cfg cells id ex h'') ↔
        (k = i0 ∧ (checkArgsX cfg cells id ex i0 0 h).2 = some true) ∨ (Unsuitable cfg cells id ex h ∧ ∃ (i : Nat) (h' : List XArg), k = (i0 + 1) + i ∧ hs[i]? = some h' ∧
          (∀ a ∈ h', a.check cfg cells id ex = some true) ∧ ∀ i', i' < i → ∀ h'', hs[i']? = some h'' → Unsuitable cfg cells id ex h'') := by
      rw [checkArgsX_true]
      constructor
      · rintro ⟨i, h', e, h1, h2, h5⟩
        cases i with
        | zero =>
          simp only [List.getElem?_cons_zero, Option.some.injEq] at h1
          subst h1
          exact Or.inl ⟨by omega, h2⟩
        | succ i =>
          exact Or.inr ⟨h5 0 (Nat.succ_pos i) h rfl, i, h', by omega, h1, h2, fun i' hi h'' e => h5 (i' + 1) (Nat.succ_lt_succ hi) h'' e⟩
      · rintro (⟨e, h1⟩ | ⟨h0, i, h', e, h1, h2, h5⟩)
        · exact ⟨0, h, by omega, rfl, h1, fun i' hi => absurd hi (Nat.not_lt_zero _)⟩
        · refine ⟨i + 1, h', by omega, h1, h2, ?_⟩
          intro i' hi h'' e
          cases i' with
          | zero =>
            simp only [List.getElem?_cons_zero, Option.some.injEq] at e
            rw [← e]; exact h0
          | succ i' => exact h5 i' (Nat.lt_of_succ_lt_succ hi) h'' e
    rw [hsplit, selectSomeX_cons, ← checkArgsX_false i0 0 h]
    cases hc : checkArgsX cfg cells id ex i0 0 h with
    | mk l r =>
      cases r with
      | none => simp
      | some b => cases b <;> simp [ih, eq_comm]

/-! ## Theorems -/

/-- **C69 (which predicates are called).** A predicate is called exactly if the handlers before its own are not suitable, the arguments before it are, and there is an object (or
exception) for it; it is applied to that. -/
theorem C69_called (specs : List (List XArg)) (c : PredCall) :
    c ∈ (selectSomeX cfg cells id ex 0 specs).1 ↔ Called cfg cells id ex specs c.handler c.arg c.subject := by
  rw [selectSomeX_calls]
  constructor
  · rintro ⟨i, e, h⟩
    rw [e, Nat.zero_add]
    exact h
  · intro h
    exact ⟨c.handler, (Nat.zero_add _).symm, h⟩

/-- **C69 (order).** Predicates are called in the order of the handlers and of their arguments, so each at most once. -/
theorem C69_order (specs : List (List XArg)) : InOrder (selectSomeX cfg cells id ex 0 specs).1 := by
  suffices ∀ i0, InOrder (selectSomeX cfg cells id ex i0 specs).1 from this 0
  intro i0
  induction specs generalizing i0 with
  | nil => simp [selectSomeX, InOrder]
  | cons h hs ih =>
    have h1 := checkArgsX_order (cfg := cfg) (cells := cells) (id := id) (ex := ex) i0 0 h
    rw [selectSomeX_cons]
    cases hc : checkArgsX cfg cells id ex i0 0 h with
    | mk l r =>
      rw [hc] at h1
      cases r with
      | none => exact h1
      | some b =>
        cases b with
        | true => exact h1
        | false =>
          refine List.pairwise_append.mpr ⟨h1, ih (i0 + 1), ?_⟩
          intro c hcm d hd
          obtain ⟨i, e, _⟩ := (selectSomeX_calls (i0 + 1) hs d).mp hd
          have hx : c ∈ (checkArgsX cfg cells id ex i0 0 h).1 := by rw [hc]; exact hcm
          obtain ⟨_, _, _, _, _, e2, _⟩ := (checkArgsX_calls i0 0 h c).mp hx
          left
          omega

/-- **C69 (a predicate throws).** The program is terminated exactly if a predicate that is called throws. -/
theorem C69_terminate (specs : List (List XArg)) :
    (selectSomeX cfg cells id ex 0 specs).2 = none ↔
      ∃ i j s h a, Called cfg cells id ex specs i j s ∧ specs[i]? = some h ∧ h[j]? = some a ∧ a.check cfg cells id ex = none := by
  rw [selectSomeX_none]
  constructor
  · rintro ⟨i, j, h, a, h1, h2, h3, h4, h5⟩
    have : ∃ s, a.subject cfg cells id ex = some s := by
      cases a with
      | plain a => simp [XArg.check] at h3
      | pred ty p =>
        simp only [XArg.check] at h3
        cases hp : peek cfg cells id ex ty with
        | none => simp [hp] at h3
        | some v => exact ⟨.obj v, by simp [XArg.subject, hp]⟩
      | catch_ p =>
        cases ex with
        | none => simp [XArg.check] at h3
        | some e => exact ⟨.exc e, rfl⟩
    obtain ⟨s, hs⟩ := this
    exact ⟨i, j, s, h, a, ⟨h, a, h1, h2, hs, h4, h5⟩, h1, h2, h3⟩
  · rintro ⟨i, j, s, h, a, ⟨h', a', e1, e2, _, e4, e5⟩, h1, h2, h3⟩
    rw [h1] at e1
    cases e1
    rw [h2] at e2
    cases e2
    exact ⟨i, j, h, a, h1, h2, h3, e4, e5⟩

/-- **C69 (a predicate throws: the last call).** No predicate is called after one that throws. -/
theorem C69_last {specs : List (List XArg)} {i j i' j' : Nat} {s s' : Subject} {h : List XArg} {a : XArg} (hc : Called cfg cells id ex specs i j s) (hi : specs[i]? = some h)
    (hj : h[j]? = some a) (ha : a.check cfg cells id ex = none) (hc' : Called cfg cells id ex specs i' j' s') : i' < i ∨ (i' = i ∧ j' ≤ j) := by
  obtain ⟨h1, a1, e1, e2, e3, e4, e5⟩ := hc
  obtain ⟨h2, a2, f1, f2, f3, f4, f5⟩ := hc'
  rw [hi] at e1
  cases e1
  rcases Nat.lt_trichotomy i' i with hlt | heq | hgt
  · exact Or.inl hlt
  · subst heq
    rw [hi] at f1
    cases f1
    refine Or.inr ⟨rfl, Nat.le_of_not_lt fun hlt => ?_⟩
    have := f4 j hlt a hj
    simp [ha] at this
  · obtain ⟨k, b, g1, g2, g3⟩ := f5 i hgt h hi
    rcases Nat.lt_trichotomy k j with hlt | heq | hgt
    · have := e4 k hlt b g1
      simp [this] at g2
    · subst heq
      rw [hj] at g1
      cases g1
      simp [ha] at g2
    · have := g3 j hgt a hj
      simp [ha] at this

/-- **C69 (the handler called).** Handler `k` is called exactly if its arguments are suitable and those before it are not suitable handlers; what later predicates would do does not matter. -/
theorem C69_chosen (specs : List (List XArg)) (k : Nat) :
    (selectSomeX cfg cells id ex 0 specs).2 = some (some k) ↔
      ∃ h, specs[k]? = some h ∧ (∀ a ∈ h, a.check cfg cells id ex = some true) ∧ ∀ i, i < k → ∀ h', specs[i]? = some h' → Unsuitable cfg cells id ex h' := by
  rw [selectSomeX_some]
  constructor
  · rintro ⟨i, h, e, h1⟩
    have : k = i := by omega
    subst this
    exact ⟨h, h1⟩
  · rintro ⟨h, h1⟩
    exact ⟨k, h, (Nat.zero_add k).symm, h1⟩

/-- **C69 (what a predicate is applied to).** A predicate on `E` is applied to the object of type `E` of the error being handled, in the slot or in the exception, and an argument
`catch_<Ex...>` to the exception. The argument is suitable if there is such an object and the predicate returns true for it; checking it throws if there is one and the predicate throws. -/
theorem C69_subject {s : Scope} (hs : ScopeOk cfg s) (hid : id.Tagged) (ty : Ty) (p : Val → Option Bool) (q : Exc → Option Bool) (sub : Subject) (b : Bool) :
    ((XArg.pred ty p).subject cfg s id ex = some sub ↔ ∃ v, sub = .obj v ∧ Sees s id ex ty v) ∧
    ((XArg.pred ty p).check cfg s id ex = some b ↔ (∃ v, Sees s id ex ty v ∧ p v = some b) ∨ (b = false ∧ ∀ v, ¬ Sees s id ex ty v)) ∧
    ((XArg.pred ty p).check cfg s id ex = none ↔ ∃ v, Sees s id ex ty v ∧ p v = none) ∧
    ((XArg.catch_ q).subject cfg s id ex = some sub ↔ ∃ e, sub = .exc e ∧ ex = some e) ∧
    ((XArg.catch_ q).check cfg s id ex = some b ↔ (∃ e, ex = some e ∧ q e = some b) ∨ (b = false ∧ ex = none)) ∧
    ((XArg.catch_ q).check cfg s id ex = none ↔ ∃ e, ex = some e ∧ q e = none) := by
  have key := peek_iff hs hid ex ty
  refine ⟨?_, ?_, ?_, ?_, ?_, ?_⟩
  · simp only [XArg.subject, ← key]
    cases peek cfg s id ex ty with
    | none => simp
    | some v => simp [eq_comm]
  · simp only [XArg.check, ← key]
    cases peek cfg s id ex ty with
    | none => simp [eq_comm]
    | some v => simp
  · simp only [XArg.check, ← key]
    cases peek cfg s id ex ty <;> simp
  · simp only [XArg.subject]
    cases ex with
    | none => simp
    | some v => simp [eq_comm]
  · simp only [XArg.check]
    cases ex with
    | none => simp [eq_comm]
    | some v => simp
  · simp only [XArg.check]
    cases ex <;> simp

/-- **C69 (`try_handle_all`).** If the last handler matches any error, as required, the same predicates are called, with the same result. -/
theorem C69_all (specs : List (List XArg)) (last : List XArg) (hl : last.all XArg.always = true) :
    selectAllX cfg cells id ex 0 (specs ++ [last]) = selectSomeX cfg cells id ex 0 (specs ++ [last]) := by
  suffices ∀ i, selectAllX cfg cells id ex i (specs ++ [last]) = selectSomeX cfg cells id ex i (specs ++ [last]) from this 0
  intro i
  induction specs generalizing i with
  | nil => simp [selectAllX, selectSomeX, hl]
  | cons h hs ih =>
    have e : ∃ x xs, hs ++ [last] = x :: xs := by cases hs <;> exact ⟨_, _, rfl⟩
    obtain ⟨x, xs, e⟩ := e
    have ih := ih (i + 1)
    rw [List.cons_append]
    rw [e] at ih ⊢
    rw [selectAllX, selectSomeX, ih]
    intro h; cases h

/-- **C69 (predicates that do not throw).** The handler chosen is the one of the other properties. -/
theorem C69_same (specs : List (List Arg)) : (selectSomeX cfg cells id ex 0 (specs.map fun h => h.map XArg.ofArg)).2 = some (selectSome cfg cells id ex specs) := by
  have hcheck : ∀ a : Arg, (XArg.ofArg a).check cfg cells id ex = some (a.check cfg cells id ex) := by
    intro a
    cases a with
    | pred ty p => simp only [XArg.ofArg, XArg.check, Arg.check]; cases peek cfg cells id ex ty <;> rfl
    | catch_ p => simp only [XArg.ofArg, XArg.check, Arg.check]; cases ex <;> rfl
    | _ => rfl
  have halways : ∀ a : Arg, (XArg.ofArg a).always = a.always := by intro a; cases a <;> rfl
  have hargs : ∀ i j (h : List Arg), (checkArgsX cfg cells id ex i j (h.map XArg.ofArg)).2 = some (checkArgs cfg cells id ex h) := by
    intro i j h
    induction h generalizing j with
    | nil => rfl
    | cons a h ih =>
      simp only [List.map_cons, checkArgsX, hcheck, checkArgs, List.all_cons]
      cases a.check cfg cells id ex with
      | false => rfl
      | true => simpa [checkArgs] using ih (j + 1)
  have hany : ∀ h : List Arg, (h.map XArg.ofArg).all XArg.always = matchesAny h := by
    intro h
    simp only [matchesAny, List.all_map]
    congr 1
    funext a
    exact halways a
  suffices ∀ i, (selectSomeX cfg cells id ex i (specs.map fun h => h.map XArg.ofArg)).2 = some (selectSomeFrom cfg cells id ex i specs) from this 0
  intro i
  induction specs generalizing i with
  | nil => rfl
  | cons h hs ih =>
    simp only [List.map_cons, selectSomeX, hany, selectSomeFrom]
    cases hm : matchesAny h with
    | true => rfl
    | false =>
      have := hargs i 0 h
      cases hc : checkArgsX cfg cells id ex i 0 (h.map XArg.ofArg) with
      | mk l r =>
        rw [hc] at this
        simp only at this
        subst this
        cases hck : checkArgs cfg cells id ex h with
        | true => simp
        | false => simpa using ih (i + 1)

end

/-- **C69 (value packs).** `match<E, V...>` and the like compare with one value after the other, up to the first that matches or whose comparison throws: `n` comparisons are made exactly if
the first `n - 1` do not match (and do not throw) and the `n`-th is the last one, matches, or throws; the result is that of the `n`-th. -/
theorem C69_pack (e : Val) (v : XPackItem) (vs : List XPackItem) (n : Nat) (r : Option Bool) :
    cmpValuePackX e v vs = (n, r) ↔
      ∃ k x, n = k + 1 ∧ (v :: vs)[k]? = some x ∧ x e = r ∧ (∀ k', k' < k → ∀ y, (v :: vs)[k']? = some y → y e = some false) ∧ (r = some false → k = vs.length) := by
  induction vs generalizing v n with
  | nil =>
    simp only [cmpValuePackX, Prod.mk.injEq]
    constructor
    · rintro ⟨rfl, rfl⟩
      exact ⟨0, v, rfl, rfl, rfl, fun k' h => absurd h (Nat.not_lt_zero _), fun _ => rfl⟩
    · rintro ⟨k, x, rfl, h1, h2, _, _⟩
      cases k with
      | zero =>
        simp only [List.getElem?_cons_zero, Option.some.injEq] at h1
        subst h1
        exact ⟨rfl, h2⟩
      | succ k => simp at h1
  | cons c cs ih =>
    unfold cmpValuePackX
    have hstop : ∀ b, v e = b → b ≠ some false → (((1 : Nat), b) = (n, r) ↔
        ∃ k x, n = k + 1 ∧ (v :: c :: cs)[k]? = some x ∧ x e = r ∧ (∀ k', k' < k → ∀ y, (v :: c :: cs)[k']? = some y → y e = some false) ∧ (r = some false → k = (c :: cs).length)) := by
      intro b hb hne
      rw [Prod.mk.injEq]
      constructor
      · rintro ⟨rfl, rfl⟩
        exact ⟨0, v, rfl, rfl, hb, fun k' h => absurd h (Nat.not_lt_zero _), fun h => absurd h hne⟩
      · rintro ⟨k, x, rfl, h1, h2, h3, _⟩
        cases k with
        | zero =>
          simp only [List.getElem?_cons_zero, Option.some.injEq] at h1
          subst h1
          exact ⟨rfl, hb ▸ h2⟩
        | succ k => exact absurd (hb ▸ h3 0 (Nat.succ_pos k) v rfl) hne
    cases hv : v e with
    | none => exact hstop none hv (by simp)
    | some b =>
      cases b with
      | true => exact hstop (some true) hv (by simp)
      | false =>
        dsimp only
        constructor
        · intro h
          obtain ⟨h1, h2⟩ := Prod.mk.inj h
          obtain ⟨k, x, e1, e2, e3, e4, e5⟩ := (ih c _).mp (Prod.ext rfl h2 : cmpValuePackX e c cs = ((cmpValuePackX e c cs).1, r))
          refine ⟨k + 1, x, by omega, e2, e3, ?_, fun hr => by simp [e5 hr]⟩
          intro k' hk y hy
          cases k' with
          | zero =>
            simp only [List.getElem?_cons_zero, Option.some.injEq] at hy
            rw [← hy]; exact hv
          | succ k' => exact e4 k' (Nat.lt_of_succ_lt_succ hk) y hy
        · rintro ⟨k, x, rfl, e2, e3, e4, e5⟩
          cases k with
          | zero =>
            simp only [List.getElem?_cons_zero, Option.some.injEq] at e2
            subst e2
            have := e5 (e3 ▸ hv)
            simp at this
          | succ k =>
            have := (ih c (k + 1)).mpr ⟨k, x, rfl, e2, e3, fun k' hk y hy => e4 (k' + 1) (Nat.succ_lt_succ hk) y hy, fun hr => by have := e5 hr; simpa using this⟩
            rw [this]

/-! ## Examples -/

/-- A predicate of type 10 that throws for 7. -/
def exThrows : XArg := .pred 10 fun v => if v = 7 then none else some (v == 1)

def exCells (v : Val) : List CtxCell := [.obj 10 (some (5#32, v)), .obj 11 (some (1#32, 3)), .obj 12 none]

/-- Three handlers, the first of which is not suitable because an object is missing: its predicate is not called; that of the second one is, and throws; the third one's has no turn. -/
example : let specs := [[.plain (.req 12), exThrows], [.plain (.ptr 12), exThrows], [exThrows], [.plain .info]]
    ((selectSomeX exCfg (exCells 7) 5#32 none 0 specs).2 = none ∧ ((selectSomeX exCfg (exCells 7) 5#32 none 0 specs).1.map fun c => (c.handler, c.arg)) = [(1, 1)]) ∧
    ((selectSomeX exCfg (exCells 2) 5#32 none 0 specs).2 = some (some 3) ∧ ((selectSomeX exCfg (exCells 2) 5#32 none 0 specs).1.map fun c => (c.handler, c.arg)) = [(1, 1), (2, 0)]) ∧
    ((selectSomeX exCfg (exCells 1) 5#32 none 0 specs).2 = some (some 1)) ∧
    -- the object belongs to another error: the predicate is not called
    ((selectSomeX exCfg (exCells 7) 9#32 none 0 specs).2 = some (some 3) ∧ (selectSomeX exCfg (exCells 7) 9#32 none 0 specs).1.length = 0) := by
  decide

/-- Comparing with three values: the second one matches, so the third, which throws, is not compared. -/
example : cmpValuePackX 4 (fun v => some (v == 3)) [fun v => some (v == 4), fun _ => none] = (2, some true) ∧
    cmpValuePackX 5 (fun v => some (v == 3)) [fun v => some (v == 4), fun _ => none] = (3, none) := by
  decide

end Leaf
