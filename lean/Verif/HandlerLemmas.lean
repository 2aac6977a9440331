import Verif.Total

/-!
# Lemmas on context deduction and handler selection
-/

namespace Leaf

theorem mpUnique_aux_mem {α : Type} [DecidableEq α] (l acc : List α) (x : α) :
    x ∈ l.foldl (fun acc x => if x ∈ acc then acc else acc ++ [x]) acc ↔ x ∈ acc ∨ x ∈ l := by
  induction l generalizing acc with
  | nil => simp
  | cons y l ih =>
    rw [List.foldl_cons, ih]
    by_cases h : y ∈ acc
    · simp only [h, if_true, List.mem_cons]
      constructor
      · rintro (h1 | h1)
        · exact Or.inl h1
        · exact Or.inr (Or.inr h1)
      · rintro (h1 | h1 | h1)
        · exact Or.inl h1
        · exact Or.inl (h1 ▸ h)
        · exact Or.inr h1
    · simp only [h, if_false, List.mem_append, List.mem_cons, List.not_mem_nil, or_false]
      rw [or_assoc]

theorem mem_mpUnique {α : Type} [DecidableEq α] (l : List α) (x : α) : x ∈ mpUnique l ↔ x ∈ l := by
  unfold mpUnique
  rw [mpUnique_aux_mem]
  simp

/-- `mpUnique` written recursively. -/
theorem mpUnique_aux_eq {α : Type} [DecidableEq α] (l acc : List α) :
    l.foldl (fun acc x => if x ∈ acc then acc else acc ++ [x]) acc = acc ++ (mpUnique l).filter (fun x => x ∉ acc) := by
  suffices h : ∀ n (l acc : List α), l.length = n →
      l.foldl (fun acc x => if x ∈ acc then acc else acc ++ [x]) acc =
        acc ++ (l.foldl (fun acc x => if x ∈ acc then acc else acc ++ [x]) []).filter (fun x => x ∉ acc) from h _ l acc rfl
  intro n
  induction n with
  | zero => intro l acc h; rw [List.eq_nil_of_length_eq_zero h]; simp
  | succ n ih =>
    intro l acc h
    cases l with
    | nil => simp at h
    | cons y l =>
      have hl : l.length = n := by simpa using h
      simp only [List.foldl_cons, List.not_mem_nil, if_false, List.nil_append]
      rw [ih l [y] hl]
      by_cases hy : y ∈ acc
      · simp only [hy, if_true]
        rw [ih l acc hl]
        congr 1
        rw [List.singleton_append, List.filter_cons]
        simp only [hy, not_true_eq_false, decide_false]
        rw [if_neg (by simp), List.filter_filter]
        apply List.filter_congr
        intro x _
        by_cases hx : x = y
        · subst hx; simp [hy]
        · simp [hx]
      · simp only [hy, if_false]
        rw [ih l (acc ++ [y]) hl, List.append_assoc]
        congr 1
        rw [List.singleton_append, List.singleton_append, List.filter_cons]
        simp only [hy, not_false_eq_true, decide_true, if_true]
        congr 1
        rw [List.filter_filter]
        apply List.filter_congr
        intro x _
        by_cases hx : x = y
        · subst hx; simp
        · simp [hx]

theorem mpUnique_cons {α : Type} [DecidableEq α] (x : α) (l : List α) : mpUnique (x :: l) = x :: (mpUnique l).filter (fun y => y ≠ x) := by
  unfold mpUnique
  simp only [List.foldl_cons, List.not_mem_nil, if_false, List.nil_append]
  rw [mpUnique_aux_eq]
  simp [mpUnique]

theorem idxOf_filter_lt {α : Type} [DecidableEq α] (p : α → Bool) (l : List α) {t u : α} (ht : p t = true) (hu : p u = true) :
    (l.filter p).idxOf t < (l.filter p).idxOf u ↔ l.idxOf t < l.idxOf u := by
  induction l with
  | nil => simp
  | cons x l ih =>
    by_cases hx : p x = true
    · rw [List.filter_cons, if_pos hx]
      simp only [List.idxOf_cons]
      by_cases h1 : x = t
      · by_cases h2 : x = u
        · subst h1; subst h2; simp
        · subst h1
          have e2 : (x == u) = false := by simpa using h2
          simp [e2]
      · by_cases h2 : x = u
        · subst h2; simp
        · have e1 : (x == t) = false := by simpa using h1
          have e2 : (x == u) = false := by simpa using h2
          simp only [e1, e2, cond_false]
          omega
    · rw [List.filter_cons, if_neg hx, ih]
      have h1 : (x == t) = false := by
        simp only [beq_eq_false_iff_ne]; intro e; subst e; exact hx ht
      have h2 : (x == u) = false := by
        simp only [beq_eq_false_iff_ne]; intro e; subst e; exact hx hu
      simp only [List.idxOf_cons, h1, h2, cond_false]
      omega

theorem idxOf_mpUnique_lt {α : Type} [DecidableEq α] (l : List α) (t u : α) (ht : t ∈ l) :
    (mpUnique l).idxOf t < (mpUnique l).idxOf u ↔ l.idxOf t < l.idxOf u := by
  induction l with
  | nil => simp at ht
  | cons x l ih =>
    rw [mpUnique_cons]
    simp only [List.idxOf_cons]
    by_cases h1 : x = t
    · by_cases h2 : x = u
      · subst h1; subst h2; simp
      · subst h1
        have e2 : (x == u) = false := by simpa using h2
        simp [e2]
    · have e1 : (x == t) = false := by simpa using h1
      have ht' : t ∈ l := by
        simp only [List.mem_cons] at ht
        rcases ht with h | h
        · exact absurd h.symm h1
        · exact h
      by_cases h2 : x = u
      · subst h2; simp [e1]
      · have e2 : (x == u) = false := by simpa using h2
        simp only [e1, e2, cond_false]
        have := idxOf_filter_lt (fun y => decide (y ≠ x)) (mpUnique l) (t := t) (u := u) (by simpa using Ne.symm h1) (by simpa using Ne.symm h2)
        have := ih ht'
        omega

theorem matchesAny_check {cfg : Cfg} {cells : List CtxCell} {id : Id} {ex : Option Exc} {h : List Arg} (hm : matchesAny h = true) :
    checkArgs cfg cells id ex h = true := by
  unfold matchesAny at hm
  unfold checkArgs
  rw [List.all_eq_true] at hm ⊢
  intro a ha
  have := hm a ha
  cases a <;> first | rfl | simp [Arg.always] at this

/-- The loop of `selectSome` as an index search. -/
theorem selectSomeFrom_eq (cfg : Cfg) (cells : List CtxCell) (id : Id) (ex : Option Exc) (i : Nat) (specs : List (List Arg)) :
    selectSomeFrom cfg cells id ex i specs = (specs.findIdx? (checkArgs cfg cells id ex)).map (i + ·) := by
  induction specs generalizing i with
  | nil => rfl
  | cons h hs ih =>
    unfold selectSomeFrom
    rw [List.findIdx?_cons]
    by_cases hc : checkArgs cfg cells id ex h = true
    · simp [hc]
    · have hm : matchesAny h = false := by
        rw [Bool.eq_false_iff]; exact fun e => hc (matchesAny_check e)
      simp only [hm, hc, Bool.false_or]
      rw [if_neg (by simp), if_neg (by simp), ih, Option.map_map]
      congr 1
      funext j
      simp only [Function.comp]; omega

theorem selectAllFrom_eq (cfg : Cfg) (cells : List CtxCell) (id : Id) (ex : Option Exc) (i : Nat) {specs : List (List Arg)} (hv : ValidAll specs) :
    selectAllFrom cfg cells id ex i specs = (specs.findIdx? (checkArgs cfg cells id ex)).map (i + ·) := by
  obtain ⟨init, last, rfl, hl⟩ := hv
  induction init generalizing i with
  | nil =>
    have := matchesAny_check (cfg := cfg) (cells := cells) (id := id) (ex := ex) hl
    simp [selectAllFrom, hl, List.findIdx?_cons, this]
  | cons h hs ih =>
    have hne : ∃ a b, hs ++ [last] = a :: b := by cases hs <;> simp
    have hstep : selectAllFrom cfg cells id ex i (h :: (hs ++ [last])) =
        if matchesAny h || checkArgs cfg cells id ex h then some i else selectAllFrom cfg cells id ex (i + 1) (hs ++ [last]) := by
      obtain ⟨a, b, e⟩ := hne
      rw [e]; rfl
    rw [List.cons_append, hstep, List.findIdx?_cons]
    by_cases hc : checkArgs cfg cells id ex h = true
    · simp [hc]
    · have hm : matchesAny h = false := by
        rw [Bool.eq_false_iff]; exact fun e => hc (matchesAny_check e)
      simp only [hm, hc, Bool.false_or]
      rw [if_neg (by simp), if_neg (by simp), ih, Option.map_map]
      congr 1
      funext j
      simp only [Function.comp]; omega

theorem findCell_mem {ty : Ty} {cells : List CtxCell} {c : Cell} (h : findCell ty cells = some c) : CtxCell.obj ty c ∈ cells := by
  induction cells with
  | nil => simp [findCell] at h
  | cons x cs ih =>
    cases x with
    | obj t c' =>
      simp only [findCell] at h
      by_cases ht : t = ty
      · simp only [ht, if_true, Option.some.injEq] at h; subst ht; subst h; simp
      · simp only [ht, if_false] at h; exact List.mem_cons_of_mem _ (ih h)
    | da k ns => exact List.mem_cons_of_mem _ (ih h)

theorem findCell_of_mem {ty : Ty} {cells : List CtxCell} {c : Cell} (hn : (cells.map CtxCell.cellTy).Nodup) (h : CtxCell.obj ty c ∈ cells) :
    findCell ty cells = some c := by
  induction cells with
  | nil => simp at h
  | cons x cs ih =>
    simp only [List.map_cons, List.nodup_cons] at hn
    simp only [List.mem_cons] at h
    rcases h with rfl | h
    · simp [findCell]
    · cases x with
      | obj t c' =>
        have : t ≠ ty := by
          intro e; subst e
          exact hn.1 (List.mem_map.mpr ⟨_, h, rfl⟩)
        simp only [findCell, this, if_false]
        exact ih hn.2 h
      | da k ns => exact ih hn.2 h

end Leaf
