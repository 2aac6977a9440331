import Verif.TypeNameModel

/-!
# C38: type names in diagnostics are exact
-/

namespace Leaf

/-! ## Specification -/

inductive CallConv | cdecl | stdcall | fastcall
/-- How msvc announces a type. -/
inductive TypeKind | struct_ | class_ | enum_ | other

/-- The signature formats of the supported compilers. -/
inductive SigFormat
  | clang
  | oldClang
  | gcc
  | msvc (cc : CallConv) (kind : TypeKind)

def CallConv.text : CallConv → String
  | .cdecl => "__cdecl"
  | .stdcall => "__stdcall"
  | .fastcall => "__fastcall"

def TypeKind.text : TypeKind → String
  | .struct_ => "struct "
  | .class_ => "class "
  | .enum_ => "enum "
  | .other => ""

/-- The signature of `r boost::leaf::n::p<T>()` as printed by the compiler for a type called `name`. -/
def SigFormat.signature (f : SigFormat) (name : String) : String :=
  match f with
  | .clang => "r boost::leaf::n::p() [T = " ++ name ++ "]"
  | .oldClang => "boost::leaf::n::r boost::leaf::n::p() [T = " ++ name ++ "]"
  | .gcc => "boost::leaf::n::r boost::leaf::n::p() [with T = " ++ name ++ "]"
  | .msvc cc kind => "struct boost::leaf::n::r " ++ cc.text ++ " boost::leaf::n::p<" ++ kind.text ++ name ++ ">(void)"

/-- Names of types that are not announced do not look like an announcement. -/
def SigFormat.Admits : SigFormat → String → Prop
  | .msvc _ .other, name => ∀ k : TypeKind, k ≠ .other → ¬ k.text.toList <+: name.toList
  | _, _ => True

/-! ## Proofs -/

theorem prefixFrom_iff (str pre : List Char) (n : Nat) : prefixFrom str pre n = true ↔ ∀ i ≤ n, str[i]? = pre[i]? := by
  induction n with
  | zero =>
    simp only [prefixFrom, beq_iff_eq]
    constructor
    · intro h i hi
      have : i = 0 := by omega
      rw [this]; exact h
    · intro h; exact h 0 (Nat.le_refl _)
  | succ n ih =>
    simp only [prefixFrom, Bool.and_eq_true, beq_iff_eq, ih]
    constructor
    · rintro ⟨h1, h2⟩ i hi
      by_cases e : i = n + 1
      · rw [e]; exact h1
      · exact h2 i (by omega)
    · intro h
      exact ⟨h _ (Nat.le_refl _), fun i hi => h i (by omega)⟩

theorem checkPrefix_eq (str : List Char) {pre : List Char} (hp : pre ≠ []) : checkPrefix str pre = if pre <+: str then pre.length else 0 := by
  have hl : 0 < pre.length := List.length_pos_iff.mpr hp
  have key : (decide (str.length + 1 ≥ pre.length + 1) && prefixFrom str pre (pre.length + 1 - 2)) = true ↔ pre <+: str := by
    rw [Bool.and_eq_true, decide_eq_true_iff, prefixFrom_iff]
    constructor
    · rintro ⟨h1, h2⟩
      rw [List.prefix_iff_eq_take]
      apply List.ext_getElem?
      intro i
      rw [List.getElem?_take]
      split
      · rename_i hi
        rw [h2 i (by omega)]
      · rw [List.getElem?_eq_none (by omega)]
    · rintro ⟨t, rfl⟩
      refine ⟨by simp, fun i hi => ?_⟩
      rw [List.getElem?_append_left (by omega)]
  unfold checkPrefix
  by_cases h : pre <+: str
  · rw [if_pos (key.mpr h), if_pos h]; rfl
  · rw [if_neg (fun e => h (key.mp e)), if_neg h]

theorem suffixFrom_iff (str suf : List Char) (j : Nat) : ∀ i, j ≤ i → (suffixFrom str suf i j = true ↔ ∀ k ≤ j, str[i - k]? = suf[j - k]?) := by
  induction j with
  | zero =>
    intro i _
    simp only [suffixFrom, beq_iff_eq]
    constructor
    · intro h k hk
      have : k = 0 := by omega
      rw [this]; exact h
    · intro h; exact h 0 (Nat.le_refl _)
  | succ j ih =>
    intro i hi
    simp only [suffixFrom, Bool.and_eq_true, beq_iff_eq, ih (i - 1) (by omega)]
    constructor
    · rintro ⟨h1, h2⟩ k hk
      cases k with
      | zero => exact h1
      | succ k =>
        have := h2 k (by omega)
        rw [show i - (k + 1) = i - 1 - k by omega, show j + 1 - (k + 1) = j - k by omega]
        exact this
    · intro h
      refine ⟨h 0 (by omega), fun k hk => ?_⟩
      have := h (k + 1) (by omega)
      rw [show i - (k + 1) = i - 1 - k by omega, show j + 1 - (k + 1) = j - k by omega] at this
      exact this

theorem checkSuffix_eq (str : List Char) {suf : List Char} (hs : suf ≠ []) : checkSuffix str suf = if suf <:+ str then str.length - suf.length else 0 := by
  have hl : 0 < suf.length := List.length_pos_iff.mpr hs
  have key : (decide (str.length + 1 ≥ suf.length + 1) && suffixFrom str suf (str.length + 1 - 2) (suf.length + 1 - 2)) = true ↔ suf <:+ str := by
    rw [Bool.and_eq_true, decide_eq_true_iff]
    constructor
    · rintro ⟨h1, h2⟩
      rw [suffixFrom_iff _ _ _ _ (by omega)] at h2
      rw [List.suffix_iff_eq_drop]
      apply List.ext_getElem?
      intro i
      rw [List.getElem?_drop]
      by_cases hi : i < suf.length
      · have := h2 (suf.length - 1 - i) (by omega)
        rw [show str.length + 1 - 2 - (suf.length - 1 - i) = str.length - suf.length + i by omega, show suf.length + 1 - 2 - (suf.length - 1 - i) = i by omega] at this
        exact this.symm
      · rw [List.getElem?_eq_none (by omega), List.getElem?_eq_none (by omega)]
    · rintro ⟨t, rfl⟩
      refine ⟨by simp, ?_⟩
      rw [suffixFrom_iff _ _ _ _ (by simp; omega)]
      intro k hk
      rw [List.getElem?_append_right (by simp; omega)]
      congr 1
      simp
      omega
  unfold checkSuffix
  by_cases h : suf <:+ str
  · rw [if_pos (key.mpr h), if_pos h]; omega
  · rw [if_neg (fun e => h (key.mp e)), if_neg h]

/-- Neither is a prefix of the other. -/
def Apart (p q : List Char) : Prop := ¬ p <+: q ∧ ¬ q <+: p

instance (p q : List Char) : Decidable (Apart p q) := inferInstanceAs (Decidable (_ ∧ _))

theorem Apart.not_both {p q str : List Char} (h : Apart p q) (hp : p <+: str) : ¬ q <+: str := by
  intro hq
  rcases Nat.le_total p.length q.length with hl | hl
  · exact h.1 (List.prefix_of_prefix_length_le hp hq hl)
  · exact h.2 (List.prefix_of_prefix_length_le hq hp hl)

theorem countTrue_cons (p : Nat) (ps : List Nat) : countTrue (p :: ps) = (if p ≠ 0 then 1 else 0) + countTrue ps := by
  simp only [countTrue, List.map_cons, List.sum_cons]

theorem group_none (str : List Char) (ps : List (List Char)) (hne : ∀ p ∈ ps, p ≠ []) (hn : ∀ p ∈ ps, ¬ p <+: str) :
    countTrue (ps.map (checkPrefix str)) = 0 ∧ (ps.map (checkPrefix str)).sum = 0 := by
  induction ps with
  | nil => exact ⟨rfl, rfl⟩
  | cons p ps ih =>
    obtain ⟨h1, h2⟩ := ih (fun q hq => hne q (List.mem_cons_of_mem _ hq)) (fun q hq => hn q (List.mem_cons_of_mem _ hq))
    have hz : checkPrefix str p = 0 := by rw [checkPrefix_eq str (hne p (List.mem_cons_self ..)), if_neg (hn p (List.mem_cons_self ..))]
    refine ⟨?_, ?_⟩
    · rw [List.map_cons, countTrue_cons, hz, h1]; rfl
    · simp [hz, h2]

/-- Exactly one prefix of a group matches. -/
theorem group_one (str : List Char) (ps : List (List Char)) (hne : ∀ p ∈ ps, p ≠ []) (ha : ps.Pairwise Apart) {p : List Char} (hp : p ∈ ps) (hm : p <+: str) :
    countTrue (ps.map (checkPrefix str)) = 1 ∧ (ps.map (checkPrefix str)).sum = p.length := by
  induction ps with
  | nil => simp at hp
  | cons q ps ih =>
    rw [List.pairwise_cons] at ha
    have hq := hne q (List.mem_cons_self ..)
    have hne' : ∀ r ∈ ps, r ≠ [] := fun r hr => hne r (List.mem_cons_of_mem _ hr)
    rcases List.mem_cons.mp hp with rfl | hp
    · obtain ⟨h1, h2⟩ := group_none str ps hne' (fun r hr => (ha.1 r hr).not_both hm)
      have hl : 0 < p.length := List.length_pos_iff.mpr hq
      have hz : checkPrefix str p = p.length := by rw [checkPrefix_eq str hq, if_pos hm]
      refine ⟨?_, by simp [hz, h2]⟩
      rw [List.map_cons, countTrue_cons, hz, h1, if_pos (by omega)]
    · obtain ⟨h1, h2⟩ := ih hne' ha.2 hp
      have hz : checkPrefix str q = 0 := by
        rw [checkPrefix_eq str hq, if_neg]
        intro hqm
        exact (ha.1 p hp).not_both hqm hm
      refine ⟨?_, by simp [hz, h2]⟩
      rw [List.map_cons, countTrue_cons, hz, h1]; rfl

theorem group_cases (str : List Char) (ps : List (List Char)) (hne : ∀ p ∈ ps, p ≠ []) (ha : ps.Pairwise Apart) :
    (∃ p ∈ ps, p <+: str ∧ countTrue (ps.map (checkPrefix str)) = 1 ∧ (ps.map (checkPrefix str)).sum = p.length) ∨
    ((∀ p ∈ ps, ¬ p <+: str) ∧ countTrue (ps.map (checkPrefix str)) = 0 ∧ (ps.map (checkPrefix str)).sum = 0) := by
  by_cases h : ∃ p ∈ ps, p <+: str
  · obtain ⟨p, h1, h2⟩ := h
    exact Or.inl ⟨p, h1, h2, group_one str ps hne ha h1 h2⟩
  · have hn : ∀ p ∈ ps, ¬ p <+: str := fun p hp hm => h ⟨p, hp, hm⟩
    exact Or.inr ⟨hn, group_none str ps hne hn⟩

theorem apart1 : (∀ p ∈ prefixes1, p ≠ []) ∧ prefixes1.Pairwise Apart := by decide +kernel
theorem apart2 : (∀ p ∈ prefixes2, p ≠ []) ∧ prefixes2.Pairwise Apart := by decide +kernel
theorem apart3 : (∀ p ∈ prefixes3, p ≠ []) ∧ prefixes3.Pairwise Apart := by decide +kernel

/-- Cutting a string between a prefix and a suffix. -/
theorem cut (p name s : List Char) : ((p ++ name ++ s).drop p.length).take ((p ++ name ++ s).length - s.length - p.length) = name := by
  have : (p ++ name ++ s).length - s.length - p.length = name.length := by simp; omega
  rw [this, List.append_assoc, List.drop_left, List.take_left]

/-- A string with a prefix and a suffix that cannot overlap. -/
theorem split_of_both {p s str : List Char} (hp : p <+: str) (hs : s <:+ str) (hlast : ∀ c, p.getLast? = some c → c ∉ s) : ∃ name, str = p ++ name ++ s := by
  obtain ⟨t, rfl⟩ := hp
  obtain ⟨u, hu⟩ := hs
  by_cases hl : s.length ≤ t.length
  · have : s <:+ t := List.suffix_of_suffix_length_le (l₃ := p ++ t) ⟨u, hu⟩ ⟨p, rfl⟩ hl
    obtain ⟨name, rfl⟩ := this
    exact ⟨name, by rw [List.append_assoc]⟩
  · exfalso
    have hsl : t <:+ s := List.suffix_of_suffix_length_le (l₃ := p ++ t) ⟨p, rfl⟩ ⟨u, hu⟩ (by omega)
    obtain ⟨v, rfl⟩ := hsl
    rw [← List.append_assoc, List.append_left_inj] at hu
    have hv : v ≠ [] := by rintro rfl; simp at hl
    have hlast' : p.getLast? = some (v.getLast hv) := by
      rw [← hu, List.getLast?_append, List.getLast?_eq_some_getLast hv]
      rfl
    exact hlast _ hlast' (List.mem_append_left _ (List.getLast_mem hv))

theorem last1 : ∀ p ∈ prefixes1, ∀ c, p.getLast? = some c → c ∉ suffix1 := by
  have : ∀ p ∈ prefixes1, p.getLast? = some ' ' := by decide +kernel
  intro p hp c hc
  rw [this p hp] at hc
  cases hc
  decide

theorem last2 : ∀ p ∈ prefixes2, ∀ c, p.getLast? = some c → c ∉ suffix2 := by
  have : ∀ p ∈ prefixes2, p.getLast? = some ' ' := by decide +kernel
  intro p hp c hc
  rw [this p hp] at hc
  cases hc
  decide

theorem last3 : ∀ p ∈ prefixes3, ∀ c, p.getLast? = some c → c ∉ suffix2 := by
  have : ∀ p ∈ prefixes3, p.getLast? = some '<' := by decide +kernel
  intro p hp c hc
  rw [this p hp] at hc
  cases hc
  decide

/-- The two suffixes exclude each other. -/
theorem suffixes_apart (str : List Char) (h1 : suffix1 <:+ str) : ¬ suffix2 <:+ str := by
  rintro ⟨u, hu⟩
  obtain ⟨v, rfl⟩ := h1
  have := congrArg List.getLast? hu
  rw [List.getLast?_append, List.getLast?_append] at this
  have e1 : suffix1.getLast? = some ']' := by decide
  have e2 : suffix2.getLast? = some ')' := by decide
  rw [e1, e2] at this
  simp at this

/-- Parsing, for each of the three groups of formats. -/
theorem parse_group1 {p name : List Char} (hp : p ∈ prefixes1) : parseName (p ++ name ++ suffix1) = some name := by
  have hpre : p <+: p ++ name ++ suffix1 := ⟨name ++ suffix1, by rw [List.append_assoc]⟩
  obtain ⟨hc, hs⟩ := group_one _ prefixes1 apart1.1 apart1.2 hp hpre
  have hl : 0 < p.length := List.length_pos_iff.mpr (apart1.1 p hp)
  have hs1 : checkSuffix (p ++ name ++ suffix1) suffix1 = (p ++ name ++ suffix1).length - suffix1.length := by
    rw [checkSuffix_eq _ (by decide), if_pos ⟨p ++ name, rfl⟩]
  have hne : (p ++ name ++ suffix1).length - suffix1.length ≠ 0 := by simp; omega
  unfold parseName
  simp only [hc, hs, hs1, hne, ne_eq, not_false_eq_true, and_self, true_or, if_true, Nat.one_mul]
  rw [if_pos (by omega), cut]

theorem parse_group2 {p name : List Char} (hp : p ∈ prefixes2) : parseName (p ++ name ++ suffix2) = some name := by
  have hpre : p <+: p ++ name ++ suffix2 := ⟨name ++ suffix2, by rw [List.append_assoc]⟩
  obtain ⟨hc, hs⟩ := group_one _ prefixes2 apart2.1 apart2.2 hp hpre
  have hl : 0 < p.length := List.length_pos_iff.mpr (apart2.1 p hp)
  have hs1 : checkSuffix (p ++ name ++ suffix2) suffix1 = 0 := by
    rw [checkSuffix_eq _ (by decide), if_neg (fun h => suffixes_apart _ h ⟨p ++ name, rfl⟩)]
  have hs2 : checkSuffix (p ++ name ++ suffix2) suffix2 = (p ++ name ++ suffix2).length - suffix2.length := by
    rw [checkSuffix_eq _ (by decide), if_pos ⟨p ++ name, rfl⟩]
  have hne : (p ++ name ++ suffix2).length - suffix2.length ≠ 0 := by simp; omega
  unfold parseName
  simp only [hc, hs, hs1, hs2, hne, ne_eq, not_false_eq_true, not_true_eq_false, and_self, false_and, true_or, false_or, if_true, if_false, Nat.one_mul, Nat.zero_mul]
  rw [if_pos (by omega), cut]

theorem parse_group3 {p name : List Char} (hp : p ∈ prefixes3) (hn : ∀ q ∈ prefixes2, ¬ q <+: p ++ name ++ suffix2) : parseName (p ++ name ++ suffix2) = some name := by
  have hpre : p <+: p ++ name ++ suffix2 := ⟨name ++ suffix2, by rw [List.append_assoc]⟩
  obtain ⟨hc, hs⟩ := group_one _ prefixes3 apart3.1 apart3.2 hp hpre
  obtain ⟨hc2, hs2'⟩ := group_none _ prefixes2 apart2.1 hn
  have hl : 0 < p.length := List.length_pos_iff.mpr (apart3.1 p hp)
  have hs1 : checkSuffix (p ++ name ++ suffix2) suffix1 = 0 := by
    rw [checkSuffix_eq _ (by decide), if_neg (fun h => suffixes_apart _ h ⟨p ++ name, rfl⟩)]
  have hs2 : checkSuffix (p ++ name ++ suffix2) suffix2 = (p ++ name ++ suffix2).length - suffix2.length := by
    rw [checkSuffix_eq _ (by decide), if_pos ⟨p ++ name, rfl⟩]
  have hne : (p ++ name ++ suffix2).length - suffix2.length ≠ 0 := by simp; omega
  unfold parseName
  simp only [hc, hs, hs1, hs2, hc2, hs2', hne, ne_eq, not_false_eq_true, not_true_eq_false, and_self, false_and, or_true, if_true, if_false, Nat.one_mul, Nat.zero_mul]
  rw [cut]

/-- The announcements. -/
def announcements : List (List Char) := ["struct ".toList, "class ".toList, "enum ".toList]

theorem prefixes2_split : ∀ q ∈ prefixes2, ∃ p ∈ prefixes3, ∃ k ∈ announcements, q = p ++ k := by decide +kernel
theorem prefixes2_of : ∀ p ∈ prefixes3, ∀ k ∈ announcements, p ++ k ∈ prefixes2 := by decide +kernel
theorem announcements_no_gt : ∀ k ∈ announcements, '>' ∉ k := by decide +kernel

/-- A signature of the third group is not one of the second. -/
theorem group3_not2 {p name : List Char} (hp : p ∈ prefixes3) (hn : ∀ k ∈ announcements, ¬ k <+: name) : ∀ q ∈ prefixes2, ¬ q <+: p ++ name ++ suffix2 := by
  intro q hq hpre
  obtain ⟨p', hp', k, hk, rfl⟩ := prefixes2_split q hq
  have hp'pre : p' <+: p ++ name ++ suffix2 := List.IsPrefix.trans ⟨k, rfl⟩ hpre
  have hppre : p <+: p ++ name ++ suffix2 := ⟨name ++ suffix2, by rw [List.append_assoc]⟩
  have : p' = p := by
    apply Classical.byContradiction
    intro hne
    have hap : ∀ a ∈ prefixes3, ∀ b ∈ prefixes3, a ≠ b → Apart a b := by decide +kernel
    exact (hap p hp p' hp' (Ne.symm hne)).not_both hppre hp'pre
  subst this
  rw [List.append_assoc, List.prefix_append_right_inj] at hpre
  rcases Nat.le_total k.length name.length with hl | hl
  · exact hn k hk (List.prefix_of_prefix_length_le hpre ⟨suffix2, rfl⟩ hl)
  · have hnk : name <+: k := List.prefix_of_prefix_length_le ⟨suffix2, rfl⟩ hpre hl
    obtain ⟨t, rfl⟩ := hnk
    rw [List.prefix_append_right_inj] at hpre
    cases t with
    | nil => exact hn _ hk ⟨[], by simp⟩
    | cons c t =>
      have hc : c = '>' := by
        obtain ⟨r, hr⟩ := hpre
        have e : suffix2 = '>' :: "(void)".toList := by decide
        rw [e] at hr
        simp only [List.cons_append, List.cons.injEq] at hr
        exact hr.1
      subst hc
      exact announcements_no_gt _ hk (by simp)

/-! ## Formats and prefixes -/

theorem toList_three (a b c : String) : (a ++ b ++ c).toList = a.toList ++ b.toList ++ c.toList := by
  rw [String.toList_append, String.toList_append]

theorem toList_six (a b c d e f : String) : (a ++ b ++ c ++ d ++ e ++ f).toList = a.toList ++ b.toList ++ c.toList ++ d.toList ++ e.toList ++ f.toList := by
  rw [toList_three, toList_three, String.toList_append]

theorem sig_clang (name : String) : (SigFormat.clang.signature name).toList = "r boost::leaf::n::p() [T = ".toList ++ name.toList ++ suffix1 := by
  exact toList_three _ _ _
theorem sig_oldClang (name : String) : (SigFormat.oldClang.signature name).toList = "boost::leaf::n::r boost::leaf::n::p() [T = ".toList ++ name.toList ++ suffix1 := by
  exact toList_three _ _ _
theorem sig_gcc (name : String) : (SigFormat.gcc.signature name).toList = "boost::leaf::n::r boost::leaf::n::p() [with T = ".toList ++ name.toList ++ suffix1 := by
  exact toList_three _ _ _

def CallConv.pre (cc : CallConv) : List Char := "struct boost::leaf::n::r ".toList ++ cc.text.toList ++ " boost::leaf::n::p<".toList

theorem sig_msvc (cc : CallConv) (k : TypeKind) (name : String) : ((SigFormat.msvc cc k).signature name).toList = (cc.pre ++ k.text.toList) ++ name.toList ++ suffix2 := by
  exact toList_six _ _ _ _ _ _

theorem CallConv.pre_mem (cc : CallConv) : cc.pre ∈ prefixes3 := by cases cc <;> decide +kernel
theorem TypeKind.text_mem (k : TypeKind) (hk : k ≠ .other) : k.text.toList ∈ announcements := by cases k <;> first | decide | exact absurd rfl hk
theorem mem_prefixes3 : ∀ p ∈ prefixes3, ∃ cc : CallConv, cc.pre = p := by
  intro p hp
  simp only [prefixes3, List.mem_cons, List.not_mem_nil, or_false] at hp
  rcases hp with rfl | rfl | rfl
  · exact ⟨.cdecl, by decide +kernel⟩
  · exact ⟨.stdcall, by decide +kernel⟩
  · exact ⟨.fastcall, by decide +kernel⟩
theorem mem_announcements : ∀ k ∈ announcements, ∃ kd : TypeKind, kd ≠ .other ∧ kd.text.toList = k := by
  intro k hk
  simp only [announcements, List.mem_cons, List.not_mem_nil, or_false] at hk
  rcases hk with rfl | rfl | rfl
  · exact ⟨.struct_, by simp, rfl⟩
  · exact ⟨.class_, by simp, rfl⟩
  · exact ⟨.enum_, by simp, rfl⟩

/-! ## The properties -/

/-- **C38.** For every type name and every supported format: the parsed name is exactly the type name. -/
theorem C38_exact (f : SigFormat) (name : String) (h : f.Admits name) : parseName (f.signature name).toList = some name.toList := by
  cases f with
  | clang => rw [sig_clang]; exact parse_group1 (by simp only [prefixes1, List.mem_cons, true_or, or_true])
  | oldClang => rw [sig_oldClang]; exact parse_group1 (by simp only [prefixes1, List.mem_cons, true_or, or_true])
  | gcc => rw [sig_gcc]; exact parse_group1 (by simp only [prefixes1, List.mem_cons, true_or, or_true])
  | msvc cc k =>
    rw [sig_msvc]
    by_cases hk : k = .other
    · subst hk
      rw [show TypeKind.other.text.toList = [] from rfl, List.append_nil]
      refine parse_group3 cc.pre_mem (group3_not2 cc.pre_mem ?_)
      intro a ha
      obtain ⟨kd, hkd, rfl⟩ := mem_announcements a ha
      exact h kd hkd
    · exact parse_group2 (prefixes2_of _ cc.pre_mem _ (k.text_mem hk))

theorem String.toList_ext {a b : String} (h : a.toList = b.toList) : a = b := String.toList_inj.mp h

/-- **C38: nothing else is accepted.** If the function compiles, the signature has one of the supported formats, and what is printed is the type name in it. -/
theorem C38_only (str : String) {out : List Char} (h : parseName str.toList = some out) :
    ∃ (f : SigFormat) (name : String), str = f.signature name ∧ f.Admits name ∧ out = name.toList := by
  have fin1 : ∀ p ∈ prefixes1, p <+: str.toList → suffix1 <:+ str.toList → ∃ (f : SigFormat) (name : String), str = f.signature name ∧ f.Admits name ∧ out = name.toList := by
    intro p hp hpre hsuf
    obtain ⟨name, hn⟩ := split_of_both hpre hsuf (last1 p hp)
    have ho : out = name := by rw [hn, parse_group1 hp] at h; exact (Option.some.inj h).symm
    subst ho
    simp only [prefixes1, List.mem_cons, List.not_mem_nil, or_false] at hp
    rcases hp with rfl | rfl | rfl
    · exact ⟨.clang, String.ofList out, String.toList_ext (by rw [sig_clang, hn]; simp only [String.toList_ofList]), trivial, by simp only [String.toList_ofList]⟩
    · exact ⟨.oldClang, String.ofList out, String.toList_ext (by rw [sig_oldClang, hn]; simp only [String.toList_ofList]), trivial, by simp only [String.toList_ofList]⟩
    · exact ⟨.gcc, String.ofList out, String.toList_ext (by rw [sig_gcc, hn]; simp only [String.toList_ofList]), trivial, by simp only [String.toList_ofList]⟩
  have fin2 : ∀ p ∈ prefixes2, p <+: str.toList → suffix2 <:+ str.toList → ∃ (f : SigFormat) (name : String), str = f.signature name ∧ f.Admits name ∧ out = name.toList := by
    intro p hp hpre hsuf
    obtain ⟨name, hn⟩ := split_of_both hpre hsuf (last2 p hp)
    have ho : out = name := by rw [hn, parse_group2 hp] at h; exact (Option.some.inj h).symm
    subst ho
    obtain ⟨p', hp', k, hk, rfl⟩ := prefixes2_split p hp
    obtain ⟨cc, rfl⟩ := mem_prefixes3 p' hp'
    obtain ⟨kd, hkd, rfl⟩ := mem_announcements k hk
    refine ⟨.msvc cc kd, String.ofList out, String.toList_ext (by rw [sig_msvc, hn]; simp only [String.toList_ofList]), ?_, by simp only [String.toList_ofList]⟩
    cases kd <;> first | trivial | exact absurd rfl hkd
  have fin3 : ∀ p ∈ prefixes3, p <+: str.toList → suffix2 <:+ str.toList → (∀ q ∈ prefixes2, ¬ q <+: str.toList) →
      ∃ (f : SigFormat) (name : String), str = f.signature name ∧ f.Admits name ∧ out = name.toList := by
    intro p hp hpre hsuf hno
    obtain ⟨name, hn⟩ := split_of_both hpre hsuf (last3 p hp)
    have ho : out = name := by rw [hn, parse_group3 hp (hn ▸ hno)] at h; exact (Option.some.inj h).symm
    subst ho
    obtain ⟨cc, rfl⟩ := mem_prefixes3 p hp
    refine ⟨.msvc cc .other, String.ofList out, String.toList_ext ?_, ?_, by simp only [String.toList_ofList]⟩
    · rw [sig_msvc, hn, show TypeKind.other.text.toList = [] from rfl, List.append_nil]; simp only [String.toList_ofList]
    · intro kd hkd hpre'
      simp only [String.toList_ofList] at hpre'
      refine hno _ (prefixes2_of _ cc.pre_mem _ (kd.text_mem hkd)) ?_
      rw [hn, List.append_assoc, List.prefix_append_right_inj]
      exact hpre'.trans ⟨suffix2, rfl⟩
  have suf : ∀ s : List Char, s ≠ [] → checkSuffix str.toList s ≠ 0 → s <:+ str.toList := by
    intro s hs hc
    rw [checkSuffix_eq _ hs] at hc
    apply Classical.byContradiction
    intro hn
    rw [if_neg hn] at hc
    exact hc rfl
  have hs1 : checkSuffix str.toList suffix1 ≠ 0 → suffix1 <:+ str.toList := suf suffix1 (by decide)
  have hs2 : checkSuffix str.toList suffix2 ≠ 0 → suffix2 <:+ str.toList := suf suffix2 (by decide)
  have g1 := group_cases str.toList prefixes1 apart1.1 apart1.2
  have g2 := group_cases str.toList prefixes2 apart2.1 apart2.2
  have g3 := group_cases str.toList prefixes3 apart3.1 apart3.2
  by_cases hc1 : checkSuffix str.toList suffix1 ≠ 0 ∧ ∃ p ∈ prefixes1, p <+: str.toList
  · obtain ⟨hc, p, hp, hpre⟩ := hc1
    exact fin1 p hp hpre (hs1 hc)
  · by_cases hc2 : checkSuffix str.toList suffix2 ≠ 0 ∧ ∃ p ∈ prefixes2, p <+: str.toList
    · obtain ⟨hc, p, hp, hpre⟩ := hc2
      exact fin2 p hp hpre (hs2 hc)
    · have hcond : (checkSuffix str.toList suffix1 ≠ 0 ∧ 1 = countTrue (prefixes1.map (checkPrefix str.toList))) ∨
          (checkSuffix str.toList suffix2 ≠ 0 ∧ 1 = countTrue (prefixes2.map (checkPrefix str.toList))) ∨
          (checkSuffix str.toList suffix2 ≠ 0 ∧ 1 = countTrue (prefixes3.map (checkPrefix str.toList))) := by
        unfold parseName at h
        simp only at h
        split at h
        · assumption
        · simp at h
      rcases hcond with ⟨a, b⟩ | ⟨a, b⟩ | ⟨a, b⟩
      · rcases g1 with ⟨p, hp, hpre, _⟩ | ⟨_, hz, _⟩
        · exact absurd ⟨a, p, hp, hpre⟩ hc1
        · rw [hz] at b; simp at b
      · rcases g2 with ⟨p, hp, hpre, _⟩ | ⟨_, hz, _⟩
        · exact absurd ⟨a, p, hp, hpre⟩ hc2
        · rw [hz] at b; simp at b
      · rcases g3 with ⟨p, hp, hpre, _⟩ | ⟨_, hz, _⟩
        · exact fin3 p hp hpre (hs2 a) (fun q hq hqp => hc2 ⟨a, q, hq, hqp⟩)
        · rw [hz] at b; simp at b

/-! ## The hypotheses can be met -/

example : (SigFormat.msvc .cdecl .other).Admits "unsigned int" := by
  intro k hk
  cases k <;> first | exact absurd rfl hk | decide

example : parseName "boost::leaf::n::r boost::leaf::n::p() [with T = my::array<int [3]>]".toList = some "my::array<int [3]>".toList := by decide +kernel

example : parseName "struct boost::leaf::n::r __stdcall boost::leaf::n::p<class my::string>(void)".toList = some "my::string".toList := by decide +kernel

/-- An unknown format is rejected. -/
example : parseName "boost::leaf::n::r boost::leaf::n::p<T>() with T = int".toList = none := by decide +kernel

end Leaf
