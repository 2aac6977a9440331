import Verif.PropUnwanted
import Verif.PropExamples

/-!
# C62: the program error_log

Compiled with the log enabled, and (by C77) with the log disabled.
-/

namespace Leaf

namespace ErrorLog

variable {cfg : Cfg} {c : Id} {w : World PtrStore} {print : Nat → Val → Val}

theorem f_eq_trace (fails : Nat → Bool) (n : Nat) : f print fails n = ErrorTrace.f print fails n := by
  induction n with
  | zero => rfl
  | succ n ih => rw [f, ErrorTrace.f, ih]

theorem main_eq_trace (fails : Nat → Nat → Bool) (n i : Nat) : main true print fails n i = ErrorTrace.main print fails n i := by
  induction i with
  | zero => rfl
  | succ i ih => rw [main, ErrorTrace.main, ih, f_eq_trace]; rfl

/-- What is printed if function `k` fails: what the constructor prints, then the records of the functions `k`, …, `n`, in this order. -/
def printed (cfg : Cfg) (print : Nat → Val → Val) (n k : Nat) : Val := (List.range' k (n + 1 - k)).foldl (fun out j => print j out) (cfg.dflt tyLog)

/-- The handler calls made in `i` more runs, if `t` ids have been generated. With the log enabled, the handler gets the object everything was printed to; otherwise the handler that prints
`Error!` is called. -/
inductive Loop (cfg : Cfg) (c : Id) (enabled : Bool) (print : Nat → Val → Val) (fails : Nat → Nat → Bool) (n : Nat) : Nat → Nat → List Call → Prop
  | done {t} : Loop cfg c enabled print fails n 0 t []
  | success {i t l} : (∀ k ≤ n, fails i k = false) → Loop cfg c enabled print fails n i t l → Loop cfg c enabled print fails n (i + 1) t l
  | failure {i t l k} : k ≤ n → fails i k = true → (∀ j, k < j → j ≤ n → fails i j = false) → Loop cfg c enabled print fails n i (t + 1) l →
      Loop cfg c enabled print fails n (i + 1) t ((errorNo cfg c t, none, 0, if enabled then [.obj tyLog (printed cfg print n k)] else []) :: l)

theorem loop_of_trace {fails : Nat → Nat → Bool} {n i t : Nat} {l : List Call} (h : ErrorTrace.Loop cfg c print fails n i t l) : Loop cfg c true print fails n i t l := by
  induction h with
  | done => exact .done
  | success h1 _ ih => exact .success h1 ih
  | failure h1 h2 h3 _ ih => exact .failure h1 h2 h3 ih

/-- **C62, error_log.cpp, log enabled:** whichever functions fail, the path of the error is printed in each run that fails, from the function that failed to the outermost, after what the
constructor prints. -/
theorem C62_error_log (hs : cfg.isAbstract tyLog = false) (fails : Nat → Nat → Bool) (n i : Nat) (hw : Ready cfg c (i * (n + 2)) w) :
    ∃ l w', Loop cfg c true print fails n i w.ticks l ∧ eval cfg (main true print fails n i).prog w = some (.val 0, w') ∧
      callsIn w'.trace = l.reverse ++ callsIn w.trace := by
  obtain ⟨l, w', h1, h2, h3⟩ := ErrorTrace.C62_error_trace (push := print) hs fails n i hw
  exact ⟨l, w', loop_of_trace h1, by rw [main_eq_trace]; exact h2, h3⟩

theorem f_failed {fails : Nat → Bool} {n k t : Nat} (hk : k ≤ n) (h1 : fails k = true) (h2 : ∀ j, k < j → j ≤ n → fails j = false) :
    ∃ A, Ideal cfg c (f print fails n) t (.failed (errorNo cfg c t) A none) (t + 1) [] := by
  obtain ⟨A, _, h⟩ := ErrorTrace.f_failed (cfg := cfg) (c := c) (push := print) (t := t) hk h1 h2
  exact ⟨A, by rw [f_eq_trace]; exact h⟩

theorem main_part (fails : Nat → Nat → Bool) (n i : Nat) : Part cfg false (main false print fails n i) (i * (n + 2)) := by
  induction i with
  | zero => exact .ret _
  | succ i ih =>
    rw [show (i + 1) * (n + 2) = (n + 2) + i * (n + 2) by rw [Nat.add_mul]; omega]
    refine .next ?_ trivial fun _ => ih
    refine Part.handleAll (k := n + 2) (k' := 0) ⟨[], [], rfl, rfl⟩ (by simp [NoLists, handlers]) ?_ fun _ _ => ⟨.ret _, fun r => nofun⟩
    have hc : capturing cfg (handlers false) = false := by simp [capturing, handlers]
    rw [hc, f_eq_trace]
    exact .seq (k' := 0) (ErrorTrace.f_part _ n) fun _ => .ret _

theorem last_failure {fails : Nat → Bool} (n : Nat) (h : ¬ ∀ k ≤ n, fails k = false) : ∃ k ≤ n, fails k = true ∧ ∀ j, k < j → j ≤ n → fails j = false := by
  induction n with
  | zero =>
    refine ⟨0, Nat.le_refl _, ?_, fun j a b => by omega⟩
    cases hb : fails 0
    · exact absurd (fun k hk => by rw [Nat.le_zero.mp hk]; exact hb) h
    · rfl
  | succ n ihn =>
    cases hb : fails (n + 1)
    · obtain ⟨k, h1, h2, h3⟩ := ihn fun hn => h fun k hk => by
        by_cases he : k = n + 1
        · rw [he]; exact hb
        · exact hn k (by omega)
      refine ⟨k, by omega, h2, fun j a b => ?_⟩
      by_cases he : j = n + 1
      · rw [he]; exact hb
      · exact h3 j a (by omega)
    · exact ⟨n + 1, Nat.le_refl _, hb, fun j a b => by omega⟩

theorem main_ideal (fails : Nat → Nat → Bool) (n i t : Nat) :
    ∃ l t', Loop cfg c false print fails n i t l ∧ Ideal cfg c (main false print fails n i) t (.ok 0) t' l := by
  induction i generalizing t with
  | zero => exact ⟨[], t, .done, .ret⟩
  | succ i ih =>
    by_cases h : ∀ k ≤ n, fails i k = false
    · obtain ⟨l, t', h1, h2⟩ := ih t
      refine ⟨l, t', .success h h1, ?_⟩
      unfold main
      refine .next_ok (l1 := []) (v := 0) (.all_ok (.seq_ok (l1 := []) (v := 0) ?_ .ret)) h2
      rw [f_eq_trace]
      exact ErrorTrace.f_ok h
    · obtain ⟨k, hk, h1, h2⟩ := last_failure n h
      obtain ⟨A, hi⟩ := f_failed (cfg := cfg) (c := c) (print := print) (t := t) hk h1 h2
      obtain ⟨l, t', h3, h4⟩ := ih (t + 1)
      refine ⟨_, t', .failure hk h1 h2 h3, ?_⟩
      unfold main
      refine .next_ok (l1 := [_]) (v := 0) (.all_handled (l1 := []) (.seq_failed hi) ?_ ?_ .ret) h4
      · exact firstSuitable_zero.mpr suitable_nil
      · exact gets_of rfl trivial

/-- Nobody takes the log. -/
def isLog (ty : Ty) : Bool := ty == tyLog

theorem f_ignores (fails : Nat → Bool) (n : Nat) : (f print fails n).prog.Ignores cfg isLog := by
  induction n with
  | zero =>
    unfold f
    split
    · exact fun id => trivial
    · exact trivial
  | succ n ih =>
    unfold f
    split
    · exact fun id => trivial
    · exact ih

theorem main_ignores (fails : Nat → Nat → Bool) (n i : Nat) : (main false print fails n i).prog.Ignores cfg isLog := by
  induction i with
  | zero => exact trivial
  | succ i ih => exact ⟨⟨by simp [NotTaken, handlers], ⟨f_ignores _ n, fun _ => trivial, fun _ => trivial⟩, fun _ _ => trivial⟩, fun _ => ih, fun _ => trivial⟩

theorem f_without (fails : Nat → Bool) (n : Nat) : ((f print fails n).prog.without cfg isLog).Tags fun _ => False := by
  induction n with
  | zero =>
    unfold f
    split
    · exact ⟨by simp [OnItem.unwanted, Item.unwanted, isLog], by simp, fun id => trivial⟩
    · exact ⟨by simp [OnItem.unwanted, Item.unwanted, isLog], trivial⟩
  | succ n ih =>
    unfold f
    split
    · exact ⟨by simp [OnItem.unwanted, Item.unwanted, isLog], by simp, fun id => trivial⟩
    · exact ⟨by simp [OnItem.unwanted, Item.unwanted, isLog], ih⟩

theorem main_without (fails : Nat → Nat → Bool) (n i : Nat) : ((main false print fails n i).prog.without cfg isLog).Tags fun _ => False := by
  induction i with
  | zero => exact trivial
  | succ i ih => exact ⟨⟨⟨f_without _ n, fun _ => trivial, fun _ => trivial⟩, fun _ _ => trivial⟩, fun _ => ih, fun _ => trivial⟩

/-- **C62, error_log.cpp, log disabled:** the handler that prints `Error!` is called in each run that fails, and nothing is printed by `ERROR_LOG`: none of the functions passed to
`on_error` is called. -/
theorem C62_error_log_disabled (fails : Nat → Nat → Bool) (n i : Nat) (hw : Ready cfg c (i * (n + 2)) w) (hu : Unheard isLog w) :
    ∃ l w', Loop cfg c false print fails n i w.ticks l ∧ eval cfg (main false print fails n i).prog w = some (.val 0, w') ∧
      callsIn w'.trace = l.reverse ++ callsIn w.trace ∧ functionsCalled w'.trace = functionsCalled w.trace := by
  obtain ⟨l, t', h1, h2⟩ := main_ideal (cfg := cfg) (c := c) (print := print) fails n i w.ticks
  obtain ⟨w', e, ht⟩ := (main_part fails n i).runs hw h2
  exact ⟨l, w', h1, e, ht, C77_no_functions cfg _ (main_part fails n i).wf (main_ignores fails n i) (main_without fails n i) w hw.ok hu _ _ e⟩

/-- The hypotheses can be met: 10 runs of 5 functions, as in the program. -/
example : exCfg.isAbstract tyLog = false ∧ Ready exCfg 1#32 (10 * (4 + 2)) (initThread 1#32) ∧ Unheard isLog (initThread 1#32) :=
  ⟨rfl, ready_init exCfg (by decide) (by rw [gens_exCfg]; omega), (noCapturing_iff _).mpr (by intro f hf; cases hf), by intro s hs; cases hs⟩

/-- Two runs; in the first, function 1 fails. What is printed is a number in base 10. -/
def exRun (enabled : Bool) : Option (List Call × List Nat) :=
  (runFresh exCfg (main enabled (fun k out => 10 * out + (k + 1)) (fun i k => i == 1 && k == 1) 4 2).prog).map fun r => (callsIn r.2.2, functionsCalled r.2.2)

example : (exRun true).map (·.1) = some [(5#32, none, 0, [.obj tyLog 2345])] ∧ (exRun true).map (·.2) = some [4, 3, 2, 1] := ⟨by decide +kernel, by decide +kernel⟩

example : (exRun false).map (·.1) = some [(5#32, none, 0, [])] ∧ (exRun false).map (·.2) = some [] := ⟨by decide +kernel, by decide +kernel⟩

end ErrorLog

end Leaf
