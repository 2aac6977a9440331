import Verif.PropTravel
import Verif.PropConvert
import Verif.PropGuards

/-!
# Ideal error handling

The language `Direct` of programs that use LEAF the way its documentation recommends, and an ideal semantics for it, in which an error simply
carries its objects: there is no error storage, no scope content and no current error id. `C48` (PropDirect) states that LEAF implements it.
-/

namespace Leaf

/-- Programs in which every error is reported to LEAF. -/
inductive Direct : Type
  /-- `return v` -/
  | ret (v : Val)
  /-- `return new_error(items...)`, or `throw` an exception made from the new error id -/
  | fail (items : List Item) (thrown : Option (Id → Exc))
  /-- `return ec`, where `ec` is a `std::error_code` from elsewhere (error.hpp:601-620, 660-674); `v` stands for it as an object -/
  | failCode (ec : ErrorCode) (v : Val)
  /-- `BOOST_LEAF_AUTO(v, p()); k(v)`: a failed result is returned to the caller -/
  | seq (p : Direct) (k : Val → Direct)
  /-- `auto v = p(); k(v)`, where `p` does not return a `result` -/
  | next (p : Direct) (k : Val → Direct)
  /-- `if( auto r = p() ) k(*r); else h()`: the error is abandoned -/
  | orElse (p : Direct) (k : Val → Direct) (h : Direct)
  /-- `try { p() } catch( ... ) { h() }`: the error is abandoned -/
  | catch_ (p : Direct) (h : Direct)
  /-- `auto g = on_error(items...); p()` -/
  | guard (items : List OnItem) (p : Direct)
  /-- `auto r = p(); if( !r ) r.load(items...); return r;` -/
  | load (items : List Item) (p : Direct)
  /-- `error_monitor m; if( failed(p()) ) return m.assigned_error_id().load(items...);` (on_error.hpp:15-80): `p` is called by code that knows
  nothing of LEAF and tells only whether it succeeded -/
  | monitor (items : List Item) (p : Direct)
  /-- `p().value()` -/
  | value (tag : Nat) (p : Direct)
  /-- `exception_to_result<Ex...>(p)` -/
  | toResult (tys : List Ty) (p : Direct)
  /-- `try_handle_all` -/
  | handleAll (specs : List (List Arg)) (p : Direct) (body : Nat → List ArgVal → Direct)
  /-- `try_handle_some`; where `again` says so, the handler only loads these objects and returns the error it was called for -/
  | handleSome (specs : List (List Arg)) (p : Direct) (again : Nat → List ArgVal → Option (List Item)) (body : Nat → List ArgVal → Direct)
  /-- `try_catch` -/
  | tryCatch (specs : List (List Arg)) (p : Direct) (body : Nat → List ArgVal → Direct)

/-! ## The programs -/

/-- The error id in an argument of type `error_info const &` or derived. -/
def ArgVal.errorId : ArgVal → Option Id
  | .info id _ _ => some id
  | .diag id _ _ _ => some id
  | .details id _ _ _ _ => some id
  | _ => none

/-- A handler that returns the error it was called for: `return info.error().load(items...)`, or without such an argument,
`return current_error().load(items...)`. -/
def returnSame (items : List Item) (args : List ArgVal) : Prog :=
  match args.findSome? ArgVal.errorId with
  | some id => .load id items (.ret (.err (.plain id)))
  | none => .currentError (fun id => .load id items (.ret (.err (.plain id))))

/-- The program, as a C++ program. -/
def Direct.prog : Direct → Prog
  | .ret v => .ret (.val v)
  | .fail items thrown => report items thrown
  | .failCode ec v => .importCode ec v (fun id => .ret (.err (.plain id)))
  | .seq p k => .bind p.prog (fun v => (k v).prog) (fun r => .ret (.err r.forward))
  -- the last argument is for failed results, which do not type-check here
  | .next p k => .bind p.prog (fun v => (k v).prog) (fun _ => .ret (.val 0))
  | .orElse p k h => .bind p.prog (fun v => (k v).prog) (fun _ => h.prog)
  | .catch_ p h => .cppCatch p.prog (fun _ => h.prog)
  | .guard items p => .onError items p.prog
  | .load items p => .bind p.prog (fun v => .ret (.val v)) (fun r => .load r.errId items (.ret (.err r.forward)))
  | .monitor items p => .monNew fun m =>
    .bind p.prog (fun v => .ret (.val v)) (fun _ => .monAssigned m (fun id => .load id items (.ret (.err (.plain id)))))
  | .value tag p => .bind p.prog (fun v => .ret (.val v)) (fun r => .value r tag)
  | .toResult tys p => .excToResult tys p.prog
  | .handleAll specs p body => .handleAll specs p.prog (fun i args => (body i args).prog)
  | .handleSome specs p again body =>
    .handleSome specs p.prog (fun i args => match again i args with | some items => returnSame items args | none => (body i args).prog)
  | .tryCatch specs p body => .tryCatch specs p.prog (fun i args => (body i args).prog)

/-- The exception carries the id. -/
def Exc.Carries (e : Exc) (id : Id) : Prop := e.isStd = true ∧ (e.idSrc = .base id ∨ e.idSrc = .plain id)

/-- Exceptions are thrown with the id of the new error; error codes are not those of LEAF; a handler that returns the error it was called for
replaces or adds objects, it does not modify them in place; where the type system does not allow a failed `result` (`next`) or LEAF does not
support it (`tryCatch`, see `C22_refuted_try_catch`), there is none. -/
def Direct.Ok : Direct → Prop
  | .ret _ => True
  | .fail _ thrown => ∀ g, thrown = some g → ∀ id, Id.Tagged id → (g id).Carries id
  | .failCode ec _ => ec.value ≠ 0#32 ∧ ec.cat ≠ leafCat
  | .seq p k => p.Ok ∧ ∀ v, (k v).Ok
  | .next p k => p.Ok ∧ p.prog.NoErr ∧ ∀ v, (k v).Ok
  | .orElse p k h => p.Ok ∧ (∀ v, (k v).Ok) ∧ h.Ok
  | .catch_ p h => p.Ok ∧ h.Ok
  | .guard _ p => p.Ok
  | .load _ p => p.Ok
  | .monitor _ p => p.Ok
  | .value _ p => p.Ok
  | .toResult _ p => p.Ok
  | .handleAll _ p body => p.Ok ∧ ∀ i args, (body i args).Ok
  | .handleSome _ p again body => p.Ok ∧ (∀ i args items, again i args = some items → ∀ x ∈ items, x.isAccum = false) ∧ ∀ i args, (body i args).Ok
  | .tryCatch _ p body => p.Ok ∧ p.prog.NoErr ∧ ∀ i args, (body i args).Ok

/-! ## The ideal -/

/-- An error: its id, its objects, and the exception that carries it (if it is not a failed `result`). -/
inductive Outcome
  | ok (v : Val)
  | failed (id : Id) (A : Ty → Option Val) (ex : Option Exc)

/-- A call of a handler: for which error and exception, which handler, with which arguments. -/
abbrev Call := Id × Option Exc × Nat × List ArgVal

/-- How many ids have been generated, in all threads, when this thread has generated `t`. -/
def gens (i : Nat → Nat) : Nat → Nat
  | 0 => 0
  | t + 1 => gens i t + i t + 1

/-- The id of the `t`-th error of the thread, if the first id was generated when the counter was `c`. -/
def errorNo (cfg : Cfg) (c : Id) (t : Nat) : Id := c + BitVec.ofNat 32 (4 * gens cfg.interf (t + 1))

/-- `id` is not one of the ids of the thread number `t`, …, `n - 1`. -/
def NotAhead (cfg : Cfg) (c : Id) (t n : Nat) (id : Id) : Prop := ∀ s, t ≤ s → s < n → id ≠ errorNo cfg c s

/-- What the arguments are, of a handler called for an error with objects `A`. (Which of the other objects `diagnostic_details` lists depends on the
enclosing scopes `outer`.) -/
def Gets (cfg : Cfg) (specs : List (List Arg)) (A : Ty → Option Val) (id : Id) (ex : Option Exc) (i : Nat) (vals : List ArgVal) : Prop :=
  ∃ hd outer, specs[i]? = some hd ∧ vals.length = hd.length ∧
    ∀ (j : Nat) a x, hd[j]? = some a → vals[j]? = some x → ReceivesOf cfg specs outer A id ex a x

/-- Objects attached by `on_error` or `load` to an error with objects `A`. -/
def attach (cfg : Cfg) (keep : Bool) (items : List Item) (A : Ty → Option Val) : Ty → Option Val :=
  fun ty => items.foldl (Item.step cfg keep ty) (A ty)

/-- Ideal runs. `Ideal cfg c p t o t' l`: when the thread has generated `t` ids, `p` ends with outcome `o`, `t'` ids generated, and the handler
calls `l` made, in this order. -/
inductive Ideal (cfg : Cfg) (c : Id) : Direct → Nat → Outcome → Nat → List Call → Prop
  | ret {v t} : Ideal cfg c (.ret v) t (.ok v) t []
  | fail {items thrown t} : Ideal cfg c (.fail items thrown) t
      (.failed (errorNo cfg c t) (objects cfg items) (thrown.map (· (errorNo cfg c t)))) (t + 1) []
  | failCode {ec v t} : Ideal cfg c (.failCode ec v) t (.failed (errorNo cfg c t) (objects cfg [.obj tyErrorCode v]) none) (t + 1) []
  -- sequencing
  | seq_ok {p k t v t1 l1 o t2 l2} : Ideal cfg c p t (.ok v) t1 l1 → Ideal cfg c (k v) t1 o t2 l2 → Ideal cfg c (.seq p k) t o t2 (l1 ++ l2)
  | seq_failed {p k t id A ex t1 l} : Ideal cfg c p t (.failed id A ex) t1 l → Ideal cfg c (.seq p k) t (.failed id A ex) t1 l
  | next_ok {p k t v t1 l1 o t2 l2} : Ideal cfg c p t (.ok v) t1 l1 → Ideal cfg c (k v) t1 o t2 l2 → Ideal cfg c (.next p k) t o t2 (l1 ++ l2)
  | next_thrown {p k t id A e t1 l} : Ideal cfg c p t (.failed id A (some e)) t1 l → Ideal cfg c (.next p k) t (.failed id A (some e)) t1 l
  -- abandoning
  | orElse_ok {p k h t v t1 l1 o t2 l2} : Ideal cfg c p t (.ok v) t1 l1 → Ideal cfg c (k v) t1 o t2 l2 →
      Ideal cfg c (.orElse p k h) t o t2 (l1 ++ l2)
  | orElse_failed {p k h t id A t1 l1 o t2 l2} : Ideal cfg c p t (.failed id A none) t1 l1 → Ideal cfg c h t1 o t2 l2 →
      Ideal cfg c (.orElse p k h) t o t2 (l1 ++ l2)
  | orElse_thrown {p k h t id A e t1 l} : Ideal cfg c p t (.failed id A (some e)) t1 l → Ideal cfg c (.orElse p k h) t (.failed id A (some e)) t1 l
  | catch_ok {p h t v t1 l} : Ideal cfg c p t (.ok v) t1 l → Ideal cfg c (.catch_ p h) t (.ok v) t1 l
  | catch_failed {p h t id A t1 l} : Ideal cfg c p t (.failed id A none) t1 l → Ideal cfg c (.catch_ p h) t (.failed id A none) t1 l
  | catch_thrown {p h t id A e t1 l1 o t2 l2} : Ideal cfg c p t (.failed id A (some e)) t1 l1 → Ideal cfg c h t1 o t2 l2 →
      Ideal cfg c (.catch_ p h) t o t2 (l1 ++ l2)
  -- adding objects
  | guard_ok {items p t v t1 l} : Ideal cfg c p t (.ok v) t1 l → Ideal cfg c (.guard items p) t (.ok v) t1 l
  | guard_failed {items p t id A ex t1 l} : Ideal cfg c p t (.failed id A ex) t1 l →
      Ideal cfg c (.guard items p) t (.failed id (attach cfg true (onItems items) A) ex) t1 l
  | load_ok {items p t v t1 l} : Ideal cfg c p t (.ok v) t1 l → Ideal cfg c (.load items p) t (.ok v) t1 l
  | load_failed {items p t id A t1 l} : Ideal cfg c p t (.failed id A none) t1 l →
      Ideal cfg c (.load items p) t (.failed id (attach cfg false items A) none) t1 l
  | load_thrown {items p t id A e t1 l} : Ideal cfg c p t (.failed id A (some e)) t1 l → Ideal cfg c (.load items p) t (.failed id A (some e)) t1 l
  | monitor_ok {items p t v t1 l} : Ideal cfg c p t (.ok v) t1 l → Ideal cfg c (.monitor items p) t (.ok v) t1 l
  | monitor_failed {items p t id A t1 l} : Ideal cfg c p t (.failed id A none) t1 l →
      Ideal cfg c (.monitor items p) t (.failed id (attach cfg false items A) none) t1 l
  | monitor_thrown {items p t id A e t1 l} : Ideal cfg c p t (.failed id A (some e)) t1 l →
      Ideal cfg c (.monitor items p) t (.failed id A (some e)) t1 l
  -- results to exceptions and back
  | value_ok {tag p t v t1 l} : Ideal cfg c p t (.ok v) t1 l → Ideal cfg c (.value tag p) t (.ok v) t1 l
  | value_failed {tag p t id A t1 l} : Ideal cfg c p t (.failed id A none) t1 l →
      Ideal cfg c (.value tag p) t (.failed id A (some (badResultExc id tag))) t1 l
  | value_thrown {tag p t id A e t1 l} : Ideal cfg c p t (.failed id A (some e)) t1 l → Ideal cfg c (.value tag p) t (.failed id A (some e)) t1 l
  | toResult_ok {tys p t v t1 l} : Ideal cfg c p t (.ok v) t1 l → Ideal cfg c (.toResult tys p) t (.ok v) t1 l
  | toResult_failed {tys p t id A t1 l} : Ideal cfg c p t (.failed id A none) t1 l → Ideal cfg c (.toResult tys p) t (.failed id A none) t1 l
  | toResult_thrown {tys p t id A e t1 l} : Ideal cfg c p t (.failed id A (some e)) t1 l →
      Ideal cfg c (.toResult tys p) t (.failed (errorNo cfg c t1) (objects cfg (excItems tys e)) none) (t1 + 1) l
  -- handling
  | all_ok {specs p body t v t1 l} : Ideal cfg c p t (.ok v) t1 l → Ideal cfg c (.handleAll specs p body) t (.ok v) t1 l
  | all_handled {specs p body t id A ex t1 l1 i vals o t2 l2} : Ideal cfg c p t (.failed id A ex) t1 l1 →
      FirstSuitableOf cfg A (visible ex) specs i → Gets cfg specs A id (visible ex) i vals → Ideal cfg c (body i vals) t1 o t2 l2 →
      Ideal cfg c (.handleAll specs p body) t o t2 (l1 ++ (id, visible ex, i, vals) :: l2)
  | some_ok {specs p again body t v t1 l} : Ideal cfg c p t (.ok v) t1 l → Ideal cfg c (.handleSome specs p again body) t (.ok v) t1 l
  | some_unhandled {specs p again body t id A ex t1 l} : Ideal cfg c p t (.failed id A ex) t1 l → (∀ hd ∈ specs, ¬ SuitableOf cfg A (visible ex) hd) →
      Ideal cfg c (.handleSome specs p again body) t (.failed id A ex) t1 l
  | some_handled {specs p again body t id A ex t1 l1 i vals o t2 l2} : Ideal cfg c p t (.failed id A ex) t1 l1 →
      FirstSuitableOf cfg A (visible ex) specs i → Gets cfg specs A id (visible ex) i vals → again i vals = none →
      Ideal cfg c (body i vals) t1 o t2 l2 → Ideal cfg c (.handleSome specs p again body) t o t2 (l1 ++ (id, visible ex, i, vals) :: l2)
  | some_again {specs p again body t id A ex t1 l1 i vals items} : Ideal cfg c p t (.failed id A ex) t1 l1 →
      FirstSuitableOf cfg A (visible ex) specs i → Gets cfg specs A id (visible ex) i vals → again i vals = some items →
      Ideal cfg c (.handleSome specs p again body) t (.failed id (attach cfg false items A) none) t1 (l1 ++ [(id, visible ex, i, vals)])
  | catch_scope_ok {specs p body t v t1 l} : Ideal cfg c p t (.ok v) t1 l → Ideal cfg c (.tryCatch specs p body) t (.ok v) t1 l
  | catch_scope_unhandled {specs p body t id A e t1 l} : Ideal cfg c p t (.failed id A (some e)) t1 l →
      (∀ hd ∈ specs, ¬ SuitableOf cfg A (visible (some e)) hd) → Ideal cfg c (.tryCatch specs p body) t (.failed id A (some e)) t1 l
  | catch_scope_handled {specs p body t id A e t1 l1 i vals o t2 l2} : Ideal cfg c p t (.failed id A (some e)) t1 l1 →
      FirstSuitableOf cfg A (visible (some e)) specs i → Gets cfg specs A id (visible (some e)) i vals → Ideal cfg c (body i vals) t1 o t2 l2 →
      Ideal cfg c (.tryCatch specs p body) t o t2 (l1 ++ (id, visible (some e), i, vals) :: l2)

/-- The handler calls in a trace, newest first. -/
def callsIn (tr : List Event) : List Call := tr.filterMap fun | .handled id ex i args => some (id, ex, i, args) | _ => none

/-- What the program returned or threw is what the ideal outcome says; exceptions may have been looked at by LEAF. -/
def Outcome.Is : Outcome → Out → Prop
  | .ok v, o => o = .val v
  | .failed id _ ex, o => FailsWith id ex o

end Leaf
