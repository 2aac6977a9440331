import Verif.PropFlow

/-!
# The library's own tests, run in the model

Translations of programs from `/repo/test`, with what they expect. These are tests of the model, not proofs: they compare it with what
the authors of the library say the code does. `info<n>` is type `100 + n`, other types are numbered from 200; indices of handlers count from 0;
negative numbers are written as large ones (`neg n`).
-/

namespace Leaf
namespace Tests

/-- The handlers called, oldest first: id, index, arguments. -/
def handlersCalled (t : List Event) : List (Id × Nat × List ArgVal) :=
  t.reverse.filterMap fun | .handled id _ i args => some (id, i, args) | _ => none

/-- Run in a new process: outcome and handlers called. -/
def run (p : Prog) : Option (Out × List (Id × Nat × List ArgVal)) :=
  (runFresh exCfg p).map fun r => (r.1, handlersCalled r.2.2)

/-- Functions called, oldest first. -/
def functionsCalled (p : Prog) : Option (List Nat) :=
  (runFresh exCfg p).map fun r => r.2.2.reverse.filterMap fun | .called t => some t | _ => none

def neg (n : Nat) : Val := 1000 + n

/-- `leaf::throw_exception(items...)`: the object thrown derives from `std::exception` and `leaf::error_id`. -/
def leafExc (id : Id) : Exc := ⟨0, true, .base id, [], true⟩
def throw_ (items : List Item) : Prog := .newError items fun id => .ret (.exc (leafExc id))
/-- `throw std::exception()`. -/
def stdExc : Exc := ⟨1, true, .none, [], false⟩
/-- `return leaf::new_error(items...)`. -/
def fail (items : List Item) : Prog := .newError items fun id => .ret (.err (.plain id))
/-- `return p().load(items...)` for a function returning a failed result or `error_id`. -/
def thenLoad (p : Prog) (items : List Item) : Prog := .bind p (fun v => .ret (.val v)) fun r => .load r.errId items (.ret (.err (.plain r.errId)))
/-- `try { p } catch( leaf::error_id const & err ) { err.load(items...); throw; }`. -/
def catchLoad (p : Prog) (items : List Item) : Prog :=
  .cppRethrow p fun e => match e.idSrc with
    | .base id => .load id items (.ret (.val 0))
    | .plain id => .load id items (.ret (.val 0))
    | .none => .ret (.val 0)
/-- `BOOST_LEAF_CHECK(p); k`. -/
def check (p k : Prog) : Prog := .bind p (fun _ => k) fun r => .ret (.err r.forward)
/-- `(void) p; k`. -/
def dropped (p k : Prog) : Prog := .bind p (fun _ => k) fun _ => k
/-- `try { p } catch(...) { } k`. -/
def swallowed (p k : Prog) : Prog := .bind (.cppCatch p fun _ => .ret (.val 0)) (fun _ => k) fun _ => k
/-- The handlers return their index. -/
def index : Nat → List ArgVal → Prog := fun i _ => .ret (.val i)
def objs (l : List Item) : List OnItem := l.map .item

/-! ## on_error_*_test.cpp -/

/-- on_error_preload_basic_test.cpp -/
example : run (.handleAll [[.req 142], []] (.onError (objs [.obj 142 42, .obj 143 (neg 42)]) (fail [])) index) =
    some (.val 0, [(5#32, 0, [.obj 142 42])]) := by decide +kernel

def infos0123 : List Arg := [.req 100, .req 101, .req 102, .req 103]

/-- on_error_preload_nested_error_result_test.cpp -/
example : run (.handleAll [infos0123, []]
      (thenLoad (.onError (objs [.obj 100 (neg 1), .obj 101 1, .obj 102 (neg 1)]) (.onError (objs [.obj 100 0]) (fail [.obj 102 2]))) [.obj 103 3]) index) =
    some (.val 0, [(5#32, 0, [.obj 100 0, .obj 101 1, .obj 102 2, .obj 103 3])]) := by decide +kernel

/-- on_error_preload_nested_new_error_result_test.cpp -/
example : run (.handleAll [infos0123, []]
      (thenLoad (.onError (objs [.obj 100 0, .obj 101 1, .obj 102 2]) (dropped (.onError (objs [.obj 100 (neg 1)]) (fail [.obj 101 (neg 1)])) (fail [])))
        [.obj 103 3]) index) =
    some (.val 0, [(9#32, 0, [.obj 100 0, .obj 101 1, .obj 102 2, .obj 103 3])]) := by decide +kernel

/-- on_error_preload_nested_success_result_test.cpp -/
example : run (.handleAll [[.req 200], []]
      (.onError (objs [.obj 200 2]) (check (.onError (objs [.obj 200 1]) (.ret (.val 0))) (fail []))) index) =
    some (.val 0, [(5#32, 0, [.obj 200 2])]) := by decide +kernel

/-- on_error_preload_nested_error_exception_test.cpp -/
example : run (.tryCatch [infos0123, []]
      (catchLoad (.onError (objs [.obj 100 (neg 1), .obj 101 1, .obj 102 (neg 1)]) (.onError (objs [.obj 100 0]) (throw_ [.obj 102 2]))) [.obj 103 3]) index) =
    some (.val 0, [(5#32, 0, [.obj 100 0, .obj 101 1, .obj 102 2, .obj 103 3])]) := by decide +kernel

/-- on_error_preload_nested_new_error_exception_test.cpp -/
example : run (.tryCatch [infos0123, []]
      (catchLoad (.onError (objs [.obj 100 0, .obj 101 1, .obj 102 2])
        (swallowed (.onError (objs [.obj 100 (neg 1)]) (throw_ [.obj 101 (neg 1)])) (throw_ []))) [.obj 103 3]) index) =
    some (.val 0, [(9#32, 0, [.obj 100 0, .obj 101 1, .obj 102 2, .obj 103 3])]) := by decide +kernel

/-- on_error_preload_nested_success_exception_test.cpp -/
example : run (.tryCatch [[.req 200], []]
      (.onError (objs [.obj 200 2]) (check (.onError (objs [.obj 200 1]) (.ret (.val 0))) (.ret (.exc stdExc)))) index) =
    some (.val 0, [(5#32, 0, [.obj 200 2])]) := by decide +kernel

/-- on_error_preload_exception_test.cpp: the four parts, one after the other; the ids are 5, 9, 13, 17. -/
example : run
      (dropped (.tryCatch [[.info, .req 101], [.req 102], [.req 101, .req 102]] (.onError (objs [.obj 101 0]) (throw_ [])) index)
      (dropped (.tryCatch [[.req 101], [.info, .req 102, .req 103], [.req 101, .req 102]] (.onError (objs [.obj 103 0, .obj 102 0]) (throw_ [])) index)
      (dropped (.tryCatch [[.info, .req 101], [.req 102], [.req 101, .req 102]] (.onError (objs [.obj 101 0]) (.ret (.exc stdExc))) index)
        (.tryCatch [[.req 101], [.info, .req 102, .req 103], [.req 101, .req 102]] (.onError (objs [.obj 103 0, .obj 102 0]) (.ret (.exc stdExc))) index)))) =
    some (.val 1, [
      (5#32, 0, [.info 5#32 (some { leafExc 5#32 with clear := false }) none, .obj 101 0]),
      (9#32, 1, [.info 9#32 (some { leafExc 9#32 with clear := false }) none, .obj 102 0, .obj 103 0]),
      (13#32, 0, [.info 13#32 (some stdExc) none, .obj 101 0]),
      (17#32, 1, [.info 17#32 (some stdExc) none, .obj 102 0, .obj 103 0])]) := by decide +kernel

def incr (ty : Ty) (tag : Nat) : Item := .accum ty tag (· + 1)

/-- on_error_accumulate_basic_test.cpp -/
example : run (.handleAll [[.req 101, .req 102], []]
      (.onError (objs [incr 101 1, incr 102 2]) (.onError (objs [incr 101 3]) (fail []))) index) =
    some (.val 0, [(5#32, 0, [.obj 101 2, .obj 102 1])]) := by decide +kernel

/-- on_error_accumulate_nested_error_exception_test.cpp -/
example : run (.tryCatch [infos0123, []]
      (catchLoad (.onError (objs [.obj 100 (neg 1), .obj 102 (neg 1), incr 101 1]) (.onError (objs [.accum 100 2 id]) (throw_ [.obj 102 2]))) [.obj 103 3]) index) =
    some (.val 0, [(5#32, 0, [.obj 100 0, .obj 101 1, .obj 102 2, .obj 103 3])]) := by decide +kernel

/-- on_error_accumulate_nested_error_result_test.cpp -/
example : run (.handleAll [infos0123, []]
      (thenLoad (.onError (objs [.obj 100 (neg 1), .obj 102 (neg 1), incr 101 1]) (.onError (objs [.accum 100 2 id]) (fail [.obj 102 2]))) [.obj 103 3]) index) =
    some (.val 0, [(5#32, 0, [.obj 100 0, .obj 101 1, .obj 102 2, .obj 103 3])]) := by decide +kernel

/-- on_error_accumulate_nested_new_error_exception_test.cpp -/
example : run (.tryCatch [infos0123, []]
      (catchLoad (.onError (objs [.accum 100 1 id, incr 101 2, incr 102 3])
        (swallowed (.onError (objs [.obj 100 (neg 1)]) (throw_ [.obj 101 (neg 1)])) (throw_ []))) [.obj 103 3]) index) =
    some (.val 0, [(9#32, 0, [.obj 100 0, .obj 101 1, .obj 102 1, .obj 103 3])]) := by decide +kernel

/-- on_error_accumulate_nested_new_error_result_test.cpp -/
example : run (.handleAll [infos0123, []]
      (thenLoad (.onError (objs [.accum 100 1 id, incr 101 2, incr 102 3]) (dropped (.onError (objs [.obj 100 (neg 1)]) (fail [.obj 101 (neg 1)])) (fail [])))
        [.obj 103 3]) index) =
    some (.val 0, [(9#32, 0, [.obj 100 0, .obj 101 1, .obj 102 1, .obj 103 3])]) := by decide +kernel

/-- on_error_accumulate_nested_success_exception_test.cpp -/
example : run (.tryCatch [[.req 200], []]
      (.onError (objs [.obj 200 42]) (check (.onError (objs [incr 200 1]) (.ret (.val 0))) (.ret (.exc stdExc)))) index) =
    some (.val 0, [(5#32, 0, [.obj 200 42])]) := by decide +kernel

/-- on_error_accumulate_nested_success_result_test.cpp -/
example : run (.handleAll [[.req 200], []]
      (.onError (objs [.obj 200 2]) (check (.onError (objs [incr 200 1]) (.ret (.val 0))) (fail []))) index) =
    some (.val 0, [(5#32, 0, [.obj 200 2])]) := by decide +kernel

/-- on_error_defer_basic_test.cpp: the cleanup functions (1, 4) are both called. -/
def deferBasic : Prog := .handleAll [[.req 142, .diag], []]
    (.onError [.action 1] (.onError [.action 4, .item (.deferred 142 2 42), .item (.deferred 143 3 (neg 42))] (fail []))) index
example : run deferBasic = some (.val 0, [(5#32, 0, [.obj 142 42, .diag 5#32 none none [(142, 42)]])]) := by decide +kernel
example : (functionsCalled deferBasic).map (·.filter fun t => t = 1 ∨ t = 4) = some [4, 1] := by decide +kernel

/-- on_error_defer_nested_error_exception_test.cpp -/
example : run (.tryCatch [infos0123, []]
      (catchLoad (.onError (objs [.deferred 100 1 (neg 1), .deferred 101 2 1, .deferred 102 3 (neg 1)])
        (.onError (objs [.deferred 100 4 0]) (throw_ [.obj 102 2]))) [.obj 103 3]) index) =
    some (.val 0, [(5#32, 0, [.obj 100 0, .obj 101 1, .obj 102 2, .obj 103 3])]) := by decide +kernel

/-- on_error_defer_nested_error_result_test.cpp -/
example : run (.handleAll [infos0123, []]
      (thenLoad (.onError (objs [.deferred 100 1 (neg 1), .deferred 101 2 1, .deferred 102 3 (neg 1)])
        (.onError (objs [.deferred 100 4 0]) (fail [.obj 102 2]))) [.obj 103 3]) index) =
    some (.val 0, [(5#32, 0, [.obj 100 0, .obj 101 1, .obj 102 2, .obj 103 3])]) := by decide +kernel

/-- on_error_defer_nested_new_error_exception_test.cpp -/
example : run (.tryCatch [infos0123, []]
      (catchLoad (.onError (objs [.deferred 100 1 0, .deferred 101 2 1, .deferred 102 3 2])
        (swallowed (.onError (objs [.deferred 100 4 (neg 1)]) (throw_ [.obj 101 (neg 1)])) (throw_ []))) [.obj 103 3]) index) =
    some (.val 0, [(9#32, 0, [.obj 100 0, .obj 101 1, .obj 102 2, .obj 103 3])]) := by decide +kernel

/-- on_error_defer_nested_new_error_result_test.cpp -/
example : run (.handleAll [infos0123, []]
      (thenLoad (.onError (objs [.deferred 100 1 0, .deferred 101 2 1, .deferred 102 3 2])
        (dropped (.onError (objs [.deferred 100 4 (neg 1)]) (fail [.obj 101 (neg 1)])) (fail []))) [.obj 103 3]) index) =
    some (.val 0, [(9#32, 0, [.obj 100 0, .obj 101 1, .obj 102 2, .obj 103 3])]) := by decide +kernel

/-- on_error_defer_nested_success_result_test.cpp -/
example : run (.handleAll [[.req 200], []]
      (.onError (objs [.deferred 200 1 2]) (check (.onError (objs [.deferred 200 2 1]) (.ret (.val 0))) (fail []))) index) =
    some (.val 0, [(5#32, 0, [.obj 200 2])]) := by decide +kernel

/-- on_error_defer_nested_success_exception_test.cpp -/
example : run (.tryCatch [[.req 200], []]
      (.onError (objs [.deferred 200 1 2]) (check (.onError (objs [.deferred 200 2 1]) (.ret (.val 0))) (.ret (.exc stdExc)))) index) =
    some (.val 0, [(5#32, 0, [.obj 200 2])]) := by decide +kernel

end Tests
end Leaf
