import Verif.TestsExceptions
import Verif.PropContext
import Verif.PropResult
import Verif.PropOptional

/-!
# The library's own tests, run in the model: contexts, results, optionals

See `Tests`.
-/

namespace Leaf
namespace Tests

/-! ## context_deduction_test.cpp: the elements of the deduced tuple, in order (999: `dynamic_allocator`) -/

def deduced (specs : List (List Arg)) : List Nat := (deduce exCfg specs).map fun | .obj t => t | .da => 999

example : deduced [[.info]] = [] := by decide +kernel
example : deduced [[.req 101]] = [101] := by decide +kernel
example : deduced [[.req 101, .info]] = [101] := by decide +kernel
example : deduced [[.req 101], [.req 102]] = [101, 102] := by decide +kernel
example : deduced [[.req 101], [.req 101, .req 102]] = [101, 102] := by decide +kernel
example : deduced [[.req 101, .req 102], [.req 102]] = [101, 102] := by decide +kernel
example : deduced [[.req 101, .info, .req 102], [.info, .req 101, .req 102]] = [101, 102] := by decide +kernel
example : deduced [[.req 101], [.req 101, .req 102], [.req 101, .req 103]] = [101, 102, 103] := by decide +kernel
example : deduced [[.req 101], [.req 102], [.req 103, .req 102]] = [101, 102, 103] := by decide +kernel
example : deduced [[.req 101, .req 103], [.req 102], [.req 103]] = [101, 103, 102] := by decide +kernel
example : deduced [[.req 101], [.req 102, .req 103], [.req 103]] = [101, 102, 103] := by decide +kernel
example : deduced [[isError 1]] = [200] := by decide +kernel
example : deduced [[cond x00]] = [tyErrorCode] := by decide +kernel
example : deduced [[excVal 101 42]] = [101] := by decide +kernel
example : deduced [[catchP [220], .req 101]] = [101] := by decide +kernel
example : deduced [[.ptr 101, .req 102], [.req 101, .ptr 103]] = [101, 102, 103] := by decide +kernel
example : deduced [[.req 101, .req 102, .diag], [.req 101, .req 102]] = [101, 102, tySrcLoc] := by decide +kernel
example : deduced [[.req 101, .req 102, .details], [.req 101, .req 102]] = [101, 102, tySrcLoc, 999] := by decide +kernel
example : (deduce { exCfg with capture := false } [[.req 101, .req 102, .details], [.req 101, .req 102]]) = [.obj 101, .obj 102, .obj tySrcLoc] := by
  decide +kernel
/-- Tuples of handlers inside the list. -/
example : deduced [[.req 101], [.req 102], [.req 103], [.req 104], [.req 105], [.req 104, .req 105], [.req 106]] = [101, 102, 103, 104, 105, 106] := by
  decide +kernel

/-! ## ctx_handle_all_test.cpp, ctx_handle_some_test.cpp, ctx_remote_handle_*_test.cpp, context_activator_test.cpp -/

/-- Outcomes observed, of operations on contexts. -/
def runCtx (ops : List UOp) : Option (List Out) :=
  ((UWorld.initial 1#32).run exCfg ops).map fun r => r.1.filterMap fun | .out o => some o | _ => none

/-- The context is activated in `f` and deactivated before `f` returns. -/
example : runCtx [.create 1 (deduce exCfg [[.req 101], [.details]]), .activate 1, .run (fail [.obj 101 1]), .deactivate 1,
      .handle 1 5#32 [[.req 101], [.details]] index, .destroy 1] = some [.err (.plain 5#32), .val 0] := by decide +kernel
example : runCtx [.create 1 [.obj 101], .activate 1, .run (fail [.obj 101 1]), .deactivate 1,
      .handle 1 5#32 [[.req 101], [.info]] index, .destroy 1] = some [.err (.plain 5#32), .val 0] := by decide +kernel
example : runCtx [.create 1 [.obj 101], .activate 1, .run (fail [.obj 102 1]), .deactivate 1,
      .handle 1 5#32 [[.req 101], [.info]] (fun i args => match args with | .info id _ _ :: _ => .ret (.err (.plain id)) | _ => .ret (.val i)), .destroy 1] =
    some [.err (.plain 5#32), .err (.plain 5#32)] := by decide +kernel
/-- The context (1) is activated inside the context (0) of `try_handle_all` and unloaded to it; the nested `activate_context` does nothing. -/
example : runCtx [.create 0 [.obj 101], .activate 0, .create 1 [.obj 101], .activate 1, .run (fail [.obj 101 1]), .deactivate 1, .unload 1 5#32, .destroy 1,
      .deactivate 0, .handle 0 5#32 [[.req 101], []] index, .destroy 0] = some [.err (.plain 5#32), .val 0] := by decide +kernel
/-- Activating it again would be an error: `activate_context` is needed. -/
example : runCtx [.create 1 [.obj 101], .activate 1, .activate 1] = none := by decide +kernel

/-! ## optional_test.cpp; 42 and 43 are values, 0 is what remains of a value moved from -/

def moved : Nat → Nat := fun _ => 0
def runOpt (ops : List OOp) : Option OPool := OPool.empty.run moved 0 ops
/-- `x.has_value(key)`: the value. -/
def has (p : Option OPool) (a : Nat) (key : Id) : Option Nat := (p.bind fun p => p.hasValue a key).join

def opt10 : List OOp := [.mkLoaded 0 10#32 42 false]
example : has (runOpt [.mk 0]) 0 10#32 = none := by decide +kernel
example : has (runOpt opt10) 0 10#32 = some 42 ∧ has (runOpt opt10) 0 11#32 = none := by decide +kernel
/-- The copy constructor of the value throws: there is no object. -/
example : (runOpt [.mkLoaded 0 10#32 42 true]).map (fun p => p.cells 0 == none) = some true := by decide +kernel
example : let p := runOpt (opt10 ++ [.copyCtor 1 0 false]); (has p 0 10#32, has p 1 10#32, has p 1 11#32) = (some 42, some 42, none) := by decide +kernel
example : let p := runOpt (opt10 ++ [.moveCtor 1 0]); (has p 0 10#32, has p 1 10#32, has p 1 11#32) = (none, some 42, none) := by decide +kernel
example : let p := runOpt (opt10 ++ [.mk 1, .copyAssign 1 0 false]); (has p 0 10#32, has p 1 10#32, has p 1 11#32) = (some 42, some 42, none) := by
  decide +kernel
example : let p := runOpt (opt10 ++ [.mkLoaded 1 11#32 43 false, .copyAssign 1 0 false]); (has p 0 10#32, has p 1 10#32, has p 1 11#32) =
    (some 42, some 42, none) := by decide +kernel
/-- The copy throws: the target is empty. -/
example : let p := runOpt (opt10 ++ [.mk 1, .copyAssign 1 0 true]); (has p 0 10#32, has p 1 10#32) = (some 42, none) := by decide +kernel
example : let p := runOpt (opt10 ++ [.mk 1, .moveAssign 1 0]); (has p 0 10#32, has p 1 10#32) = (none, some 42) := by decide +kernel
example : let p := runOpt (opt10 ++ [.mkLoaded 1 11#32 43 false, .moveAssign 1 0]); (has p 0 10#32, has p 1 10#32, has p 1 11#32) =
    (none, some 42, none) := by decide +kernel
example : has (runOpt [.mk 0, .load 0 10#32 42 false]) 0 10#32 = some 42 := by decide +kernel
example : let p := runOpt [.mkLoaded 0 11#32 43 false, .load 0 10#32 42 false]; (has p 0 10#32, has p 0 11#32) = (some 42, none) := by decide +kernel
example : has (runOpt (opt10 ++ [.take 0 10#32])) 0 10#32 = none := by decide +kernel
example : has (runOpt (opt10 ++ [.reset 0])) 0 10#32 = none := by decide +kernel

/-! ## result_state_test.cpp; a value moved from stays what it is -/

/-- What is in result `a`: the value, or the id; the nodes of its capture list. -/
def resState (ops : List ROp) (a : Nat) : Option (Option Nat × Option Id × List Nat) :=
  ((RPool.empty.run id ops).bind (·.objs a)).map fun r =>
    (r.value, if r.hasValue then none else whatErrorId r.what, match r.u with | .cap _ l => l | _ => [])

example : resState [.mkVal 0 42, .moveCtor 1 0 id] 1 = some (some 42, none, []) := by decide +kernel
example : resState [.mkVal 0 42, .mkVal 1 0, .moveAssign 1 0 id] 1 = some (some 42, none, []) := by decide +kernel
example : resState [.mkErr 0 5#32, .moveCtor 1 0 id] 1 = some (none, some 5#32, []) := by decide +kernel
example : resState [.mkErr 0 5#32, .mkVal 1 0, .moveAssign 1 0 id] 1 = some (none, some 5#32, []) := by decide +kernel
/-- `r1` is still in an error state after it was moved from; it has no captured objects any more. -/
example : resState [.mkCap 0 5#32 [7], .moveCtor 1 0 id] 1 = some (none, some 5#32, [7]) ∧
    resState [.mkCap 0 5#32 [7], .moveCtor 1 0 id] 0 = some (none, some 5#32, []) := by decide +kernel
example : resState [.mkCap 0 5#32 [7], .mkVal 1 0, .moveAssign 1 0 id] 1 = some (none, some 5#32, [7]) := by decide +kernel
example : resState [.mkCap 0 5#32 [7], .forward 1 0] 1 = some (none, some 5#32, [7]) := by decide +kernel

end Tests
end Leaf
