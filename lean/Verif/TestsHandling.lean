import Verif.Tests
import Verif.PropRef
import Verif.PropThrow
import Verif.PredModel

/-!
# The library's own tests, run in the model: handling

See `Tests`.
-/

namespace Leaf
namespace Tests

/-! ## handle_basic_test.cpp; `enum error_code` is 200, `error1_tag` .. `error3_tag` are 201 .. 203, `int` is 210 -/

/-- Handlers with bodies that change objects, as computations: outcome and handlers called. -/
def runC (x : Comp PtrStore Out) : Option (Out × List (Id × Nat × List ArgVal)) :=
  (x (initThread 1#32)).map fun r => (r.1, handlersCalled r.2.trace)

/-- A handler `[]( error_info const & ei, int & v ) { ++v; return ei.error(); }` of `try_handle_some`. -/
def incrAndReturn (specs : List (List Arg)) (block : Comp PtrStore Out) : Comp PtrStore Out :=
  tryHandleSomeRef exCfg specs block
    (fun _ args => match args with | .info id _ _ :: _ => pure (.err (.plain id)) | _ => pure (.val 0)) (fun _ _ _ _ v => v + 1)

/-- lines 90-123: `int & v` -/
example : runC (tryHandleAll exCfg [[.req 210], []]
      (incrAndReturn [[.info, .req 210]] (incrAndReturn [[.info, .req 210]] (eval exCfg (fail [.obj 210 40]))))
      (fun i _ => pure (.val i))) =
    some (.val 0, [(5#32, 0, [.info 5#32 none none, .obj 210 40]), (5#32, 0, [.info 5#32 none none, .obj 210 41]), (5#32, 0, [.obj 210 42])]) := by
  decide +kernel

/-- lines 124-157: `int * v` -/
example : (runC (tryHandleAll exCfg [[.req 210], []]
      (incrAndReturn [[.info, .ptr 210]] (incrAndReturn [[.info, .ptr 210]] (eval exCfg (fail [.obj 210 40]))))
      (fun i _ => pure (.val i)))).map (fun r => (r.1, r.2.getLast?)) = some (.val 0, some (5#32, 0, [.obj 210 42])) := by
  decide +kernel

/-- `match<error_code, error_code::error_n>` -/
def isError (n : Val) : Arg := (Predicate.match_ 200 (fun a b => a == b) (.value n) []).toArg

def computeAnswer : Nat → Prog
  | 0 => .ret (.val 42)
  | 1 => fail [.obj 200 1]
  | 2 => fail [.obj 200 2]
  | 3 => fail [.obj 200 3]
  | 4 => fail [.obj 201 0, .obj 200 1]
  | 5 => fail [.obj 202 0, .obj 200 2]
  | _ => fail [.obj 203 0, .obj 200 3]

def handleSomeErrors (n : Nat) : Prog :=
  .handleSome [[.req 201, isError 1], [isError 1]] (computeAnswer n) (fun i _ => .ret (.val (neg (i + 1))))
def handleSomeErrorsFloat (n : Nat) : Prog :=
  .handleSome [[.req 202, isError 2], [isError 2]] (computeAnswer n) (fun i _ => .ret (.val (neg (i + 1))))
def handleSomeErrorsVoid (n : Nat) : Prog :=
  .handleSome [[isError 3]] (check (computeAnswer n) (.ret (.val 0))) (fun _ _ => .ret (.val 0))

example : [0, 1, 4].map (fun n => (run (handleSomeErrors n)).map (·.1)) = [some (.val 42), some (.val (neg 2)), some (.val (neg 1))] := by decide +kernel
example : (run (.handleAll [[isError 3], []] (check (handleSomeErrors 3) (.ret (.val 9))) index)).map (·.1) = some (.val 0) := by decide +kernel
example : [0, 2, 5].map (fun n => (run (handleSomeErrorsFloat n)).map (·.1)) = [some (.val 42), some (.val (neg 2)), some (.val (neg 1))] := by decide +kernel
example : (run (.handleAll [[isError 1], []] (check (handleSomeErrorsFloat 1) (.ret (.val 9))) index)).map (·.1) = some (.val 0) := by decide +kernel
example : [0, 3].map (fun n => (run (handleSomeErrorsVoid n)).map (·.1)) = [some (.val 0), some (.val 0)] := by decide +kernel
example : (run (.handleAll [[isError 2], []] (check (handleSomeErrorsVoid 2) (.ret (.val 9))) index)).map (·.1) = some (.val 0) := by decide +kernel
/-- A handler taking `std::exception const &` (220): there is no exception. -/
example : (run (.handleAll [[.req 220], []] (check (handleSomeErrorsVoid 2) (.ret (.val 9))) index)).map (·.1) = some (.val 1) := by decide +kernel

/-- lines 254-304: handling another error inside a handler. -/
example : run (.handleAll [[.req 101], []] (fail [.obj 101 42]) (fun _ _ => .bind (.handleAll [[]] (fail [.obj 101 43]) (fun _ _ => .ret (.val 7)))
      (fun _ => .ret (.val 0)) (fun _ => .ret (.val 1)))) =
    some (.val 0, [(5#32, 0, [.obj 101 42]), (9#32, 0, [])]) := by decide +kernel
example : run (.handleAll [[.req 101], []] (fail [.obj 101 42]) (fun _ _ => .bind (.handleAll [[.req 101], []] (fail [.obj 101 43]) (fun _ _ => .ret (.val 7)))
      (fun _ => .ret (.val 0)) (fun _ => .ret (.val 1)))) =
    some (.val 0, [(5#32, 0, [.obj 101 42]), (9#32, 0, [.obj 101 43])]) := by decide +kernel

/-- lines 306-336: a handler adds an object to the error. -/
example : run (.handleAll [[.req 101, .req 102], []]
      (.handleSome [[.info, .req 101, .ptr 102]] (fail [.obj 101 1])
        (fun _ args => match args with | .info id _ _ :: _ => .load id [.obj 102 2] (.ret (.err (.plain id))) | _ => .ret (.val 9))) index) =
    some (.val 0, [(5#32, 0, [.info 5#32 none none, .obj 101 1, .ptr 102 none]), (5#32, 0, [.obj 101 1, .obj 102 2])]) := by decide +kernel

/-- lines 340-369: a handler replaces an object of the error. -/
example : runC (tryHandleAll exCfg [[.req 101, .req 102], []]
      (tryHandleSomeRef exCfg [[.info, .req 101, .req 102]] (eval exCfg (fail [.obj 101 1, .obj 102 (neg 2)]))
        (fun _ args => match args with | .info id _ _ :: _ => pure (.err (.plain id)) | _ => pure (.val 9)) (fun _ _ _ ty v => if ty = 102 then 2 else v))
      (fun i _ => pure (.val i))) =
    some (.val 0, [(5#32, 0, [.info 5#32 none none, .obj 101 1, .obj 102 (neg 2)]), (5#32, 0, [.obj 101 1, .obj 102 2])]) := by decide +kernel

/-! ## multiple_errors_test.cpp -/

example : run (.handleAll [[.req 101], [.req 102, .req 103], []] (dropped (fail [.obj 101 1, .obj 102 2]) (fail [.obj 102 2, .obj 103 3])) index) =
    some (.val 1, [(9#32, 1, [.obj 102 2, .obj 103 3])]) := by decide +kernel

/-- `std::exception` is type 220. -/
def std220 : Exc := ⟨1, true, .none, [(220, 0)], false⟩
def leaf220 (id : Id) : Exc := ⟨0, true, .base id, [(220, 0)], true⟩
def throw220 (items : List Item) : Prog := .newError items fun id => .ret (.exc (leaf220 id))

/-- The exception that was caught and dropped leaves no current error behind. -/
example : (run (.tryCatch [[.req 220, .req 104], [.req 220]] (swallowed (throw220 [.obj 104 4]) (.ret (.exc std220))) index)).map (·.1) = some (.val 1) := by
  decide +kernel
example : (run (.tryCatch [[.req 220, .req 104], [.req 220]] (swallowed (.onError (objs [.obj 104 4]) (.ret (.exc std220))) (throw220 [])) index)).map (·.1) =
    some (.val 1) := by decide +kernel

/-! ## handle_all_test.cpp, handle_some_test.cpp; `my_error_code` is 200, `e_my_error_code` 204 (represented by its value), `std::error_code` 2,
`e_std_error_code` 205 (represented by the code) -/

def f (ec : Val) : Prog := if ec = 0 then .ret (.val 42) else fail [.obj 200 ec, .obj 204 ec, .obj 101 1, .obj 102 2, .obj 103 3]
/-- The codes `errc_a::a0`, ... and conditions `cond_x::x00`, `x11`, _test_ec.hpp: `a0` is equivalent to `x00` only. -/
def a0 : Val := 50
def x00 : Val := 60
def x11 : Val := 61
def equivalent (code cond : Val) : Bool := (code == a0 && cond == x00)
def fErrc (ec : Val) : Prog := fail [.obj tyErrorCode ec, .obj 101 1, .obj 102 2, .obj 103 3]
def fErrcWrapped (ec : Val) : Prog := fail [.obj 205 ec, .obj 101 1, .obj 102 2, .obj 103 3]
def matchValue204 (v1 : Val) (vs : List Val) : Arg := (Predicate.matchValue 204 id (fun a b => a == b) (.value v1) (vs.map .value)).toArg
def match200 (v1 : Val) (vs : List Val) : Arg := (Predicate.match_ 200 (fun a b => a == b) (.value v1) (vs.map .value)).toArg
def cond (v : Val) : Arg := (Predicate.match_ tyErrorCode equivalent (.value v) []).toArg
def condWrapped (v : Val) : Arg := (Predicate.matchValue 205 id equivalent (.value v) []).toArg

example : run (.handleAll [[]] (check (f 0) (.ret (.val 42))) index) = some (.val 42, []) := by decide +kernel
example : run (.handleAll [[.req 200, .req 101, .req 102], []] (f 1) index) = some (.val 0, [(5#32, 0, [.obj 200 1, .obj 101 1, .obj 102 2])]) := by decide +kernel
example : run (.handleAll [[cond x11], [cond x00, .req 101, .req 102], []] (fErrc a0) index) =
    some (.val 1, [(5#32, 1, [.obj tyErrorCode a0, .obj 101 1, .obj 102 2])]) := by decide +kernel
example : run (.handleAll [[condWrapped x11], [condWrapped x00, .req 101, .req 102], []] (fErrcWrapped a0) index) =
    some (.val 1, [(5#32, 1, [.obj 205 a0, .obj 101 1, .obj 102 2])]) := by decide +kernel
example : run (.handleAll [[match200 2 []], [match200 1 [], .req 101, .req 102], []] (f 1) index) =
    some (.val 1, [(5#32, 1, [.obj 200 1, .obj 101 1, .obj 102 2])]) := by decide +kernel
example : run (.handleAll [[match200 2 []], [match200 2 [1], .req 101, .req 102], []] (f 1) index) =
    some (.val 1, [(5#32, 1, [.obj 200 1, .obj 101 1, .obj 102 2])]) := by decide +kernel
example : run (.handleAll [[matchValue204 2 []], [matchValue204 1 [], .req 101, .req 102], []] (f 1) index) =
    some (.val 1, [(5#32, 1, [.obj 204 1, .obj 101 1, .obj 102 2])]) := by decide +kernel
example : run (.handleAll [[matchValue204 2 []], [matchValue204 2 [1], .req 101, .req 102], []] (f 1) index) =
    some (.val 1, [(5#32, 1, [.obj 204 1, .obj 101 1, .obj 102 2])]) := by decide +kernel

end Tests
end Leaf
