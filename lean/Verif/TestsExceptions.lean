import Verif.TestsHandling

/-!
# The library's own tests, run in the model: exceptions and capturing

See `Tests`. Exceptions: `std::exception` is 220, `error1`, `error2` are 221, 222; `my_exception` is 223, its base `abstract_base_exception` 224,
`exc_val` 225, `std::system_error` 226, `leaf::error_id` 227. The handlers return their index.
-/

namespace Leaf
namespace Tests

/-- `leaf::throw_exception(ex, items...)`: `tys` are the types of `ex` and its bases, with what they carry. -/
def throwEx (tys : List (Ty × Val)) (items : List Item) : Prog :=
  .newError items fun id => .ret (.exc ⟨2, true, .base id, tys ++ [(227, id.toNat)], true⟩)
/-- `throw ex` for an exception derived from `std::exception`. -/
def rawEx (tys : List (Ty × Val)) : Prog := .ret (.exc ⟨3, true, .none, tys, false⟩)
def outcome (p : Prog) : Option Out := (run p).map (·.1)

/-! ## try_catch_test.cpp -/

def failing : Prog := throwEx [(221, 0), (220, 0)] [.obj 101 1, .obj 102 2, .obj 103 3]
/-- `catch_<Ex...>` -/
def catchP (tys : List Ty) : Arg := (Predicate.catch_ tys).toArg

example : outcome (.tryCatch [[]] (.ret (.val 42)) index) = some (.val 42) := by decide +kernel
/-- The handlers called for one failure: the index and, for the arguments that are error objects, the type and value. -/
def called (p : Prog) : Option (List (Nat × List (Ty × Val))) :=
  (run p).map fun r => r.2.map fun h => (h.2.1, h.2.2.filterMap fun | .obj ty v => some (ty, v) | _ => none)

example : called (.tryCatch [[.req 222], [.req 221, .req 101, .req 102], []] failing index) = some [(1, [(221, 0), (101, 1), (102, 2)])] := by decide +kernel
example : called (.tryCatch [[.req 222], [catchP [222, 221], .req 101, .req 102], []] failing index) = some [(1, [(101, 1), (102, 2)])] := by
  decide +kernel
/-- Not matched by the inner scope. -/
example : called (.tryCatch [[.req 221, .req 101, .req 102], []] (.tryCatch [[.req 222]] failing index) index) =
    some [(0, [(221, 0), (101, 1), (102, 2)])] := by decide +kernel
example : called (.tryCatch [[catchP [222, 221], .req 101, .req 102], []] (.tryCatch [[.req 222]] failing index) index) =
    some [(0, [(101, 1), (102, 2)])] := by decide +kernel
/-- Matched by the inner scope: one handler is called. -/
example : called (.tryCatch [[.req 222], []] (.tryCatch [[.req 221, .req 101, .req 102]] failing index) index) =
    some [(0, [(221, 0), (101, 1), (102, 2)])] := by decide +kernel
example : called (.tryCatch [[.req 221], []] (.tryCatch [[catchP [222, 221], .req 101, .req 102]] failing index) index) =
    some [(0, [(101, 1), (102, 2)])] := by decide +kernel

/-- `match_value<exc_val, n>` -/
def excVal (ty : Ty) (n : Val) : Arg := (Predicate.matchValue ty id (fun a b => a == b) (.value n) []).toArg
example : outcome (.tryCatch [[excVal 225 42], []] (throwEx [(225, 42), (220, 0)] []) index) = some (.val 0) := by decide +kernel
example : outcome (.tryCatch [[excVal 225 41], []] (throwEx [(225, 42), (220, 0)] []) index) = some (.val 1) := by decide +kernel
example : outcome (.tryCatch [[excVal 225 42], []] (rawEx [(225, 42), (220, 0)]) index) = some (.val 0) := by decide +kernel
example : outcome (.tryCatch [[excVal 225 41], []] (rawEx [(225, 42), (220, 0)]) index) = some (.val 1) := by decide +kernel

/-! ## try_exception_and_result_test.cpp -/

def myEx (v : Val) : List (Ty × Val) := [(223, v), (224, v), (220, 0)]
def blocks : List Prog := [.ret (.val 42), throwEx (myEx 0) [.obj 101 1], throw220 [.obj 101 1], fail [.obj 101 1]]

example : blocks.map (fun b => outcome (.handleSome [[.req 223, .req 101], [.req 101]] b index)) =
    [some (.val 42), some (.val 0), some (.val 1), some (.val 1)] := by decide +kernel
example : blocks.map (fun b => outcome (.handleAll [[.req 223, .req 101], [.req 101], []] b index)) =
    [some (.val 42), some (.val 0), some (.val 1), some (.val 1)] := by decide +kernel

/-- A handler throws, with `BOOST_LEAF_THROW_EXCEPTION` (a source location is added). The `info<1>` of the first error is not part of the new one. -/
def rethrows (ex : Bool) (scope : List (List Arg) → Prog → (Nat → List ArgVal → Prog) → Prog) : Prog :=
  .handleAll [[.req 223, .req 101], [.req 223], []]
    (scope [[.req 101], []] (fail [.obj 101 1]) fun i _ =>
      if i = 0 then (if ex then throwEx (myEx 0) [.obj tySrcLoc 7] else throw220 [.obj tySrcLoc 7]) else .ret (.val 9)) index

example : outcome (rethrows true .handleAll) = some (.val 1) := by decide +kernel
example : outcome (rethrows false .handleAll) = some (.val 2) := by decide +kernel
example : outcome (rethrows true .handleSome) = some (.val 1) := by decide +kernel
example : outcome (rethrows false .handleSome) = some (.val 2) := by decide +kernel

/-- `match_value<my_exception, n>`; the second handler returns `unmatched.error()`. -/
def matched (n : Val) (block : Prog) : Prog :=
  .handleSome [[excVal 223 n], [.info]] block fun _ args => match args with
    | [.obj _ v] => .ret (.val v)
    | .info id _ _ :: _ => .ret (.err (.plain id))
    | _ => .ret (.val 99)

example : outcome (matched 42 (throwEx (myEx 42) [])) = some (.val 42) := by decide +kernel
example : outcome (matched 42 (rawEx (myEx 42))) = some (.val 42) := by decide +kernel
example : outcome (matched 41 (throwEx (myEx 42) [])) = some (.err (.plain 5#32)) := by decide +kernel
/-- There is no current error in this run, so `current_error()` has value 1. -/
example : outcome (matched 41 (rawEx (myEx 42))) = some (.err (.plain 1#32)) := by decide +kernel
example : outcome (.handleAll [[excVal 223 42], []] (throwEx (myEx 42) []) index) = some (.val 0) := by decide +kernel
example : outcome (.handleAll [[excVal 223 41], []] (rawEx (myEx 42)) index) = some (.val 1) := by decide +kernel

/-! ## exception_test.cpp; `info` is 100 -/

/-- `test<Ex>(f)`; handlers 0-3 are called 20-23 there, 4-7 are 40-43. -/
def exTest (ex : Arg) (f : Prog) : Option Out :=
  outcome (.tryCatch [
    [ex, excVal 100 42, .req tySrcLoc], [ex, excVal 100 42, .req 100], [ex, .req tySrcLoc], [ex],
    [excVal 100 42, .req tySrcLoc], [excVal 100 42, .req 100], [.req tySrcLoc], []] f index)

/-- `BOOST_LEAF_THROW_EXCEPTION`, `leaf::throw_exception` with `my_exception(42)`, with and without `info{42}`. -/
def throwsMy : List Prog := [throwEx (myEx 42) [.obj 100 42, .obj tySrcLoc 7], throwEx (myEx 42) [.obj 100 42],
  throwEx (myEx 42) [.obj tySrcLoc 7], throwEx (myEx 42) []]
/-- The same without an exception object. -/
def throwsNone : List Prog := [throw220 [.obj 100 42, .obj tySrcLoc 7], throw220 [.obj 100 42], throw220 [.obj tySrcLoc 7], throw220 []]

example : throwsMy.map (exTest (catchP [223])) = [some (.val 0), some (.val 1), some (.val 2), some (.val 3)] := by decide +kernel
example : throwsMy.map (exTest (.req 223)) = [some (.val 0), some (.val 1), some (.val 2), some (.val 3)] := by decide +kernel
example : throwsNone.map (exTest (.req 223)) = [some (.val 4), some (.val 5), some (.val 6), some (.val 7)] := by decide +kernel
example : throwsMy.map (exTest (catchP [224])) = [some (.val 0), some (.val 1), some (.val 2), some (.val 3)] := by decide +kernel
example : throwsNone.map (exTest (catchP [224])) = [some (.val 4), some (.val 5), some (.val 6), some (.val 7)] := by decide +kernel
/-- `abstract_base_exception const &`: an abstract type has no slot. -/
example : (throwsMy ++ throwsNone).map (fun f => (runFresh { exCfg with isAbstract := fun t => t = 224 } (.tryCatch [
      [.req 224, excVal 100 42, .req tySrcLoc], [.req 224, excVal 100 42, .req 100], [.req 224, .req tySrcLoc], [.req 224],
      [excVal 100 42, .req tySrcLoc], [excVal 100 42, .req 100], [.req tySrcLoc], []] f index)).map (·.1)) =
    [some (.val 0), some (.val 1), some (.val 2), some (.val 3), some (.val 4), some (.val 5), some (.val 6), some (.val 7)] := by decide +kernel

/-- `auto load = leaf::on_error(info{42}); throw my_exception(42);`: a new id is generated. -/
example : exTest (.req 223) (.onError (objs [.obj 100 42]) (rawEx (myEx 42))) = some (.val 1) := by decide +kernel
example : (run (.monNew fun m => .bind (.tryCatch [[.req 223, excVal 100 42]] (.onError (objs [.obj 100 42]) (rawEx (myEx 42))) index)
      (fun _ => .monNew fun m' => .ret (.val (if m = m' then 1 else 0))) fun _ => .ret (.val 2))).map (·.1) = some (.val 0) := by decide +kernel
/-- `try_catch` with no handlers rethrows and makes no new id. -/
example : exTest (.req 223) (.monNew fun m => .cppRethrow (.tryCatch [] (rawEx (myEx 42)) index)
      fun _ => .monNew fun m' => if m = m' then .ret (.val 0) else .ret (.exc stdExc)) = some (.val 3) := by decide +kernel
example : run (.tryCatch [[.req 100]] (throw220 [.obj 100 42]) index) = some (.val 0, [(5#32, 0, [.obj 100 42])]) := by decide +kernel
example : outcome (.tryCatch [[.req 100], []] (.ret (.exc std220)) index) = some (.val 1) := by decide +kernel

/-! ## try_catch_error_id_test.cpp, try_catch_system_error_test.cpp -/

example : outcome (.tryCatch [[.req 221, catchP [227]], []] (throwEx [(221, 0), (220, 0)] [.obj 100 42]) index) = some (.val 0) := by decide +kernel

/-- `std::system_error(make_error_code(errc_a::a0))`: looking for a `std::error_code` in it gives its code. -/
def systemError : List (Ty × Val) := [(226, a0), (tyErrorCode, a0), (220, 0)]
def matchA0 : Arg := (Predicate.match_ tyErrorCode (fun a b => a == b) (.value a0) []).toArg
def sysBlocks : List Prog := [throwEx systemError [.obj 100 42], .onError (objs [.obj 100 42]) (rawEx systemError)]
example : sysBlocks.map (fun b => called (.tryCatch [[.req 226, excVal 100 42], []] b index)) =
    [some [(0, [(226, a0), (100, 42)])], some [(0, [(226, a0), (100, 42)])]] := by decide +kernel
example : sysBlocks.map (fun b => called (.tryCatch [[matchA0, excVal 100 42], []] b index)) =
    [some [(0, [(tyErrorCode, a0), (100, 42)])], some [(0, [(tyErrorCode, a0), (100, 42)])]] := by decide +kernel
example : sysBlocks.map (fun b => called (.tryCatch [[.req tyErrorCode, excVal 100 42], []] b index)) =
    [some [(0, [(tyErrorCode, a0), (100, 42)])], some [(0, [(tyErrorCode, a0), (100, 42)])]] := by decide +kernel

/-! ## capture_result_unload_test.cpp, capture_exception_unload_test.cpp, capture_exception_result_unload_test.cpp -/

def capItems : List Item := [.obj 206 0, .obj 101 1, .obj 103 3]
def capResults : List Prog := [fail capItems, .onError (objs capItems) (fail [])]
def capThrows : List Prog := [throw220 capItems, .onError (objs capItems) (throw220 []), .onError (objs capItems) (.ret (.exc std220))]

/-- `auto r = try_capture_all(block); try_handle_all([&r] { BOOST_LEAF_CHECK(std::move(r)); ... }, handlers...)`. -/
def captureThenCheck (specs : List (List Arg)) (block : Prog) : Prog :=
  .bind (.captureAll block) (fun _ => .ret (.val 98)) fun r => .handleAll specs (check (.ret (.err r)) (.ret (.val 97))) index
/-- `auto r = try_capture_all(block); try_catch([&r] { (void) r.value(); }, handlers...)`. -/
def captureThenValue (specs : List (List Arg)) (block : Prog) : Prog :=
  .bind (.captureAll block) (fun _ => .ret (.val 98)) fun r => .tryCatch specs (.value r 50) index

example : (capResults ++ capThrows).map (fun b => called (captureThenCheck [[.req 101], []] b)) = List.replicate 5 (some [(0, [(101, 1)])]) := by
  decide +kernel
example : (capResults ++ capThrows).map (fun b => called (captureThenCheck [[.req 102], []] b)) = List.replicate 5 (some [(1, [])]) := by decide +kernel
example : capThrows.map (fun b => called (captureThenValue [[.req 101], []] b)) = List.replicate 3 (some [(0, [(101, 1)])]) := by decide +kernel
example : capThrows.map (fun b => called (captureThenValue [[.req 102], []] b)) = List.replicate 3 (some [(1, [])]) := by decide +kernel
/-- try_capture_all_test.cpp: the exception captured is seen by the handlers; `std::runtime_error` is 228. -/
example : outcome (captureThenCheck [[.req 228], []] (rawEx [(228, 0), (220, 0)])) = some (.val 0) := by decide +kernel
/-- try_capture_all_test.cpp, capture_result_state_test.cpp, capture_exception_state_test.cpp: both objects arrive. -/
example : called (captureThenCheck [[.req 101, .req 102], []] (fail [.obj 101 0, .obj 102 0])) = some [(0, [(101, 0), (102, 0)])] := by decide +kernel
example : called (captureThenValue [[.req 101, .req 103], []] (throw220 [.obj 101 0, .obj 103 0])) = some [(0, [(101, 0), (103, 0)])] := by decide +kernel

/-- capture_exception_async_test.cpp: `r` comes from the worker thread, where `try_capture_all` returned it; the main thread, with its own current id, adds
`info<4>`. -/
def async (scope : Prog → Prog) : Option (List (Nat × List (Ty × Val))) :=
  match outcome (.captureAll (throw220 [.obj 101 11, .obj 102 12, .obj 103 0])) with
  | some (.err r) => (runC (eval exCfg
      (.tryCatch [[.req 101, .req 102, .req 104], []] (.onError (objs [.obj 104 0]) (scope (.value r 50))) index))).map fun r =>
        r.2.map fun h => (h.2.1, h.2.2.filterMap fun | .obj ty v => some (ty, v) | _ => none)
  | _ => none
example : async (fun p => p) = some [(0, [(101, 11), (102, 12), (104, 0)])] := by decide +kernel
/-- Through an inner `try_catch` with a handler that does `throw;`. -/
example : (async fun p => .tryCatch [[.info]] p fun _ args => match args with
      | [.info _ (some e) _] => .ret (.exc e)
      | _ => .ret (.val 9)).map (·.getLast?) = some (some (0, [(101, 11), (102, 12), (104, 0)])) := by decide +kernel
/-- In one thread it would be different: the guard does not see that the id became the current one, because it was already (F15). -/
example : called (.bind (.captureAll (throw220 [.obj 101 11])) (fun v => .ret (.val v)) fun r =>
    .tryCatch [[.req 101, .req 104], []] (.onError (objs [.obj 104 0]) (.value r 50)) index) = some [(1, [])] := by decide +kernel

/-! ## exception_to_result_test.cpp; `my_exception<1>`, `<2>` are 229, 230 -/

def convert (tys thrown : List Ty) : Prog := .excToResult tys (rawEx (thrown.map fun t => (t, 0)))
example : outcome (.handleAll [[.req 229, .req tyExPtr], [.req 230], []] (convert [229, 230] [229, 220]) index) = some (.val 0) := by decide +kernel
example : outcome (.handleAll [[.req 229], [.req 230, .req tyExPtr], []] (convert [229, 230] [230, 220]) index) = some (.val 1) := by decide +kernel
example : outcome (.handleAll [[.req 220, .req tyExPtr], [.req 229], []] (convert [220, 229] [229, 220]) index) = some (.val 0) := by decide +kernel

/-! ## result_bad_result_test.cpp, result_load_test.cpp; `e_test` is 200 -/

example : outcome (.tryCatch [[.req tyBadResult, excVal 200 42]]
    (.newError [.obj 200 42] fun id => .value (.plain id) 50) index) = some (.val 0) := by decide +kernel

/-- `r.load(items...)`, error.hpp:545-568 through result.hpp:459-464: the id stays the same. -/
def loads : Prog :=
  thenLoad (thenLoad (thenLoad (thenLoad (fail [.obj 142 40]) [.obj 101 0]) [.obj 102 2, .deferred 103 1 3]) [incr 142 2]) [incr 142 3, incr 101 4]
example : outcome (.handleAll [[excVal 142 42, excVal 101 1, excVal 102 2, excVal 103 3], []] loads index) = some (.val 0) := by decide +kernel
example : outcome (.handleAll [[excVal 142 42, excVal 101 1, excVal 102 2, excVal 103 3], []] (check loads (.ret (.val 9))) index) = some (.val 0) := by
  decide +kernel

end Tests
end Leaf
