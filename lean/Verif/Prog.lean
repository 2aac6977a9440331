import Verif.Store
import Verif.Handlers

/-!
# Programs using LEAF, and what they do

`Prog` is a language of user programs: every function of the LEAF API, C++ control flow (returning results, throwing, catching) and
arbitrary user code in between (Lean functions). `eval` transcribes the implementation of each API function.
-/

namespace Leaf

/-- User programs. -/
inductive Prog : Type
  /-- return a value / a `result` in an error state, or `throw` -/
  | ret (o : Out)
  /-- `new_error(items...)` -/
  | newError (items : List Item) (k : Id → Prog)
  /-- `id.load(items...)` -/
  | load (id : Id) (items : List Item) (k : Prog)
  /-- `error_id(ec)` for a `std::error_code` -/
  | importCode (ec : ErrorCode) (v : Val) (k : Id → Prog)
  /-- `current_error()` -/
  | currentError (k : Id → Prog)
  /-- call `p`; an exception propagates, otherwise continue with the returned value or failed result -/
  | bind (p : Prog) (k : Val → Prog) (ke : ErrRes → Prog)
  /-- `auto g = on_error(items...); body` -/
  | onError (items : List OnItem) (body : Prog)
  /-- `error_monitor m;` -/
  | monNew (k : Id → Prog)
  /-- `m.check()` (called while no exception thrown since the construction of `m` is in flight) -/
  | monCheck (m : Id) (k : Id → Prog)
  /-- `m.assigned_error_id()` -/
  | monAssigned (m : Id) (k : Id → Prog)
  /-- `try_handle_all(block, handlers...)`; the handlers' argument lists and bodies -/
  | handleAll (specs : List (List Arg)) (block : Prog) (body : Nat → List ArgVal → Prog)
  /-- `try_handle_some` -/
  | handleSome (specs : List (List Arg)) (block : Prog) (body : Nat → List ArgVal → Prog)
  /-- `try_catch` -/
  | tryCatch (specs : List (List Arg)) (block : Prog) (body : Nat → List ArgVal → Prog)
  /-- `try_capture_all(block)` -/
  | captureAll (block : Prog)
  /-- `try_capture_all(block)` where block returns `void` -/
  | captureAllVoid (block : Prog)
  /-- `exception_to_result<Ex...>(block)` -/
  | excToResult (tys : List Ty) (block : Prog)
  /-- `try { block } catch( ... ) { h }` -/
  | cppCatch (block : Prog) (h : Exc → Prog)
  /-- `try { block } catch( ... ) { h; throw; }` -/
  | cppRethrow (block : Prog) (h : Exc → Prog)
  /-- `r.unload()` -/
  | unload (r : ErrRes)
  /-- `r.value()` on a result in an error state; `tag` names the exception object -/
  | value (r : ErrRes) (tag : Nat)

section
variable {M : Type} [Store M]

/-- `unpack_error_id`, handle_errors.hpp:23-30, for a caught `std::exception`; `current_error()` for any other
(handle_errors.hpp:604, 694, 749). `exception<Ex>::get_error_id` resets `clear_current_error_` (exception.hpp:92-96). -/
def unpackId (e : Exc) : Comp M (Id × Exc) :=
  if e.isStd then
    match e.idSrc with
    | .base id => pure (id, { e with clear := false })
    | .plain id => pure (id, e)
    | .none => do return (← currentError, e)
  else do return (← currentError, e)

/-- `~exception`, exception.hpp:148-152. -/
def destroyExc (e : Exc) : Comp M Unit := do
  match e.idSrc with
  | .base id => if e.clear ∧ (← getCur) = id then setCur 0#32
  | _ => pure ()

/-- `ctx.get<e_source_location>(id)`, context.hpp:384-389; `has_value` asserts a non-zero key (detail/optional.hpp:131-144). -/
def ctxLoc (id : Id) (cells : List CtxCell) : Comp M (Option Val) :=
  match findCell tySrcLoc cells with
  | none => pure none
  | some c => if id = 0#32 then ub else pure (c.hasValue id)

/-- `handler_caller::call`, handle_errors.hpp:383-404. -/
def callHandler (cfg : Cfg) (specs : List (List Arg)) (body : Nat → List ArgVal → Comp M Out)
    (cells : List CtxCell) (id : Id) (ex : Option Exc) (loc : Option Val) (i : Nat) : Comp M Out :=
  match specs[i]? with
  | none => ub
  | some args =>
    match getArgs cfg cells id ex loc args with
    | none => ub
    | some vals => do
      emit (.handled id ex i vals)
      body i vals

/-- The two `catch` clauses of `try_catch_` and `try_catch`, handle_errors.hpp:590-611, 680-701. Also returns the content of the
deactivated context. -/
def catchPath (cfg : Cfg) (specs : List (List Arg)) (body : Nat → List ArgVal → Comp M Out) (e : Exc) :
    Comp M (Out × List CtxCell) := do
  let cells ← popCtx
  let (id, e) ← unpackId e
  let ex := if e.isStd then some e else none
  pushHandling e
  let loc ← ctxLoc id cells
  match selectSome cfg cells id ex specs with
  | some i => do
    let o ← callHandler cfg specs body cells id ex loc i
    popHandling
    destroyExc e
    return (o, cells)
  | none => do
    unloadCells cfg id cells
    popHandling
    return (.exc e, cells)

/-- `unload_result(&r)` on what the block returned, handle_errors.hpp:503-514, 587. -/
def unloadOut (cfg : Cfg) : Out → Comp M Out
  | .err r => resultUnload cfg r
  | o => pure o

/-- Handlers of `try_handle_all` do not return a `result`: the outcome `err` does not type-check in C++. -/
def noErr : Out → Comp M Out
  | .err _ => ub
  | o => pure o

/-- `try_handle_all`, handle_errors.hpp:615-634. -/
def tryHandleAll (cfg : Cfg) (specs : List (List Arg)) (block : Comp M Out) (body : Nat → List ArgVal → Comp M Out) :
    Comp M Out := do
  pushCtx (deduce cfg specs)
  match ← unloadOut cfg (← block) with
  | .val v => do
    let _ ← popCtx
    return .val v
  | .err r => do
    let _ ← resultUnload cfg r
    let cells ← popCtx
    let loc ← ctxLoc r.errId cells
    match selectAll cfg cells r.errId none specs with
    | some i => noErr (← callHandler cfg specs body cells r.errId none loc i)
    | none => ub
  | .exc e => do
    let (o, _) ← catchPath cfg specs body e
    noErr o

/-- `try_handle_some`, handle_errors.hpp:636-666. -/
def tryHandleSome (cfg : Cfg) (specs : List (List Arg)) (block : Comp M Out) (body : Nat → List ArgVal → Comp M Out) :
    Comp M Out := do
  pushCtx (deduce cfg specs)
  match ← unloadOut cfg (← block) with
  | .val v => do
    let _ ← popCtx
    return .val v
  | .err r => do
    let _ ← resultUnload cfg r
    let cells ← popCtx
    let loc ← ctxLoc r.errId cells
    let rr ← match selectSome cfg cells r.errId none specs with
      | some i => callHandler cfg specs body cells r.errId none loc i
      | none => pure (.err r)
    match rr with
    | .err r' => unloadCells cfg r'.errId cells
    | _ => pure ()
    return rr
  | .exc e => do
    let (o, cells) ← catchPath cfg specs body e
    match o with
    | .err r' => unloadCells cfg r'.errId cells
    | _ => pure ()
    return o

/-- `try_catch`, handle_errors.hpp:668-702. -/
def tryCatch (cfg : Cfg) (specs : List (List Arg)) (block : Comp M Out) (body : Nat → List ArgVal → Comp M Out) :
    Comp M Out := do
  pushCtx (deduce cfg specs)
  match ← block with
  | .exc e => do
    let (o, _) ← catchPath cfg specs body e
    return o
  | o => do
    let _ ← popCtx
    return o

/-- `sl.value_or_default(err_id).extract_capture_list(err_id)`, error.hpp:300-311, handle_errors.hpp:736, 744, 750: the nodes are
those of the allocator if it has key `err_id`, else none; `ex` is `std::current_exception()`; the `result` constructor asserts the
tag (result.hpp:135-140). -/
def extractCaptured (id : Id) (cells : List CtxCell) (ex : Option Exc) : Comp M Out := do
  let nodes := match cells with
    | [.da key nodes] => if key = id then nodes.map (fun n => CapNode.obj n.1 n.2) else []
    | _ => []
  let exn := match ex with
    | some e => [CapNode.exc e]
    | none => []
  assertTagged id
  return .err (.captured id (nodes ++ exn))

/-- `try_capture_all` (non-void), handle_errors.hpp:708-754. With an `err` outcome, the capture list of the returned result itself,
if any, is destroyed with it. -/
def tryCaptureAll (cfg : Cfg) (block : Comp M Out) : Comp M Out := do
  if !cfg.capture then ub
  pushCtx [.da]
  match ← block with
  | .val v => do
    let _ ← popCtx
    return .val v
  | .err r => do
    let cells ← popCtx
    extractCaptured r.errId cells (← currentException)
  | .exc e => do
    let cells ← popCtx
    let (id, e) ← unpackId e
    extractCaptured id cells (some e)

/-- `try_capture_all` (void), handle_errors.hpp:771-806. On success the slot is destroyed without being deactivated, which violates
the assertion in `~slot` (error.hpp:130-133). The block returns `void`: outcome `err` does not type-check. -/
def tryCaptureAllVoid (cfg : Cfg) (block : Comp M Out) : Comp M Out := do
  if !cfg.capture then ub
  pushCtx [.da]
  match ← block with
  | .val _ => ub
  | .err _ => ub
  | .exc e => do
    let cells ← popCtx
    let (id, e) ← unpackId e
    extractCaptured id cells (some e)

/-- `catch_exceptions_helper`, exception.hpp:233-245: `new_error(std::current_exception())`, then the sub-objects, last type
first. -/
def catchHelper (cfg : Cfg) (e : Exc) : List Ty → Comp M Id
  | [] => newError cfg [.obj tyExPtr e.tag]
  | ty :: tys => do
    let id ← catchHelper cfg e tys
    match e.cast ty with
    | some v => errorIdLoad cfg id [.obj ty v]
    | none => pure ()
    return id

/-- `exception_to_result`, exception.hpp:263-280. The exception object stays referenced by the `std::exception_ptr`. -/
def exceptionToResult (cfg : Cfg) (tys : List Ty) (block : Comp M Out) : Comp M Out := do
  match ← block with
  | .exc e => do
    let id ← catchHelper cfg e (if e.isStd then tys else [])
    return .err (.plain id)
  | o => return o

/-- The exception thrown by `throw_exception(id, bad_result{})`, result.hpp:321, exception.hpp:80-151. -/
def badResultExc (id : Id) (tag : Nat) : Exc := ⟨tag, true, .base id, [(tyBadResult, 0)], true⟩

/-- `result::value()` in an error state: `enforce_value_state`, result.hpp:309-325. -/
def resultValue (cfg : Cfg) (r : ErrRes) (tag : Nat) : Comp M Out := do
  match ← resultUnload cfg r with
  | .exc e => return .exc e
  | _ => return .exc (badResultExc r.errId tag)

/-- `on_error`, on_error.hpp:166-198: the body runs between construction and destruction of the guard. -/
def onErrorGuard (cfg : Cfg) (items : List OnItem) (body : Comp M Out) : Comp M Out := do
  let saved ← currentId
  let o ← body
  let id ← checkId cfg saved (match o with | .exc _ => true | _ => false)
  if id ≠ 0#32 then do
    assertTagged id
    triggerItems cfg id items
  return o

/-- User code `try { block } catch( ... ) { h }`. -/
def cppCatch_ (block : Comp M Out) (h : Exc → Comp M Out) : Comp M Out := do
  match ← block with
  | .exc e => do
    pushHandling e
    let o ← h e
    popHandling
    destroyExc e
    return o
  | o => return o

/-- User code `try { block } catch( ... ) { h; throw; }`; an exception thrown by `h` replaces the current one. -/
def cppRethrow_ (block : Comp M Out) (h : Exc → Comp M Out) : Comp M Out := do
  match ← block with
  | .exc e => do
    pushHandling e
    let o ← h e
    popHandling
    match o with
    | .exc e' => do destroyExc e; return .exc e'
    | _ => return .exc e
  | o => return o

/-- Run a program. -/
def eval (cfg : Cfg) : Prog → Comp M Out
  | .ret o => pure o
  | .newError items k => do eval cfg (k (← newError cfg items))
  | .load id items k => do errorIdLoad cfg id items; eval cfg k
  | .importCode ec v k => do eval cfg (k (← importCode cfg ec v))
  | .currentError k => do eval cfg (k (← currentError))
  | .bind p k ke => do
    match ← eval cfg p with
    | .val v => eval cfg (k v)
    | .err r => eval cfg (ke r)
    | .exc e => return .exc e
  | .onError items body => onErrorGuard cfg items (eval cfg body)
  | .monNew k => do eval cfg (k (← currentId))
  | .monCheck m k => do eval cfg (k (makeErrorId (← checkId cfg m false)))
  | .monAssigned m k => do eval cfg (k (makeErrorId (← getId cfg m)))
  | .handleAll specs block body => tryHandleAll cfg specs (eval cfg block) (fun i args => eval cfg (body i args))
  | .handleSome specs block body => tryHandleSome cfg specs (eval cfg block) (fun i args => eval cfg (body i args))
  | .tryCatch specs block body => tryCatch cfg specs (eval cfg block) (fun i args => eval cfg (body i args))
  | .captureAll block => tryCaptureAll cfg (eval cfg block)
  | .captureAllVoid block => tryCaptureAllVoid cfg (eval cfg block)
  | .excToResult tys block => exceptionToResult cfg tys (eval cfg block)
  | .cppCatch block h => cppCatch_ (eval cfg block) (fun e => eval cfg (h e))
  | .cppRethrow block h => cppRethrow_ (eval cfg block) (fun e => eval cfg (h e))
  | .unload r => resultUnload cfg r
  | .value r tag => resultValue cfg r tag

end
end Leaf
