import Verif.Prog

/-!
# Programs as sequences of memory operations

For threads that interleave, a program is not a function from states to states but a sequence of single operations, each of which
another thread may precede. `Act` is such a sequence; the next operation depends on what the previous ones returned. `Small.eval` is
the transcription of `Leaf.eval` into operations: the text of the functions is that of `Store.lean` and `Prog.lean`, in the monad
`Act` instead of `Comp M`. `SmallLemmas` proves that running the operations without interruption is `Leaf.eval`, so
nothing new is trusted here.
-/

namespace Leaf

/-- The event records that an id was generated. -/
def Event.isGen : Event → Bool
  | .gen _ => true
  | _ => false

/-- One operation on memory.
* `gen`: `counter += 4`, one atomic read-modify-write on the shared counter (error.hpp:540), recorded by the same operation; all others only access thread-local
  variables, storage reached through them, and ghost state.
* `getCur`, `setCur`: the thread-local variable `tls_tag_id_factory_current_id` (config/tls_cpp11.hpp:46-60)
* the others: see `Store` (access through `tls::ptr<T>::p`, config/tls_cpp11.hpp:26-43), `World.handling`, `World.trace`. -/
inductive Op
  | gen
  | getCur
  | setCur (id : Id)
  | emit (e : Event) (h : e.isGen = false)
  | pushHandling (e : Exc)
  | popHandling
  | currentException
  | slotGet (ty : Ty)
  | slotSet (ty : Ty) (id : Id) (v : Val)
  | daKey
  | daReset (id : Id)
  | daAppend (ty : Ty) (id : Id) (v : Val)
  | pushCtx (spec : List CellTy)
  | popCtx

/-- What an operation returns. -/
abbrev Op.Res : Op → Type
  | .gen => Id
  | .getCur => Id
  | .currentException => Option Exc
  | .slotGet _ => Option Cell
  | .daKey => Option Id
  | .popCtx => List CtxCell
  | _ => Unit

/-- A sequence of operations ending in a result, or in undefined behaviour. -/
inductive Act (α : Type) : Type
  | ret (a : α)
  | ub
  | op (o : Op) (k : o.Res → Act α)

namespace Act

def bind {α β : Type} (x : Act α) (f : α → Act β) : Act β :=
  match x with
  | .ret a => f a
  | .ub => .ub
  | .op o k => .op o (fun r => (k r).bind f)

instance : Monad Act where
  pure := .ret
  bind := Act.bind

end Act

section
variable {M : Type} [Store M]

/-- One operation, executed by a thread on its state; other threads may have advanced the counter (`Cfg.interf`). -/
def Op.exec (cfg : Cfg) : (o : Op) → Comp M o.Res
  | .gen => fun w =>
    let (id, c') := generateNextId (w.counter + BitVec.ofNat 32 (4 * cfg.interf w.ticks))
    some (id, { w with counter := c', ticks := w.ticks + 1, trace := .gen id :: w.trace })
  | .getCur => Leaf.getCur
  | .setCur id => Leaf.setCur id
  | .emit e _ => Leaf.emit e
  | .pushHandling e => Leaf.pushHandling e
  | .popHandling => Leaf.popHandling
  | .currentException => Leaf.currentException
  | .slotGet ty => Leaf.slotGet ty
  | .slotSet ty id v => Leaf.slotSet ty id v
  | .daKey => Leaf.daKey
  | .daReset id => Leaf.daReset id
  | .daAppend ty id v => Leaf.daAppend ty id v
  | .pushCtx spec => Leaf.pushCtx spec
  | .popCtx => Leaf.popCtx

/-- All operations, one after the other. -/
def Act.run {α : Type} (cfg : Cfg) : Act α → Comp M α
  | .ret a => pure a
  | .ub => Leaf.ub
  | .op o k => fun w => (o.exec cfg w).bind fun r => (k r.1).run cfg r.2

end

namespace Small

def ub {α : Type} : Act α := .ub
def emit (e : Event) (h : e.isGen = false := by rfl) : Act Unit := .op (.emit e h) .ret
def getCur : Act Id := .op .getCur .ret
def setCur (id : Id) : Act Unit := .op (.setCur id) .ret

/-- `current_id()`, error.hpp:549-554, with its assertion. -/
def currentId : Act Id := do
  let id ← getCur
  if id = 0#32 ∨ Id.Tagged id then pure id else ub

def assertTagged (id : Id) : Act Unit := if Id.Tagged id then pure () else ub

/-- `new_id`, error.hpp:556-561: `counter += 4`, then the write to the thread-local variable. -/
def newId (_cfg : Cfg) : Act Id := do
  let id ← .op .gen .ret
  setCur id
  return id

/-- `current_error()`, error.hpp:767-770. -/
def currentError : Act Id := do return makeErrorId (← currentId)

def pushHandling (e : Exc) : Act Unit := .op (.pushHandling e) .ret
def popHandling : Act Unit := .op .popHandling .ret
def currentException : Act (Option Exc) := .op .currentException .ret
def slotGet (ty : Ty) : Act (Option Cell) := .op (.slotGet ty) .ret
def slotSet (ty : Ty) (id : Id) (v : Val) : Act Unit := .op (.slotSet ty id v) .ret
def daKey : Act (Option Id) := .op .daKey .ret
def daReset (id : Id) : Act Unit := .op (.daReset id) .ret
def daAppend (ty : Ty) (id : Id) (v : Val) : Act Unit := .op (.daAppend ty id v) .ret
def pushCtx (spec : List CellTy) : Act Unit := .op (.pushCtx spec) .ret
def popCtx : Act (List CtxCell) := .op .popCtx .ret

/-- `dynamic_load_`, error.hpp:333-343 (called by `dynamic_load<OnError>`, 357-376). -/
def dynamicLoad (id : Id) (ty : Ty) (v : Val) : Act Unit := do
  match ← daKey with
  | some k =>
    if k ≠ 0#32 then daAppend ty id v
    else do daReset id; daAppend ty id v
  | none => pure ()

/-- `dynamic_accumulate_`, error.hpp:345-355 (called by `dynamic_load_accumulate<OnError>`, 378-397). -/
def dynamicAccumulate (cfg : Cfg) (id : Id) (ty : Ty) (tag : Nat) (f : Val → Val) : Act Unit := do
  match ← daKey with
  | some k =>
    if k = id then daAppend ty id (f (cfg.dflt ty))
    else do daReset id; daAppend ty id (f (cfg.dflt ty))
    emit (.called tag); emit (.offered id ty (f (cfg.dflt ty)))
  | none => pure ()

/-- `slot<E>::unload`, error.hpp:411-426, for a slot with content `c` that is not itself bound. -/
def slotUnload (cfg : Cfg) (id : Id) (ty : Ty) (c : Cell) : Act Unit := do
  if id = 0#32 then ub
  match c.hasValue id with
  | none => pure ()
  | some v =>
    match ← slotGet ty with
    | some p => if (p.hasValue id).isNone then slotSet ty id v
    | none => if cfg.capture then dynamicLoad id ty v

/-- `load_slot<OnError>`, error.hpp:428-445. -/
def loadSlot (cfg : Cfg) (onError : Bool) (id : Id) (ty : Ty) (v : Val) : Act Unit := do
  assertTagged id
  match ← slotGet ty with
  | some p => if !onError || (p.hasValue id).isNone then slotSet ty id v
  | none => if cfg.capture then dynamicLoad id ty v

/-- `load_slot_deferred<OnError>`, error.hpp:447-465. The function is called (event `called`) exactly where the code evaluates
`std::forward<F>(f)()`. -/
def loadSlotDeferred (cfg : Cfg) (onError : Bool) (id : Id) (ty : Ty) (tag : Nat) (v : Val) : Act Unit := do
  assertTagged id
  match ← slotGet ty with
  | some p =>
    if !onError || (p.hasValue id).isNone then do
      emit (.called tag); emit (.offered id ty v); slotSet ty id v
  | none =>
    if cfg.capture then do
      emit (.called tag); emit (.offered id ty v); dynamicLoad id ty v

/-- `load_slot_accumulate<OnError>`, error.hpp:467-486 (`OnError` makes no difference). -/
def loadSlotAccumulate (cfg : Cfg) (id : Id) (ty : Ty) (tag : Nat) (f : Val → Val) : Act Unit := do
  assertTagged id
  match ← slotGet ty with
  | some p => do
    let v := match p.hasValue id with
      | some v => f v
      | none => f (cfg.dflt ty)
    slotSet ty id v
    emit (.called tag); emit (.offered id ty v)
  | none => if cfg.capture then dynamicAccumulate cfg id ty tag f

/-- `load_item<...>::load_`, error.hpp:493-524 (`onError = false`); the `trigger` functions of `on_error`, on_error.hpp:90-164
(`onError = true`). -/
def loadItem (cfg : Cfg) (onError : Bool) (id : Id) : Item → Act Unit
  | .obj ty v => do emit (.offered id ty v); loadSlot cfg onError id ty v
  | .deferred ty tag v => loadSlotDeferred cfg onError id ty tag v
  | .accum ty tag f => loadSlotAccumulate cfg id ty tag f

/-- The items are evaluated left to right (braced initialiser list, error.hpp:689-702). -/
def loadItems (cfg : Cfg) (onError : Bool) (id : Id) : List Item → Act Unit
  | [] => pure ()
  | i :: is => do loadItem cfg onError id i; loadItems cfg onError id is

/-- `error_id::load`, error.hpp:683-702: nothing happens for the empty id. -/
def errorIdLoad (cfg : Cfg) (id : Id) (items : List Item) : Act Unit :=
  if id ≠ 0#32 then loadItems cfg false id items else pure ()

/-- `new_error`, error.hpp:756-765. -/
def newError (cfg : Cfg) (items : List Item) : Act Id := do
  let id := makeErrorId (← newId cfg)
  errorIdLoad cfg id items
  return id

/-- `tuple_for_each_preload::trigger`, on_error.hpp:73-88: items in order. -/
def triggerItems (cfg : Cfg) (id : Id) : List OnItem → Act Unit
  | [] => pure ()
  | .item i :: is => do loadItem cfg true id i; triggerItems cfg id is
  | .action tag :: is => do emit (.called tag); triggerItems cfg id is

/-- `error_id(std::error_code)`, error.hpp:660-674 with `import_error_code`, 601-620. The error code is the object `v` of type
`std::error_code`. -/
def importCode (cfg : Cfg) (ec : ErrorCode) (v : Val) : Act Id :=
  match importErrorCode ec with
  | .done id => pure id
  | .fresh => do
    let id ← newId cfg
    emit (.offered id tyErrorCode v)
    loadSlot cfg false id tyErrorCode v
    return makeErrorId id
  | .bad => ub

/-- `error_monitor::check_id`, on_error.hpp:30-47. `saved`: the current id at construction; `throwing`: whether
`std::uncaught_exceptions()` is now greater than at construction. -/
def checkId (cfg : Cfg) (saved : Id) (throwing : Bool) : Act Id := do
  let cur ← currentId
  if cur ≠ saved then return cur
  else if throwing then newId cfg
  else return 0#32

/-- `error_monitor::get_id`, on_error.hpp:49-56. -/
def getId (cfg : Cfg) (saved : Id) : Act Id := do
  let cur ← currentId
  if cur ≠ saved then return cur else newId cfg

/-- Unload the nodes of a capture list in order until an exception node rethrows (`moved.for_each(...)`,
detail/capture_list.hpp:91-95). Returns the exception thrown. -/
def unloadNodes (cfg : Cfg) (id : Id) : List CapNode → Act (Option Exc)
  | [] => pure none
  | .obj ty c :: ns => do
    match c.hasValue id with
    | some v => emit (.transported id ty v)
    | none => pure ()
    slotUnload cfg id ty c
    unloadNodes cfg id ns
  | .exc e :: _ => pure (some e)

/-- `result::unload`, result.hpp:590-596 with `capture_list::unload`, detail/capture_list.hpp:86-96: gives back the result with its
list emptied, or the exception rethrown by the last node. -/
def resultUnload (cfg : Cfg) (r : ErrRes) : Act Out :=
  match r with
  | .plain _ => pure (.err r)
  | .captured id nodes => do
    setCur r.errId
    match ← unloadNodes cfg r.errId nodes with
    | some e => pure (.exc e)
    | none => pure (.err (.captured id []))

/-- Unload the nodes of a `dynamic_allocator` in order: `capture_list::unload`, detail/capture_list.hpp:86-96. -/
def unloadDaNodes (cfg : Cfg) (id : Id) : List (Ty × Cell) → Act Unit
  | [] => pure ()
  | (ty, c) :: ns => do slotUnload cfg id ty c; unloadDaNodes cfg id ns

/-- One tuple element: `slot<E>::unload`, error.hpp:411-426, or `slot<dynamic_allocator>::unload`, error.hpp:325-331. -/
def unloadCell (cfg : Cfg) (id : Id) : CtxCell → Act Unit
  | .obj ty c => slotUnload cfg id ty c
  | .da key nodes => do
    if id = 0#32 then ub
    if key ≠ 0#32 then do
      setCur id
      unloadDaNodes cfg id nodes

/-- `context::unload`, context.hpp:359-363 with `tuple_for_each::unload`, 197-204: last element first. -/
def unloadCells (cfg : Cfg) (id : Id) : List CtxCell → Act Unit
  | [] => pure ()
  | c :: cs => do unloadCells cfg id cs; unloadCell cfg id c

/-- `unpack_error_id`, handle_errors.hpp:23-30, for a caught `std::exception`; `current_error()` for any other
(handle_errors.hpp:604, 694, 749). `exception<Ex>::get_error_id` resets `clear_current_error_` (exception.hpp:92-96). -/
def unpackId (e : Exc) : Act (Id × Exc) :=
  if e.isStd then
    match e.idSrc with
    | .base id => pure (id, { e with clear := false })
    | .plain id => pure (id, e)
    | .none => do return (← currentError, e)
  else do return (← currentError, e)

/-- `~exception`, exception.hpp:148-152. -/
def destroyExc (e : Exc) : Act Unit := do
  match e.idSrc with
  | .base id => if e.clear ∧ (← getCur) = id then setCur 0#32
  | _ => pure ()

/-- `ctx.get<e_source_location>(id)`, context.hpp:384-389; `has_value` asserts a non-zero key (detail/optional.hpp:131-144). -/
def ctxLoc (id : Id) (cells : List CtxCell) : Act (Option Val) :=
  match findCell tySrcLoc cells with
  | none => pure none
  | some c => if id = 0#32 then ub else pure (c.hasValue id)

/-- `handler_caller::call`, handle_errors.hpp:383-404. -/
def callHandler (cfg : Cfg) (specs : List (List Arg)) (body : Nat → List ArgVal → Act Out)
    (cells : List CtxCell) (id : Id) (ex : Option Exc) (loc : Option Val) (i : Nat) : Act Out :=
  match specs[i]? with
  | none => ub
  | some args =>
    match getArgs cfg cells id ex loc args with
    | none => ub
    | some vals => do
      emit (.handled id ex i vals)
      body i vals

/-- The two `catch` clauses of `try_catch_` and `try_catch`, handle_errors.hpp:590-611, 680-701. Also returns the content of the
deactivated context. -/
def catchPath (cfg : Cfg) (specs : List (List Arg)) (body : Nat → List ArgVal → Act Out) (e : Exc) :
    Act (Out × List CtxCell) := do
  let cells ← popCtx
  let (id, e) ← unpackId e
  let ex := if e.isStd then some e else none
  pushHandling e
  let loc ← ctxLoc id cells
  match selectSome cfg cells id ex specs with
  | some i => do
    let o ← callHandler cfg specs body cells id ex loc i
    popHandling
    destroyExc e
    return (o, cells)
  | none => do
    unloadCells cfg id cells
    popHandling
    return (.exc e, cells)

/-- `unload_result(&r)` on what the block returned, handle_errors.hpp:503-514, 587. -/
def unloadOut (cfg : Cfg) : Out → Act Out
  | .err r => resultUnload cfg r
  | o => pure o

/-- Handlers of `try_handle_all` do not return a `result`: the outcome `err` does not type-check in C++. -/
def noErr : Out → Act Out
  | .err _ => ub
  | o => pure o

/-- `try_handle_all`, handle_errors.hpp:615-634. -/
def tryHandleAll (cfg : Cfg) (specs : List (List Arg)) (block : Act Out) (body : Nat → List ArgVal → Act Out) :
    Act Out := do
  pushCtx (deduce cfg specs)
  match ← unloadOut cfg (← block) with
  | .val v => do
    let _ ← popCtx
    return .val v
  | .err r => do
    let _ ← resultUnload cfg r
    let cells ← popCtx
    let loc ← ctxLoc r.errId cells
    match selectAll cfg cells r.errId none specs with
    | some i => noErr (← callHandler cfg specs body cells r.errId none loc i)
    | none => ub
  | .exc e => do
    let (o, _) ← catchPath cfg specs body e
    noErr o

/-- `try_handle_some`, handle_errors.hpp:636-666. -/
def tryHandleSome (cfg : Cfg) (specs : List (List Arg)) (block : Act Out) (body : Nat → List ArgVal → Act Out) :
    Act Out := do
  pushCtx (deduce cfg specs)
  match ← unloadOut cfg (← block) with
  | .val v => do
    let _ ← popCtx
    return .val v
  | .err r => do
    let _ ← resultUnload cfg r
    let cells ← popCtx
    let loc ← ctxLoc r.errId cells
    let rr ← match selectSome cfg cells r.errId none specs with
      | some i => callHandler cfg specs body cells r.errId none loc i
      | none => pure (.err r)
    match rr with
    | .err r' => unloadCells cfg r'.errId cells
    | _ => pure ()
    return rr
  | .exc e => do
    let (o, cells) ← catchPath cfg specs body e
    match o with
    | .err r' => unloadCells cfg r'.errId cells
    | _ => pure ()
    return o

/-- `try_catch`, handle_errors.hpp:668-702. -/
def tryCatch (cfg : Cfg) (specs : List (List Arg)) (block : Act Out) (body : Nat → List ArgVal → Act Out) :
    Act Out := do
  pushCtx (deduce cfg specs)
  match ← block with
  | .exc e => do
    let (o, _) ← catchPath cfg specs body e
    return o
  | o => do
    let _ ← popCtx
    return o

/-- `sl.value_or_default(err_id).extract_capture_list(err_id)`, error.hpp:300-311, handle_errors.hpp:736, 744, 750: the nodes are
those of the allocator if it has key `err_id`, else none; `ex` is `std::current_exception()`; the `result` constructor asserts the
tag (result.hpp:135-140). -/
def extractCaptured (id : Id) (cells : List CtxCell) (ex : Option Exc) : Act Out := do
  let nodes := match cells with
    | [.da key nodes] => if key = id then nodes.map (fun n => CapNode.obj n.1 n.2) else []
    | _ => []
  let exn := match ex with
    | some e => [CapNode.exc e]
    | none => []
  assertTagged id
  return .err (.captured id (nodes ++ exn))

/-- `try_capture_all` (non-void), handle_errors.hpp:708-754. With an `err` outcome, the capture list of the returned result itself,
if any, is destroyed with it. -/
def tryCaptureAll (cfg : Cfg) (block : Act Out) : Act Out := do
  if !cfg.capture then ub
  pushCtx [.da]
  match ← block with
  | .val v => do
    let _ ← popCtx
    return .val v
  | .err r => do
    let cells ← popCtx
    extractCaptured r.errId cells (← currentException)
  | .exc e => do
    let cells ← popCtx
    let (id, e) ← unpackId e
    extractCaptured id cells (some e)

/-- `try_capture_all` (void), handle_errors.hpp:771-806. On success the slot is destroyed without being deactivated, which violates
the assertion in `~slot` (error.hpp:130-133). The block returns `void`: outcome `err` does not type-check. -/
def tryCaptureAllVoid (cfg : Cfg) (block : Act Out) : Act Out := do
  if !cfg.capture then ub
  pushCtx [.da]
  match ← block with
  | .val _ => ub
  | .err _ => ub
  | .exc e => do
    let cells ← popCtx
    let (id, e) ← unpackId e
    extractCaptured id cells (some e)

/-- `catch_exceptions_helper`, exception.hpp:233-245: `new_error(std::current_exception())`, then the sub-objects, last type
first. -/
def catchHelper (cfg : Cfg) (e : Exc) : List Ty → Act Id
  | [] => newError cfg [.obj tyExPtr e.tag]
  | ty :: tys => do
    let id ← catchHelper cfg e tys
    match e.cast ty with
    | some v => errorIdLoad cfg id [.obj ty v]
    | none => pure ()
    return id

/-- `exception_to_result`, exception.hpp:263-280. The exception object stays referenced by the `std::exception_ptr`. -/
def exceptionToResult (cfg : Cfg) (tys : List Ty) (block : Act Out) : Act Out := do
  match ← block with
  | .exc e => do
    let id ← catchHelper cfg e (if e.isStd then tys else [])
    return .err (.plain id)
  | o => return o

/-- `result::value()` in an error state: `enforce_value_state`, result.hpp:309-325. -/
def resultValue (cfg : Cfg) (r : ErrRes) (tag : Nat) : Act Out := do
  match ← resultUnload cfg r with
  | .exc e => return .exc e
  | _ => return .exc (badResultExc r.errId tag)

/-- `on_error`, on_error.hpp:166-198: the body runs between construction and destruction of the guard. -/
def onErrorGuard (cfg : Cfg) (items : List OnItem) (body : Act Out) : Act Out := do
  let saved ← currentId
  let o ← body
  let id ← checkId cfg saved (match o with | .exc _ => true | _ => false)
  if id ≠ 0#32 then do
    assertTagged id
    triggerItems cfg id items
  return o

/-- User code `try { block } catch( ... ) { h }`. -/
def cppCatch_ (block : Act Out) (h : Exc → Act Out) : Act Out := do
  match ← block with
  | .exc e => do
    pushHandling e
    let o ← h e
    popHandling
    destroyExc e
    return o
  | o => return o

/-- User code `try { block } catch( ... ) { h; throw; }`; an exception thrown by `h` replaces the current one. -/
def cppRethrow_ (block : Act Out) (h : Exc → Act Out) : Act Out := do
  match ← block with
  | .exc e => do
    pushHandling e
    let o ← h e
    popHandling
    match o with
    | .exc e' => do destroyExc e; return .exc e'
    | _ => return .exc e
  | o => return o

/-- Run a program. -/
def eval (cfg : Cfg) : Prog → Act Out
  | .ret o => pure o
  | .newError items k => do eval cfg (k (← newError cfg items))
  | .load id items k => do errorIdLoad cfg id items; eval cfg k
  | .importCode ec v k => do eval cfg (k (← importCode cfg ec v))
  | .currentError k => do eval cfg (k (← currentError))
  | .bind p k ke => do
    match ← eval cfg p with
    | .val v => eval cfg (k v)
    | .err r => eval cfg (ke r)
    | .exc e => return .exc e
  | .onError items body => onErrorGuard cfg items (eval cfg body)
  | .monNew k => do eval cfg (k (← currentId))
  | .monCheck m k => do eval cfg (k (makeErrorId (← checkId cfg m false)))
  | .monAssigned m k => do eval cfg (k (makeErrorId (← getId cfg m)))
  | .handleAll specs block body => tryHandleAll cfg specs (eval cfg block) (fun i args => eval cfg (body i args))
  | .handleSome specs block body => tryHandleSome cfg specs (eval cfg block) (fun i args => eval cfg (body i args))
  | .tryCatch specs block body => tryCatch cfg specs (eval cfg block) (fun i args => eval cfg (body i args))
  | .captureAll block => tryCaptureAll cfg (eval cfg block)
  | .captureAllVoid block => tryCaptureAllVoid cfg (eval cfg block)
  | .excToResult tys block => exceptionToResult cfg tys (eval cfg block)
  | .cppCatch block h => cppCatch_ (eval cfg block) (fun e => eval cfg (h e))
  | .cppRethrow block h => cppRethrow_ (eval cfg block) (fun e => eval cfg (h e))
  | .unload r => resultUnload cfg r
  | .value r tag => resultValue cfg r tag

end Small
end Leaf
