import Verif.Prog

/-!
# Programs when memory runs out

The library allocates memory in two places: a node for an object that goes to a capturing scope (`new capturing_slot_node<T>`, error.hpp:286), and a node for a captured
exception (`new capturing_exception_node`, error.hpp:305). Here each allocation may fail: `mem n` tells whether the `n`-th one succeeds. A failing one throws `std::bad_alloc`, which

* is swallowed by `on_error` (error.hpp:357-397, `OnError = true`);
* terminates the program in `noexcept` functions: `error_id::load` (error.hpp:683), `new_error` (756), `error_id(std::error_code)` (660), `context::unload` (context.hpp:359),
  `try_capture_all` (handle_errors.hpp:810);
* is thrown to the caller by `result::unload` (result.hpp:590) and `result::value` (result.hpp:309).

Outcome of a computation: `none` at the outside, undefined behaviour as before; inside, `none`: the program was terminated (the state is that at the call of `std::terminate`),
or the result and the number of allocations so far. Memory the C++ runtime needs to throw exceptions, and memory error objects need themselves, is not modelled.
-/

namespace Leaf

/-- Computations that allocate memory. -/
def CompT (M α : Type) := Nat → Comp M (Option (α × Nat))

section
variable {M : Type}

instance : Monad (CompT M) where
  pure a := fun n => pure (some (a, n))
  bind x f := fun n => x n >>= fun r => match r with
    | none => pure none
    | some (a, n') => f a n'

/-- Code that allocates no memory. -/
def lift {α : Type} (x : Comp M α) : CompT M α := fun n => x >>= fun a => pure (some (a, n))

/-- `std::terminate()`. -/
def terminate {α : Type} : CompT M α := fun _ => pure none

/-- Allocate memory for a node; tells whether there is some. -/
def allocate (mem : Nat → Bool) : CompT M Bool := fun n => pure (some (mem n, n + 1))

/-- A function that is `noexcept`; `x` returns `false` if `std::bad_alloc` is thrown. -/
def noexcept (x : CompT M Bool) : CompT M Unit := do
  if ← x then pure () else terminate

/-- `try { x } catch( ... ) { }`. -/
def swallow (x : CompT M Bool) : CompT M Unit := do
  let _ ← x

variable [Store M]

/-- `dynamic_allocator::dynamic_load`, error.hpp:280-289. -/
def daAppendT (mem : Nat → Bool) (ty : Ty) (id : Id) (v : Val) : CompT M Bool := do
  if ← allocate mem then do
    lift (daAppend ty id v)
    return true
  else return false

/-- `dynamic_load_`, error.hpp:333-343. -/
def dynamicLoadT (mem : Nat → Bool) (id : Id) (ty : Ty) (v : Val) : CompT M Bool := do
  match ← lift daKey with
  | some k =>
    if k ≠ 0#32 then daAppendT mem ty id v
    else do lift (daReset id); daAppendT mem ty id v
  | none => return true

/-- `dynamic_accumulate_`, error.hpp:345-355. -/
def dynamicAccumulateT (mem : Nat → Bool) (cfg : Cfg) (id : Id) (ty : Ty) (tag : Nat) (f : Val → Val) : CompT M Bool := do
  match ← lift daKey with
  | some k =>
    if k = id then pure () else lift (daReset id)
    if ← daAppendT mem ty id (f (cfg.dflt ty)) then do
      lift (emit (.called tag)); lift (emit (.offered id ty (f (cfg.dflt ty))))
      return true
    else return false
  | none => return true

/-- `dynamic_load<OnError>`, `dynamic_load_accumulate<OnError>`, error.hpp:357-397. -/
def dynamicT (onError : Bool) (x : CompT M Bool) : CompT M Bool :=
  if onError then do swallow x; return true else x

/-- `slot<E>::unload`, error.hpp:411-426. -/
def slotUnloadT (mem : Nat → Bool) (cfg : Cfg) (id : Id) (ty : Ty) (c : Cell) : CompT M Bool := do
  if id = 0#32 then lift ub
  match c.hasValue id with
  | none => return true
  | some v =>
    match ← lift (slotGet ty) with
    | some p => do
      if (p.hasValue id).isNone then lift (slotSet ty id v)
      return true
    | none => if cfg.capture then dynamicT false (dynamicLoadT mem id ty v) else return true

/-- `load_slot<OnError>`, error.hpp:428-445. -/
def loadSlotT (mem : Nat → Bool) (cfg : Cfg) (onError : Bool) (id : Id) (ty : Ty) (v : Val) : CompT M Bool := do
  lift (assertTagged id)
  match ← lift (slotGet ty) with
  | some p => do
    if !onError || (p.hasValue id).isNone then lift (slotSet ty id v)
    return true
  | none => if cfg.capture then dynamicT onError (dynamicLoadT mem id ty v) else return true

/-- `load_slot_deferred<OnError>`, error.hpp:447-465. -/
def loadSlotDeferredT (mem : Nat → Bool) (cfg : Cfg) (onError : Bool) (id : Id) (ty : Ty) (tag : Nat) (v : Val) : CompT M Bool := do
  lift (assertTagged id)
  match ← lift (slotGet ty) with
  | some p => do
    if !onError || (p.hasValue id).isNone then do
      lift (emit (.called tag)); lift (emit (.offered id ty v)); lift (slotSet ty id v)
    return true
  | none =>
    if cfg.capture then do
      lift (emit (.called tag)); lift (emit (.offered id ty v)); dynamicT onError (dynamicLoadT mem id ty v)
    else return true

/-- `load_slot_accumulate<OnError>`, error.hpp:467-486. -/
def loadSlotAccumulateT (mem : Nat → Bool) (cfg : Cfg) (onError : Bool) (id : Id) (ty : Ty) (tag : Nat) (f : Val → Val) : CompT M Bool := do
  lift (assertTagged id)
  match ← lift (slotGet ty) with
  | some p => do
    let v := match p.hasValue id with
      | some v => f v
      | none => f (cfg.dflt ty)
    lift (slotSet ty id v)
    lift (emit (.called tag)); lift (emit (.offered id ty v))
    return true
  | none => if cfg.capture then dynamicT onError (dynamicAccumulateT mem cfg id ty tag f) else return true

/-- `load_item<...>::load_`, error.hpp:493-524; the `trigger` functions of `on_error`, on_error.hpp:90-164. -/
def loadItemT (mem : Nat → Bool) (cfg : Cfg) (onError : Bool) (id : Id) : Item → CompT M Bool
  | .obj ty v => do lift (emit (.offered id ty v)); loadSlotT mem cfg onError id ty v
  | .deferred ty tag v => loadSlotDeferredT mem cfg onError id ty tag v
  | .accum ty tag f => loadSlotAccumulateT mem cfg onError id ty tag f

/-- The items, left to right, error.hpp:689-702. -/
def loadItemsT (mem : Nat → Bool) (cfg : Cfg) (id : Id) : List Item → CompT M Bool
  | [] => return true
  | i :: is => do
    if ← loadItemT mem cfg false id i then loadItemsT mem cfg id is else return false

/-- `error_id::load`, error.hpp:683-702: `noexcept`. -/
def errorIdLoadT (mem : Nat → Bool) (cfg : Cfg) (id : Id) (items : List Item) : CompT M Unit :=
  if id ≠ 0#32 then noexcept (loadItemsT mem cfg id items) else pure ()

/-- `new_error`, error.hpp:756-765: `noexcept`. -/
def newErrorT (mem : Nat → Bool) (cfg : Cfg) (items : List Item) : CompT M Id := do
  let id := makeErrorId (← lift (newId cfg))
  errorIdLoadT mem cfg id items
  return id

/-- `tuple_for_each_preload::trigger`, on_error.hpp:73-88: `noexcept`. -/
def triggerItemsT (mem : Nat → Bool) (cfg : Cfg) (id : Id) : List OnItem → CompT M Unit
  | [] => pure ()
  | .item i :: is => do noexcept (loadItemT mem cfg true id i); triggerItemsT mem cfg id is
  | .action tag :: is => do lift (emit (.called tag)); triggerItemsT mem cfg id is

/-- `error_id(std::error_code)`, error.hpp:660-674 with `import_error_code`, 601-620: `noexcept`. -/
def importCodeT (mem : Nat → Bool) (cfg : Cfg) (ec : ErrorCode) (v : Val) : CompT M Id :=
  match importErrorCode ec with
  | .done id => pure id
  | .fresh => do
    let id ← lift (newId cfg)
    lift (emit (.offered id tyErrorCode v))
    noexcept (loadSlotT mem cfg false id tyErrorCode v)
    return makeErrorId id
  | .bad => lift ub

/-- The type `std::bad_alloc`. -/
def tyBadAlloc : Ty := 4

/-- `std::bad_alloc`: not thrown by LEAF, so no id. -/
def badAlloc : Exc := ⟨0, true, .none, [(tyBadAlloc, 0)], false⟩

/-- The nodes of a capture list, detail/capture_list.hpp:91-95: if the memory for an object runs out, the remaining nodes, and a captured exception among them, are destroyed. -/
def unloadNodesT (mem : Nat → Bool) (cfg : Cfg) (id : Id) : List CapNode → CompT M (Option Exc)
  | [] => pure none
  | .obj ty c :: ns => do
    match c.hasValue id with
    | some v => lift (emit (.transported id ty v))
    | none => pure ()
    if ← slotUnloadT mem cfg id ty c then unloadNodesT mem cfg id ns else return some badAlloc
  | .exc e :: _ => pure (some e)

/-- `result::unload`, result.hpp:590-596. -/
def resultUnloadT (mem : Nat → Bool) (cfg : Cfg) (r : ErrRes) : CompT M Out :=
  match r with
  | .plain _ => pure (.err r)
  | .captured id nodes => do
    lift (setCur r.errId)
    match ← unloadNodesT mem cfg r.errId nodes with
    | some e => pure (.exc e)
    | none => pure (.err (.captured id []))

/-- `capture_list::unload` of a `dynamic_allocator`, detail/capture_list.hpp:86-96. -/
def unloadDaNodesT (mem : Nat → Bool) (cfg : Cfg) (id : Id) : List (Ty × Cell) → CompT M Bool
  | [] => return true
  | (ty, c) :: ns => do
    if ← slotUnloadT mem cfg id ty c then unloadDaNodesT mem cfg id ns else return false

/-- `slot<E>::unload`, error.hpp:411-426; `slot<dynamic_allocator>::unload`, error.hpp:325-331. -/
def unloadCellT (mem : Nat → Bool) (cfg : Cfg) (id : Id) : CtxCell → CompT M Bool
  | .obj ty c => slotUnloadT mem cfg id ty c
  | .da key nodes => do
    if id = 0#32 then lift ub
    if key ≠ 0#32 then do
      lift (setCur id)
      unloadDaNodesT mem cfg id nodes
    else return true

/-- `context::unload`, context.hpp:359-363 with `tuple_for_each::unload`, 197-204: `noexcept`. -/
def unloadCellsT (mem : Nat → Bool) (cfg : Cfg) (id : Id) : List CtxCell → CompT M Unit
  | [] => pure ()
  | c :: cs => do unloadCellsT mem cfg id cs; noexcept (unloadCellT mem cfg id c)

/-- `handler_caller::call`, handle_errors.hpp:383-404. -/
def callHandlerT (cfg : Cfg) (specs : List (List Arg)) (body : Nat → List ArgVal → CompT M Out)
    (cells : List CtxCell) (id : Id) (ex : Option Exc) (loc : Option Val) (i : Nat) : CompT M Out :=
  match specs[i]? with
  | none => lift ub
  | some args =>
    match getArgs cfg cells id ex loc args with
    | none => lift ub
    | some vals => do
      lift (emit (.handled id ex i vals))
      body i vals

/-- The two `catch` clauses of `try_catch_` and `try_catch`, handle_errors.hpp:590-611, 680-701. -/
def catchPathT (mem : Nat → Bool) (cfg : Cfg) (specs : List (List Arg)) (body : Nat → List ArgVal → CompT M Out) (e : Exc) :
    CompT M (Out × List CtxCell) := do
  let cells ← lift popCtx
  let (id, e) ← lift (unpackId e)
  let ex := if e.isStd then some e else none
  lift (pushHandling e)
  let loc ← lift (ctxLoc id cells)
  match selectSome cfg cells id ex specs with
  | some i => do
    let o ← callHandlerT cfg specs body cells id ex loc i
    lift popHandling
    lift (destroyExc e)
    return (o, cells)
  | none => do
    unloadCellsT mem cfg id cells
    lift popHandling
    return (.exc e, cells)

/-- `unload_result(&r)`, handle_errors.hpp:503-514, 587: inside the `try` block. -/
def unloadOutT (mem : Nat → Bool) (cfg : Cfg) : Out → CompT M Out
  | .err r => resultUnloadT mem cfg r
  | o => pure o

/-- `try_handle_all`, handle_errors.hpp:615-634. The second `unload_result` finds an empty list and needs no memory. -/
def tryHandleAllT (mem : Nat → Bool) (cfg : Cfg) (specs : List (List Arg)) (block : CompT M Out) (body : Nat → List ArgVal → CompT M Out) : CompT M Out := do
  lift (pushCtx (deduce cfg specs))
  match ← unloadOutT mem cfg (← block) with
  | .val v => do
    let _ ← lift popCtx
    return .val v
  | .err r => do
    let _ ← lift (resultUnload cfg r)
    let cells ← lift popCtx
    let loc ← lift (ctxLoc r.errId cells)
    match selectAll cfg cells r.errId none specs with
    | some i => lift (noErr (← callHandlerT cfg specs body cells r.errId none loc i))
    | none => lift ub
  | .exc e => do
    let (o, _) ← catchPathT mem cfg specs body e
    lift (noErr o)

/-- `try_handle_some`, handle_errors.hpp:636-666. -/
def tryHandleSomeT (mem : Nat → Bool) (cfg : Cfg) (specs : List (List Arg)) (block : CompT M Out) (body : Nat → List ArgVal → CompT M Out) : CompT M Out := do
  lift (pushCtx (deduce cfg specs))
  match ← unloadOutT mem cfg (← block) with
  | .val v => do
    let _ ← lift popCtx
    return .val v
  | .err r => do
    let _ ← lift (resultUnload cfg r)
    let cells ← lift popCtx
    let loc ← lift (ctxLoc r.errId cells)
    let rr ← match selectSome cfg cells r.errId none specs with
      | some i => callHandlerT cfg specs body cells r.errId none loc i
      | none => pure (.err r)
    match rr with
    | .err r' => unloadCellsT mem cfg r'.errId cells
    | _ => pure ()
    return rr
  | .exc e => do
    let (o, cells) ← catchPathT mem cfg specs body e
    match o with
    | .err r' => unloadCellsT mem cfg r'.errId cells
    | _ => pure ()
    return o

/-- `try_catch`, handle_errors.hpp:668-702. -/
def tryCatchT (mem : Nat → Bool) (cfg : Cfg) (specs : List (List Arg)) (block : CompT M Out) (body : Nat → List ArgVal → CompT M Out) : CompT M Out := do
  lift (pushCtx (deduce cfg specs))
  match ← block with
  | .exc e => do
    let (o, _) ← catchPathT mem cfg specs body e
    return o
  | o => do
    let _ ← lift popCtx
    return o

/-- `extract_capture_list`, error.hpp:300-314: memory for the node of the exception, if there is one; called in the `catch` clauses of a `noexcept` function. -/
def extractCapturedT (mem : Nat → Bool) (id : Id) (cells : List CtxCell) (ex : Option Exc) : CompT M Out := do
  match ex with
  | some _ => noexcept (allocate mem)
  | none => pure ()
  lift (extractCaptured id cells ex)

/-- The allocator after `sl.value_or_default(id)`, handle_errors.hpp:736 with detail/optional.hpp:188-194. -/
def valueOrDefault (id : Id) : List CtxCell → List CtxCell
  | [.da key nodes] => if key = id then [.da key nodes] else [.da id []]
  | cells => cells

/-- `extract_capture_list` of a failed result, handle_errors.hpp:735-736: inside the `try` block. If there is no memory for the exception being handled, the function catches the
`std::bad_alloc` itself (741-746): it captures that. (It deactivates `sl` a second time, which changes nothing.) -/
def extractErrT (mem : Nat → Bool) (id : Id) (cells : List CtxCell) (ex : Option Exc) : CompT M Out := do
  match ex with
  | none => lift (extractCaptured id cells none)
  | some e =>
    if ← allocate mem then lift (extractCaptured id cells (some e))
    else do
      let (id', e') ← lift (unpackId badAlloc)
      extractCapturedT mem id' (valueOrDefault id cells) (some e')

/-- `try_capture_all`, handle_errors.hpp:708-754: `noexcept`. -/
def tryCaptureAllT (mem : Nat → Bool) (cfg : Cfg) (block : CompT M Out) : CompT M Out := do
  if !cfg.capture then lift ub
  lift (pushCtx [.da])
  match ← block with
  | .val v => do
    let _ ← lift popCtx
    return .val v
  | .err r => do
    let cells ← lift popCtx
    extractErrT mem r.errId cells (← lift currentException)
  | .exc e => do
    let cells ← lift popCtx
    let (id, e) ← lift (unpackId e)
    extractCapturedT mem id cells (some e)

/-- `try_capture_all` (void), handle_errors.hpp:771-806. -/
def tryCaptureAllVoidT (mem : Nat → Bool) (cfg : Cfg) (block : CompT M Out) : CompT M Out := do
  if !cfg.capture then lift ub
  lift (pushCtx [.da])
  match ← block with
  | .val _ => lift ub
  | .err _ => lift ub
  | .exc e => do
    let cells ← lift popCtx
    let (id, e) ← lift (unpackId e)
    extractCapturedT mem id cells (some e)

/-- `catch_exceptions_helper`, exception.hpp:233-245. -/
def catchHelperT (mem : Nat → Bool) (cfg : Cfg) (e : Exc) : List Ty → CompT M Id
  | [] => newErrorT mem cfg [.obj tyExPtr e.tag]
  | ty :: tys => do
    let id ← catchHelperT mem cfg e tys
    match e.cast ty with
    | some v => errorIdLoadT mem cfg id [.obj ty v]
    | none => pure ()
    return id

/-- `exception_to_result`, exception.hpp:263-280. -/
def exceptionToResultT (mem : Nat → Bool) (cfg : Cfg) (tys : List Ty) (block : CompT M Out) : CompT M Out := do
  match ← block with
  | .exc e => do
    let id ← catchHelperT mem cfg e (if e.isStd then tys else [])
    return .err (.plain id)
  | o => return o

/-- `result::value()` in an error state, result.hpp:309-325. -/
def resultValueT (mem : Nat → Bool) (cfg : Cfg) (r : ErrRes) (tag : Nat) : CompT M Out := do
  match ← resultUnloadT mem cfg r with
  | .exc e => return .exc e
  | _ => return .exc (badResultExc r.errId tag)

/-- `on_error`, on_error.hpp:166-198. -/
def onErrorGuardT (mem : Nat → Bool) (cfg : Cfg) (items : List OnItem) (body : CompT M Out) : CompT M Out := do
  let saved ← lift currentId
  let o ← body
  let id ← lift (checkId cfg saved (match o with | .exc _ => true | _ => false))
  if id ≠ 0#32 then do
    lift (assertTagged id)
    triggerItemsT mem cfg id items
  return o

/-- User code `try { block } catch( ... ) { h }`. -/
def cppCatchT (block : CompT M Out) (h : Exc → CompT M Out) : CompT M Out := do
  match ← block with
  | .exc e => do
    lift (pushHandling e)
    let o ← h e
    lift popHandling
    lift (destroyExc e)
    return o
  | o => return o

/-- User code `try { block } catch( ... ) { h; throw; }`. -/
def cppRethrowT (block : CompT M Out) (h : Exc → CompT M Out) : CompT M Out := do
  match ← block with
  | .exc e => do
    lift (pushHandling e)
    let o ← h e
    lift popHandling
    match o with
    | .exc e' => do lift (destroyExc e); return .exc e'
    | _ => return .exc e
  | o => return o

/-- Run a program. -/
def evalT (mem : Nat → Bool) (cfg : Cfg) : Prog → CompT M Out
  | .ret o => pure o
  | .newError items k => do evalT mem cfg (k (← newErrorT mem cfg items))
  | .load id items k => do errorIdLoadT mem cfg id items; evalT mem cfg k
  | .importCode ec v k => do evalT mem cfg (k (← importCodeT mem cfg ec v))
  | .currentError k => do evalT mem cfg (k (← lift currentError))
  | .bind p k ke => do
    match ← evalT mem cfg p with
    | .val v => evalT mem cfg (k v)
    | .err r => evalT mem cfg (ke r)
    | .exc e => return .exc e
  | .onError items body => onErrorGuardT mem cfg items (evalT mem cfg body)
  | .monNew k => do evalT mem cfg (k (← lift currentId))
  | .monCheck m k => do evalT mem cfg (k (makeErrorId (← lift (checkId cfg m false))))
  | .monAssigned m k => do evalT mem cfg (k (makeErrorId (← lift (getId cfg m))))
  | .handleAll specs block body => tryHandleAllT mem cfg specs (evalT mem cfg block) (fun i args => evalT mem cfg (body i args))
  | .handleSome specs block body => tryHandleSomeT mem cfg specs (evalT mem cfg block) (fun i args => evalT mem cfg (body i args))
  | .tryCatch specs block body => tryCatchT mem cfg specs (evalT mem cfg block) (fun i args => evalT mem cfg (body i args))
  | .captureAll block => tryCaptureAllT mem cfg (evalT mem cfg block)
  | .captureAllVoid block => tryCaptureAllVoidT mem cfg (evalT mem cfg block)
  | .excToResult tys block => exceptionToResultT mem cfg tys (evalT mem cfg block)
  | .cppCatch block h => cppCatchT (evalT mem cfg block) (fun e => evalT mem cfg (h e))
  | .cppRethrow block h => cppRethrowT (evalT mem cfg block) (fun e => evalT mem cfg (h e))
  | .unload r => resultUnloadT mem cfg r
  | .value r tag => resultValueT mem cfg r tag

end
end Leaf
