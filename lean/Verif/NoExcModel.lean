import Verif.Prog

/-!
# The library built without exceptions (`BOOST_LEAF_NO_EXCEPTIONS`)

The functions that differ from those in `Handlers`, `Store` and `Prog`. Syntax that needs exceptions (`throw`, `try`, `exception_to_result`,
`catch_<...>`) does not compile in such builds; `value()` on a failed result calls the user's `boost::throw_exception` and does not return
(exception.hpp:13-36). All these have outcome `none` here.
-/

namespace Leaf

/-! ## Handlers -/

/-- `peek`, handle_errors.hpp:262-294, without the lines for exceptions. -/
def peekNE (cfg : Cfg) (cells : List CtxCell) (id : Id) (ty : Ty) : Option Val :=
  if id = 0#32 then none
  else if cfg.isAbstract ty then none
  else (findCell ty cells).bind (Cell.hasValue · id)

/-- `handler_argument_traits<A>::check`, context.hpp:47-50, 71-75, 91-94; `catch_` does not exist (pred.hpp:236). -/
def Arg.checkNE (cfg : Cfg) (cells : List CtxCell) (id : Id) : Arg → Bool
  | .req ty => (peekNE cfg cells id ty).isSome
  | .ptr _ => true
  | .pred ty p => match peekNE cfg cells id ty with
    | some v => p v
    | none => false
  | .catch_ _ => false
  | .info | .diag | .details => true

/-- `handler_argument_traits<A>::get`; `error_info::exception()` returns null (handle_errors.hpp:68-75). -/
def Arg.getNE (cfg : Cfg) (cells : List CtxCell) (id : Id) (loc : Option Val) : Arg → Option ArgVal
  | .req ty => (peekNE cfg cells id ty).map (.obj ty)
  | .ptr ty => some (.ptr ty (peekNE cfg cells id ty))
  | .pred ty _ => (peekNE cfg cells id ty).map (.obj ty)
  | .catch_ _ => none
  | .info => some (.info id none loc)
  | .diag => some (.diag id none loc (ctxObjs id cells))
  | .details => some (.details id none loc (ctxObjs id cells) (daObjs id cells))

def getArgsNE (cfg : Cfg) (cells : List CtxCell) (id : Id) (loc : Option Val) : List Arg → Option (List ArgVal)
  | [] => some []
  | a :: as => do
    let v ← a.getNE cfg cells id loc
    let vs ← getArgsNE cfg cells id loc as
    return v :: vs

/-- `handle_error_` followed by a catch-all lambda, handle_errors.hpp:424-433. -/
def selectSomeNE (cfg : Cfg) (cells : List CtxCell) (id : Id) (i : Nat) : List (List Arg) → Option Nat
  | [] => none
  | h :: hs => if matchesAny h || h.all (Arg.checkNE cfg cells id) then some i else selectSomeNE cfg cells id (i + 1) hs

/-- `handle_error_`, handle_errors.hpp:415-433. -/
def selectAllNE (cfg : Cfg) (cells : List CtxCell) (id : Id) (i : Nat) : List (List Arg) → Option Nat
  | [] => none
  | [h] => if matchesAny h then some i else none
  | h :: hs => if matchesAny h || h.all (Arg.checkNE cfg cells id) then some i else selectAllNE cfg cells id (i + 1) hs

section
variable {M : Type} [Store M]

/-- `handler_caller::call`, handle_errors.hpp:383-404. -/
def callHandlerNE (cfg : Cfg) (specs : List (List Arg)) (body : Nat → List ArgVal → Comp M Out)
    (cells : List CtxCell) (id : Id) (loc : Option Val) (i : Nat) : Comp M Out :=
  match specs[i]? with
  | none => ub
  | some args =>
    match getArgsNE cfg cells id loc args with
    | none => ub
    | some vals => do
      emit (.handled id none i vals)
      body i vals

/-! ## Monitors and guards -/

/-- `error_monitor::check_id`, on_error.hpp:30-47. -/
def checkIdNE (saved : Id) : Comp M Id := do
  let cur ← currentId
  if cur ≠ saved then return cur
  else return 0#32

/-- `on_error`, on_error.hpp:166-198. -/
def onErrorGuardNE (cfg : Cfg) (items : List OnItem) (body : Comp M Out) : Comp M Out := do
  let saved ← currentId
  let o ← body
  let id ← checkIdNE saved
  if id ≠ 0#32 then do
    assertTagged id
    triggerItems cfg id items
  return o

/-! ## Scopes -/

/-- `try_handle_all`, handle_errors.hpp:520-538. -/
def tryHandleAllNE (cfg : Cfg) (specs : List (List Arg)) (block : Comp M Out) (body : Nat → List ArgVal → Comp M Out) :
    Comp M Out := do
  pushCtx (deduce cfg specs)
  match ← block with
  | .val v => do
    let _ ← popCtx
    return .val v
  | .err r => do
    let _ ← resultUnload cfg r
    let cells ← popCtx
    let loc ← ctxLoc r.errId cells
    match selectAllNE cfg cells r.errId 0 specs with
    | some i => noErr (← callHandlerNE cfg specs body cells r.errId loc i)
    | none => ub
  | .exc _ => ub

/-- `try_handle_some`, handle_errors.hpp:540-561. The appended handler returns the result, with its capture list emptied. -/
def tryHandleSomeNE (cfg : Cfg) (specs : List (List Arg)) (block : Comp M Out) (body : Nat → List ArgVal → Comp M Out) :
    Comp M Out := do
  pushCtx (deduce cfg specs)
  match ← block with
  | .val v => do
    let _ ← popCtx
    return .val v
  | .err r => do
    let r' ← resultUnload cfg r
    let cells ← popCtx
    let loc ← ctxLoc r.errId cells
    let rr ← match selectSomeNE cfg cells r.errId 0 specs with
      | some i => callHandlerNE cfg specs body cells r.errId loc i
      | none => pure r'
    match rr with
    | .err r'' => unloadCells cfg r''.errId cells
    | _ => pure ()
    return rr
  | .exc _ => ub

/-- `extract_capture_list`, error.hpp:300-311: no exception node. -/
def extractCapturedNE (id : Id) (cells : List CtxCell) : Comp M Out := do
  let nodes := match cells with
    | [.da key nodes] => if key = id then nodes.map (fun n => CapNode.obj n.1 n.2) else []
    | _ => []
  assertTagged id
  return .err (.captured id nodes)

/-- `try_capture_all`, handle_errors.hpp:708-738. -/
def tryCaptureAllNE (cfg : Cfg) (block : Comp M Out) : Comp M Out := do
  if !cfg.capture then ub
  pushCtx [.da]
  match ← block with
  | .val v => do
    let _ ← popCtx
    return .val v
  | .err r => do
    let cells ← popCtx
    extractCapturedNE r.errId cells
  | .exc _ => ub

/-- Run a program. `try_catch` just calls the block (handle_errors.hpp:563-572). -/
def evalNE (cfg : Cfg) : Prog → Comp M Out
  | .ret (.exc _) => ub
  | .ret o => pure o
  | .newError items k => do evalNE cfg (k (← newError cfg items))
  | .load id items k => do errorIdLoad cfg id items; evalNE cfg k
  | .importCode ec v k => do evalNE cfg (k (← importCode cfg ec v))
  | .currentError k => do evalNE cfg (k (← currentError))
  | .bind p k ke => do
    match ← evalNE cfg p with
    | .val v => evalNE cfg (k v)
    | .err r => evalNE cfg (ke r)
    | .exc _ => ub
  | .onError items body => onErrorGuardNE cfg items (evalNE cfg body)
  | .monNew k => do evalNE cfg (k (← currentId))
  | .monCheck m k => do evalNE cfg (k (makeErrorId (← checkIdNE m)))
  | .monAssigned m k => do evalNE cfg (k (makeErrorId (← getId cfg m)))
  | .handleAll specs block body => tryHandleAllNE cfg specs (evalNE cfg block) (fun i args => evalNE cfg (body i args))
  | .handleSome specs block body => tryHandleSomeNE cfg specs (evalNE cfg block) (fun i args => evalNE cfg (body i args))
  | .tryCatch _ block _ => evalNE cfg block
  | .captureAll block => tryCaptureAllNE cfg (evalNE cfg block)
  | .captureAllVoid _ => ub
  | .excToResult _ _ => ub
  | .cppCatch _ _ => ub
  | .cppRethrow _ _ => ub
  | .unload r => resultUnload cfg r
  | .value _ _ => ub

end
end Leaf
