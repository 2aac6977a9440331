import Verif.Prog

/-!
# Build configurations

`BOOST_LEAF_CFG_CAPTURE` is `Cfg.capture`. Here `BOOST_LEAF_CFG_DIAGNOSTICS` is a parameter `d`, too. With 0, `diagnostic_info` and `diagnostic_details` print no error
objects, and the latter does not make the scope capture (diagnostics.hpp:70-118, 238-287). The macro has no other effect on the code modelled by `Prog`: it
removes `print` functions (error.hpp:93-103, 210-217, 241-252; exception.hpp:98-104; detail/capture_list.hpp:35-37, 101-115; handle_errors.hpp:88-100).
-/

namespace Leaf

/-- `handler_argument_traits<A>::context_types`, see `Arg.contextTypes`; diagnostics.hpp:110, 174, 226, 277. -/
def Arg.contextTypesB (d : Bool) (cfg : Cfg) : Arg → List CellTy
  | .req ty => [.obj ty]
  | .ptr ty => [.obj ty]
  | .pred ty _ => [.obj ty]
  | .catch_ _ => []
  | .info => []
  | .diag => [.obj tySrcLoc]
  | .details => if d && cfg.capture then [.obj tySrcLoc, .da] else [.obj tySrcLoc]

/-- `deduce_e_type_list`, context.hpp:242-252. -/
def deduceB (d : Bool) (cfg : Cfg) (specs : List (List Arg)) : List CellTy :=
  (mpUnique ((specs.flatten.map (Arg.contextTypesB d cfg)).flatten)).filter (fun t => !t.excluded cfg)

/-- `handler_argument_traits<A>::get`, see `Arg.get`; diagnostics.hpp:61-68, 110-117, 174-182, 226-233, 277-284. -/
def Arg.getB (d : Bool) (cfg : Cfg) (cells : List CtxCell) (id : Id) (ex : Option Exc) (loc : Option Val) : Arg → Option ArgVal
  | .req ty => (peek cfg cells id ex ty).map (.obj ty)
  | .ptr ty => some (.ptr ty (peek cfg cells id ex ty))
  | .pred ty _ => (peek cfg cells id ex ty).map (.obj ty)
  | .catch_ _ => ex.map .exc
  | .info => some (.info id ex loc)
  | .diag => some (.diag id ex loc (if d then ctxObjs id cells else []))
  | .details => some (.details id ex loc (if d then ctxObjs id cells else []) (if d then daObjs id cells else []))

def getArgsB (d : Bool) (cfg : Cfg) (cells : List CtxCell) (id : Id) (ex : Option Exc) (loc : Option Val) : List Arg → Option (List ArgVal)
  | [] => some []
  | a :: as => do
    let v ← Arg.getB d cfg cells id ex loc a
    let vs ← getArgsB d cfg cells id ex loc as
    return v :: vs

section
variable {M : Type} [Store M]

/-- `handler_caller::call`, handle_errors.hpp:383-404. -/
def callHandlerB (d : Bool) (cfg : Cfg) (specs : List (List Arg)) (body : Nat → List ArgVal → Comp M Out)
    (cells : List CtxCell) (id : Id) (ex : Option Exc) (loc : Option Val) (i : Nat) : Comp M Out :=
  match specs[i]? with
  | none => ub
  | some args =>
    match getArgsB d cfg cells id ex loc args with
    | none => ub
    | some vals => do
      emit (.handled id ex i vals)
      body i vals

/-- The two `catch` clauses of `try_catch_` and `try_catch`, handle_errors.hpp:590-611, 680-701. -/
def catchPathB (d : Bool) (cfg : Cfg) (specs : List (List Arg)) (body : Nat → List ArgVal → Comp M Out) (e : Exc) :
    Comp M (Out × List CtxCell) := do
  let cells ← popCtx
  let (id, e) ← unpackId e
  let ex := if e.isStd then some e else none
  pushHandling e
  let loc ← ctxLoc id cells
  match selectSome cfg cells id ex specs with
  | some i => do
    let o ← callHandlerB d cfg specs body cells id ex loc i
    popHandling
    destroyExc e
    return (o, cells)
  | none => do
    unloadCells cfg id cells
    popHandling
    return (.exc e, cells)

/-- `try_handle_all`, handle_errors.hpp:615-634. -/
def tryHandleAllB (d : Bool) (cfg : Cfg) (specs : List (List Arg)) (block : Comp M Out) (body : Nat → List ArgVal → Comp M Out) :
    Comp M Out := do
  pushCtx (deduceB d cfg specs)
  match ← unloadOut cfg (← block) with
  | .val v => do
    let _ ← popCtx
    return .val v
  | .err r => do
    let _ ← resultUnload cfg r
    let cells ← popCtx
    let loc ← ctxLoc r.errId cells
    match selectAll cfg cells r.errId none specs with
    | some i => noErr (← callHandlerB d cfg specs body cells r.errId none loc i)
    | none => ub
  | .exc e => do
    let (o, _) ← catchPathB d cfg specs body e
    noErr o

/-- `try_handle_some`, handle_errors.hpp:636-666. -/
def tryHandleSomeB (d : Bool) (cfg : Cfg) (specs : List (List Arg)) (block : Comp M Out) (body : Nat → List ArgVal → Comp M Out) :
    Comp M Out := do
  pushCtx (deduceB d cfg specs)
  match ← unloadOut cfg (← block) with
  | .val v => do
    let _ ← popCtx
    return .val v
  | .err r => do
    let _ ← resultUnload cfg r
    let cells ← popCtx
    let loc ← ctxLoc r.errId cells
    let rr ← match selectSome cfg cells r.errId none specs with
      | some i => callHandlerB d cfg specs body cells r.errId none loc i
      | none => pure (.err r)
    match rr with
    | .err r' => unloadCells cfg r'.errId cells
    | _ => pure ()
    return rr
  | .exc e => do
    let (o, cells) ← catchPathB d cfg specs body e
    match o with
    | .err r' => unloadCells cfg r'.errId cells
    | _ => pure ()
    return o

/-- `try_catch`, handle_errors.hpp:668-702. -/
def tryCatchB (d : Bool) (cfg : Cfg) (specs : List (List Arg)) (block : Comp M Out) (body : Nat → List ArgVal → Comp M Out) :
    Comp M Out := do
  pushCtx (deduceB d cfg specs)
  match ← block with
  | .exc e => do
    let (o, _) ← catchPathB d cfg specs body e
    return o
  | o => do
    let _ ← popCtx
    return o

/-- Run a program in a build with `BOOST_LEAF_CFG_DIAGNOSTICS == d`. -/
def evalB (d : Bool) (cfg : Cfg) : Prog → Comp M Out
  | .ret o => pure o
  | .newError items k => do evalB d cfg (k (← newError cfg items))
  | .load id items k => do errorIdLoad cfg id items; evalB d cfg k
  | .importCode ec v k => do evalB d cfg (k (← importCode cfg ec v))
  | .currentError k => do evalB d cfg (k (← currentError))
  | .bind p k ke => do
    match ← evalB d cfg p with
    | .val v => evalB d cfg (k v)
    | .err r => evalB d cfg (ke r)
    | .exc e => return .exc e
  | .onError items body => onErrorGuard cfg items (evalB d cfg body)
  | .monNew k => do evalB d cfg (k (← currentId))
  | .monCheck m k => do evalB d cfg (k (makeErrorId (← checkId cfg m false)))
  | .monAssigned m k => do evalB d cfg (k (makeErrorId (← getId cfg m)))
  | .handleAll specs block body => tryHandleAllB d cfg specs (evalB d cfg block) (fun i args => evalB d cfg (body i args))
  | .handleSome specs block body => tryHandleSomeB d cfg specs (evalB d cfg block) (fun i args => evalB d cfg (body i args))
  | .tryCatch specs block body => tryCatchB d cfg specs (evalB d cfg block) (fun i args => evalB d cfg (body i args))
  | .captureAll block => tryCaptureAll cfg (evalB d cfg block)
  | .captureAllVoid block => tryCaptureAllVoid cfg (evalB d cfg block)
  | .excToResult tys block => exceptionToResult cfg tys (evalB d cfg block)
  | .cppCatch block h => cppCatch_ (evalB d cfg block) (fun e => evalB d cfg (h e))
  | .cppRethrow block h => cppRethrow_ (evalB d cfg block) (fun e => evalB d cfg (h e))
  | .unload r => resultUnload cfg r
  | .value r tag => resultValue cfg r tag

end
end Leaf
