import Verif.Prog

/-!
# Handlers that modify error objects

In `Prog`, handlers receive copies of the error objects. Here, handlers of `try_handle_some` may take them by mutable reference or pointer
(context.hpp:40-57, 119-127; handle_errors.hpp:262-294: `peek` on a non-const tuple) and modify those stored in the context. While a handler runs the
context is not active (handle_errors.hpp:646-647, 655-657), so nobody but the handler sees the changes before the handler returns: the model makes them
at that time. Changes to the caught exception object are not modelled.
-/

namespace Leaf

/-- The type of the object the handler may modify through this argument (`E &`, `E *`). Predicates hold references to const (pred.hpp). -/
def Arg.refTy : Arg → Option Ty
  | .req ty | .ptr ty => some ty
  | _ => none

/-- What the handler number `i`, called with `args`, and returning `o`, makes of the object `v` of type `ty`. -/
abbrev Changes := Nat → List ArgVal → Out → Ty → Val → Val

/-- The content of the context after the handler changed objects of error `id` of types `tys`. -/
def modifyCells (id : Id) (tys : List Ty) (f : Ty → Val → Val) (cells : List CtxCell) : List CtxCell :=
  cells.map fun
    | .obj ty (some (k, v)) => .obj ty (some (k, if k = id ∧ ty ∈ tys then f ty v else v))
    | c => c

section
variable {M : Type} [Store M]

/-- `handler_caller::call`, handle_errors.hpp:383-404. -/
def callHandlerRef (cfg : Cfg) (specs : List (List Arg)) (body : Nat → List ArgVal → Comp M Out) (upd : Changes)
    (cells : List CtxCell) (id : Id) (ex : Option Exc) (loc : Option Val) (i : Nat) : Comp M (Out × List CtxCell) :=
  match specs[i]? with
  | none => ub
  | some args =>
    match getArgs cfg cells id ex loc args with
    | none => ub
    | some vals => do
      emit (.handled id ex i vals)
      let o ← body i vals
      return (o, modifyCells id (args.filterMap Arg.refTy) (upd i vals o) cells)

/-- The two `catch` clauses of `try_catch_`, handle_errors.hpp:590-611. -/
def catchPathRef (cfg : Cfg) (specs : List (List Arg)) (body : Nat → List ArgVal → Comp M Out) (upd : Changes) (e : Exc) :
    Comp M (Out × List CtxCell) := do
  let cells ← popCtx
  let (id, e) ← unpackId e
  let ex := if e.isStd then some e else none
  pushHandling e
  let loc ← ctxLoc id cells
  match selectSome cfg cells id ex specs with
  | some i => do
    let (o, cells) ← callHandlerRef cfg specs body upd cells id ex loc i
    popHandling
    destroyExc e
    return (o, cells)
  | none => do
    unloadCells cfg id cells
    popHandling
    return (.exc e, cells)

/-- `try_handle_some`, handle_errors.hpp:636-666. -/
def tryHandleSomeRef (cfg : Cfg) (specs : List (List Arg)) (block : Comp M Out) (body : Nat → List ArgVal → Comp M Out) (upd : Changes) :
    Comp M Out := do
  pushCtx (deduce cfg specs)
  match ← unloadOut cfg (← block) with
  | .val v => do
    let _ ← popCtx
    return .val v
  | .err r => do
    let _ ← resultUnload cfg r
    let cells ← popCtx
    let loc ← ctxLoc r.errId cells
    let (rr, cells) ← match selectSome cfg cells r.errId none specs with
      | some i => callHandlerRef cfg specs body upd cells r.errId none loc i
      | none => pure (.err r, cells)
    match rr with
    | .err r' => unloadCells cfg r'.errId cells
    | _ => pure ()
    return rr
  | .exc e => do
    let (o, cells) ← catchPathRef cfg specs body upd e
    match o with
    | .err r' => unloadCells cfg r'.errId cells
    | _ => pure ()
    return o

end
end Leaf
