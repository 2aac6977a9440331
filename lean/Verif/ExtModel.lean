import Verif.Wf

/-!
# External result types

`try_handle_all`, `try_handle_some` and `try_catch` work with any result type that has a `value` and an `error` accessor and is registered with
`is_result_type` (doc/leaf.adoc, "Using External `result` Types"; test/_test_res.hpp is an example). This is the model for a result type whose
error is a `std::error_code`. Compared with `leaf::result`: `unload_result` does nothing (handle_errors.hpp:511-513), and `error_id(r.error())`
is the constructor `error_id(std::error_code)` (error.hpp:660-674), which for a code of a foreign category generates a new id and loads the
code.
-/

namespace Leaf

/-- The code as an object of type `std::error_code`. -/
def ErrorCode.toVal (ec : ErrorCode) : Val := ec.cat * 2 ^ 32 + ec.value.toNat

/-- How a function returning an external result ends: with a value, with an error code, or by an exception. -/
inductive XOut
  | val (v : Val)
  | err (ec : ErrorCode)
  | exc (e : Exc)
  deriving DecidableEq, Repr

/-- Programs returning an external result. -/
inductive XProg : Type
  /-- `return v`, `return ec` or `throw` -/
  | ret (o : XOut)
  /-- call a function that returns a `leaf::result`, then go on depending on what it returned -/
  | call (p : Prog) (k : Val → XProg) (ke : ErrRes → XProg)
  /-- call a function that returns an external result, then go on depending on what it returned -/
  | bind (p : XProg) (k : Val → XProg) (ke : ErrorCode → XProg)
  /-- `auto g = on_error(items...); body()` -/
  | onError (items : List OnItem) (body : XProg)
  /-- `try_handle_all(block, handlers...)` -/
  | handleAll (specs : List (List Arg)) (block : XProg) (body : Nat → List ArgVal → XProg)
  /-- `try_handle_some(block, handlers...)` -/
  | handleSome (specs : List (List Arg)) (block : XProg) (body : Nat → List ArgVal → XProg)
  /-- `try_catch(block, handlers...)` -/
  | tryCatch (specs : List (List Arg)) (block : XProg) (body : Nat → List ArgVal → XProg)
  /-- user code `try { block } catch( ... ) { h }` -/
  | cppCatch (block : XProg) (h : Exc → XProg)

section
variable {M : Type} [Store M]

/-- `error_id(r.error())`, error.hpp:660-674. -/
def errorIdOf (cfg : Cfg) (ec : ErrorCode) : Comp M Id := importCode cfg ec ec.toVal

/-- `handler_caller::call`, handle_errors.hpp:383-404. -/
def callHandlerX (cfg : Cfg) (specs : List (List Arg)) (body : Nat → List ArgVal → Comp M XOut)
    (cells : List CtxCell) (id : Id) (ex : Option Exc) (loc : Option Val) (i : Nat) : Comp M XOut :=
  match specs[i]? with
  | none => ub
  | some args =>
    match getArgs cfg cells id ex loc args with
    | none => ub
    | some vals => do
      emit (.handled id ex i vals)
      body i vals

/-- The two `catch` clauses of `try_catch_` and `try_catch`, handle_errors.hpp:590-611, 680-701. -/
def catchPathX (cfg : Cfg) (specs : List (List Arg)) (body : Nat → List ArgVal → Comp M XOut) (e : Exc) :
    Comp M (XOut × List CtxCell) := do
  let cells ← popCtx
  let (id, e) ← unpackId e
  let ex := if e.isStd then some e else none
  pushHandling e
  let loc ← ctxLoc id cells
  match selectSome cfg cells id ex specs with
  | some i => do
    let o ← callHandlerX cfg specs body cells id ex loc i
    popHandling
    destroyExc e
    return (o, cells)
  | none => do
    unloadCells cfg id cells
    popHandling
    return (.exc e, cells)

/-- Handlers of `try_handle_all` do not return a result: the outcome `err` does not type-check in C++. -/
def noErrX : XOut → Comp M XOut
  | .err _ => ub
  | o => pure o

/-- `try_handle_all`, handle_errors.hpp:615-634. -/
def tryHandleAllX (cfg : Cfg) (specs : List (List Arg)) (block : Comp M XOut) (body : Nat → List ArgVal → Comp M XOut) :
    Comp M XOut := do
  pushCtx (deduce cfg specs)
  match ← block with
  | .val v => do
    let _ ← popCtx
    return .val v
  | .err ec => do
    let id ← errorIdOf cfg ec
    let cells ← popCtx
    let loc ← ctxLoc id cells
    match selectAll cfg cells id none specs with
    | some i => noErrX (← callHandlerX cfg specs body cells id none loc i)
    | none => ub
  | .exc e => do
    let (o, _) ← catchPathX cfg specs body e
    noErrX o

/-- `ctx.unload(error_id(r.error()))` if `r` is a failed result, handle_errors.hpp:656-657, 662. -/
def unloadFailed (cfg : Cfg) (cells : List CtxCell) : XOut → Comp M Unit
  | .err ec => do unloadCells cfg (← errorIdOf cfg ec) cells
  | _ => pure ()

/-- `try_handle_some`, handle_errors.hpp:636-666. -/
def tryHandleSomeX (cfg : Cfg) (specs : List (List Arg)) (block : Comp M XOut) (body : Nat → List ArgVal → Comp M XOut) :
    Comp M XOut := do
  pushCtx (deduce cfg specs)
  match ← block with
  | .val v => do
    let _ ← popCtx
    return .val v
  | .err ec => do
    let id ← errorIdOf cfg ec
    let cells ← popCtx
    let loc ← ctxLoc id cells
    let rr ← match selectSome cfg cells id none specs with
      | some i => callHandlerX cfg specs body cells id none loc i
      | none => pure (.err ec)
    unloadFailed cfg cells rr
    return rr
  | .exc e => do
    let (o, cells) ← catchPathX cfg specs body e
    unloadFailed cfg cells o
    return o

/-- `try_catch`, handle_errors.hpp:668-702. -/
def tryCatchX (cfg : Cfg) (specs : List (List Arg)) (block : Comp M XOut) (body : Nat → List ArgVal → Comp M XOut) :
    Comp M XOut := do
  pushCtx (deduce cfg specs)
  match ← block with
  | .exc e => do
    let (o, _) ← catchPathX cfg specs body e
    return o
  | o => do
    let _ ← popCtx
    return o

/-- `on_error`, on_error.hpp:166-198. -/
def onErrorX (cfg : Cfg) (items : List OnItem) (body : Comp M XOut) : Comp M XOut := do
  let saved ← currentId
  let o ← body
  let id ← checkId cfg saved (match o with | .exc _ => true | _ => false)
  if id ≠ 0#32 then do
    assertTagged id
    triggerItems cfg id items
  return o

/-- User code `try { block } catch( ... ) { h }`. -/
def cppCatchX (block : Comp M XOut) (h : Exc → Comp M XOut) : Comp M XOut := do
  match ← block with
  | .exc e => do
    pushHandling e
    let o ← h e
    popHandling
    destroyExc e
    return o
  | o => return o

/-- Run a program. -/
def evalX (cfg : Cfg) : XProg → Comp M XOut
  | .ret o => pure o
  | .call p k ke => do
    match ← eval cfg p with
    | .val v => evalX cfg (k v)
    | .err r => evalX cfg (ke r)
    | .exc e => return .exc e
  | .bind p k ke => do
    match ← evalX cfg p with
    | .val v => evalX cfg (k v)
    | .err ec => evalX cfg (ke ec)
    | .exc e => return .exc e
  | .onError items body => onErrorX cfg items (evalX cfg body)
  | .handleAll specs block body => tryHandleAllX cfg specs (evalX cfg block) (fun i args => evalX cfg (body i args))
  | .handleSome specs block body => tryHandleSomeX cfg specs (evalX cfg block) (fun i args => evalX cfg (body i args))
  | .tryCatch specs block body => tryCatchX cfg specs (evalX cfg block) (fun i args => evalX cfg (body i args))
  | .cppCatch block h => cppCatchX (evalX cfg block) (fun e => evalX cfg (h e))

end

/-! ## Well-formed programs -/

/-- A code that represents an error: it is not zero, and a code of LEAF's category holds an error id. -/
def ErrorCode.Ok (ec : ErrorCode) : Prop := ec.value ≠ 0#32 ∧ (ec.cat = leafCat → Id.Tagged ec.value)

def XOut.Ok : XOut → Prop
  | .val _ => True
  | .err ec => ec.Ok
  | .exc e => e.Ok

/-- The program never returns a result in an error state. -/
def XProg.NoErr : XProg → Prop
  | .ret o => ∀ ec, o ≠ .err ec
  | .call _ k ke => (∀ v, (k v).NoErr) ∧ ∀ r, (ke r).NoErr
  | .bind _ k ke => (∀ v, (k v).NoErr) ∧ ∀ ec, (ke ec).NoErr
  | .onError _ body => body.NoErr
  | .handleAll _ _ _ => True
  | .handleSome _ _ _ => False
  | .tryCatch _ block body => block.NoErr ∧ ∀ i args, (body i args).NoErr
  | .cppCatch block h => block.NoErr ∧ ∀ e, (h e).NoErr

/-- Well-formed programs; `da`: a capturing scope may be active. -/
def XProg.WF (cfg : Cfg) (da : Bool) : XProg → Prop
  | .ret o => o.Ok
  | .call p k ke => p.WF cfg da ∧ (∀ v, (k v).WF cfg da) ∧ ∀ r, ErrRes.Ok r → (ke r).WF cfg da
  | .bind p k ke => p.WF cfg da ∧ (∀ v, (k v).WF cfg da) ∧ ∀ ec : ErrorCode, ec.Ok → (ke ec).WF cfg da
  | .onError items body => (∀ i ∈ items, i.Ok cfg da) ∧ body.WF cfg da
  | .handleAll specs block body => ValidAll specs ∧ block.WF cfg (da || capturing cfg specs) ∧
      ∀ i args, (∀ a ∈ args, ArgVal.Ok a) → (body i args).WF cfg da ∧ (body i args).NoErr
  | .handleSome specs block body => block.WF cfg (da || capturing cfg specs) ∧ ∀ i args, (∀ a ∈ args, ArgVal.Ok a) → (body i args).WF cfg da
  | .tryCatch specs block body => block.WF cfg (da || capturing cfg specs) ∧ ∀ i args, (∀ a ∈ args, ArgVal.Ok a) → (body i args).WF cfg da
  | .cppCatch block h => block.WF cfg da ∧ ∀ e, Exc.Ok e → (h e).WF cfg da

/-! ## The same program with `leaf::result` -/

/-- The program after replacing the external result type by `leaf::result`. (`leaf::result` is constructed from a `std::error_code` through
`error_id(std::error_code)`, result.hpp:430-434; an `error_id` converts to `std::error_code`, error.hpp:676-681.) -/
def XProg.withLeaf : XProg → Prog
  | .ret (.val v) => .ret (.val v)
  | .ret (.err ec) => .importCode ec ec.toVal (fun id => .ret (.err (.plain id)))
  | .ret (.exc e) => .ret (.exc e)
  | .call p k ke => .bind p (fun v => (k v).withLeaf) (fun r => (ke r).withLeaf)
  | .bind p k ke => .bind p.withLeaf (fun v => (k v).withLeaf) (fun r => (ke (toErrorCode r.errId)).withLeaf)
  | .onError items body => .onError items body.withLeaf
  | .handleAll specs block body => .handleAll specs block.withLeaf (fun i args => (body i args).withLeaf)
  | .handleSome specs block body => .handleSome specs block.withLeaf (fun i args => (body i args).withLeaf)
  | .tryCatch specs block body => .tryCatch specs block.withLeaf (fun i args => (body i args).withLeaf)
  | .cppCatch block h => .cppCatch block.withLeaf (fun e => (h e).withLeaf)

/-- Every error code the program returns is of LEAF's category (`return new_error(...)` where the result type takes a `std::error_code`). -/
def XProg.LeafCodes : XProg → Prop
  | .ret o => ∀ ec, o = .err ec → ec.cat = leafCat
  | .call _ k ke => (∀ v, (k v).LeafCodes) ∧ ∀ r, (ke r).LeafCodes
  | .bind p k ke => p.LeafCodes ∧ (∀ v, (k v).LeafCodes) ∧ ∀ id, (ke (toErrorCode id)).LeafCodes
  | .onError _ body => body.LeafCodes
  | .handleAll _ block body => block.LeafCodes ∧ ∀ i args, (body i args).LeafCodes
  | .handleSome _ block body => block.LeafCodes ∧ ∀ i args, (body i args).LeafCodes
  | .tryCatch _ block body => block.LeafCodes ∧ ∀ i args, (body i args).LeafCodes
  | .cppCatch block h => block.LeafCodes ∧ ∀ e, (h e).LeafCodes

/-- A `leaf::result` as an external result. -/
def Out.toX : Out → XOut
  | .val v => .val v
  | .err r => .err (toErrorCode r.errId)
  | .exc e => .exc e

end Leaf
