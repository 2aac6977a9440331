import Verif.Wf
import Verif.AbsFlow

/-!
# Destructors, and builds without `std::uncaught_exceptions`

Programs with local objects whose destructors use LEAF. A destructor may run while an exception is in flight; then `on_error` and `error_monitor`
(on_error.hpp:13-66) ask the standard library about exceptions in flight. There are two builds: with `std::uncaught_exceptions()` (C++17), the number of exceptions
in flight is compared with the number when the guard was constructed; without (`BOOST_LEAF_STD_UNCAUGHT_EXCEPTIONS=0`, config.hpp), `std::uncaught_exception()` tells
only whether there is one.
-/

namespace Leaf

/-- `error_monitor`, on_error.hpp:13-29. In builds without `std::uncaught_exceptions` there is no member `uncaught`. -/
structure Monitor where
  saved : Id
  uncaught : Nat

/-- Programs as in `Prog`, with destructors. -/
inductive UProg : Type
  | ret (o : Out)
  | newError (items : List Item) (k : Id → UProg)
  | load (id : Id) (items : List Item) (k : UProg)
  | importCode (ec : ErrorCode) (v : Val) (k : Id → UProg)
  | currentError (k : Id → UProg)
  | bind (p : UProg) (k : Val → UProg) (ke : ErrRes → UProg)
  | onError (items : List OnItem) (body : UProg)
  /-- `error_monitor m;` -/
  | monNew (k : Monitor → UProg)
  /-- `m.check()` -/
  | monCheck (m : Monitor) (k : Id → UProg)
  /-- `m.assigned_error_id()` -/
  | monAssigned (m : Monitor) (k : Id → UProg)
  | handleAll (specs : List (List Arg)) (block : UProg) (body : Nat → List ArgVal → UProg)
  | handleSome (specs : List (List Arg)) (block : UProg) (body : Nat → List ArgVal → UProg)
  | tryCatch (specs : List (List Arg)) (block : UProg) (body : Nat → List ArgVal → UProg)
  | captureAll (block : UProg)
  | captureAllVoid (block : UProg)
  | excToResult (tys : List Ty) (block : UProg)
  | cppCatch (block : UProg) (h : Exc → UProg)
  | cppRethrow (block : UProg) (h : Exc → UProg)
  | unload (r : ErrRes)
  | value (r : ErrRes) (tag : Nat)
  /-- `X x; p` where the destructor of `X` is `try { q } catch( ... ) { }` -/
  | cleanup (p q : UProg)

section
variable {M : Type} [Store M]

/-- The condition in `error_monitor::check_id`, on_error.hpp:38-44: `n` exceptions are in flight, `m` were when the monitor was constructed. `old`: the build without
`std::uncaught_exceptions`. -/
def inFlight (old : Bool) (n m : Nat) : Bool := if old then decide (0 < n) else decide (m < n)

/-- The number of exceptions in flight when the local objects are destroyed. -/
def Out.flying (n : Nat) : Out → Nat
  | .exc _ => n + 1
  | _ => n

/-- `on_error`, on_error.hpp:166-198; `n` exceptions are in flight when the guard is constructed. -/
def onErrorU (cfg : Cfg) (old : Bool) (n : Nat) (items : List OnItem) (body : Comp M Out) : Comp M Out := do
  let saved ← currentId
  let o ← body
  let id ← checkId cfg saved (inFlight old (o.flying n) n)
  if id ≠ 0#32 then do
    assertTagged id
    triggerItems cfg id items
  return o

/-- Run a program while `n` exceptions are in flight. A handler, or a `catch` block, runs after its exception was caught; so only destructors increase the number. -/
def evalU (cfg : Cfg) (old : Bool) : Nat → UProg → Comp M Out
  | _, .ret o => pure o
  | n, .newError items k => do evalU cfg old n (k (← newError cfg items))
  | n, .load id items k => do errorIdLoad cfg id items; evalU cfg old n k
  | n, .importCode ec v k => do evalU cfg old n (k (← importCode cfg ec v))
  | n, .currentError k => do evalU cfg old n (k (← currentError))
  | n, .bind p k ke => do
    match ← evalU cfg old n p with
    | .val v => evalU cfg old n (k v)
    | .err r => evalU cfg old n (ke r)
    | .exc e => return .exc e
  | n, .onError items body => onErrorU cfg old n items (evalU cfg old n body)
  | n, .monNew k => do evalU cfg old n (k ⟨← currentId, n⟩)
  | n, .monCheck m k => do evalU cfg old n (k (makeErrorId (← checkId cfg m.saved (inFlight old n m.uncaught))))
  | n, .monAssigned m k => do evalU cfg old n (k (makeErrorId (← getId cfg m.saved)))
  | n, .handleAll specs block body => tryHandleAll cfg specs (evalU cfg old n block) (fun i args => evalU cfg old n (body i args))
  | n, .handleSome specs block body => tryHandleSome cfg specs (evalU cfg old n block) (fun i args => evalU cfg old n (body i args))
  | n, .tryCatch specs block body => tryCatch cfg specs (evalU cfg old n block) (fun i args => evalU cfg old n (body i args))
  | n, .captureAll block => tryCaptureAll cfg (evalU cfg old n block)
  | n, .captureAllVoid block => tryCaptureAllVoid cfg (evalU cfg old n block)
  | n, .excToResult tys block => exceptionToResult cfg tys (evalU cfg old n block)
  | n, .cppCatch block h => cppCatch_ (evalU cfg old n block) (fun e => evalU cfg old n (h e))
  | n, .cppRethrow block h => cppRethrow_ (evalU cfg old n block) (fun e => evalU cfg old n (h e))
  | _, .unload r => resultUnload cfg r
  | _, .value r tag => resultValue cfg r tag
  | n, .cleanup p q => do
    let o ← evalU cfg old n p
    let _ ← cppCatch_ (evalU cfg old (o.flying n) q) (fun _ => pure (.val 0))
    return o

end

/-! ## Well-formed programs -/

/-- As `Prog.NoErr`. -/
def UProg.NoErr : UProg → Prop
  | .ret o => ∀ r, o ≠ .err r
  | .newError _ k => ∀ id, (k id).NoErr
  | .load _ _ k => k.NoErr
  | .importCode _ _ k => ∀ id, (k id).NoErr
  | .currentError k => ∀ id, (k id).NoErr
  | .bind _ k ke => (∀ v, (k v).NoErr) ∧ ∀ r, (ke r).NoErr
  | .onError _ body => body.NoErr
  | .monNew k => ∀ m, (k m).NoErr
  | .monCheck _ k => ∀ id, (k id).NoErr
  | .monAssigned _ k => ∀ id, (k id).NoErr
  | .handleAll _ _ _ => True
  | .handleSome _ _ _ => False
  | .tryCatch _ block body => block.NoErr ∧ ∀ i args, (body i args).NoErr
  | .captureAll _ => False
  | .captureAllVoid _ => False
  | .excToResult _ _ => False
  | .cppCatch block h => block.NoErr ∧ ∀ e, (h e).NoErr
  | .cppRethrow block _ => block.NoErr
  | .unload _ => False
  | .value _ _ => True
  | .cleanup p _ => p.NoErr

/-- As `Prog.WF`; a destructor has to be well-formed itself. -/
def UProg.WF (cfg : Cfg) (da : Bool) : UProg → Prop
  | .ret o => o.Ok
  | .newError items k => (∀ i ∈ items, i.Ok cfg da) ∧ ∀ id, Id.Tagged id → (k id).WF cfg da
  | .load id items k => id.Ok ∧ (∀ i ∈ items, i.Ok cfg da) ∧ k.WF cfg da
  | .importCode ec _ k => (ec.cat = leafCat → Id.Ok ec.value) ∧ ∀ id, Id.Ok id → (k id).WF cfg da
  | .currentError k => ∀ id, Id.Tagged id → (k id).WF cfg da
  | .bind p k ke => p.WF cfg da ∧ (∀ v, (k v).WF cfg da) ∧ ∀ r, ErrRes.Ok r → (ke r).WF cfg da
  | .onError items body => (∀ i ∈ items, i.Ok cfg da) ∧ body.WF cfg da
  | .monNew k => ∀ m : Monitor, Id.Ok m.saved → (k m).WF cfg da
  | .monCheck _ k => ∀ id, Id.Tagged id → (k id).WF cfg da
  | .monAssigned _ k => ∀ id, Id.Tagged id → (k id).WF cfg da
  | .handleAll specs block body => ValidAll specs ∧ block.WF cfg (da || capturing cfg specs) ∧
      ∀ i args, (∀ a ∈ args, ArgVal.Ok a) → (body i args).WF cfg da ∧ (body i args).NoErr
  | .handleSome specs block body => block.WF cfg (da || capturing cfg specs) ∧ ∀ i args, (∀ a ∈ args, ArgVal.Ok a) → (body i args).WF cfg da
  | .tryCatch specs block body => block.WF cfg (da || capturing cfg specs) ∧ ∀ i args, (∀ a ∈ args, ArgVal.Ok a) → (body i args).WF cfg da
  | .captureAll block => cfg.capture = true ∧ block.WF cfg true
  | .captureAllVoid _ => False
  | .excToResult _ block => block.WF cfg da
  | .cppCatch block h => block.WF cfg da ∧ ∀ e, Exc.Ok e → (h e).WF cfg da
  | .cppRethrow block h => block.WF cfg da ∧ ∀ e, Exc.Ok e → (h e).WF cfg da
  | .unload r => r.Ok
  | .value r _ => r.Ok
  | .cleanup p q => p.WF cfg da ∧ q.WF cfg da

/-! ## Programs without destructors -/

/-- The program of `Prog`, run while `n` exceptions are in flight. -/
def Prog.plain (n : Nat) : Prog → UProg
  | .ret o => .ret o
  | .newError items k => .newError items fun id => (k id).plain n
  | .load id items k => .load id items (k.plain n)
  | .importCode ec v k => .importCode ec v fun id => (k id).plain n
  | .currentError k => .currentError fun id => (k id).plain n
  | .bind p k ke => .bind (p.plain n) (fun v => (k v).plain n) fun r => (ke r).plain n
  | .onError items body => .onError items (body.plain n)
  | .monNew k => .monNew fun m => (k m.saved).plain n
  | .monCheck m k => .monCheck ⟨m, n⟩ fun id => (k id).plain n
  | .monAssigned m k => .monAssigned ⟨m, n⟩ fun id => (k id).plain n
  | .handleAll specs block body => .handleAll specs (block.plain n) fun i args => (body i args).plain n
  | .handleSome specs block body => .handleSome specs (block.plain n) fun i args => (body i args).plain n
  | .tryCatch specs block body => .tryCatch specs (block.plain n) fun i args => (body i args).plain n
  | .captureAll block => .captureAll (block.plain n)
  | .captureAllVoid block => .captureAllVoid (block.plain n)
  | .excToResult tys block => .excToResult tys (block.plain n)
  | .cppCatch block h => .cppCatch (block.plain n) fun e => (h e).plain n
  | .cppRethrow block h => .cppRethrow (block.plain n) fun e => (h e).plain n
  | .unload r => .unload r
  | .value r tag => .value r tag

/-! ## Guards in destructors -/

/-- No `on_error` guards are used and no monitors are checked. -/
def UProg.NoGuards : UProg → Prop
  | .ret _ => True
  | .newError _ k => ∀ id, (k id).NoGuards
  | .load _ _ k => k.NoGuards
  | .importCode _ _ k => ∀ id, (k id).NoGuards
  | .currentError k => ∀ id, (k id).NoGuards
  | .bind p k ke => p.NoGuards ∧ (∀ v, (k v).NoGuards) ∧ ∀ r, (ke r).NoGuards
  | .onError _ _ => False
  | .monNew k => ∀ m, (k m).NoGuards
  | .monCheck _ _ => False
  | .monAssigned _ k => ∀ id, (k id).NoGuards
  | .handleAll _ block body => block.NoGuards ∧ ∀ i args, (body i args).NoGuards
  | .handleSome _ block body => block.NoGuards ∧ ∀ i args, (body i args).NoGuards
  | .tryCatch _ block body => block.NoGuards ∧ ∀ i args, (body i args).NoGuards
  | .captureAll block => block.NoGuards
  | .captureAllVoid block => block.NoGuards
  | .excToResult _ block => block.NoGuards
  | .cppCatch block h => block.NoGuards ∧ ∀ e, (h e).NoGuards
  | .cppRethrow block h => block.NoGuards ∧ ∀ e, (h e).NoGuards
  | .unload _ => True
  | .value _ _ => True
  | .cleanup p q => p.NoGuards ∧ q.NoGuards

/-- The destructors use no guards; monitors are checked while as many exceptions are in flight as when they were constructed: none. -/
def UProg.PlainDestructors : UProg → Prop
  | .ret _ => True
  | .newError _ k => ∀ id, (k id).PlainDestructors
  | .load _ _ k => k.PlainDestructors
  | .importCode _ _ k => ∀ id, (k id).PlainDestructors
  | .currentError k => ∀ id, (k id).PlainDestructors
  | .bind p k ke => p.PlainDestructors ∧ (∀ v, (k v).PlainDestructors) ∧ ∀ r, (ke r).PlainDestructors
  | .onError _ body => body.PlainDestructors
  | .monNew k => ∀ m, (k m).PlainDestructors
  | .monCheck _ k => ∀ id, (k id).PlainDestructors
  | .monAssigned _ k => ∀ id, (k id).PlainDestructors
  | .handleAll _ block body => block.PlainDestructors ∧ ∀ i args, (body i args).PlainDestructors
  | .handleSome _ block body => block.PlainDestructors ∧ ∀ i args, (body i args).PlainDestructors
  | .tryCatch _ block body => block.PlainDestructors ∧ ∀ i args, (body i args).PlainDestructors
  | .captureAll block => block.PlainDestructors
  | .captureAllVoid block => block.PlainDestructors
  | .excToResult _ block => block.PlainDestructors
  | .cppCatch block h => block.PlainDestructors ∧ ∀ e, (h e).PlainDestructors
  | .cppRethrow block h => block.PlainDestructors ∧ ∀ e, (h e).PlainDestructors
  | .unload _ => True
  | .value _ _ => True
  | .cleanup p q => p.PlainDestructors ∧ q.NoGuards

/-! ## Destructors that keep their errors to themselves -/

/-- One of these scopes has a slot for the type. -/
def Covered (s : List (List CellTy)) (ty : Ty) : Prop := ∃ f ∈ s, CellTy.obj ty ∈ f

/-- Not a failed result with captured objects. -/
def ErrRes.IsPlain : ErrRes → Prop
  | .plain _ => True
  | .captured _ _ => False

/-- All objects the program loads are of types for which it has a slot itself, in an enclosing `try_handle_all`, `try_handle_some` or `try_catch` of its own (`s`:
the slots of those that enclose it), and it does not let unhandled errors take objects out of these. It does not use captured results. -/
def UProg.Contained (cfg : Cfg) (s : List (List CellTy)) : UProg → Prop
  | .ret o => ∀ r, o = .err r → r.IsPlain
  | .newError items k => (∀ i ∈ items, Covered s i.ty) ∧ ∀ id, (k id).Contained cfg s
  | .load _ items k => (∀ i ∈ items, Covered s i.ty) ∧ k.Contained cfg s
  | .importCode _ _ k => Covered s tyErrorCode ∧ ∀ id, (k id).Contained cfg s
  | .currentError k => ∀ id, (k id).Contained cfg s
  | .bind p k ke => p.Contained cfg s ∧ (∀ v, (k v).Contained cfg s) ∧ ∀ id, (ke (.plain id)).Contained cfg s
  | .onError items body => (∀ i, .item i ∈ items → Covered s i.ty) ∧ body.Contained cfg s
  | .monNew k => ∀ m, (k m).Contained cfg s
  | .monCheck _ k => ∀ id, (k id).Contained cfg s
  | .monAssigned _ k => ∀ id, (k id).Contained cfg s
  | .handleAll specs block body => ValidAll specs ∧ block.Contained cfg (deduce cfg specs :: s) ∧ ∀ i args, (body i args).Contained cfg s
  | .handleSome specs block body => (∀ t ∈ deduce cfg specs, ∃ ty, t = .obj ty ∧ Covered s ty) ∧ block.Contained cfg (deduce cfg specs :: s) ∧
      ∀ i args, (body i args).Contained cfg s
  | .tryCatch specs block body => (∀ t ∈ deduce cfg specs, ∃ ty, t = .obj ty ∧ Covered s ty) ∧ block.Contained cfg (deduce cfg specs :: s) ∧
      ∀ i args, (body i args).Contained cfg s
  | .captureAll _ => False
  | .captureAllVoid _ => False
  | .excToResult tys block => (∀ ty ∈ tyExPtr :: tys, Covered s ty) ∧ block.Contained cfg s
  | .cppCatch block h => block.Contained cfg s ∧ ∀ e, (h e).Contained cfg s
  | .cppRethrow block h => block.Contained cfg s ∧ ∀ e, (h e).Contained cfg s
  | .unload r => r.IsPlain
  | .value r _ => r.IsPlain
  | .cleanup p q => p.Contained cfg s ∧ q.Contained cfg s

end Leaf
