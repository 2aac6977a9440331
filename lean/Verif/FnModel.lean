import Verif.PtrStore
import Verif.Prog

/-!
# Functions passed to `new_error`, `load` and `on_error` that use LEAF themselves

In `Prog`, a function passed as an item computes its result without calling LEAF. Here it may be any program. (Functions taking `E &` are
still simple: they hold a reference into the slot while they run.)
-/

namespace Leaf

/-- An argument of `new_error`, `load` or `on_error`. -/
inductive FnItem
  /-- as before -/
  | item (i : Item)
  /-- a function without arguments that runs `p` and returns an object of type `ty` -/
  | fn (ty : Ty) (p : Prog)
  /-- a function without arguments that runs `p` and returns `void` (`on_error` only) -/
  | act (p : Prog)

/-- Call the function. It is called by `noexcept` functions (error.hpp:509-515; on_error.hpp:119, 137): if it throws, the program terminates.
It does not return a failed `result`, but an error object. Both are outside this model. -/
def callFn (cfg : Cfg) (p : Prog) : Comp PtrStore Val := do
  match ← eval cfg p with
  | .val v => return v
  | _ => ub

/-- `tls::read_ptr<slot<E>>()`. -/
def readTls (ty : Ty) : Comp PtrStore (Option Addr) := fun w => some (w.mem.tls ty, w)

/-- The content of the slot at address `a`. -/
def readSlotAt (a : Addr) : Comp PtrStore Cell := fun w => (w.mem.mem a).map fun s => (s.cell, w)

/-- `p->load(err_id, v)` for the slot at address `a`. -/
def loadAt (a : Addr) (id : Id) (v : Val) : Comp PtrStore Unit := fun w =>
  match w.mem.mem a with
  | none => none
  | some s => some ((), { w with mem := { w.mem with mem := upd w.mem.mem a (some { s with cell := some (id, v) }) } })

/-- `load_slot_deferred<OnError>`, error.hpp:447-465: the slot is looked up (and examined) before the function is called, and written after. -/
def loadSlotFn (cfg : Cfg) (onError : Bool) (id : Id) (ty : Ty) (p : Prog) : Comp PtrStore Unit := do
  assertTagged id
  match ← readTls ty with
  | some a => do
    let c ← readSlotAt a
    if !onError || (c.hasValue id).isNone then do
      let v ← callFn cfg p
      loadAt a id v
  | none =>
    if cfg.capture then do
      let v ← callFn cfg p
      dynamicLoad id ty v

/-- `load_item<...>::load_`, error.hpp:493-524; the `trigger` functions of `on_error`, on_error.hpp:90-164. -/
def loadFnItem (cfg : Cfg) (onError : Bool) (id : Id) : FnItem → Comp PtrStore Unit
  | .item i => loadItem cfg onError id i
  | .fn ty p => loadSlotFn cfg onError id ty p
  | .act p => do let _ ← callFn cfg p

/-- The items in order: error.hpp:689-702; on_error.hpp:73-88. -/
def loadFnItems (cfg : Cfg) (onError : Bool) (id : Id) : List FnItem → Comp PtrStore Unit
  | [] => pure ()
  | i :: is => do loadFnItem cfg onError id i; loadFnItems cfg onError id is

/-- `new_error`, error.hpp:756-765. -/
def newErrorFn (cfg : Cfg) (items : List FnItem) : Comp PtrStore Id := do
  let id := makeErrorId (← newId cfg)
  loadFnItems cfg false id items
  return id

/-- `on_error`, on_error.hpp:166-198. -/
def onErrorFn (cfg : Cfg) (items : List FnItem) (body : Comp PtrStore Out) : Comp PtrStore Out := do
  let saved ← currentId
  let o ← body
  let id ← checkId cfg saved (match o with | .exc _ => true | _ => false)
  if id ≠ 0#32 then do
    assertTagged id
    loadFnItems cfg true id items
  return o

end Leaf
