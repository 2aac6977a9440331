import Verif.AllocModel

/-!
# Functions passed to `new_error`, `load` and `on_error` that throw

As `AllocModel`, with functions that may throw. A computation of type `CompT M Bool` returns `false` if it ends with an exception (`std::bad_alloc` or the function's).
-/

namespace Leaf

/-- An argument of `new_error`, `load` or `on_error`. -/
inductive FnArg
  /-- an object of type `ty` -/
  | obj (ty : Ty) (v : Val)
  /-- a function returning an object of type `ty`; `none`: it throws -/
  | deferred (ty : Ty) (tag : Nat) (r : Option Val)
  /-- a function taking `E &`: what it makes of the object, and whether it then throws -/
  | accum (ty : Ty) (tag : Nat) (f : Val → Val × Bool)
  /-- a function returning `void` (`on_error` only), and whether it throws -/
  | action (tag : Nat) (throws : Bool)

section
variable {M : Type} [Store M]

/-- `dynamic_accumulate_`, error.hpp:345-355: the object is stored, then the function called. -/
def dynamicAccumulateX (mem : Nat → Bool) (cfg : Cfg) (id : Id) (ty : Ty) (tag : Nat) (f : Val → Val × Bool) : CompT M Bool := do
  match ← lift daKey with
  | some k =>
    if k = id then pure () else lift (daReset id)
    if ← daAppendT mem ty id (f (cfg.dflt ty)).1 then do
      lift (emit (.called tag)); lift (emit (.offered id ty (f (cfg.dflt ty)).1))
      return !(f (cfg.dflt ty)).2
    else return false
  | none => return true

/-- `load_slot_deferred<OnError>`, error.hpp:447-465. The call of the function is outside the `try` block of `dynamic_load` (error.hpp:357-376). -/
def loadSlotDeferredX (mem : Nat → Bool) (cfg : Cfg) (onError : Bool) (id : Id) (ty : Ty) (tag : Nat) (r : Option Val) : CompT M Bool := do
  lift (assertTagged id)
  match ← lift (slotGet ty) with
  | some p => do
    if !onError || (p.hasValue id).isNone then do
      lift (emit (.called tag))
      match r with
      | none => return false
      | some v => do
        lift (emit (.offered id ty v)); lift (slotSet ty id v)
        return true
    else return true
  | none =>
    if cfg.capture then do
      lift (emit (.called tag))
      match r with
      | none => return false
      | some v => do
        lift (emit (.offered id ty v)); dynamicT onError (dynamicLoadT mem id ty v)
    else return true

/-- `load_slot_accumulate<OnError>`, error.hpp:467-486. With a capturing scope, the function is called inside the `try` block of `dynamic_load_accumulate` (error.hpp:378-397). -/
def loadSlotAccumulateX (mem : Nat → Bool) (cfg : Cfg) (onError : Bool) (id : Id) (ty : Ty) (tag : Nat) (f : Val → Val × Bool) : CompT M Bool := do
  lift (assertTagged id)
  match ← lift (slotGet ty) with
  | some p => do
    let x := match p.hasValue id with
      | some v => f v
      | none => f (cfg.dflt ty)
    lift (slotSet ty id x.1)
    lift (emit (.called tag)); lift (emit (.offered id ty x.1))
    return !x.2
  | none => if cfg.capture then dynamicT onError (dynamicAccumulateX mem cfg id ty tag f) else return true

/-- `load_item<...>::load_`, error.hpp:493-524; the `trigger` functions of `on_error`, on_error.hpp:90-164. -/
def loadArgX (mem : Nat → Bool) (cfg : Cfg) (onError : Bool) (id : Id) : FnArg → CompT M Bool
  | .obj ty v => do lift (emit (.offered id ty v)); loadSlotT mem cfg onError id ty v
  | .deferred ty tag r => loadSlotDeferredX mem cfg onError id ty tag r
  | .accum ty tag f => loadSlotAccumulateX mem cfg onError id ty tag f
  | .action tag throws => do
    lift (emit (.called tag))
    return !throws

/-- The arguments, left to right; each is loaded by a `noexcept` function: error.hpp:689-702 with 499-523; on_error.hpp:73-88 with 101-163. -/
def loadArgsX (mem : Nat → Bool) (cfg : Cfg) (onError : Bool) (id : Id) : List FnArg → CompT M Unit
  | [] => pure ()
  | i :: is => do noexcept (loadArgX mem cfg onError id i); loadArgsX mem cfg onError id is

/-- `new_error`, error.hpp:756-765. -/
def newErrorX (mem : Nat → Bool) (cfg : Cfg) (args : List FnArg) : CompT M Id := do
  let id := makeErrorId (← lift (newId cfg))
  loadArgsX mem cfg false id args
  return id

/-- `on_error`, on_error.hpp:166-198. -/
def onErrorGuardX (mem : Nat → Bool) (cfg : Cfg) (args : List FnArg) (body : CompT M Out) : CompT M Out := do
  let saved ← lift currentId
  let o ← body
  let id ← lift (checkId cfg saved (match o with | .exc _ => true | _ => false))
  if id ≠ 0#32 then do
    lift (assertTagged id)
    loadArgsX mem cfg true id args
  return o

end
end Leaf
