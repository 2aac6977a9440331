import Verif.AllocModel

/-!
# Constructors of error objects that throw

As `AllocModel`, with error objects whose constructors may throw. `optional::load(int, T &&)` is `noexcept` (detail/optional.hpp:127), so an exception of a move constructor terminates the
program at once. One of a copy constructor leaves `optional::load(int, T const &)` (118) and terminates it in the next `noexcept` function, except in `dynamic_load<true>` (error.hpp:357-376),
which ignores it. But then `capturing_slot_node` (error.hpp:215-222) has entered itself into the list and is freed: the list keeps a pointer to it, and any further use of the list, at the
latest its destruction, is undefined behaviour (`C29_refuted_throw`). Here the behaviour is undefined at once.

A computation of type `CompT M Bool` returns `false` if it ends with an exception. Not shown: `optional::load` destroys the old object before it constructs the new one; when the constructor
throws, the program is terminated.
-/

namespace Leaf

/-- An argument of `new_error`, `load` or `on_error`. -/
inductive CtorArg
  /-- an object, passed as an lvalue (`copied`) or an rvalue; whether the constructor called to store it throws -/
  | obj (ty : Ty) (v : Val) (copied throws : Bool)
  /-- a function returning a reference to an object (`copied`), or an object; whether the constructor called to store it throws -/
  | deferred (ty : Ty) (tag : Nat) (v : Val) (copied throws : Bool)
  /-- a function taking `E &`; whether the default constructor of `E`, and its move constructor, throw -/
  | accum (ty : Ty) (tag : Nat) (f : Val → Val) (dflt move : Bool)
  /-- a function returning `void` (`on_error` only) -/
  | action (tag : Nat)

section
variable {M : Type}

/-- `optional::load`, detail/optional.hpp:118-134: the new object is constructed. -/
def construct (copied throws : Bool) : CompT M Bool :=
  if throws then (if copied then return false else terminate) else return true

variable [Store M]

/-- `dynamic_load<OnError>` and `dynamic_load_`, error.hpp:333-343, 357-376, with `dynamic_allocator::dynamic_load`, 280-289, and the constructor of `capturing_slot_node`, 215-222. -/
def dynamicLoadC (mem : Nat → Bool) (onError : Bool) (id : Id) (ty : Ty) (v : Val) (copied throws : Bool) : CompT M Bool := do
  match ← lift daKey with
  | some k => do
    if k ≠ 0#32 then pure () else lift (daReset id)
    if ← allocate mem then do
      if ← construct copied throws then do
        lift (daAppend ty id v)
        return true
      else if onError then lift ub else return false
    else return onError
  | none => return true

/-- `load_slot<OnError>`, error.hpp:428-445. -/
def loadSlotC (mem : Nat → Bool) (cfg : Cfg) (onError : Bool) (id : Id) (ty : Ty) (v : Val) (copied throws : Bool) : CompT M Bool := do
  lift (assertTagged id)
  match ← lift (slotGet ty) with
  | some p => do
    if !onError || (p.hasValue id).isNone then do
      if ← construct copied throws then do
        lift (slotSet ty id v)
        return true
      else return false
    else return true
  | none => if cfg.capture then dynamicLoadC mem onError id ty v copied throws else return true

/-- `load_slot_deferred<OnError>`, error.hpp:447-465. -/
def loadSlotDeferredC (mem : Nat → Bool) (cfg : Cfg) (onError : Bool) (id : Id) (ty : Ty) (tag : Nat) (v : Val) (copied throws : Bool) : CompT M Bool := do
  lift (assertTagged id)
  match ← lift (slotGet ty) with
  | some p => do
    if !onError || (p.hasValue id).isNone then do
      lift (emit (.called tag)); lift (emit (.offered id ty v))
      if ← construct copied throws then do
        lift (slotSet ty id v)
        return true
      else return false
    else return true
  | none =>
    if cfg.capture then do
      lift (emit (.called tag)); lift (emit (.offered id ty v)); dynamicLoadC mem onError id ty v copied throws
    else return true

/-- `dynamic_load_accumulate<OnError>` and `dynamic_accumulate_`, error.hpp:345-355, 378-397. `sl->load(err_id)` is evaluated before the argument `E{}` (C++17; before, the order is
unspecified). -/
def dynamicAccumulateC (mem : Nat → Bool) (cfg : Cfg) (onError : Bool) (id : Id) (ty : Ty) (tag : Nat) (f : Val → Val) (dflt move : Bool) : CompT M Bool := do
  match ← lift daKey with
  | some k => do
    if k = id then pure () else lift (daReset id)
    if dflt then return onError
    else if ← allocate mem then do
      if ← construct false move then do
        lift (daAppend ty id (f (cfg.dflt ty)))
        lift (emit (.called tag)); lift (emit (.offered id ty (f (cfg.dflt ty))))
        return true
      else return false
    else return onError
  | none => return true

/-- `load_slot_accumulate<OnError>`, error.hpp:467-486. -/
def loadSlotAccumulateC (mem : Nat → Bool) (cfg : Cfg) (onError : Bool) (id : Id) (ty : Ty) (tag : Nat) (f : Val → Val) (dflt move : Bool) : CompT M Bool := do
  lift (assertTagged id)
  match ← lift (slotGet ty) with
  | some p => do
    match p.hasValue id with
    | some v => do
      lift (slotSet ty id (f v))
      lift (emit (.called tag)); lift (emit (.offered id ty (f v)))
      return true
    | none =>
      if dflt then return false
      else if ← construct false move then do
        lift (slotSet ty id (f (cfg.dflt ty)))
        lift (emit (.called tag)); lift (emit (.offered id ty (f (cfg.dflt ty))))
        return true
      else return false
  | none => if cfg.capture then dynamicAccumulateC mem cfg onError id ty tag f dflt move else return true

/-- `load_item<...>::load_`, error.hpp:493-524; the `trigger` functions of `on_error`, on_error.hpp:90-164: objects in a guard are moved (105). -/
def loadArgC (mem : Nat → Bool) (cfg : Cfg) (onError : Bool) (id : Id) : CtorArg → CompT M Bool
  | .obj ty v copied throws => do lift (emit (.offered id ty v)); loadSlotC mem cfg onError id ty v (copied && !onError) throws
  | .deferred ty tag v copied throws => loadSlotDeferredC mem cfg onError id ty tag v copied throws
  | .accum ty tag f dflt move => loadSlotAccumulateC mem cfg onError id ty tag f dflt move
  | .action tag => do
    lift (emit (.called tag))
    return true

/-- The arguments, left to right; each is loaded by a `noexcept` function: error.hpp:689-702 with 499-523; on_error.hpp:73-88 with 101-163. -/
def loadArgsC (mem : Nat → Bool) (cfg : Cfg) (onError : Bool) (id : Id) : List CtorArg → CompT M Unit
  | [] => pure ()
  | i :: is => do noexcept (loadArgC mem cfg onError id i); loadArgsC mem cfg onError id is

/-- `new_error`, error.hpp:756-765. -/
def newErrorC (mem : Nat → Bool) (cfg : Cfg) (args : List CtorArg) : CompT M Id := do
  let id := makeErrorId (← lift (newId cfg))
  loadArgsC mem cfg false id args
  return id

/-- `on_error`, on_error.hpp:166-198, 222-228. `made`: what copying or moving the arguments into the guard throws, if anything (on_error.hpp:98-101, 177-181: not `noexcept`; the guard's
`error_monitor` is constructed after them, 171-173). -/
def onErrorGuardC (mem : Nat → Bool) (cfg : Cfg) (made : Option Exc) (args : List CtorArg) (body : CompT M Out) : CompT M Out :=
  match made with
  | some e => return .exc e
  | none => do
    let saved ← lift currentId
    let o ← body
    let id ← lift (checkId cfg saved (match o with | .exc _ => true | _ => false))
    if id ≠ 0#32 then do
      lift (assertTagged id)
      loadArgsC mem cfg true id args
    return o

/-- `slot<E>::unload`, error.hpp:411-426: `optional::operator=(optional &&)` (detail/optional.hpp:74-83) and `optional::value(int) &&` (179-186) are `noexcept`. `move`: the move constructor
throws. -/
def slotUnloadC (mem : Nat → Bool) (cfg : Cfg) (id : Id) (ty : Ty) (c : Cell) (move : Bool) : CompT M Bool := do
  if id = 0#32 then lift ub
  match c.hasValue id with
  | none => return true
  | some v =>
    match ← lift (slotGet ty) with
    | some p => do
      if (p.hasValue id).isNone then do
        if ← construct false move then do
          lift (slotSet ty id v)
          return true
        else return false
      else return true
    | none =>
      if cfg.capture then do
        if ← construct false move then dynamicLoadC mem false id ty v false false else return false
      else return true

end
/-- A parameter that may be taken by value: an error object. -/
def Arg.copied : Arg → Bool
  | .req _ => true
  | _ => false

/-- The arguments for a handler, `handler_caller::call`, handle_errors.hpp:383-404. `throws`: the parameter is taken by value, and the copy constructor throws: the copy is made in
`handler_argument_traits_defaults::get`, context.hpp:53-57, which is `noexcept`; `some none`: the program is terminated. Predicates refer to the object, and other parameters are pointers or references. -/
def getArgsC (cfg : Cfg) (cells : List CtxCell) (id : Id) (ex : Option Exc) (loc : Option Val) : List (Arg × Bool) → Option (Option (List ArgVal))
  | [] => some (some [])
  | (a, throws) :: as => do
    let v ← Arg.get cfg cells id ex loc a
    if a.copied && throws then return none
    match ← getArgsC cfg cells id ex loc as with
    | none => return none
    | some vs => return some (v :: vs)

end Leaf
