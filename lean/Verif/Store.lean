import Verif.Types

/-!
# Error storage: interface and the code that uses it

`Store M` lists the primitive accesses to error storage made by LEAF. The functions below transcribe `load_slot`,
`load_slot_deferred`, `load_slot_accumulate`, `dynamic_load_`, `dynamic_accumulate_`, `slot::unload`, `new_id`, ... on top of it.
They are run on the pointer store (`PtrStore`, the code) and on the abstract store (`AbsStore`, the specification).

`none` stands for undefined behaviour or a violated `BOOST_LEAF_ASSERT`.
-/

namespace Leaf

/-- Primitive accesses to the error storage of one thread. -/
class Store (M : Type) where
  /-- `tls::read_ptr<slot<E>>()` and the content of the slot it points to; `some none`: null pointer. -/
  slotGet : Ty → M → Option (Option Cell)
  /-- `p->load(err_id, e)` on the slot `tls::read_ptr<slot<E>>()`. -/
  slotSet : Ty → Id → Val → M → Option M
  /-- `tls::read_ptr<slot<dynamic_allocator>>()` and its key (`0`: empty); `some none`: null pointer. -/
  daKey : M → Option (Option Id)
  /-- `sl->load(err_id)` on that slot: destroys the old `dynamic_allocator`, if any, and default-constructs a new one. -/
  daReset : Id → M → Option M
  /-- `dynamic_allocator::dynamic_load` on the allocator in that slot: appends and activates a `capturing_slot_node`. -/
  daAppend : Ty → Id → Val → M → Option M
  /-- Construct a context (or the single `slot<dynamic_allocator>` of `try_capture_all`) and activate it. -/
  push : List CellTy → M → Option M
  /-- Deactivate the innermost context and destroy it, handing out its final content. (In the code it lives on, inactive, until
  the end of the enclosing function, and only the function that owns it reads it.) -/
  pop : M → Option (List CtxCell × M)

/-- State of one thread. `cur`: `tls_tag_id_factory_current_id`; `counter`: the shared `id_factory::counter`; `ticks`: number of ids this
thread generated; `handling`: exceptions being handled, innermost first (`std::current_exception()` is the head);
`trace`: ghost, newest first. -/
structure World (M : Type) where
  cur : Id
  counter : Id
  ticks : Nat
  trace : List Event
  handling : List Exc
  mem : M

/-- Computations on a thread. -/
abbrev Comp (M : Type) := StateT (World M) Option

section
variable {M : Type}

/-- Undefined behaviour. -/
def ub {α : Type} : Comp M α := fun _ => none

def emit (e : Event) : Comp M Unit := fun w => some ((), { w with trace := e :: w.trace })

/-- Read `tls_tag_id_factory_current_id`. -/
def getCur : Comp M Id := fun w => some (w.cur, w)

/-- `current_id()`, error.hpp:549-554, with its assertion. -/
def currentId : Comp M Id := fun w => if w.cur = 0#32 ∨ Id.Tagged w.cur then some (w.cur, w) else none

/-- `BOOST_LEAF_ASSERT((err_id&3) == 1)`, error.hpp:434, 454, 473; on_error.hpp:78; result.hpp:138. -/
def assertTagged (id : Id) : Comp M Unit := fun w => if Id.Tagged id then some ((), w) else none

def setCur (id : Id) : Comp M Unit := fun w => some ((), { w with cur := id })

/-- `new_id`, error.hpp:556-561; other threads may have advanced the counter. -/
def newId (cfg : Cfg) : Comp M Id := fun w =>
  let c := w.counter + BitVec.ofNat 32 (4 * cfg.interf w.ticks)
  let (id, c') := generateNextId c
  some (id, { w with counter := c', cur := id, ticks := w.ticks + 1, trace := .gen id :: w.trace })

/-- `current_error()`, error.hpp:767-770. -/
def currentError : Comp M Id := do return makeErrorId (← currentId)

/-- Enter / leave a `catch` block handling `e`. -/
def pushHandling (e : Exc) : Comp M Unit := fun w => some ((), { w with handling := e :: w.handling })
def popHandling : Comp M Unit := fun w => some ((), { w with handling := w.handling.tail })
/-- `std::current_exception()`. -/
def currentException : Comp M (Option Exc) := fun w => some (w.handling.head?, w)

variable [Store M]

def slotGet (ty : Ty) : Comp M (Option Cell) := fun w => (Store.slotGet ty w.mem).map (·, w)
def slotSet (ty : Ty) (id : Id) (v : Val) : Comp M Unit := fun w =>
  (Store.slotSet ty id v w.mem).map fun m => ((), { w with mem := m })
def daKey : Comp M (Option Id) := fun w => (Store.daKey w.mem).map (·, w)
def daReset (id : Id) : Comp M Unit := fun w => (Store.daReset id w.mem).map fun m => ((), { w with mem := m })
def daAppend (ty : Ty) (id : Id) (v : Val) : Comp M Unit := fun w =>
  (Store.daAppend ty id v w.mem).map fun m => ((), { w with mem := m })
def pushCtx (spec : List CellTy) : Comp M Unit := fun w =>
  (Store.push spec w.mem).map fun m => ((), { w with mem := m })
def popCtx : Comp M (List CtxCell) := fun w => (Store.pop w.mem).map fun (c, m) => (c, { w with mem := m })

/-- `dynamic_load_`, error.hpp:333-343 (called by `dynamic_load<OnError>`, 357-376). -/
def dynamicLoad (id : Id) (ty : Ty) (v : Val) : Comp M Unit := do
  match ← daKey with
  | some k =>
    if k ≠ 0#32 then daAppend ty id v
    else do daReset id; daAppend ty id v
  | none => pure ()

/-- `dynamic_accumulate_`, error.hpp:345-355 (called by `dynamic_load_accumulate<OnError>`, 378-397). -/
def dynamicAccumulate (cfg : Cfg) (id : Id) (ty : Ty) (tag : Nat) (f : Val → Val) : Comp M Unit := do
  match ← daKey with
  | some k =>
    if k = id then daAppend ty id (f (cfg.dflt ty))
    else do daReset id; daAppend ty id (f (cfg.dflt ty))
    emit (.called tag); emit (.offered id ty (f (cfg.dflt ty)))
  | none => pure ()

/-- `slot<E>::unload`, error.hpp:411-426, for a slot with content `c` that is not itself bound. -/
def slotUnload (cfg : Cfg) (id : Id) (ty : Ty) (c : Cell) : Comp M Unit := do
  if id = 0#32 then ub
  match c.hasValue id with
  | none => pure ()
  | some v =>
    match ← slotGet ty with
    | some p => if (p.hasValue id).isNone then slotSet ty id v
    | none => if cfg.capture then dynamicLoad id ty v

/-- `load_slot<OnError>`, error.hpp:428-445. -/
def loadSlot (cfg : Cfg) (onError : Bool) (id : Id) (ty : Ty) (v : Val) : Comp M Unit := do
  assertTagged id
  match ← slotGet ty with
  | some p => if !onError || (p.hasValue id).isNone then slotSet ty id v
  | none => if cfg.capture then dynamicLoad id ty v

/-- `load_slot_deferred<OnError>`, error.hpp:447-465. The function is called (event `called`) exactly where the code evaluates
`std::forward<F>(f)()`. -/
def loadSlotDeferred (cfg : Cfg) (onError : Bool) (id : Id) (ty : Ty) (tag : Nat) (v : Val) : Comp M Unit := do
  assertTagged id
  match ← slotGet ty with
  | some p =>
    if !onError || (p.hasValue id).isNone then do
      emit (.called tag); emit (.offered id ty v); slotSet ty id v
  | none =>
    if cfg.capture then do
      emit (.called tag); emit (.offered id ty v); dynamicLoad id ty v

/-- `load_slot_accumulate<OnError>`, error.hpp:467-486 (`OnError` makes no difference). -/
def loadSlotAccumulate (cfg : Cfg) (id : Id) (ty : Ty) (tag : Nat) (f : Val → Val) : Comp M Unit := do
  assertTagged id
  match ← slotGet ty with
  | some p => do
    let v := match p.hasValue id with
      | some v => f v
      | none => f (cfg.dflt ty)
    slotSet ty id v
    emit (.called tag); emit (.offered id ty v)
  | none => if cfg.capture then dynamicAccumulate cfg id ty tag f

/-- `load_item<...>::load_`, error.hpp:493-524 (`onError = false`); the `trigger` functions of `on_error`, on_error.hpp:90-164
(`onError = true`). -/
def loadItem (cfg : Cfg) (onError : Bool) (id : Id) : Item → Comp M Unit
  | .obj ty v => do emit (.offered id ty v); loadSlot cfg onError id ty v
  | .deferred ty tag v => loadSlotDeferred cfg onError id ty tag v
  | .accum ty tag f => loadSlotAccumulate cfg id ty tag f

/-- The items are evaluated left to right (braced initialiser list, error.hpp:689-702). -/
def loadItems (cfg : Cfg) (onError : Bool) (id : Id) : List Item → Comp M Unit
  | [] => pure ()
  | i :: is => do loadItem cfg onError id i; loadItems cfg onError id is

/-- `error_id::load`, error.hpp:683-702: nothing happens for the empty id. -/
def errorIdLoad (cfg : Cfg) (id : Id) (items : List Item) : Comp M Unit :=
  if id ≠ 0#32 then loadItems cfg false id items else pure ()

/-- `new_error`, error.hpp:756-765. -/
def newError (cfg : Cfg) (items : List Item) : Comp M Id := do
  let id := makeErrorId (← newId cfg)
  errorIdLoad cfg id items
  return id

/-- `tuple_for_each_preload::trigger`, on_error.hpp:73-88: items in order. -/
def triggerItems (cfg : Cfg) (id : Id) : List OnItem → Comp M Unit
  | [] => pure ()
  | .item i :: is => do loadItem cfg true id i; triggerItems cfg id is
  | .action tag :: is => do emit (.called tag); triggerItems cfg id is

/-- `error_id(std::error_code)`, error.hpp:660-674 with `import_error_code`, 601-620. The error code is the object `v` of type
`std::error_code`. -/
def importCode (cfg : Cfg) (ec : ErrorCode) (v : Val) : Comp M Id :=
  match importErrorCode ec with
  | .done id => pure id
  | .fresh => do
    let id ← newId cfg
    emit (.offered id tyErrorCode v)
    loadSlot cfg false id tyErrorCode v
    return makeErrorId id
  | .bad => ub

/-- `error_monitor::check_id`, on_error.hpp:30-47. `saved`: the current id at construction; `throwing`: whether
`std::uncaught_exceptions()` is now greater than at construction. -/
def checkId (cfg : Cfg) (saved : Id) (throwing : Bool) : Comp M Id := do
  let cur ← currentId
  if cur ≠ saved then return cur
  else if throwing then newId cfg
  else return 0#32

/-- `error_monitor::get_id`, on_error.hpp:49-56. -/
def getId (cfg : Cfg) (saved : Id) : Comp M Id := do
  let cur ← currentId
  if cur ≠ saved then return cur else newId cfg

/-- Unload the nodes of a capture list in order until an exception node rethrows (`moved.for_each(...)`,
detail/capture_list.hpp:91-95). Returns the exception thrown. -/
def unloadNodes (cfg : Cfg) (id : Id) : List CapNode → Comp M (Option Exc)
  | [] => pure none
  | .obj ty c :: ns => do
    match c.hasValue id with
    | some v => emit (.transported id ty v)
    | none => pure ()
    slotUnload cfg id ty c
    unloadNodes cfg id ns
  | .exc e :: _ => pure (some e)

/-- `result::unload`, result.hpp:590-596 with `capture_list::unload`, detail/capture_list.hpp:86-96: gives back the result with its
list emptied, or the exception rethrown by the last node. -/
def resultUnload (cfg : Cfg) (r : ErrRes) : Comp M Out :=
  match r with
  | .plain _ => pure (.err r)
  | .captured id nodes => do
    setCur r.errId
    match ← unloadNodes cfg r.errId nodes with
    | some e => pure (.exc e)
    | none => pure (.err (.captured id []))

/-- Unload the nodes of a `dynamic_allocator` in order: `capture_list::unload`, detail/capture_list.hpp:86-96. -/
def unloadDaNodes (cfg : Cfg) (id : Id) : List (Ty × Cell) → Comp M Unit
  | [] => pure ()
  | (ty, c) :: ns => do slotUnload cfg id ty c; unloadDaNodes cfg id ns

/-- One tuple element: `slot<E>::unload`, error.hpp:411-426, or `slot<dynamic_allocator>::unload`, error.hpp:325-331. -/
def unloadCell (cfg : Cfg) (id : Id) : CtxCell → Comp M Unit
  | .obj ty c => slotUnload cfg id ty c
  | .da key nodes => do
    if id = 0#32 then ub
    if key ≠ 0#32 then do
      setCur id
      unloadDaNodes cfg id nodes

/-- `context::unload`, context.hpp:359-363 with `tuple_for_each::unload`, 197-204: last element first. -/
def unloadCells (cfg : Cfg) (id : Id) : List CtxCell → Comp M Unit
  | [] => pure ()
  | c :: cs => do unloadCells cfg id cs; unloadCell cfg id c

end
end Leaf
