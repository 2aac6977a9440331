import Verif.Prog

/-!
# Model of `on_error` when memory runs out

The items of `on_error` are stored with `OnError = true`: an object that goes to a capturing scope needs memory for a node (`new capturing_slot_node<T>`, error.hpp:277),
and if the allocation throws `std::bad_alloc`, the exception is caught and swallowed (error.hpp:357-397). Each item comes with a flag: memory is available for it. With
`OnError = false` (`new_error`, `load`), the exception meets a `noexcept` function and the program is terminated (error.hpp:683, 756): not modelled.
-/

namespace Leaf

variable {M : Type} [Store M]

/-- `dynamic_load_`, error.hpp:333-343, called in the `try` block of `dynamic_load<true>`, 357-376. The `dynamic_allocator` itself is part of the slot and needs no
memory. -/
def dynamicLoadM (ok : Bool) (id : Id) (ty : Ty) (v : Val) : Comp M Unit := do
  match ← daKey with
  | some k =>
    if k ≠ 0#32 then (if ok then daAppend ty id v else pure ())
    else do daReset id; if ok then daAppend ty id v else pure ()
  | none => pure ()

/-- `dynamic_accumulate_`, error.hpp:345-355, called in the `try` block of `dynamic_load_accumulate<true>`, 378-397: the function is not called if there is no memory
for its argument. -/
def dynamicAccumulateM (cfg : Cfg) (ok : Bool) (id : Id) (ty : Ty) (tag : Nat) (f : Val → Val) : Comp M Unit := do
  match ← daKey with
  | some k =>
    if k = id then pure () else daReset id
    if ok then do
      daAppend ty id (f (cfg.dflt ty))
      emit (.called tag); emit (.offered id ty (f (cfg.dflt ty)))
    else pure ()
  | none => pure ()

/-- `load_slot<true>`, error.hpp:428-445. -/
def loadSlotM (cfg : Cfg) (ok : Bool) (id : Id) (ty : Ty) (v : Val) : Comp M Unit := do
  assertTagged id
  match ← slotGet ty with
  | some p => if (p.hasValue id).isNone then slotSet ty id v
  | none => if cfg.capture then dynamicLoadM ok id ty v

/-- `load_slot_deferred<true>`, error.hpp:447-465: the function is called before memory is needed. -/
def loadSlotDeferredM (cfg : Cfg) (ok : Bool) (id : Id) (ty : Ty) (tag : Nat) (v : Val) : Comp M Unit := do
  assertTagged id
  match ← slotGet ty with
  | some p =>
    if (p.hasValue id).isNone then do
      emit (.called tag); emit (.offered id ty v); slotSet ty id v
  | none =>
    if cfg.capture then do
      emit (.called tag); emit (.offered id ty v); dynamicLoadM ok id ty v

/-- `load_slot_accumulate<true>`, error.hpp:467-486. -/
def loadSlotAccumulateM (cfg : Cfg) (ok : Bool) (id : Id) (ty : Ty) (tag : Nat) (f : Val → Val) : Comp M Unit := do
  assertTagged id
  match ← slotGet ty with
  | some p => do
    let v := match p.hasValue id with
      | some v => f v
      | none => f (cfg.dflt ty)
    slotSet ty id v
    emit (.called tag); emit (.offered id ty v)
  | none => if cfg.capture then dynamicAccumulateM cfg ok id ty tag f

/-- The `trigger` functions, on_error.hpp:90-164. -/
def loadItemM (cfg : Cfg) (ok : Bool) (id : Id) : Item → Comp M Unit
  | .obj ty v => do emit (.offered id ty v); loadSlotM cfg ok id ty v
  | .deferred ty tag v => loadSlotDeferredM cfg ok id ty tag v
  | .accum ty tag f => loadSlotAccumulateM cfg ok id ty tag f

/-- `tuple_for_each_preload::trigger`, on_error.hpp:73-88. -/
def triggerItemsM (cfg : Cfg) (id : Id) : List (OnItem × Bool) → Comp M Unit
  | [] => pure ()
  | (.item i, ok) :: is => do loadItemM cfg ok id i; triggerItemsM cfg id is
  | (.action tag, _) :: is => do emit (.called tag); triggerItemsM cfg id is

/-- `on_error`, on_error.hpp:166-198. -/
def onErrorGuardM (cfg : Cfg) (items : List (OnItem × Bool)) (body : Comp M Out) : Comp M Out := do
  let saved ← currentId
  let o ← body
  let id ← checkId cfg saved (match o with | .exc _ => true | _ => false)
  if id ≠ 0#32 then do
    assertTagged id
    triggerItemsM cfg id items
  return o

end Leaf
