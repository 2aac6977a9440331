import Verif.PtrStore

/-!
# Lifetime of error objects

The storage of PtrStore.lean, with a record of the C++ objects that live in the slots: every error object constructed gets a number; a destructor call moves the number to the list `dead`.
Whether a slot destroys its object is decided by the key of its `optional`, as in the code (detail/optional.hpp); destroying an object where there is none is `none` (undefined behaviour), and an object
constructed over another one loses it (it is never destroyed).

Simplified as in PtrStore.lean: a context is destroyed when it is deactivated (in the code its objects live on until the function returns, and are unloaded from there). The nodes of a capturing scope
whose objects become part of a `result` are moved to its capture list in the code (C29, C07); here they are destroyed with the scope, and the `result` holds copies.
Functions that accumulate change an existing object in place (error.hpp:477-480); here it is replaced by a new one.
-/

namespace Leaf

/-- Storage; the object in the slot at each address, by number; how many objects were constructed; the numbers of the objects destroyed, latest first. -/
structure LifeStore where
  base : PtrStore
  obj : Addr → Option Nat
  built : Nat
  dead : List Nat

namespace LifeStore

def empty : LifeStore := ⟨PtrStore.empty, fun _ => none, 0, []⟩

/-- `optional::reset()`, detail/optional.hpp:100-107 (also called by the destructor, 85-88, and by `load`, `operator=`): calls the destructor if the key is not 0. -/
def reset (a : Addr) (cell : Cell) (l : LifeStore) : Option LifeStore :=
  match cell with
  | none => some l
  | some _ => match l.obj a with
    | none => none
    | some o => some { l with obj := upd l.obj a none, dead := o :: l.dead }

/-- `new(&value_) T(...)`, detail/optional.hpp:109-134. -/
def construct (a : Addr) (l : LifeStore) : LifeStore := { l with obj := upd l.obj a (some l.built), built := l.built + 1 }

/-- As `PtrStore.slotSet`: `optional::load(err_id, e)`, detail/optional.hpp:118-134: `reset`, then construct. -/
def slotSet (ty : Ty) (id : Id) (v : Val) (l : LifeStore) : Option LifeStore :=
  match l.base.tls ty with
  | none => none
  | some a => match l.base.mem a with
    | none => none
    | some s => match l.reset a s.cell with
      | none => none
      | some l =>
        let l := l.construct a
        some { l with base := { l.base with mem := upd l.base.mem a (some { s with cell := some (id, v) }) } }

/-- As `PtrStore.freeSlot`: `~slot`, error.hpp:130-133, then `~optional`, detail/optional.hpp:85-88. -/
def freeSlot (ty : Ty) (a : Addr) (l : LifeStore) : Option LifeStore :=
  match l.base.mem a with
  | none => none
  | some s =>
    if l.base.tls ty = some a then none
    else match l.reset a s.cell with
      | none => none
      | some l => some { l with base := { l.base with mem := upd l.base.mem a none } }

/-- As `PtrStore.freeNodes`. -/
def freeNodes : List (Ty × Addr) → LifeStore → Option LifeStore
  | [], l => some l
  | (ty, a) :: ns, l => (freeSlot ty a l).bind (freeNodes ns)

/-- As `PtrStore.daReset`. -/
def daReset (id : Id) (l : LifeStore) : Option LifeStore :=
  match l.base.tlsDa with
  | none => none
  | some a => match l.base.dmem a with
    | none => none
    | some d => match freeNodes d.nodes l with
      | none => none
      | some l => some { l with base := { l.base with dmem := upd l.base.dmem a (some { d with key := id, nodes := [] }) } }

/-- As `PtrStore.daAppend`: a new slot with a new object. -/
def daAppend (ty : Ty) (id : Id) (v : Val) (l : LifeStore) : Option LifeStore :=
  match PtrStore.daAppend ty id v l.base with
  | none => none
  | some b => some { l.construct l.base.next with base := b }

/-- As `PtrStore.destroy`. -/
def destroy : List PCell → LifeStore → Option LifeStore
  | [], l => some l
  | .obj ty a :: cs, l => (freeSlot ty a l).bind (destroy cs)
  | .da a :: cs, l => match l.base.dmem a with
    | none => none
    | some d =>
      if l.base.tlsDa = some a then none
      else match freeNodes d.nodes l with
        | none => none
        | some l => destroy cs { l with base := { l.base with dmem := upd l.base.dmem a none } }

/-- As `PtrStore.push`; the slots of a new context are empty. -/
def push (spec : List CellTy) (l : LifeStore) : Option LifeStore :=
  match PtrStore.push spec l.base with
  | none => none
  | some b => some { l with base := b }

/-- As `PtrStore.pop`. -/
def pop (l : LifeStore) : Option (List CtxCell × LifeStore) :=
  match l.base.ctxs with
  | [] => none
  | f :: fs => match PtrStore.deactivate f l.base with
    | none => none
    | some b => match PtrStore.readOut f b, destroy f { l with base := b } with
      | some cells, some l => some (cells, { l with base := { l.base with ctxs := fs } })
      | _, _ => none

end LifeStore

instance : Store LifeStore where
  slotGet ty l := PtrStore.slotGet ty l.base
  slotSet := LifeStore.slotSet
  daKey l := PtrStore.daKey l.base
  daReset := LifeStore.daReset
  daAppend := LifeStore.daAppend
  push := LifeStore.push
  pop := LifeStore.pop

end Leaf
