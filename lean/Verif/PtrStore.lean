import Verif.Store

/-!
# Pointer-level error storage (the code)

Slots and dynamic allocators live at addresses; each has a `prev_` pointer; the innermost slot of each type is found through a
thread-local pointer. Every access to an address that is not allocated, and every violated `BOOST_LEAF_ASSERT`, is `none`.
-/

namespace Leaf

abbrev Addr := Nat

/-- `slot<E>`: the `optional<E>` base and `prev_`, error.hpp:107-165. -/
structure PSlot where
  cell : Cell
  prev : Option Addr
  deriving DecidableEq, Repr

/-- `slot<dynamic_allocator>`: key of the `optional` (`0`: empty), the `capturing_slot_node`s of the allocator in list order with the
address of their `slot<E>` base, and `prev_`; error.hpp:174-323. -/
structure PDa where
  key : Id
  nodes : List (Ty × Addr)
  prev : Option Addr
  deriving DecidableEq, Repr

/-- An element of a context's tuple. -/
inductive PCell
  | obj (ty : Ty) (a : Addr)
  | da (a : Addr)
  deriving DecidableEq, Repr

/-- Storage of one thread. `tls E` is `tls::read_ptr<slot<E>>()`. `ctxs`: the active contexts, innermost first
(the objects `ctx` / `sl` on the C++ stack). `next`: next unused address. -/
structure PtrStore where
  mem : Addr → Option PSlot
  dmem : Addr → Option PDa
  next : Addr
  tls : Ty → Option Addr
  tlsDa : Option Addr
  ctxs : List (List PCell)

def upd {α β : Type} [DecidableEq α] (f : α → β) (a : α) (v : β) : α → β := fun x => if x = a then v else f x

namespace PtrStore

/-- Empty storage. -/
def empty : PtrStore := ⟨fun _ => none, fun _ => none, 0, fun _ => none, none, []⟩

/-- `tls::read_ptr<slot<E>>()` and access to the slot, error.hpp:417, 435, 455, 474. -/
def slotGet (ty : Ty) (m : PtrStore) : Option (Option Cell) :=
  match m.tls ty with
  | none => some none
  | some a => match m.mem a with
    | none => none
    | some s => some (some s.cell)

/-- `optional::load(err_id, e)` on the current slot, error.hpp:438, 458, 479; move assignment error.hpp:420. -/
def slotSet (ty : Ty) (id : Id) (v : Val) (m : PtrStore) : Option PtrStore :=
  match m.tls ty with
  | none => none
  | some a => match m.mem a with
    | none => none
    | some s => some { m with mem := upd m.mem a (some { s with cell := some (id, v) }) }

/-- `tls::read_ptr<slot<dynamic_allocator>>()` and its key, error.hpp:336-338, 348-350. -/
def daKey (m : PtrStore) : Option (Option Id) :=
  match m.tlsDa with
  | none => some none
  | some a => match m.dmem a with
    | none => none
    | some d => some (some d.key)

/-- `~slot`, error.hpp:130-133: the slot must be alive and must not be bound. -/
def freeSlot (ty : Ty) (a : Addr) (m : PtrStore) : Option PtrStore :=
  match m.mem a with
  | none => none
  | some _ => if m.tls ty = some a then none else some { m with mem := upd m.mem a none }

/-- `~capture_list`, detail/capture_list.hpp:76-84. -/
def freeNodes : List (Ty × Addr) → PtrStore → Option PtrStore
  | [], m => some m
  | (ty, a) :: ns, m => (freeSlot ty a m).bind (freeNodes ns)

/-- `slot<dynamic_allocator>::load(err_id)`: `optional::load(int)`, detail/optional.hpp:104-111: destroy the current allocator, if any,
and construct an empty one. -/
def daReset (id : Id) (m : PtrStore) : Option PtrStore :=
  match m.tlsDa with
  | none => none
  | some a => match m.dmem a with
    | none => none
    | some d => match freeNodes d.nodes m with
      | none => none
      | some m' => some { m' with dmem := upd m'.dmem a (some { d with key := id, nodes := [] }) }

/-- `dynamic_allocator::dynamic_load`, error.hpp:279-289: asserts that no slot of this type is bound, allocates a node at the end of
the list, loads it and activates it. The allocator must exist (key ≠ 0). -/
def daAppend (ty : Ty) (id : Id) (v : Val) (m : PtrStore) : Option PtrStore :=
  match m.tlsDa with
  | none => none
  | some a => match m.dmem a with
    | none => none
    | some d =>
      if d.key = 0#32 then none
      else match m.tls ty with
        | some _ => none
        | none => some { m with
            mem := upd m.mem m.next (some ⟨some (id, v), m.tls ty⟩)
            dmem := upd m.dmem a (some { d with nodes := d.nodes ++ [(ty, m.next)] })
            tls := upd m.tls ty (some m.next)
            next := m.next + 1 }

/-- Construct (empty) and `activate` the elements of a tuple in order: `tuple_for_each::activate`, context.hpp:183-188;
`slot::activate`, error.hpp:135-139. -/
def activate : List CellTy → PtrStore → List PCell × PtrStore
  | [], m => ([], m)
  | .obj ty :: cs, m =>
    let a := m.next
    let m := { m with
      mem := upd m.mem a (some ⟨none, m.tls ty⟩)
      tls := upd m.tls ty (some a)
      next := m.next + 1 }
    let (ps, m) := activate cs m
    (.obj ty a :: ps, m)
  | .da :: cs, m =>
    let a := m.next
    let m := { m with
      dmem := upd m.dmem a (some ⟨0#32, [], m.tlsDa⟩)
      tlsDa := some a
      next := m.next + 1 }
    let (ps, m) := activate cs m
    (.da a :: ps, m)

/-- `slot<E>::deactivate`, error.hpp:141-144. -/
def deactSlot (ty : Ty) (a : Addr) (m : PtrStore) : Option PtrStore :=
  match m.mem a with
  | none => none
  | some s => some { m with tls := upd m.tls ty s.prev }

/-- `dynamic_allocator::deactivate`, error.hpp:291-298. -/
def deactNodes : List (Ty × Addr) → PtrStore → Option PtrStore
  | [], m => some m
  | (ty, a) :: ns, m => (deactSlot ty a m).bind (deactNodes ns)

/-- `slot<dynamic_allocator>::deactivate`, error.hpp:317-323. -/
def deactDa (a : Addr) (m : PtrStore) : Option PtrStore :=
  match m.dmem a with
  | none => none
  | some d => match (if d.key ≠ 0#32 then deactNodes d.nodes m else some m) with
    | none => none
    | some m' => some { m' with tlsDa := d.prev }

/-- `tuple_for_each::deactivate`, context.hpp:190-195: last element first. -/
def deactivate : List PCell → PtrStore → Option PtrStore
  | [], m => some m
  | .obj ty a :: cs, m => (deactivate cs m).bind (deactSlot ty a)
  | .da a :: cs, m => (deactivate cs m).bind (deactDa a)

/-- The content of the nodes of an allocator. -/
def readNodes : List (Ty × Addr) → PtrStore → Option (List (Ty × Cell))
  | [], _ => some []
  | (ty, a) :: ns, m => match m.mem a, readNodes ns m with
    | some s, some cs => some ((ty, s.cell) :: cs)
    | _, _ => none

/-- The content of a (deactivated) context. -/
def readOut : List PCell → PtrStore → Option (List CtxCell)
  | [], _ => some []
  | .obj ty a :: cs, m => match m.mem a, readOut cs m with
    | some s, some r => some (.obj ty s.cell :: r)
    | _, _ => none
  | .da a :: cs, m => match m.dmem a with
    | none => none
    | some d => match readNodes d.nodes m, readOut cs m with
      | some ns, some r => some (.da d.key ns :: r)
      | _, _ => none

/-- Destroy the elements of a context: `~slot`, and for an allocator its nodes. -/
def destroy : List PCell → PtrStore → Option PtrStore
  | [], m => some m
  | .obj ty a :: cs, m => (freeSlot ty a m).bind (destroy cs)
  | .da a :: cs, m => match m.dmem a with
    | none => none
    | some d =>
      if m.tlsDa = some a then none
      else match freeNodes d.nodes m with
        | none => none
        | some m' => destroy cs { m' with dmem := upd m'.dmem a none }

/-- Construct and activate a context. A context never has two elements of the same type (property C17). -/
def push (spec : List CellTy) (m : PtrStore) : Option PtrStore :=
  if spec.Nodup then
    let (ps, m) := activate spec m
    some { m with ctxs := ps :: m.ctxs }
  else none

/-- Deactivate the innermost context, hand out its content, destroy it. -/
def pop (m : PtrStore) : Option (List CtxCell × PtrStore) :=
  match m.ctxs with
  | [] => none
  | f :: fs => match deactivate f m with
    | none => none
    | some m' => match readOut f m', destroy f m' with
      | some cells, some m'' => some (cells, { m'' with ctxs := fs })
      | _, _ => none

end PtrStore

instance : Store PtrStore where
  slotGet := PtrStore.slotGet
  slotSet := PtrStore.slotSet
  daKey := PtrStore.daKey
  daReset := PtrStore.daReset
  daAppend := PtrStore.daAppend
  push := PtrStore.push
  pop := PtrStore.pop

end Leaf
