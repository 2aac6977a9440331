import Verif.PtrStore
import Verif.Prog

/-!
# Model of `context` objects managed by the user

The functions of `handle_errors.hpp` create a context, activate it, deactivate it and destroy it at fixed places (`PtrStore.push`, `PtrStore.pop`). Users can do that themselves (context.hpp:265-418, documented for
transporting error objects by moving the context). Here contexts are objects with a name (a number) in a pool, on top of the pointer-level storage `PtrStore`: slots at addresses, `prev_` pointers, thread-local
pointers. Outcome `none`: undefined behaviour or a violated assertion.

Between operations on contexts, any program may run (`UOp.run`).

Simplifications. The linked list in a `dynamic_allocator` is a list here (see `CaptureListModel` for the pointers). That `capture_list::unload` leaves `last_` of a `dynamic_allocator` dangling if there were nodes is recorded as
`spent`; activating such a context is counted as undefined behaviour here already (in the code, only capturing an object in it is), like moving it. `thread_id_` is not modelled: there is one thread.
-/

namespace Leaf

/-- A `context` object: its tuple, `is_active_` (context.hpp:271-272), and whether `last_` of its `dynamic_allocator` is dangling. -/
structure UCtx where
  cells : List PCell
  active : Bool
  spent : Bool
  deriving DecidableEq, Repr

/-- A thread with its context objects. `w.mem.ctxs` lists the tuples of the active ones, latest activated first (ghost). -/
structure UWorld where
  w : World PtrStore
  pool : Nat → Option UCtx

def UWorld.setPool (u : UWorld) (c : Nat) (x : Option UCtx) : UWorld := { u with pool := upd u.pool c x }
def UWorld.setMem (u : UWorld) (m : PtrStore) : UWorld := { u with w := { u.w with mem := m } }

namespace PtrStore

/-- The default constructors `slot()`, error.hpp:116-119, in a tuple. -/
def build : List CellTy → PtrStore → List PCell × PtrStore
  | [], m => ([], m)
  | .obj ty :: cs, m =>
    let (ps, m') := build cs { m with mem := upd m.mem m.next (some ⟨none, none⟩), next := m.next + 1 }
    (.obj ty m.next :: ps, m')
  | .da :: cs, m =>
    let (ps, m') := build cs { m with dmem := upd m.dmem m.next (some ⟨0#32, [], none⟩), next := m.next + 1 }
    (.da m.next :: ps, m')

/-- `tuple_for_each::activate`, context.hpp:183-188, with `slot::activate`, error.hpp:135-139. -/
def rebind : List PCell → PtrStore → Option PtrStore
  | [], m => some m
  | .obj ty a :: cs, m =>
    match m.mem a with
    | none => none
    | some s => rebind cs { m with mem := upd m.mem a (some { s with prev := m.tls ty }), tls := upd m.tls ty (some a) }
  | .da a :: cs, m =>
    match m.dmem a with
    | none => none
    | some d => rebind cs { m with dmem := upd m.dmem a (some { d with prev := m.tlsDa }), tlsDa := some a }

/-- The move constructor of a tuple: `slot(slot &&)`, error.hpp:121-126, which asserts that `prev_` of the source is null; `optional(optional &&)`, detail/optional.hpp:37-46, which leaves the source empty;
`dynamic_allocator(dynamic_allocator &&)`, error.hpp:269-277, which takes over the list. -/
def moveCells : List PCell → PtrStore → Option (List PCell × PtrStore)
  | [], m => some ([], m)
  | .obj ty a :: cs, m =>
    match m.mem a with
    | none => none
    | some s =>
      if s.prev ≠ none then none
      else do
        let m1 := { m with mem := upd (upd m.mem m.next (some ⟨s.cell, none⟩)) a (some { s with cell := none }), next := m.next + 1 }
        let (ps, m2) ← moveCells cs m1
        return (.obj ty m.next :: ps, m2)
  | .da a :: cs, m =>
    match m.dmem a with
    | none => none
    | some d =>
      if d.prev ≠ none then none
      else do
        let m1 := { m with dmem := upd (upd m.dmem m.next (some ⟨d.key, d.nodes, none⟩)) a (some { d with key := 0#32, nodes := [] }), next := m.next + 1 }
        let (ps, m2) ← moveCells cs m1
        return (.da m.next :: ps, m2)

end PtrStore

section
variable {M : Type} [Store M]

/-- `slot<E>::unload`, error.hpp:411-426, takes the object out of the slot: the slot bound to the type has no object of this error; or no slot is bound, and the object is passed to
`dynamic_load` (`value() &&`, detail/optional.hpp:171-178, empties the slot, whether or not the object is captured). -/
def takenOut (cfg : Cfg) (id : Id) (c : Cell) (bound : Option Cell) : Bool :=
  (c.hasValue id).isSome && (match bound with
    | some p => (p.hasValue id).isNone
    | none => cfg.capture)

/-- `slot<E>::unload`; returns what remains in the slot. -/
def slotUnloadRest (cfg : Cfg) (id : Id) (ty : Ty) (c : Cell) : Comp M Cell := do
  let bound ← slotGet ty
  slotUnload cfg id ty c
  return if takenOut cfg id c bound then none else c

/-- `context::handle_error`, handle_errors.hpp:478-499. -/
def handleError (cfg : Cfg) (specs : List (List Arg)) (body : Nat → List ArgVal → Comp M Out) (cells : List CtxCell) (id : Id) : Comp M Out := do
  let loc ← ctxLoc id cells
  match selectAll cfg cells id none specs with
  | some i => callHandler cfg specs body cells id none loc i
  | none => ub

end

/-- Read the slot at `a`; it must not be the one bound to its type. -/
def readSlot (ty : Ty) (a : Addr) : Comp PtrStore Cell := fun w =>
  match w.mem.mem a with
  | none => none
  | some s => if w.mem.tls ty = some a then none else some (s.cell, w)

/-- Write the slot at `a`. -/
def writeSlot (a : Addr) (c : Cell) : Comp PtrStore Unit := fun w =>
  match w.mem.mem a with
  | none => none
  | some s => some ((), { w with mem := { w.mem with mem := upd w.mem.mem a (some { s with cell := c }) } })

/-- Read a `slot<dynamic_allocator>`. -/
def readDa (a : Addr) : Comp PtrStore PDa := fun w => (w.mem.dmem a).map (·, w)

/-- The loop over the nodes in `capture_list::unload`, detail/capture_list.hpp:91-95. -/
def unloadNodesAt (cfg : Cfg) (id : Id) : List (Ty × Addr) → Comp PtrStore Unit
  | [] => pure ()
  | (ty, a) :: ns => do
    slotUnload cfg id ty (← readSlot ty a)
    unloadNodesAt cfg id ns

/-- The destructor of the list that was moved out, detail/capture_list.hpp:76-84; `first_` is null. -/
def clearDa (a : Addr) (d : PDa) : Comp PtrStore Unit := fun w =>
  match PtrStore.freeNodes d.nodes w.mem with
  | none => none
  | some m => some ((), { w with mem := { m with dmem := upd m.dmem a (some { d with nodes := [] }) } })

/-- One element of a tuple: `slot<E>::unload`, error.hpp:411-426; `slot<dynamic_allocator>::unload`, error.hpp:325-331. -/
def unloadCellAt (cfg : Cfg) (id : Id) : PCell → Comp PtrStore Unit
  | .obj ty a => do
    let c ← slotUnloadRest cfg id ty (← readSlot ty a)
    writeSlot a c
  | .da a => do
    if id = 0#32 then ub
    let d ← readDa a
    if d.key ≠ 0#32 then do
      setCur id
      unloadNodesAt cfg id d.nodes
      clearDa a d

/-- `tuple_for_each::unload`, context.hpp:197-204: last element first. -/
def unloadAt (cfg : Cfg) (id : Id) : List PCell → Comp PtrStore Unit
  | [] => pure ()
  | x :: xs => do unloadAt cfg id xs; unloadCellAt cfg id x

/-- There are nodes in the `dynamic_allocator` of this tuple. -/
def PtrStore.hasNodes (m : PtrStore) : List PCell → Bool
  | [] => false
  | .obj _ _ :: cs => m.hasNodes cs
  | .da a :: cs => (match m.dmem a with | some d => !d.nodes.isEmpty | none => false) || m.hasNodes cs

/-- What users do. -/
inductive UOp
  /-- `context<E...> c;` -/
  | create (c : Nat) (spec : List CellTy)
  /-- `c.activate();` context.hpp:335-344 -/
  | activate (c : Nat)
  /-- `c.deactivate();` context.hpp:346-356 -/
  | deactivate (c : Nat)
  /-- `context<E...> d(std::move(c));` context.hpp:309-314 -/
  | move (d c : Nat)
  /-- `c.unload(id);` context.hpp:358-362 -/
  | unload (c : Nat) (id : Id)
  /-- `c.handle_error<R>(id, handlers...);` handle_errors.hpp:478-499 -/
  | handle (c : Nat) (id : Id) (specs : List (List Arg)) (body : Nat → List ArgVal → Prog)
  /-- the content of `c` is looked at: `c.get<E>(id)`, `c.print(...)` -/
  | look (c : Nat)
  /-- the lifetime of `c` ends: context.hpp:321-324 -/
  | destroy (c : Nat)
  /-- any other code -/
  | run (p : Prog)

/-- What is observed of an operation. -/
inductive UObs
  | nothing
  | out (o : Out)
  | content (cells : List CtxCell)
  deriving DecidableEq, Repr

/-- The context object `c`, which must not be active. -/
def UWorld.idle (u : UWorld) (c : Nat) : Option UCtx :=
  match u.pool c with
  | some x => if x.active then none else some x
  | none => none

def UWorld.step (cfg : Cfg) (u : UWorld) : UOp → Option (UObs × UWorld)
  | .create c spec =>
    match u.pool c with
    | some _ => none
    | none =>
      -- a context has at most one slot for a type: C17
      if spec.Nodup then
        let r := PtrStore.build spec u.w.mem
        some (.nothing, (u.setMem r.2).setPool c (some ⟨r.1, false, false⟩))
      else none
  | .activate c => do
    let x ← u.idle c
    if x.spent then none
    else do
      let m ← PtrStore.rebind x.cells u.w.mem
      return (.nothing, (u.setMem { m with ctxs := x.cells :: m.ctxs }).setPool c (some { x with active := true }))
  | .deactivate c =>
    match u.pool c with
    | none => none
    | some x =>
      if x.active then do
        let m ← PtrStore.deactivate x.cells u.w.mem
        return (.nothing, (u.setMem { m with ctxs := m.ctxs.erase x.cells }).setPool c (some { x with active := false }))
      else none
  | .move d c =>
    match u.pool d with
    | some _ => none
    | none => do
      let x ← u.idle c
      if x.spent then none
      else do
        let (cells, m) ← PtrStore.moveCells x.cells u.w.mem
        return (.nothing, (u.setMem m).setPool d (some ⟨cells, false, false⟩))
  | .unload c id => do
    let x ← u.idle c
    let ((), w) ← unloadAt cfg id x.cells u.w
    return (.nothing, { u with w := w }.setPool c (some { x with spent := x.spent || u.w.mem.hasNodes x.cells }))
  | .handle c id specs body => do
    let x ← u.idle c
    let cells ← PtrStore.readOut x.cells u.w.mem
    let (o, w) ← handleError cfg specs (fun i args => eval cfg (body i args)) cells id u.w
    return (.out o, { u with w := w })
  | .look c => do
    let x ← u.idle c
    let cells ← PtrStore.readOut x.cells u.w.mem
    return (.content cells, u)
  | .destroy c => do
    let x ← u.idle c
    let m ← PtrStore.destroy x.cells u.w.mem
    return (.nothing, (u.setMem m).setPool c none)
  | .run p => do
    let (o, w) ← eval cfg p u.w
    return (.out o, { u with w := w })

def UWorld.run (cfg : Cfg) (u : UWorld) : List UOp → Option (List UObs × UWorld)
  | [] => some ([], u)
  | op :: ops => do
    let (x, u) ← u.step cfg op
    let (xs, u) ← u.run cfg ops
    return (x :: xs, u)

/-- A thread that did nothing yet; `counter`: the shared counter of ids. -/
def UWorld.initial (counter : Id) : UWorld := ⟨⟨0#32, counter, 0, [], [], PtrStore.empty⟩, fun _ => none⟩

end Leaf
