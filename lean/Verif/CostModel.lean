import Verif.Small
import Verif.PtrStore

/-!
# Which memory is accessed

The operations of `PtrStore` again, each access to a thread-local pointer, to a slot or to an allocator being recorded; and running a program (as the sequence of operations `Small.eval`) with
this record. That the results are those of `PtrStore`, and of the interpreter, is proved in `CostLemmas`.
-/

namespace Leaf

/-- One access (reading, writing, constructing or destroying):
* `counter`: the atomic counter, error.hpp:540
* `cur`: the thread-local id of the current error, error.hpp:549-561
* `tls E`: the thread-local pointer to the innermost `slot<E>`, config/tls_cpp11.hpp:26-43
* `slot E`: a `slot<E>`, in a context or in a capture list, error.hpp:107-165
* `tlsDa`, `da`: the same for `slot<dynamic_allocator>`, error.hpp:174-323. -/
inductive Access
  | counter
  | cur
  | tls (ty : Ty)
  | slot (ty : Ty)
  | tlsDa
  | da
  deriving DecidableEq, Repr

/-- Operations on the storage that record what they access; `none`: undefined. -/
def Traced (α : Type) : Type := PtrStore → Option (α × PtrStore × List Access)

namespace Traced

def bind {α β : Type} (x : Traced α) (f : α → Traced β) : Traced β := fun m =>
  match x m with
  | none => none
  | some (a, m1, l1) => match f a m1 with
    | none => none
    | some (b, m2, l2) => some (b, m2, l1 ++ l2)

instance : Monad Traced where
  pure a := fun m => some (a, m, [])
  bind := bind

def ub {α : Type} : Traced α := fun _ => none

/-! ## Single accesses -/

def rdTls (ty : Ty) : Traced (Option Addr) := fun m => some (m.tls ty, m, [.tls ty])
def wrTls (ty : Ty) (p : Option Addr) : Traced Unit := fun m => some ((), { m with tls := upd m.tls ty p }, [.tls ty])
def rdSlot (ty : Ty) (a : Addr) : Traced PSlot := fun m => (m.mem a).map (·, m, [.slot ty])
def wrSlot (ty : Ty) (a : Addr) (s : PSlot) : Traced Unit := fun m => some ((), { m with mem := upd m.mem a (some s) }, [.slot ty])
def newSlot (ty : Ty) (s : PSlot) : Traced Addr := fun m => some (m.next, { m with mem := upd m.mem m.next (some s), next := m.next + 1 }, [.slot ty])
def delSlot (ty : Ty) (a : Addr) : Traced Unit := fun m => (m.mem a).map fun _ => ((), { m with mem := upd m.mem a none }, [.slot ty])
def rdTlsDa : Traced (Option Addr) := fun m => some (m.tlsDa, m, [.tlsDa])
def wrTlsDa (p : Option Addr) : Traced Unit := fun m => some ((), { m with tlsDa := p }, [.tlsDa])
def rdDa (a : Addr) : Traced PDa := fun m => (m.dmem a).map (·, m, [.da])
def wrDa (a : Addr) (d : PDa) : Traced Unit := fun m => some ((), { m with dmem := upd m.dmem a (some d) }, [.da])
def newDa (d : PDa) : Traced Addr := fun m => some (m.next, { m with dmem := upd m.dmem m.next (some d), next := m.next + 1 }, [.da])
def delDa (a : Addr) : Traced Unit := fun m => (m.dmem a).map fun _ => ((), { m with dmem := upd m.dmem a none }, [.da])

/-- The active contexts are local variables of the functions that handle errors; these two are not recorded. -/
def frames : Traced (List (List PCell)) := fun m => some (m.ctxs, m, [])
def setFrames (fs : List (List PCell)) : Traced Unit := fun m => some ((), { m with ctxs := fs }, [])

/-! ## The operations -/

/-- As `PtrStore.slotGet`: error.hpp:417, 435, 455, 474. -/
def slotGet (ty : Ty) : Traced (Option Cell) := do
  match ← rdTls ty with
  | none => return none
  | some a => return some (← rdSlot ty a).cell

/-- As `PtrStore.slotSet`: error.hpp:420, 438, 458, 479. (The code has the pointer from `slotGet`; here it is read again.) -/
def slotSet (ty : Ty) (id : Id) (v : Val) : Traced Unit := do
  match ← rdTls ty with
  | none => ub
  | some a => do
    let s ← rdSlot ty a
    wrSlot ty a { s with cell := some (id, v) }

/-- As `PtrStore.daKey`: error.hpp:336-338, 348-350. -/
def daKey : Traced (Option Id) := do
  match ← rdTlsDa with
  | none => return none
  | some a => return some (← rdDa a).key

/-- As `PtrStore.freeSlot`: `~slot`, error.hpp:130-133. -/
def freeSlot (ty : Ty) (a : Addr) : Traced Unit := do
  if (← rdTls ty) = some a then ub else delSlot ty a

/-- As `PtrStore.freeNodes`: detail/capture_list.hpp:76-84. -/
def freeNodes : List (Ty × Addr) → Traced Unit
  | [] => pure ()
  | (ty, a) :: ns => do freeSlot ty a; freeNodes ns

/-- As `PtrStore.daReset`: detail/optional.hpp:104-111. -/
def daReset (id : Id) : Traced Unit := do
  match ← rdTlsDa with
  | none => ub
  | some a => do
    let d ← rdDa a
    freeNodes d.nodes
    wrDa a { d with key := id, nodes := [] }

/-- As `PtrStore.daAppend`: error.hpp:279-289, capture_list.hpp:41-46 (the node is linked in through `last_`). -/
def daAppend (ty : Ty) (id : Id) (v : Val) : Traced Unit := do
  match ← rdTlsDa with
  | none => ub
  | some a => do
    let d ← rdDa a
    if d.key = 0#32 then ub
    else match ← rdTls ty with
      | some _ => ub
      | none => do
        let b ← newSlot ty ⟨some (id, v), none⟩
        wrDa a { d with nodes := d.nodes ++ [(ty, b)] }
        wrTls ty (some b)

/-- As `PtrStore.activate`: context.hpp:183-188; error.hpp:135-139. -/
def activate : List CellTy → Traced (List PCell)
  | [] => pure []
  | .obj ty :: cs => do
    let p ← rdTls ty
    let a ← newSlot ty ⟨none, p⟩
    wrTls ty (some a)
    return .obj ty a :: (← activate cs)
  | .da :: cs => do
    let p ← rdTlsDa
    let a ← newDa ⟨0#32, [], p⟩
    wrTlsDa (some a)
    return .da a :: (← activate cs)

/-- As `PtrStore.deactSlot`: error.hpp:141-144. -/
def deactSlot (ty : Ty) (a : Addr) : Traced Unit := do
  let s ← rdSlot ty a
  wrTls ty s.prev

/-- As `PtrStore.deactNodes`: error.hpp:291-298. -/
def deactNodes : List (Ty × Addr) → Traced Unit
  | [] => pure ()
  | (ty, a) :: ns => do deactSlot ty a; deactNodes ns

/-- As `PtrStore.deactDa`: error.hpp:317-323. -/
def deactDa (a : Addr) : Traced Unit := do
  let d ← rdDa a
  if d.key ≠ 0#32 then deactNodes d.nodes
  wrTlsDa d.prev

/-- As `PtrStore.deactivate`: context.hpp:190-195. -/
def deactivate : List PCell → Traced Unit
  | [] => pure ()
  | .obj ty a :: cs => do deactivate cs; deactSlot ty a
  | .da a :: cs => do deactivate cs; deactDa a

/-- As `PtrStore.readNodes`. -/
def readNodes : List (Ty × Addr) → Traced (List (Ty × Cell))
  | [] => pure []
  | (ty, a) :: ns => do
    let s ← rdSlot ty a
    return (ty, s.cell) :: (← readNodes ns)

/-- As `PtrStore.readOut`. -/
def readOut : List PCell → Traced (List CtxCell)
  | [] => pure []
  | .obj ty a :: cs => do
    let s ← rdSlot ty a
    return .obj ty s.cell :: (← readOut cs)
  | .da a :: cs => do
    let d ← rdDa a
    let ns ← readNodes d.nodes
    return .da d.key ns :: (← readOut cs)

/-- As `PtrStore.destroy`. -/
def destroy : List PCell → Traced Unit
  | [] => pure ()
  | .obj ty a :: cs => do freeSlot ty a; destroy cs
  | .da a :: cs => do
    let d ← rdDa a
    if (← rdTlsDa) = some a then ub
    else do
      freeNodes d.nodes
      delDa a
      destroy cs

/-- As `PtrStore.push`. -/
def push (spec : List CellTy) : Traced Unit :=
  if spec.Nodup then do
    let ps ← activate spec
    setFrames (ps :: (← frames))
  else ub

/-- As `PtrStore.pop`. -/
def pop : Traced (List CtxCell) := do
  match ← frames with
  | [] => ub
  | f :: fs => do
    deactivate f
    let cells ← readOut f
    destroy f
    setFrames fs
    return cells

end Traced

/-! ## Programs -/

/-- An operation on the storage, executed by a thread. -/
def Traced.lift {α : Type} (x : Traced α) (w : World PtrStore) : Option (α × World PtrStore × List Access) :=
  (x w.mem).map fun r => (r.1, { w with mem := r.2.1 }, r.2.2)

/-- One operation of a program, with the accesses it makes. -/
def Op.execA (cfg : Cfg) : (o : Op) → World PtrStore → Option (o.Res × World PtrStore × List Access)
  | .gen => fun w => (Op.exec cfg .gen w).map fun r => (r.1, r.2, [.counter])
  | .getCur => fun w => some (w.cur, w, [.cur])
  | .setCur id => fun w => some ((), { w with cur := id }, [.cur])
  | .emit e h => fun w => (Op.exec cfg (.emit e h) w).map fun r => (r.1, r.2, [])
  | .pushHandling e => fun w => (Op.exec cfg (.pushHandling e) w).map fun r => (r.1, r.2, [])
  | .popHandling => fun w => (Op.exec cfg .popHandling w).map fun r => (r.1, r.2, [])
  | .currentException => fun w => (Op.exec cfg .currentException w).map fun r => (r.1, r.2, [])
  | .slotGet ty => (Traced.slotGet ty).lift
  | .slotSet ty id v => (Traced.slotSet ty id v).lift
  | .daKey => Traced.daKey.lift
  | .daReset id => (Traced.daReset id).lift
  | .daAppend ty id v => (Traced.daAppend ty id v).lift
  | .pushCtx spec => (Traced.push spec).lift
  | .popCtx => Traced.pop.lift

/-- All operations, one after the other, with the accesses they make. -/
def Act.runA {α : Type} (cfg : Cfg) : Act α → World PtrStore → Option (α × World PtrStore × List Access)
  | .ret a => fun w => some (a, w, [])
  | .ub => fun _ => none
  | .op o k => fun w => match o.execA cfg w with
    | none => none
    | some (r, w1, l1) => match (k r).runA cfg w1 with
      | none => none
      | some (a, w2, l2) => some (a, w2, l1 ++ l2)

/-- A program, with the accesses it makes, in order. -/
def evalA (cfg : Cfg) (p : Prog) (w : World PtrStore) : Option (Out × World PtrStore × List Access) := (Small.eval cfg p).runA cfg w

end Leaf
