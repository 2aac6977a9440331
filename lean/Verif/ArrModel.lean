import Verif.PtrStore
import Verif.TlsModel

/-!
# Error storage with the array based thread-local storage

The storage of PtrStore.lean, with every access to a thread-local pointer going through config/tls_array.hpp (TlsModel.lean): `tls::read_ptr<slot<E>>()` and `tls::write_ptr<slot<E>>()` look up
the index of the type and access the array of the thread. Pointers are stored as words of the platform's width; `none` is undefined behaviour, a violated assertion, an access outside the array, or
an address that does not fit a pointer.

The current id (`tls_tag_id_factory_current_id`) is not moved to the array here: it remains the field `cur` of `World` (as a further variable of the array it is covered by C36).
-/

namespace Leaf

/-- A pointer as stored in the array; the null pointer is 0. -/
def encodePtr (w : Nat) : Option Addr → BitVec w
  | none => 0
  | some a => BitVec.ofNat w (a + 1)

def decodePtr {w : Nat} (p : BitVec w) : Option Addr := if p.toNat = 0 then none else some (p.toNat - 1)

/-- The type whose thread-local pointer refers to a slot: `slot<E>`, `slot<dynamic_allocator>`. -/
def CellTy.key : CellTy → TlsKey
  | .obj ty => .ptr (ty + 1)
  | .da => .ptr 0

/-- Storage of the thread `th`; `tls`: the arrays of all threads, and the indices. The other fields are those of `PtrStore`. -/
structure ArrStore (c : TlsCfg) where
  mem : Addr → Option PSlot
  dmem : Addr → Option PDa
  next : Addr
  th : Nat
  tls : TlsMem c.width
  ctxs : List (List PCell)

namespace ArrStore
variable {c : TlsCfg}

/-- `tls::read_ptr<slot<E>>()`, tls_array.hpp:113-121 -/
def readTls (k : CellTy) (m : ArrStore c) : Option (Option Addr) := (m.tls.read c m.th k.key).map decodePtr

/-- `tls::write_ptr<slot<E>>(p)`, tls_array.hpp:123-130 -/
def writeTls (k : CellTy) (p : Option Addr) (m : ArrStore c) : Option (ArrStore c) :=
  (m.tls.write c m.th k.key (encodePtr c.width p)).map fun t => { m with tls := t }

/-- A new address; it must fit a (non-null) pointer. -/
def alloc (m : ArrStore c) : Option (Addr × ArrStore c) :=
  if m.next + 1 < 2 ^ c.width then some (m.next, { m with next := m.next + 1 }) else none

/-- As `PtrStore.slotGet`. -/
def slotGet (ty : Ty) (m : ArrStore c) : Option (Option Cell) := do
  match ← m.readTls (.obj ty) with
  | none => some none
  | some a => match m.mem a with
    | none => none
    | some s => some (some s.cell)

/-- As `PtrStore.slotSet`. -/
def slotSet (ty : Ty) (id : Id) (v : Val) (m : ArrStore c) : Option (ArrStore c) := do
  match ← m.readTls (.obj ty) with
  | none => none
  | some a => match m.mem a with
    | none => none
    | some s => some { m with mem := upd m.mem a (some { s with cell := some (id, v) }) }

/-- As `PtrStore.daKey`. -/
def daKey (m : ArrStore c) : Option (Option Id) := do
  match ← m.readTls .da with
  | none => some none
  | some a => match m.dmem a with
    | none => none
    | some d => some (some d.key)

/-- `~slot`, error.hpp:130-133; as `PtrStore.freeSlot`. -/
def freeSlot (ty : Ty) (a : Addr) (m : ArrStore c) : Option (ArrStore c) :=
  match m.mem a with
  | none => none
  | some _ => do
    if (← m.readTls (.obj ty)) = some a then none else some { m with mem := upd m.mem a none }

/-- As `PtrStore.freeNodes`. -/
def freeNodes : List (Ty × Addr) → ArrStore c → Option (ArrStore c)
  | [], m => some m
  | (ty, a) :: ns, m => (freeSlot ty a m).bind (freeNodes ns)

/-- As `PtrStore.daReset`. -/
def daReset (id : Id) (m : ArrStore c) : Option (ArrStore c) := do
  match ← m.readTls .da with
  | none => none
  | some a => match m.dmem a with
    | none => none
    | some d => match freeNodes d.nodes m with
      | none => none
      | some m' => some { m' with dmem := upd m'.dmem a (some { d with key := id, nodes := [] }) }

/-- As `PtrStore.daAppend`. -/
def daAppend (ty : Ty) (id : Id) (v : Val) (m : ArrStore c) : Option (ArrStore c) := do
  match ← m.readTls .da with
  | none => none
  | some a => match m.dmem a with
    | none => none
    | some d =>
      if d.key = 0#32 then none
      else match ← m.readTls (.obj ty) with
        | some _ => none
        | none => do
          let (b, m) ← m.alloc
          let m := { m with
            mem := upd m.mem b (some ⟨some (id, v), none⟩)
            dmem := upd m.dmem a (some { d with nodes := d.nodes ++ [(ty, b)] }) }
          m.writeTls (.obj ty) (some b)

/-- As `PtrStore.activate`: `slot::activate`, error.hpp:135-139: `prev_ = tls::read_ptr<slot<E>>(); tls::write_ptr<slot<E>>(this)`. -/
def activate : List CellTy → ArrStore c → Option (List PCell × ArrStore c)
  | [], m => some ([], m)
  | .obj ty :: cs, m => do
    let (a, m) ← m.alloc
    let prev ← m.readTls (.obj ty)
    let m ← { m with mem := upd m.mem a (some ⟨none, prev⟩) }.writeTls (.obj ty) (some a)
    let (ps, m) ← activate cs m
    return (.obj ty a :: ps, m)
  | .da :: cs, m => do
    let (a, m) ← m.alloc
    let prev ← m.readTls .da
    let m ← { m with dmem := upd m.dmem a (some ⟨0#32, [], prev⟩) }.writeTls .da (some a)
    let (ps, m) ← activate cs m
    return (.da a :: ps, m)

/-- `slot<E>::deactivate`, error.hpp:141-144. -/
def deactSlot (ty : Ty) (a : Addr) (m : ArrStore c) : Option (ArrStore c) :=
  match m.mem a with
  | none => none
  | some s => m.writeTls (.obj ty) s.prev

/-- As `PtrStore.deactNodes`. -/
def deactNodes : List (Ty × Addr) → ArrStore c → Option (ArrStore c)
  | [], m => some m
  | (ty, a) :: ns, m => (deactSlot ty a m).bind (deactNodes ns)

/-- As `PtrStore.deactDa`. -/
def deactDa (a : Addr) (m : ArrStore c) : Option (ArrStore c) :=
  match m.dmem a with
  | none => none
  | some d => match (if d.key ≠ 0#32 then deactNodes d.nodes m else some m) with
    | none => none
    | some m' => m'.writeTls .da d.prev

/-- As `PtrStore.deactivate`. -/
def deactivate : List PCell → ArrStore c → Option (ArrStore c)
  | [], m => some m
  | .obj ty a :: cs, m => (deactivate cs m).bind (deactSlot ty a)
  | .da a :: cs, m => (deactivate cs m).bind (deactDa a)

/-- As `PtrStore.readNodes`. -/
def readNodes : List (Ty × Addr) → ArrStore c → Option (List (Ty × Cell))
  | [], _ => some []
  | (ty, a) :: ns, m => match m.mem a, readNodes ns m with
    | some s, some cs => some ((ty, s.cell) :: cs)
    | _, _ => none

/-- As `PtrStore.readOut`. -/
def readOut : List PCell → ArrStore c → Option (List CtxCell)
  | [], _ => some []
  | .obj ty a :: cs, m => match m.mem a, readOut cs m with
    | some s, some r => some (.obj ty s.cell :: r)
    | _, _ => none
  | .da a :: cs, m => match m.dmem a with
    | none => none
    | some d => match readNodes d.nodes m, readOut cs m with
      | some ns, some r => some (.da d.key ns :: r)
      | _, _ => none

/-- As `PtrStore.destroy`. -/
def destroy : List PCell → ArrStore c → Option (ArrStore c)
  | [], m => some m
  | .obj ty a :: cs, m => (freeSlot ty a m).bind (destroy cs)
  | .da a :: cs, m => match m.dmem a with
    | none => none
    | some d => do
      if (← m.readTls .da) = some a then none
      else match freeNodes d.nodes m with
        | none => none
        | some m' => destroy cs { m' with dmem := upd m'.dmem a none }

/-- As `PtrStore.push`. -/
def push (spec : List CellTy) (m : ArrStore c) : Option (ArrStore c) :=
  if spec.Nodup then do
    let (ps, m) ← activate spec m
    return { m with ctxs := ps :: m.ctxs }
  else none

/-- As `PtrStore.pop`. -/
def pop (m : ArrStore c) : Option (List CtxCell × ArrStore c) :=
  match m.ctxs with
  | [] => none
  | f :: fs => match deactivate f m with
    | none => none
    | some m' => match readOut f m', destroy f m' with
      | some cells, some m'' => some (cells, { m'' with ctxs := fs })
      | _, _ => none

end ArrStore

instance (c : TlsCfg) : Store (ArrStore c) where
  slotGet := ArrStore.slotGet
  slotSet := ArrStore.slotSet
  daKey := ArrStore.daKey
  daReset := ArrStore.daReset
  daAppend := ArrStore.daAppend
  push := ArrStore.push
  pop := ArrStore.pop

/-- The pointer-level storage, with a record of the types whose thread-local pointer is written when slots are activated, and of the number of addresses used (`base.next`). -/
structure LogStore where
  base : PtrStore
  bound : List CellTy

instance : Store LogStore where
  slotGet ty m := PtrStore.slotGet ty m.base
  slotSet ty id v m := (PtrStore.slotSet ty id v m.base).map fun b => { m with base := b }
  daKey m := PtrStore.daKey m.base
  daReset id m := (PtrStore.daReset id m.base).map fun b => { m with base := b }
  daAppend ty id v m := (PtrStore.daAppend ty id v m.base).map fun b => ⟨b, .obj ty :: m.bound⟩
  push spec m := (PtrStore.push spec m.base).map fun b => ⟨b, spec ++ m.bound⟩
  pop m := (PtrStore.pop m.base).map fun (cs, b) => (cs, { m with base := b })

end Leaf
