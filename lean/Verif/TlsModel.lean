/-!
# Model of the array based thread-local storage

config/tls_array.hpp: per-type variables implemented on top of an array of pointers per thread (`read_void_ptr`, `write_void_ptr`, supplied by the platform; config/tls_freertos.hpp:32-40).

* Pointers are bit vectors of the platform's width `w`; the null pointer is 0.
* Types are numbers. `ptr n` is used with `read_ptr`/`write_ptr`, `tag n` with `read_uint`/`write_uint`.
* `none` is undefined behaviour, a violated `BOOST_LEAF_ASSERT`, or access outside the array.
* The static variable `alloc_tls_index<T>::idx` has a dynamic initializer, which runs once, before `main` (event `init`); until then it is zero.
-/

namespace Leaf

/-- The configuration: `BOOST_LEAF_CFG_TLS_ARRAY_START_INDEX`, `BOOST_LEAF_CFG_TLS_ARRAY_SIZE`, the largest value of `BOOST_LEAF_CFG_TLS_INDEX_TYPE`, and the width of pointers.
The conditions are the `static_assert`s of tls_array.hpp:45-52, 126, 133. -/
structure TlsCfg where
  start : Nat
  size : Nat
  indexMax : Nat
  width : Nat
  size_gt : start < size
  size_le : size - 1 ≤ indexMax
  width_ge : 32 ≤ width

inductive TlsKey
  | ptr (n : Nat)
  | tag (n : Nat)
  deriving DecidableEq, Repr

/-- The static variables and the arrays of all threads (zero-initialized). -/
structure TlsMem (w : Nat) where
  /-- `index_counter<>::c_`, tls_array.hpp:70, 102-103 -/
  counter : Nat
  /-- `tls_index<T>::idx`, tls_array.hpp:90-94, 105-106 -/
  index : TlsKey → Nat
  /-- `alloc_tls_index<T>::idx`, tls_array.hpp:96-100, 108-109 -/
  alloc : TlsKey → Nat
  /-- whether the initializer of `alloc_tls_index<T>::idx` has run -/
  ready : TlsKey → Bool
  /-- the array of each thread -/
  arr : Nat → Nat → BitVec w

def TlsMem.initial (c : TlsCfg) : TlsMem c.width :=
  ⟨c.start, fun _ => c.start, fun _ => 0, fun _ => false, fun _ _ => 0⟩

/-- What a program does with the storage. `th` is the calling thread. -/
inductive TlsOp (w : Nat)
  /-- the initializer of `alloc_tls_index<T>::idx` runs -/
  | init (k : TlsKey)
  | readPtr (th n : Nat)
  | writePtr (th n : Nat) (p : BitVec w)
  | readUint (th n : Nat)
  | writeUint (th n : Nat) (x : BitVec 32)

/-- What a read returns. -/
inductive TlsOut (w : Nat)
  | ptr (p : BitVec w)
  | uint (x : BitVec 32)
  deriving DecidableEq

/-- `index_counter::next_`, tls_array.hpp:72-78: increments, asserts, converts to the index type. -/
def TlsMem.next (c : TlsCfg) (m : TlsMem c.width) : Option (Nat × TlsMem c.width) :=
  let idx := m.counter + 1
  if idx > c.start ∧ idx < c.size then some (idx % (c.indexMax + 1), { m with counter := idx }) else none

/-- The initializer, tls_array.hpp:108-109. -/
def TlsMem.init (c : TlsCfg) (m : TlsMem c.width) (k : TlsKey) : Option (TlsMem c.width) :=
  if m.ready k then none
  else do
    let (i, m) ← m.next c
    return { m with
      index := fun k' => if k' = k then i else m.index k'
      alloc := fun k' => if k' = k then i else m.alloc k'
      ready := fun k' => if k' = k then true else m.ready k' }

/-- `read_ptr`, tls_array.hpp:113-121. -/
def TlsMem.read (c : TlsCfg) (m : TlsMem c.width) (th : Nat) (k : TlsKey) : Option (BitVec c.width) :=
  let i := m.index k
  if i = c.start then some 0
  else if 1 ≤ i ∧ i - 1 < c.size then some (m.arr th (i - 1)) else none

/-- `write_ptr`, tls_array.hpp:123-130. -/
def TlsMem.write (c : TlsCfg) (m : TlsMem c.width) (th : Nat) (k : TlsKey) (p : BitVec c.width) : Option (TlsMem c.width) :=
  let i := m.alloc k
  if 1 ≤ i ∧ i - 1 < c.size then
    some { m with arr := fun t j => if t = th ∧ j = i - 1 then p else m.arr t j }
  else none

/-- The operations; reads return something. `read_uint`, `write_uint`: tls_array.hpp:134-147. -/
def TlsMem.step (c : TlsCfg) (m : TlsMem c.width) : TlsOp c.width → Option (List (TlsOut c.width) × TlsMem c.width)
  | .init k => (m.init c k).map (([], ·))
  | .readPtr th n => (m.read c th (.ptr n)).map fun p => ([.ptr p], m)
  | .writePtr th n p => (m.write c th (.ptr n) p).map (([], ·))
  | .readUint th n => (m.read c th (.tag n)).map fun p => ([.uint (p.setWidth 32)], m)
  | .writeUint th n x => (m.write c th (.tag n) (x.setWidth c.width)).map (([], ·))

/-- What the reads of a sequence of operations return. -/
def TlsMem.run (c : TlsCfg) (m : TlsMem c.width) : List (TlsOp c.width) → Option (List (TlsOut c.width))
  | [] => some []
  | op :: ops => do
    let (o, m) ← m.step c op
    let os ← m.run c ops
    return o ++ os

end Leaf
