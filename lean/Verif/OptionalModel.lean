import Verif.Ids
import Verif.Lifetimes

/-!
# Model of `detail::optional<T>`

The memory of `optional` objects: the key and the union. Every `T` constructed in a union is given a number, and destructor calls are logged. Outcome `none`
is undefined behaviour: reading or destroying a `T` that is not alive, or a violated assertion. Values of type `T` are numbers; a value that was
moved from becomes `mv v` for an arbitrary function `mv`; a default constructed value is `dflt`. Copy and default constructors of `T` may throw: operations using
them have an argument `thr` that says whether they do; move constructors of `T` do not throw. Not modelled: arguments that refer to the object's own value.
-/

namespace Leaf

/-- An `optional<T>` object, optional.hpp:18-20: `key_`, and the number and content of the `T` alive in the union, if any. -/
structure OCell where
  key : Id
  mem : Option (Nat × Nat)
  deriving DecidableEq, Repr

/-- All `optional` objects, by address; number for the next `T`; the `T` destroyed, latest first. -/
structure OPool where
  cells : Nat → Option OCell
  fresh : Nat
  dead : List Nat

def OPool.empty : OPool := ⟨fun _ => none, 0, []⟩

def OPool.put (p : OPool) (a : Nat) (c : Option OCell) : OPool := { p with cells := fun b => if b = a then c else p.cells b }

/-- Storage for a new object, its `key_` initialised, nothing alive in the union. -/
def OPool.alloc (p : OPool) (a : Nat) (key : Id) : Option OPool :=
  match p.cells a with
  | none => some (p.put a (some ⟨key, none⟩))
  | some _ => none

/-- `key_ = key`. -/
def OPool.setKey (p : OPool) (a : Nat) (key : Id) : Option OPool :=
  match p.cells a with
  | none => none
  | some c => some (p.put a (some { c with key := key }))

/-- `new (&value_) T(...)`: does not look at what the union contains. -/
def OPool.construct (p : OPool) (a : Nat) (v : Nat) : Option OPool :=
  match p.cells a with
  | none => none
  | some c => some { p.put a (some { c with mem := some (p.fresh, v) }) with fresh := p.fresh + 1 }

/-- Read `value_`. -/
def OPool.read (p : OPool) (a : Nat) : Option Nat :=
  match p.cells a with
  | none => none
  | some c => c.mem.map (·.2)

/-- Change `value_`. -/
def OPool.write (p : OPool) (a : Nat) (v : Nat) : Option OPool :=
  match p.cells a with
  | none => none
  | some c =>
    match c.mem with
    | none => none
    | some (o, _) => some (p.put a (some { c with mem := some (o, v) }))

/-- `key()`, optional.hpp:92-95. -/
def OPool.key (p : OPool) (a : Nat) : Option Id := (p.cells a).map (·.key)

/-- `reset`, optional.hpp:97-104. -/
def OPool.reset (p : OPool) (a : Nat) : Option OPool :=
  match p.cells a with
  | none => none
  | some c =>
    if c.key ≠ 0#32 then
      match c.mem with
      | none => none
      | some (o, _) => some { p.put a (some ⟨0#32, none⟩) with dead := o :: p.dead }
    else some p

/-- `load(key, v)`, optional.hpp:106-131; if `thr`, the constructor of `T` throws. -/
def OPool.load (p : OPool) (a : Nat) (key : Id) (v : Nat) (thr : Bool) : Option OPool :=
  if key = 0#32 then none
  else do
    let p ← p.reset a
    if thr then return p
    else do
      let p ← p.construct a v
      p.setKey a key

/-- `has_value(key)`, optional.hpp:143-153: the value, if found; outer `none`: assertion violated. -/
def OPool.hasValue (p : OPool) (a : Nat) (key : Id) : Option (Option Nat) :=
  if key = 0#32 then none
  else do
    let c ← p.cells a
    if c.key = key then do return some (← p.read a)
    else return none

/-- `has_value_any_key`, optional.hpp:133-141. -/
def OPool.hasValueAnyKey (p : OPool) (a : Nat) : Option (Option Nat) := do
  let c ← p.cells a
  if c.key ≠ 0#32 then do return some (← p.read a)
  else return none

/-- What users do with `optional` objects. -/
inductive OOp
  /-- `optional<T> a;`, optional.hpp:26-29 -/
  | mk (a : Nat)
  /-- `optional<T> a(key, v);`, optional.hpp:48-60 -/
  | mkLoaded (a : Nat) (key : Id) (v : Nat) (thr : Bool)
  /-- `optional<T> a(b);`, optional.hpp:31-36 -/
  | copyCtor (a b : Nat) (thr : Bool)
  /-- `optional<T> a(std::move(b));`, optional.hpp:38-46 -/
  | moveCtor (a b : Nat)
  /-- `a = b;`, optional.hpp:62-71 -/
  | copyAssign (a b : Nat) (thr : Bool)
  /-- `a = std::move(b);`, optional.hpp:73-82 -/
  | moveAssign (a b : Nat)
  /-- `a.reset();` -/
  | reset (a : Nat)
  /-- `a.load(key, v);` -/
  | load (a : Nat) (key : Id) (v : Nat) (thr : Bool)
  /-- `if( T * x = a.has_value(key) ) *x = v;` -/
  | modify (a : Nat) (key : Id) (v : Nat)
  /-- `T x = std::move(a).value(key);`, optional.hpp:176-183 -/
  | take (a : Nat) (key : Id)
  /-- `a.value_or_default(key)`, optional.hpp:185-191; it is `noexcept`, so a throwing constructor ends the program: not an outcome here -/
  | valueOrDefault (a : Nat) (key : Id)
  /-- the lifetime of `a` ends, optional.hpp:84-87 -/
  | drop (a : Nat)

/-- The operations. -/
def OPool.step (mv : Nat → Nat) (dflt : Nat) (p : OPool) : OOp → Option OPool
  | .mk a => p.alloc a 0#32
  | .mkLoaded a key v thr => do
    let p1 ← p.alloc a key
    -- if the constructor of the member throws, there is no object
    if thr then return p
    else do
      let p2 ← p1.construct a v
      if key = 0#32 then none else return p2
  | .copyCtor a b thr => do
    let key ← p.key b
    let p1 ← p.alloc a key
    if key ≠ 0#32 then do
      let v ← p1.read b
      if thr then return p
      else p1.construct a v
    else return p1
  | .moveCtor a b => do
    let key ← p.key b
    let p ← p.alloc a key
    if key ≠ 0#32 then do
      let v ← p.read b
      let p ← p.write b (mv v)
      let p ← p.construct a v
      p.reset b
    else return p
  | .copyAssign a b thr => do
    let p ← p.reset a
    let key ← p.key b
    if key ≠ 0#32 then do
      let v ← p.read b
      let p ← p.load a key v thr
      if thr then return p
      else p.setKey a key
    else return p
  | .moveAssign a b => do
    let p ← p.reset a
    let key ← p.key b
    if key ≠ 0#32 then do
      let v ← p.read b
      let p ← p.write b (mv v)
      let p ← p.load a key v false
      p.reset b
    else return p
  | .reset a => p.reset a
  | .load a key v thr => p.load a key v thr
  | .modify a key v => do
    match ← p.hasValue a key with
    | some _ => p.write a v
    | none => return p
  | .take a key => do
    match ← p.hasValue a key with
    | some v => do
      let p ← p.write a (mv v)
      p.reset a
    | none => none
  | .valueOrDefault a key => do
    match ← p.hasValue a key with
    | some _ => return p
    | none => p.load a key dflt false
  | .drop a => do
    let p ← p.reset a
    return p.put a none

def OPool.run (mv : Nat → Nat) (dflt : Nat) (p : OPool) : List OOp → Option OPool
  | [] => some p
  | op :: ops => do (← p.step mv dflt op).run mv dflt ops

end Leaf
