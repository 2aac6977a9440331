import Verif.IdsLemmas

/-!
# Model of `result<T>`

The memory of `result` objects: the discriminant word and the union of a value and a `capture_list`. Every value and every capture list that
is constructed in a union is given a number, and destructor calls are logged, so that lifetimes can be stated. Outcome `none` is undefined
behaviour: reading or destroying a union member that is not alive, or a violated assertion.

The values of the various types `T` are numbers; conversions `T → U` are arbitrary functions. A value that was moved from becomes
`mv v`, for an arbitrary function `mv` (the C++ standard says: valid but unspecified). The nodes of a capture list are numbers here
(`CaptureList` models the list itself).
-/

namespace Leaf

/-- The union `{ stored_type stored_; capture_list cap_; }`, result.hpp:186-192: which member is alive, its number and content. -/
inductive UMem
  | raw
  | stored (o : Nat) (v : Nat)
  | cap (o : Nat) (l : List Nat)
  deriving DecidableEq, Repr

/-- The number of the living member. -/
def UMem.obj : UMem → Option Nat
  | .raw => none
  | .stored o _ => some o
  | .cap o _ => some o

/-- A `result<T>` object: `what_` (`result_discriminant::state_`, result.hpp:115) and the union. -/
structure RObj where
  what : Id
  u : UMem
  deriving DecidableEq, Repr

/-- All `result` objects, by address; `fresh`: number for the next union member constructed; `dead`: the members destroyed, latest first. -/
structure RPool where
  objs : Nat → Option RObj
  fresh : Nat
  dead : List Nat

def RPool.empty : RPool := ⟨fun _ => none, 0, []⟩

/-- Write the object at address `a`. -/
def RPool.put (p : RPool) (a : Nat) (r : Option RObj) : RPool := { p with objs := fun b => if b = a then r else p.objs b }

/-- `result_discriminant::kind`, result.hpp:151-154: 0 `err_id_zero`, 1 `err_id`, 2 `err_id_capture_list`, 3 `val`. -/
def kind (what : Id) : Id := what &&& 3#32

/-- `result_discriminant(error_id)`, result.hpp:127-132. -/
def whatErr (id : Id) : Option Id := if id = 0#32 ∨ id.Tagged then some id else none

/-- `result_discriminant(int, capture_list const &)`, result.hpp:135-140. -/
def whatCap (id : Id) : Option Id := if id.Tagged then some ((id &&& ~~~3#32) ||| 2#32) else none

/-- `result_discriminant(kind_val)`, result.hpp:144-149. -/
def whatVal : Id := 3#32

/-- `result_discriminant::get_error_id`, result.hpp:156-160. -/
def whatErrorId (what : Id) : Option Id :=
  if kind what = 3#32 then none else some (makeErrorId ((what &&& ~~~3#32) ||| 1#32))

/-- `has_value`, `has_error`, `operator bool`, result.hpp:450-463. -/
def RObj.hasValue (r : RObj) : Bool := kind r.what == 3#32
def RObj.hasError (r : RObj) : Bool := !r.hasValue
def RObj.toBool (r : RObj) : Bool := r.hasValue

/-- `destroy`, result.hpp:240-258. -/
def RPool.destroy (p : RPool) (a : Nat) : Option RPool :=
  match p.objs a with
  | none => none
  | some r =>
    if kind r.what = 3#32 then
      match r.u with
      | .stored o _ => some { p.put a (some { r with u := .raw }) with dead := o :: p.dead }
      | _ => none
    else if kind r.what = 2#32 then
      match r.u with
      | .cap o _ => some { p.put a (some { r with u := .raw }) with dead := o :: p.dead }
      | _ => none
    else some p

/-- `this->move_from(std::move(x))`, result.hpp:260-281; `this` at `a`, `x` at `b`. Placement new does not look at what the union of
`this` contains. The source keeps its discriminant; its value becomes `mv v`, its capture list empty (capture_list.hpp:66-70). -/
def RPool.moveFrom (mv conv : Nat → Nat) (p : RPool) (a b : Nat) : Option (RPool × Id) :=
  match p.objs b with
  | none => none
  | some x =>
    if kind x.what = 3#32 then
      match x.u with
      | .stored o v =>
        let p1 := p.put b (some { x with u := .stored o (mv v) })
        match p1.objs a with
        | none => none
        | some r => some ({ p1.put a (some { r with u := .stored p.fresh (conv v) }) with fresh := p.fresh + 1 }, x.what)
      | _ => none
    else if kind x.what = 2#32 then
      match x.u with
      | .cap o l =>
        let p1 := p.put b (some { x with u := .cap o [] })
        match p1.objs a with
        | none => none
        | some r => some ({ p1.put a (some { r with u := .cap p.fresh l }) with fresh := p.fresh + 1 }, x.what)
      | _ => none
    else some (p, x.what)

/-- Initialise `what_`. -/
def RPool.setWhat (p : RPool) (a : Nat) (what : Id) : Option RPool :=
  match p.objs a with
  | none => none
  | some r => some (p.put a (some { r with what := what }))

/-- Storage for a new object: nothing is alive in it. Using storage of a live object is an error of the user. -/
def RPool.alloc (p : RPool) (a : Nat) : Option RPool :=
  match p.objs a with
  | none => some (p.put a (some ⟨0#32, .raw⟩))
  | some _ => none

/-- What users do with results. -/
inductive ROp
  /-- `result<T> a(v);` and the other constructors from values, result.hpp:372-411 -/
  | mkVal (a : Nat) (v : Nat)
  /-- `result<T> a(id);` -/
  | mkErr (a : Nat) (id : Id)
  /-- `result<T> a(err_id, std::move(cap));`, result.hpp:302-307, called by `dynamic_allocator::extract_capture_list` -/
  | mkCap (a : Nat) (id : Id) (l : List Nat)
  /-- `result<T> a(std::move(b));`, also from a `result<U>` -/
  | moveCtor (a b : Nat) (conv : Nat → Nat)
  /-- `a = std::move(b);`, also from a `result<U>` -/
  | moveAssign (a b : Nat) (conv : Nat → Nat)
  /-- `result<U> a = b.error();` -/
  | forward (a b : Nat)
  /-- the value is moved out: `T x = *std::move(a);` or `std::move(a).value()` -/
  | take (a : Nat)
  /-- `a.unload()` -/
  | unload (a : Nat)
  /-- the lifetime of `a` ends -/
  | drop (a : Nat)

/-- `a` of an operation: construct a union member at `a` and set the discriminant. -/
def RPool.construct (p : RPool) (a : Nat) (u : Nat → UMem) (what : Id) : RPool :=
  { p.put a (some ⟨what, u p.fresh⟩) with fresh := p.fresh + 1 }

/-- The operations. -/
def RPool.step (mv : Nat → Nat) (p : RPool) : ROp → Option RPool
  | .mkVal a v => do
    let p ← p.alloc a
    return p.construct a (.stored · v) whatVal
  | .mkErr a id => do
    let p ← p.alloc a
    p.setWhat a (← whatErr id)
  | .mkCap a id l => do
    let p ← p.alloc a
    return p.construct a (.cap · l) (← whatCap id)
  | .moveCtor a b conv => do
    let p ← p.alloc a
    let (p, what) ← p.moveFrom mv conv a b
    p.setWhat a what
  | .moveAssign a b conv => do
    let p ← p.destroy a
    let (p, what) ← p.moveFrom mv conv a b
    p.setWhat a what
  -- `error_result::operator result<U>`, result.hpp:211-229
  | .forward a b => do
    let r ← p.objs b
    if kind r.what = 3#32 then do
      let p ← p.alloc a
      p.setWhat a (← whatErr 0#32)
    else if kind r.what = 2#32 then
      match r.u with
      | .cap o l => do
        let p ← (p.put b (some { r with u := .cap o [] })).alloc a
        return p.construct a (.cap · l) (← whatCap (← whatErrorId r.what))
      | _ => none
    else do
      let p ← p.alloc a
      p.setWhat a (← whatErr (← whatErrorId r.what))
  | .take a => do
    let r ← p.objs a
    if kind r.what = 3#32 then
      match r.u with
      | .stored o v => return p.put a (some { r with u := .stored o (mv v) })
      | _ => none
    else none
  -- result.hpp:590-596
  | .unload a => do
    let r ← p.objs a
    if kind r.what = 2#32 then
      match r.u with
      | .cap o _ => return p.put a (some { r with u := .cap o [] })
      | _ => none
    else return p
  | .drop a => do
    let p ← p.destroy a
    return p.put a none

def RPool.run (mv : Nat → Nat) (p : RPool) : List ROp → Option RPool
  | [] => some p
  | op :: ops => do (← p.step mv op).run mv ops

/-- `value()` of a result in value state, result.hpp:464-503, 309-325: reads the value. `none`: it is in an error state (see `resultValue` in `Prog`) or UB. -/
def RObj.value (r : RObj) : Option Nat :=
  if kind r.what = 3#32 then
    match r.u with
    | .stored _ v => some v
    | _ => none
  else none

end Leaf
