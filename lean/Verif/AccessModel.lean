import Verif.ResultModel

/-!
# Model of the accessors of `result<T>`, `result<T &>` and `result<void>`

Which object the accessors refer to, as what (const or not, lvalue or rvalue), given the `result` in memory (`ResultModel`). For `result<T &>` the value stored in
the union is the address of the object referred to (`std::reference_wrapper<T>`). Outcome `none` is undefined behaviour or a violated assertion.
-/

namespace Leaf

/-- `detail::stored<T>` and `detail::stored<T &>`, result.hpp:69-111. -/
inductive Kept
  | val
  | ref
  deriving DecidableEq, Repr

/-- An object: the union member with number `o` (see `ResultModel`), or an object elsewhere. -/
inductive Target
  | member (o : Nat)
  | outside (addr : Nat)
  deriving DecidableEq, Repr

/-- A pointer to (possibly) const. -/
structure ObjPtr where
  target : Target
  isConst : Bool
  deriving DecidableEq, Repr

/-- A reference: `T &`, `T const &`, `T &&`, `T const &&`. -/
structure ObjRef where
  target : Target
  isConst : Bool
  rvalue : Bool
  deriving DecidableEq, Repr

/-- The expression the accessor is called on: `r`, `std::as_const(r)`, `std::move(r)`, `std::move(std::as_const(r))`. -/
structure Qual where
  isConst : Bool
  rvalue : Bool
  deriving DecidableEq, Repr

/-- `stored<T>::cptr`, `ptr`, result.hpp:80-88, 102-110, with the types `value_no_ref_const *`, `value_no_ref *`, 73-74, 95-96. -/
def Kept.ptr (o v : Nat) (isConst : Bool) : Kept → ObjPtr
  | .val => ⟨.member o, isConst⟩
  | .ref => ⟨.outside v, false⟩

/-- Initialise `value_ref`, `value_cref`, `value_rv_ref`, `value_rv_cref` (result.hpp:75-78, 97-100) from `stored_` or `std::move(stored_)`; a
`reference_wrapper` converts to `T &`. -/
def Kept.bindTo (o v : Nat) (q : Qual) : Kept → ObjRef
  | .val => ⟨.member o, q.isConst, q.rvalue⟩
  | .ref => ⟨.outside v, false, false⟩

/-- `get`, result.hpp:289-297: the pointer to `stored_`, or null. -/
def RObj.get (r : RObj) : Option (Option (Nat × Nat)) :=
  if r.hasValue then
    match r.u with
    | .stored o v => some (some (o, v))
    | _ => none
  else some none

/-- `operator->`, result.hpp:521-529; of `result<void>`, 684-692. -/
def RObj.arrow (k : Kept) (isConst : Bool) (r : RObj) : Option (Option ObjPtr) :=
  if r.hasValue then
    match r.u with
    | .stored o v => some (some (k.ptr o v isConst))
    | _ => none
  else some none

/-- `operator*`, result.hpp:533-575. -/
def RObj.star (k : Kept) (q : Qual) (r : RObj) : Option ObjRef := do
  let (o, v) ← (← r.get)
  return k.bindTo o v q

/-- `value()`, result.hpp:481-517, with `enforce_value_state`, 309-325. `error id`: throws `bad_result` with `id`. (A result with captured objects unloads these first,
which may rethrow a captured exception: see `resultValue` in `Prog`, C40.) -/
def RObj.access (k : Kept) (q : Qual) (r : RObj) : Option (Except Id ObjRef) :=
  if kind r.what = 3#32 then
    match r.u with
    | .stored o v => some (.ok (k.bindTo o v q))
    | _ => none
  else (whatErrorId r.what).map .error

/-- `result<void>::operator*`, result.hpp:694-697. -/
def RObj.starVoid (r : RObj) : Option Unit := if r.hasValue then some () else none

/-- `result<void>::value`, result.hpp:679-682. -/
def RObj.accessVoid (r : RObj) : Option (Except Id Unit) := if kind r.what = 3#32 then some (.ok ()) else (whatErrorId r.what).map .error

/-- What is printed: the value of an object, "No error", or the error (`print_error_result`, see `DiagModel`). -/
inductive ResultPrinted
  | value (t : Target)
  | noError
  | error (id : Id)
  deriving DecidableEq, Repr

/-- `operator<<`, result.hpp:598-606: prints `r.value()`. -/
def RObj.print (k : Kept) (r : RObj) : Option ResultPrinted :=
  if kind r.what = 3#32 then
    match r.access k ⟨true, false⟩ with
    | some (.ok t) => some (.value t.target)
    | _ => none
  else (whatErrorId r.what).map .error

/-- `operator<<` of `result<void>`, result.hpp:699-707. -/
def RObj.printVoid (r : RObj) : Option ResultPrinted := if r.toBool then some .noError else (whatErrorId r.what).map .error

end Leaf
