/-!
# Error ids

Model of the id generator and of the `error_id` value type of Boost LEAF.

An `int` / `unsigned` of the C++ code is a `BitVec 32` (two's complement, wrapping unsigned arithmetic).
-/

namespace Leaf

/-- The bit pattern of an `int` holding an error id (`error_id::value_`, error.hpp:643). -/
abbrev Id := BitVec 32

/-- `(x & 3) == 1`: the tag carried by every valid id (asserted at error.hpp:541, 552, 648). -/
def Id.Tagged (x : Id) : Prop := x &&& 3#32 = 1#32

instance (x : Id) : Decidable (Id.Tagged x) := inferInstanceAs (Decidable (_ = _))

/-- `id_factory<T>::counter(1)`, error.hpp:547. -/
def counterInit : Id := 1#32

/-- `generate_next_id`: `auto id = (counter += 4); return id;`, error.hpp:538-543.
Returns the new id and the new value of the counter. The C++ operation is one atomic
read-modify-write (`std::atomic<unsigned>::operator+=`). -/
def generateNextId (counter : Id) : Id × Id :=
  let id := counter + 4#32
  (id, id)

/-- `make_error_id`, error.hpp:749-753: `error_id((err_id & ~3) | 1)`. -/
def makeErrorId (errId : Id) : Id := (errId &&& ~~~3#32) ||| 1#32

/-- `error_id::operator bool`, error.hpp:710-713. -/
def Id.truthy (x : Id) : Bool := x != 0#32

/-- The number printed by `operator<<(ostream&, error_id)`, error.hpp:731-735 (`value_ / 4`, C++ `int`
division truncates toward zero). -/
def Id.serial (x : Id) : Int := Int.tdiv x.toInt 4

/-- `operator<`, error.hpp:725-728. -/
def Id.lt (a b : Id) : Bool := a.toInt < b.toInt

/-- The ids produced by `n` generations in a row starting from counter value `c`, oldest first. -/
def genIds : Nat → Id → List Id
  | 0, _ => []
  | n + 1, c => let (id, c') := generateNextId c; id :: genIds n c'

/-! ## std::error_code -/

/-- `std::error_code`: a value and a category. Category `0` is LEAF's own category object
(`get_leaf_error_category<>::cat`, error.hpp:592-599); categories are compared by address. -/
structure ErrorCode where
  value : Id
  cat : Nat
  deriving DecidableEq, Repr

/-- The index of LEAF's own category. -/
def leafCat : Nat := 0

/-- `error_id::operator T`, error.hpp:677-681. -/
def toErrorCode (x : Id) : ErrorCode := ⟨x, leafCat⟩

/-- `is_error_id`, error.hpp:625: the value returned. -/
def isErrorId (ec : ErrorCode) : Bool := ec.cat == leafCat

/-- `is_error_id`, error.hpp:623-628, with the assertion at 626. -/
def isErrorIdAsserted (ec : ErrorCode) : Option Bool :=
  if !isErrorId ec || ec.value == 0#32 || ec.value &&& 3#32 == 1#32 then some (isErrorId ec) else none

/-- What `import_error_code` (error.hpp:601-620) does with a code: return an id at once; generate a new id
and load the code into the slot of type `std::error_code` under it (the caller performs the effect); or fail the assertion at 608, that
a non-zero code of LEAF's own category holds an id. -/
inductive ImportAction
  | done (id : Id)
  | fresh
  | bad
  deriving DecidableEq, Repr

/-- The decision made by `import_error_code`, error.hpp:601-620. -/
def importErrorCode (ec : ErrorCode) : ImportAction :=
  if ec.value ≠ 0#32 then
    if ec.cat = leafCat then
      if Id.Tagged ec.value then .done ((ec.value &&& ~~~3#32) ||| 1#32) else .bad
    else .fresh
  else .done 0#32

end Leaf
