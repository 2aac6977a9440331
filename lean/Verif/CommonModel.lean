import Verif.Ids

/-!
# The error types of common.hpp, and LEAF's error category

`windows::e_LastError` and `e_errno`: how they are printed (common.hpp:51-105). `leaf_error_category` (error.hpp:580-590): how the `std::error_code` made from an `error_id` compares with
`std::error_condition`.
-/

namespace Leaf

/-! ## `windows::e_LastError` -/

/-- Memory of the text: characters as numbers, the terminating zero included. -/
abbrev Buf := List Nat

/-- `z[-1]`, where `z` points to element `z`: undefined (`none`) if there is no such element. -/
def Buf.before (b : Buf) (z : Nat) : Option Nat := if z = 0 then none else b[z - 1]?

/-- `std::strchr(p, 0)`, and how many characters `os << p` writes: the position of the first zero; undefined if there is none. -/
def Buf.end_ : Buf → Option Nat
  | [] => none
  | c :: cs => if c = 0 then some 0 else (Buf.end_ cs).map (· + 1)

/-- `if( z[-1] == c ) *--z = 0;`, common.hpp:95-98. -/
def Buf.trim (c : Nat) (bz : Buf × Nat) : Option (Buf × Nat) := do
  let x ← bz.1.before bz.2
  return if x = c then (bz.1.set (bz.2 - 1) 0, bz.2 - 1) else bz

/-- The text between the quotes, common.hpp:94-99. -/
def lastErrorMessage (b : Buf) : Option (List Nat) := do
  let z ← b.end_
  let bz ← Buf.trim 10 (b, z)
  let bz ← Buf.trim 13 bz
  let n ← bz.1.end_
  return bz.1.take n

/-- How printing ends: completed or by an exception thrown by the stream; what was written; the buffers allocated and freed. -/
structure Printed where
  done : Bool
  text : List Nat
  allocated : Nat
  freed : Nat
  deriving DecidableEq, Repr

/-- `operator<<` for `e_LastError`, common.hpp:75-102. `num`: the number as text. `msg`: the buffer allocated by `FormatMessageA`, if it succeeds. `room`: how many characters can be
written before the stream throws, if it does. -/
def printLastError (num : List Nat) (msg : Option Buf) (room : Option Nat) : Option Printed :=
  match msg with
  -- `mb.p` is still null: `~msg_buf` does nothing
  | none => some ⟨true, [], 0, 0⟩
  | some b => do
    let m ← lastErrorMessage b
    let t := num ++ [44, 32, 34] ++ m ++ [34]
    match room with
    | none => return ⟨true, t, 1, 1⟩
    | some k => return if t.length ≤ k then ⟨true, t, 1, 1⟩ else ⟨false, t.take k, 1, 1⟩

/-- `operator<<` for `e_errno`, common.hpp:57-61; `strerror` gives a text for every number. -/
def printErrno (num msg : List Nat) : List Nat := num ++ [44, 32, 34] ++ msg ++ [34]

/-! ## Codes and conditions -/

/-- `std::error_condition`: as `std::error_code`, a value and a category. -/
structure ErrorCond where
  value : Id
  cat : Nat
  deriving DecidableEq, Repr

/-- The two virtual functions `equivalent` of a category. -/
structure Category where
  ofCode : Id → ErrorCond → Bool
  ofCond : ErrorCode → Id → Bool

/-- `leaf_error_category`, error.hpp:582-583. -/
def leafCategory : Category := ⟨fun _ _ => false, fun _ _ => false⟩

/-- The category number `c`, if it does not override the functions of `std::error_category`: `default_error_condition(v) == cond`, where `dflt` is `default_error_condition`;
`*this == code.category() && code.value() == v`. -/
def stdCategory (c : Nat) (dflt : Id → ErrorCond) : Category := ⟨fun v cond => dflt v == cond, fun code v => code.cat == c && code.value == v⟩

/-- `code == cond` ([syserr.compare]), for the categories of a program. -/
def codeEqCond (cats : Nat → Category) (code : ErrorCode) (cond : ErrorCond) : Bool := (cats code.cat).ofCode code.value cond || (cats cond.cat).ofCond code cond.value

/-- `code.default_error_condition()` of LEAF's category, which does not override it: the same value and category. -/
def leafDefaultCondition (code : ErrorCode) : ErrorCond := ⟨code.value, code.cat⟩

/-- `code.category().name()` and `code.message()`, error.hpp:584-585. -/
def leafName : String := "LEAF error"
def leafMessage (_ : Id) : String := leafName

end Leaf
