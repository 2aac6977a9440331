import Verif.Handlers

/-!
# Model of the predicates `match`, `match_value`, `match_member`, `if_not`, `catch_`

pred.hpp. A predicate is a handler argument (`Arg.pred`, `Arg.catch_` of `Types`) with an `evaluate` function.
-/

namespace Leaf

/-- An element of the pack `V1, V...`: a value, compared with `==`, or (C++17) a function `bool (*)(T)`. -/
inductive PackItem
  | value (v : Val)
  | func (f : Val → Bool)

/-- `cmp_value_pack(e, v)` for one element, pred.hpp:22-42. `eq e v` is the user's `e == v`. -/
def cmpOne (eq : Val → Val → Bool) (e : Val) : PackItem → Bool
  | .value v => eq e v
  | .func f => f e

/-- `cmp_value_pack(e, car, cdr...)`, pred.hpp:44-48. -/
def cmpValuePack (eq : Val → Val → Bool) (e : Val) (car : PackItem) : List PackItem → Bool
  | [] => cmpOne eq e car
  | c :: cs => cmpOne eq e car || cmpValuePack eq e c cs

/-- `check_exception_pack(ex, (Ex const *) 0...)`, pred.hpp:228-246; `dynamic_cast` is `Exc.cast`. -/
def checkExceptionPack (ex : Exc) : List Ty → Bool
  | [] => true
  | [ty] => (ex.cast ty).isSome
  | ty :: tys => (ex.cast ty).isSome || checkExceptionPack ex tys

/-- The predicates. -/
inductive Predicate
  /-- `match<E, V1, V...>` (pred.hpp:98-108) and `match<condition<Enum>, V1, V...>` (110-122, with `E = std::error_code`) -/
  | match_ (ty : Ty) (eq : Val → Val → Bool) (v1 : PackItem) (vs : List PackItem)
  /-- `match_value<E, V1, V...>` (pred.hpp:154-177): compares `e.value` -/
  | matchValue (ty : Ty) (value : Val → Val) (eq : Val → Val → Bool) (v1 : PackItem) (vs : List PackItem)
  /-- `match_member<P, V1, V...>` (pred.hpp:186-204): compares `e.*P` -/
  | matchMember (ty : Ty) (mem : Val → Val) (eq : Val → Val → Bool) (v1 : PackItem) (vs : List PackItem)
  /-- `catch_<Ex...>` (pred.hpp:249-277) -/
  | catch_ (tys : List Ty)
  /-- `if_not<P>` (pred.hpp:208-219) -/
  | ifNot (p : Predicate)

/-- `P::error_type`; `none` is `void`. -/
def Predicate.errorType : Predicate → Option Ty
  | .match_ ty _ _ _ | .matchValue ty _ _ _ _ | .matchMember ty _ _ _ _ => some ty
  | .catch_ _ => none
  | .ifNot p => p.errorType

/-- `P::evaluate(e)` for an error object. (For `catch_` it does not compile.) -/
def Predicate.evalObj : Predicate → Val → Bool
  | .match_ _ eq v1 vs, e => cmpValuePack eq e v1 vs
  | .matchValue _ value eq v1 vs, e => cmpValuePack eq (value e) v1 vs
  | .matchMember _ mem eq v1 vs, e => cmpValuePack eq (mem e) v1 vs
  | .catch_ _, _ => false
  | .ifNot p, e => !p.evalObj e

/-- `P::evaluate(ex)` for an exception; `catch_<Ex>` returns a pointer, which is tested (pred.hpp:270-273). -/
def Predicate.evalExc : Predicate → Exc → Bool
  | .catch_ tys, ex => checkExceptionPack ex tys
  | .ifNot p, ex => !p.evalExc ex
  | _, _ => false

/-- The predicate as a handler argument: `handler_argument_traits_defaults<Pred, true>`, context.hpp:64-82. -/
def Predicate.toArg (p : Predicate) : Arg :=
  match p.errorType with
  | some ty => .pred ty p.evalObj
  | none => .catch_ p.evalExc

end Leaf
