import Verif.DiagModel

/-!
# How an object is printed

What `DiagModel` takes as given (`PrintClass`): which specialization of `detail::diagnostic` is used for a type, and what `print_impl` writes, pointers included. Also the values of results.
-/

namespace Leaf

/-- What is known about a type `E` of error objects. -/
structure TypeFacts where
  /-- `show_in_diagnostics<E>::value` -/
  show_ : Bool
  /-- `os << x` compiles -/
  streams : Bool
  /-- `os << x.value` compiles -/
  streamsValue : Bool
  /-- `std::is_base_of<std::exception, E>` -/
  isExc : Bool
  /-- `std::is_enum<E>` -/
  isEnum : Bool
  deriving DecidableEq, Repr

/-- The template arguments of `diagnostic<E>` after `E`, detail/print.hpp:83-90, with `is_printable`, 25-33, and `has_printable_member_value`, 37-45: `show_in_diagnostics<E>` if the expression compiles. -/
def TypeFacts.bools (t : TypeFacts) : List Bool := [t.show_, t.streams && t.show_, t.streamsValue && t.show_, t.isExc, t.isEnum]

/-- The specializations of `diagnostic`. -/
inductive DiagSpec
  | hidden
  | printable
  | valuePrintable
  | exception
  | nameOnly
  | enum
  deriving DecidableEq, Repr

def DiagSpec.all : List DiagSpec := [.hidden, .printable, .valuePrintable, .exception, .nameOnly, .enum]

/-- The arguments they are specialized for (`none`: any): detail/print.hpp:93-101, 103-111, 113-121, 123-136, 138-146, 148-156. -/
def DiagSpec.pattern : DiagSpec → List (Option Bool)
  | .hidden => [some false, none, none, none, none]
  | .printable => [some true, some true, none, some false, none]
  | .valuePrintable => [some true, some false, some true, some false, some false]
  | .exception => [some true, none, none, some true, some false]
  | .nameOnly => [some true, some false, some false, some false, some false]
  | .enum => [some true, some false, some false, some false, some true]

def matchesPattern : List (Option Bool) → List Bool → Bool
  | [], [] => true
  | none :: ps, _ :: bs => matchesPattern ps bs
  | some p :: ps, b :: bs => p == b && matchesPattern ps bs
  | _, _ => false

/-- The specializations that match. If there is not exactly one, `diagnostic<E>::print` does not compile (none of them is more specialized than another where both match). -/
def TypeFacts.specs (t : TypeFacts) : List DiagSpec := DiagSpec.all.filter fun s => matchesPattern s.pattern t.bools

/-- The type of what is written after the name: not a pointer; an array of characters; a pointer, to `const` or not, to characters or something else. -/
inductive InfoTy
  | other
  | array
  | ptr (const chars : Bool)
  deriving DecidableEq, Repr

/-- The two overloads of `print_impl`, detail/print.hpp:58-65, 67-79. -/
inductive PrintImpl
  | ref
  | ptr
  deriving DecidableEq, Repr

/-- The overload chosen: both are as good for arrays and pointers to `const`, then the one for pointers is more specialized; for other pointers it needs a qualification conversion. -/
def choosePrintImpl : InfoTy → PrintImpl
  | .other => .ref
  | .array => .ptr
  | .ptr true _ => .ptr
  | .ptr false _ => .ref

/-- `os << x`: the text (`none` if `x` is a null pointer). Writing a null pointer to characters is undefined; other null pointers have a text. -/
def streamInfo (null : String) : InfoTy → Option String → Option String
  | .ptr _ true, none => none
  | .ptr _ false, none => some null
  | _, some s => some s
  | _, none => none

/-- `print_impl`, detail/print.hpp:58-79; `mid = none`: `nullptr`. -/
def Printer.printImpl (c : PrintCfg) (p : Printer) (ty : Ty) (mid : Option String) (null : String) (t : InfoTy) (x : Option String) : Option Printer :=
  let p := p.printName c ty
  match mid with
  | none => some p
  | some m =>
    let p := p.put m
    match choosePrintImpl t with
    | .ref => (streamInfo null t x).map p.put
    | .ptr =>
      match x with
      | some _ => (streamInfo null t x).map p.put
      | none => some (p.put "<nullptr>")

/-- What an object contains that can be written. -/
structure PrintObj where
  /-- `os << x` -/
  text : String
  /-- the type of `x.value`, and its text, if it is not a null pointer -/
  valueTy : InfoTy
  value : Option String
  /-- `x.what()` -/
  what : Option String
  /-- the number of an enumerator -/
  number : String

/-- `diagnostic<E>::print`, detail/print.hpp:93-156. -/
def DiagSpec.print (c : PrintCfg) (p : Printer) (ty : Ty) (null : String) (x : PrintObj) : DiagSpec → Option (Bool × Printer)
  | .hidden => some (false, p)
  | .printable => (p.printImpl c ty (some ": ") null .other (some x.text)).map (true, ·)
  | .valuePrintable => (p.printImpl c ty (some ": ") null x.valueTy x.value).map (true, ·)
  | .exception => (p.printImpl c ty (some ": \"") null (.ptr true true) x.what).map fun p => (true, p.put "\"")
  | .nameOnly => (p.printImpl c ty none null .other (some "0")).map (true, ·)
  | .enum => (p.printImpl c ty (some ": ") null .other (some x.number)).map (true, ·)

/-- `result_value_printer` and `print_result_value`, result.hpp:35-63, from `operator<<` for a result in value state, 598-605. -/
def printResultValue (show_ streams : Bool) (null : String) (t : InfoTy) (x : Option String) : Option String :=
  if streams && show_ then streamInfo null t x else some "{not printable}"

end Leaf
