import Verif.Types

/-!
# Signatures of callables

detail/function_traits.hpp, and how `new_error`, `load` and `on_error` tell functions from error objects. Template specialisations are cases of a function on types. Types here
are what is deduced for a parameter `H && h`; of class types only the call operator matters. Not modelled: pointers to members passed as items or handlers (they are not called
by `f(...)`), data members.
-/

namespace Leaf.Sig

/-- How a parameter is declared. -/
inductive ParKind
  | val
  | lref (const : Bool)
  | rref
  deriving DecidableEq, Repr

/-- The type of a parameter: the decayed type and how it is declared. -/
structure Par where
  ty : Ty
  kind : ParKind
  deriving DecidableEq, Repr

/-- The type of a function: result (`none` for `void`) and parameters. -/
structure Sgn where
  ret : Option Ty
  pars : List Par
  deriving DecidableEq, Repr

/-- A call operator: its type without the object; whether it is `const`, `noexcept`, and whether it is `volatile` or has a reference qualifier. -/
structure Op where
  sgn : Sgn
  const : Bool
  noexc : Bool
  qualified : Bool
  deriving DecidableEq, Repr

/-- Types. -/
inductive CTy
  /-- a class with one call operator, not a template -/
  | cls (op : Op)
  /-- a class without call operator, or with several or a template; or a type that is neither a class nor a pointer (`int`) -/
  | plain (ty : Ty)
  /-- a function type -/
  | fn (s : Sgn) (noexc : Bool)
  /-- a pointer to a function; `const`: the pointer itself is -/
  | fptr (const : Bool) (s : Sgn) (noexc : Bool)
  /-- a pointer to an object -/
  | optr (ty : Ty)
  | lref (t : CTy)
  deriving DecidableEq, Repr

/-- What instantiating `function_traits_impl` gives: nothing but `arity = -1`; an error; or the members `return_type`, `mp_args`, `arity`. -/
inductive Traits
  | primary
  | error
  | ok (ret : Option Ty) (args : List Par) (arity : Int)
  deriving DecidableEq, Repr

/-- `remove_noexcept`, function_traits.hpp:16-19, for types other than pointers to members. -/
def removeNoexcept : CTy → CTy
  | .fptr false s true => .fptr false s false
  | t => t

/-- `function_traits_impl<R(A...)>`, function_traits.hpp:57-71. -/
def traitsFn (s : Sgn) : Traits := .ok s.ret s.pars s.pars.length

/-- `function_traits_impl` of a pointer to member function after `remove_noexcept`, function_traits.hpp:18-19, 78-80: the parameters without the object and the arity with the object. A type with other
qualifiers is a case of `R(C::*)`, line 80, and the base class `function_traits_impl<R(C&)>` would be a function returning a function. -/
def traitsMem (op : Op) : Traits :=
  if op.qualified then .error else .ok op.sgn.ret op.sgn.pars (op.sgn.pars.length + 1)

/-- `function_traits_impl<F>`, function_traits.hpp:30-80. -/
def traitsImpl : CTy → Traits
  | .cls op =>
    -- lines 36-55: the traits of `&F::operator()`, without the object (`mp_rest`)
    match traitsMem op with
    | .ok r args n => .ok r args (n - 1)
    | t => t
  | .plain _ | .optr _ => .primary
  | .fn s noexc => if noexc then .primary else traitsFn s
  | .fptr const s noexc => if const || noexc then .primary else traitsFn s
  | .lref (.fptr _ s noexc) =>
    -- lines 76, 77 for pointers to functions without `noexcept`; otherwise line 73
    if noexc then .primary else traitsFn s
  | .lref t => traitsImpl t

/-- `function_traits<F>`, function_traits.hpp:82-85. -/
def functionTraits (t : CTy) : Traits := traitsImpl (removeNoexcept t)

/-- `std::is_pointer<E>`. -/
def isPointer : CTy → Bool
  | .fptr _ _ _ | .optr _ => true
  | _ => false

/-- `std::decay<E>`: functions become pointers. -/
def decay : CTy → CTy
  | .lref (.fn s n) | .fn s n => .fptr false s n
  | .lref (.fptr _ s n) | .fptr _ s n => .fptr false s n
  | .lref t => t
  | t => t

/-- What becomes of an item. -/
inductive ItemKind
  /-- does not compile -/
  | rejected
  /-- loaded as an error object -/
  | object
  /-- called; the result is loaded, if there is one -/
  | deferred
  /-- called with the object, or with a copy of it -/
  | accumulate (byRef : Bool)
  deriving DecidableEq, Repr

def Par.byRef (p : Par) : Bool :=
  match p.kind with
  | .lref _ => true
  | _ => false

/-- `load_item<Item>`, error.hpp:493-524, with the assertions of `load_slot`, `load_slot_deferred` (there is no slot for `void`), `load_slot_accumulate`, error.hpp:428-484. A parameter that is an
rvalue reference cannot be bound to the object. -/
def loadItem (t : CTy) : ItemKind :=
  match functionTraits t with
  | .error => .rejected
  | .primary => if isPointer t then .rejected else .object
  | .ok ret args n =>
    if n = 0 then (if ret.isNone then .rejected else .deferred)
    else if n = 1 then
      match args with
      | [p] => if p.kind = .rref then .rejected else .accumulate p.byRef
      | _ => .rejected
    else .rejected

/-- `deduce_item_type<Item>`, on_error.hpp:199-219, with the specialisations of the classes it chooses, on_error.hpp:88-162, and `load_slot`. The object is held by value. -/
def onErrorItem (t : CTy) : ItemKind :=
  match functionTraits t with
  | .error => .rejected
  | .primary => if isPointer (decay t) then .rejected else .object
  | .ok _ args n =>
    if n = 0 then .deferred
    else if n = 1 then
      match args with
      | [p] => if p.byRef then .accumulate true else .rejected
      | _ => .rejected
    else .rejected

/-- `fn_mp_args<H>`, function_traits.hpp:93-94: the parameters of a handler; `none`: does not compile. -/
def handlerArgs (t : CTy) : Option (List Par) :=
  match functionTraits t with
  | .ok _ args _ => some args
  | _ => none

/-! ## What is passed -/

/-- Something that can be called with `f(...)`. -/
inductive Callable
  /-- an object of a class with a call operator, in particular a lambda -/
  | object (op : Op)
  /-- a function, by its name -/
  | function (s : Sgn) (noexc : Bool)
  /-- a pointer to a function -/
  | pointer (s : Sgn) (noexc : Bool)
  deriving DecidableEq, Repr

/-- How it is passed: as a temporary, as a variable, as a `const` variable. -/
inductive Passed
  | temporary
  | variable
  | constant
  deriving DecidableEq, Repr

/-- The type deduced for `H` in `H && h`. Since C++17 `noexcept` is part of the type of a function. -/
def Callable.deduced (cpp17 : Bool) : Callable → Passed → CTy
  | .object op, .temporary => .cls { op with noexc := cpp17 && op.noexc }
  | .object op, _ => .lref (.cls { op with noexc := cpp17 && op.noexc })
  | .function s n, _ => .lref (.fn s (cpp17 && n))
  | .pointer s n, .temporary => .fptr false s (cpp17 && n)
  | .pointer s n, .variable => .lref (.fptr false s (cpp17 && n))
  | .pointer s n, .constant => .lref (.fptr true s (cpp17 && n))

/-! ## Parameters of handlers -/

/-- What a parameter of a handler is made of: an error type or exception type; a predicate with its error type; a `catch_`; the types provided by the library. -/
inductive Base
  | err (ty : Ty)
  | pred (ty : Ty) (p : Val → Bool)
  | catch_ (p : Exc → Bool)
  | info
  | diag
  | details

/-- The type of a parameter of a handler. (`const` of a parameter passed by value is not part of the type of a function.) -/
inductive HPar
  | val (b : Base)
  | lref (const : Bool) (b : Base)
  | rref (b : Base)
  /-- pointer to `b`, or to `b const` -/
  | ptr (const : Bool) (b : Base)

/-- `is_predicate`, specialised for predicate types without `const` or reference: context.hpp:20-23, pred.hpp. -/
def Base.isPred : Base → Bool
  | .pred _ _ | .catch_ _ => true
  | _ => false

/-- The library's types `error_info`, `diagnostic_info`, `diagnostic_details`. -/
def Base.isInfo : Base → Bool
  | .info | .diag | .details => true
  | _ => false

/-- The type of the slot; `num` numbers the types that are not error types. -/
def Base.ty (num : Base → Ty) : Base → Ty
  | .err ty => ty
  | b => num b

/-- `handler_argument_traits_defaults<E, false>`, context.hpp:39-62, for `E` made of `b`; `bare`: without `const` or reference. `none`: one of the assertions fails. -/
def defaults (num : Base → Ty) (b : Base) (bare : Bool) : Option Ty :=
  if b.isPred then none else if bare && b.isInfo then none else some (b.ty num)

/-- `handler_argument_traits<E>`, context.hpp:97-132, 64-82; handle_errors.hpp:113-123; diagnostics.hpp:61, 174. `none`: does not compile. -/
def hparArg (num : Base → Ty) : HPar → Option Arg
  | .lref true .info => some .info
  | .lref true .diag => some .diag
  | .lref true .details => some .details
  | .rref _ => none
  -- the result of `check` is converted to `E *`; for a predicate it is of type `bool`
  | .ptr false b => if b.isPred then none else (defaults num b true).map .ptr
  | .ptr true b => (defaults num b false).map .ptr
  | .val (.pred ty p) => some (.pred ty p)
  | .val (.catch_ p) => some (.catch_ p)
  | .val b => (defaults num b true).map .req
  | .lref _ b => (defaults num b false).map .req

end Leaf.Sig
