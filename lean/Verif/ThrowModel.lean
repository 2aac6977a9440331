import Verif.Prog

/-!
# Model of `throw_exception`, of the macros that record the source location, and of `result::load`

The arguments of `throw_exception` are classified by type, as overload resolution does; a call that matches no overload, or fails a
`static_assert`, does not compile (`none`).
-/

namespace Leaf

/-- An argument of `throw_exception`. -/
inductive ThrowArg
  /-- of type `error_id` -/
  | errId (id : Id)
  /-- of a type that derives from `std::exception`; `casts`: the types the exception object can be cast to, see `Exc` -/
  | ex (casts : List (Ty × Val))
  /-- any other type: an error object, or a function -/
  | item (i : Item)

section
variable {M : Type} [Store M]

/-- `static_assert(!at_least_one_derives_from_std_exception<E...>::value)`, exception.hpp:172, 181, 195, 204; an `error_id` among the error objects
fails the `static_assert`s at error.hpp:433, 453. -/
def throwItems : List ThrowArg → Option (List Item)
  | [] => some []
  | .item i :: as => (throwItems as).map (i :: ·)
  | _ :: _ => none

/-- `make_exception`, exception.hpp:168-211: the six overloads. `std`: what an object of type `exception<std::exception>` can be cast to. Gives the
`error_id` of the exception object, and what it can be cast to. -/
def makeException (cfg : Cfg) (std : List (Ty × Val)) : List ThrowArg → Option (Comp M (Id × List (Ty × Val)))
  -- exception.hpp:168-174
  | .errId id :: .ex casts :: as => (throwItems as).map fun items => do errorIdLoad cfg id items; return (id, casts)
  -- exception.hpp:185-188
  | [.errId id] => some (pure (id, std))
  -- exception.hpp:177-183
  | .errId id :: as => (throwItems as).map fun items => do errorIdLoad cfg id items; return (id, std)
  -- exception.hpp:191-197
  | .ex casts :: as => (throwItems as).map fun items => do
    let id ← newError cfg []
    errorIdLoad cfg id items
    return (id, casts)
  -- exception.hpp:208-211
  | [] => some do
    let id ← newError cfg []
    return (id, std)
  -- exception.hpp:200-206
  | as => (throwItems as).map fun items => do
    let id ← newError cfg []
    errorIdLoad cfg id items
    return (id, std)

/-- The object thrown: `detail::exception<Ex>`, exception.hpp:80-151; `tag` names it. -/
def thrownExc (tag : Nat) (id : Id) (casts : List (Ty × Val)) : Exc := ⟨tag, true, .base id, casts, true⟩

/-- `throw_exception`, exception.hpp:214-222. -/
def throwException (cfg : Cfg) (tag : Nat) (std : List (Ty × Val)) (args : List ThrowArg) : Option (Comp M Out) :=
  (makeException cfg std args).map fun make => do
    let (id, casts) ← make
    return .exc (thrownExc tag id casts)

/-- `error_id::load_source_location_`, error.hpp:737-744; `loc` is the `e_source_location`. -/
def loadSourceLocation (cfg : Cfg) (loc : Val) (id : Id) : Comp M Unit := do
  if id = 0#32 then ub
  errorIdLoad cfg id [.obj tySrcLoc loc]

/-- `BOOST_LEAF_THROW_EXCEPTION(args...)`, exception.hpp:52, 58-70. -/
def throwExceptionLoc (cfg : Cfg) (tag : Nat) (std : List (Ty × Val)) (loc : Val) (args : List ThrowArg) : Option (Comp M Out) :=
  (makeException cfg std args).map fun make => do
    let (id, casts) ← make
    loadSourceLocation cfg loc id
    return .exc (thrownExc tag id casts)

/-- `BOOST_LEAF_NEW_ERROR(items...)`, error.hpp:61, 563-575. -/
def newErrorLoc (cfg : Cfg) (loc : Val) (items : List Item) : Comp M Id := do
  let id ← newError cfg items
  loadSourceLocation cfg loc id
  return id

/-- `error_id(r.error())`: `error_result::operator error_id`, result.hpp:231-237; `none`: the result has a value. -/
def resultErrorId (r : Option ErrRes) : Comp M Id :=
  match r with
  | none => pure 0#32
  | some r => pure r.errId

/-- `r.load(items...)`, result.hpp:584-588. -/
def resultLoad (cfg : Cfg) (r : Option ErrRes) (items : List Item) : Comp M Id := do
  let id ← resultErrorId r
  errorIdLoad cfg id items
  return id

end
end Leaf
