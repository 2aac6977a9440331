import Verif.Ids

/-!
# Data of the program-level model

C++ types of error objects are numbers (`Ty`), error objects are numbers (`Val`): LEAF never inspects an error object
except through user supplied functions, which are arbitrary Lean functions on `Val` here.
-/

namespace Leaf

/-- A (decayed) C++ type used as error object type. -/
abbrev Ty := Nat
/-- An error object, or the value held by a result. -/
abbrev Val := Nat

/-- `e_source_location`, common.hpp / error.hpp:63-91. -/
def tySrcLoc : Ty := 0
/-- `std::exception_ptr` as an error object, loaded by `exception_to_result`, exception.hpp:235. -/
def tyExPtr : Ty := 1
/-- `std::error_code` as an error object, loaded by `import_error_code`, error.hpp:614. -/
def tyErrorCode : Ty := 2
/-- `bad_result`, result.hpp:23-30. -/
def tyBadResult : Ty := 3

/-- Build configuration and environment.
* `capture`: `BOOST_LEAF_CFG_CAPTURE`.
* `isAbstract E`: `does_not_participate_in_context_deduction<E>` (context.hpp:236-237).
* `dflt E`: the default-constructed object `E()`.
* `interf k`: how many ids other threads generate before the `k`-th id generation of this thread (arbitrary). -/
structure Cfg where
  capture : Bool
  isAbstract : Ty → Bool
  dflt : Ty → Val
  interf : Nat → Nat

/-- Where the error id of a caught exception comes from, `unpack_error_id`, handle_errors.hpp:23-30. -/
inductive ExcId
  /-- derives from `detail::exception_base`, i.e. thrown by `leaf::throw_exception` -/
  | base (id : Id)
  /-- derives from `error_id` only -/
  | plain (id : Id)
  /-- any other type -/
  | none
  deriving DecidableEq, Repr

/-- An exception object.
* `tag` identifies the object (used as value of the `std::exception_ptr` to it).
* `isStd`: derives from `std::exception`.
* `idSrc`: see `ExcId`.
* `casts`: the types `E` for which `dynamic_cast<E *>` succeeds, with the value of that sub-object. For `E = std::error_code`
  it holds the code of a `std::system_error` (handle_errors.hpp:180-209).
* `clear`: `clear_current_error_` (exception.hpp:86). -/
structure Exc where
  tag : Nat
  isStd : Bool
  idSrc : ExcId
  casts : List (Ty × Val)
  clear : Bool
  deriving DecidableEq, Repr

/-- The content of a `slot<E>` / `optional<E>`: empty, or an object with its key (see `OptionalModel`). -/
abbrev Cell := Option (Id × Val)

/-- `optional::has_value(key)`, detail/optional.hpp:131-144. -/
def Cell.hasValue (c : Cell) (id : Id) : Option Val :=
  match c with
  | some (k, v) => if k = id then some v else none
  | none => none

/-- The type of an element of a context's tuple: `slot<E>` or `slot<dynamic_allocator>`. -/
inductive CellTy
  | obj (ty : Ty)
  | da
  deriving DecidableEq, Repr

/-- An element of a context's tuple with its content. For `slot<dynamic_allocator>`: the key (`0` = empty) and the list of
capturing nodes, each a `slot<E>` (error.hpp:195-225). -/
inductive CtxCell
  | obj (ty : Ty) (c : Cell)
  | da (key : Id) (nodes : List (Ty × Cell))
  deriving DecidableEq, Repr

/-- A node of the capture list of a `result`: a captured object (`capturing_slot_node`) or a captured exception
(`capturing_exception_node`), error.hpp:195-255. -/
inductive CapNode
  | obj (ty : Ty) (c : Cell)
  | exc (e : Exc)
  deriving DecidableEq, Repr

/-- A `result<T>` in an error state (result.hpp:113-161): made from an `error_id`, or with a capture list.
The bit-level representation is in `ResultModel`. -/
inductive ErrRes
  | plain (id : Id)
  | captured (id : Id) (nodes : List CapNode)
  deriving DecidableEq, Repr

/-- `result_discriminant::get_error_id`, result.hpp:156-160: `make_error_id((state_ & ~3) | 1)`; see `ResultModel` for the
link with the stored bits. -/
def ErrRes.errId : ErrRes → Id
  | .plain id => makeErrorId id
  | .captured id _ => makeErrorId id

/-- `error_result::operator result<U>`, result.hpp:211-229, for a result in an error state: what
`return r.error();` and the `BOOST_LEAF_CHECK/ASSIGN/AUTO` macros return. -/
def ErrRes.forward : ErrRes → ErrRes
  | .plain id => .plain (makeErrorId id)
  | .captured id nodes => .captured (makeErrorId id) nodes

/-- Outcome of a piece of user code: it returns a value (a `result` in value state, or a plain value), returns a `result` in an
error state, or throws. -/
inductive Out
  | val (v : Val)
  | err (r : ErrRes)
  | exc (e : Exc)
  deriving DecidableEq, Repr

/-- An item passed to `new_error` / `load`: an object, a function returning an object, or a function taking `E &`
(`load_item`, error.hpp:493-524). `tag` identifies the function in the trace. -/
inductive Item
  | obj (ty : Ty) (v : Val)
  | deferred (ty : Ty) (tag : Nat) (v : Val)
  | accum (ty : Ty) (tag : Nat) (f : Val → Val)

/-- An item passed to `on_error`: as above, or a function returning `void` (on_error.hpp:90-164). -/
inductive OnItem
  | item (i : Item)
  | action (tag : Nat)

/-- A handler argument (handler_argument_traits, context.hpp:26-133; handle_errors.hpp:96-105; diagnostics.hpp; pred.hpp).
* `req E`: `E`, `E const &`, `E &`
* `ptr E`: `E *`, `E const *`
* `pred E p`: a predicate by value with `error_type = E` (`match`, `match_value`, `match_member`, `if_not` of these)
* `catch_ p`: a predicate with `error_type = void` (`catch_<...>`, `if_not<catch_<...>>`)
* `info`, `diag`, `details`: `error_info const &`, `diagnostic_info const &`, `diagnostic_details const &` -/
inductive Arg
  | req (ty : Ty)
  | ptr (ty : Ty)
  | pred (ty : Ty) (p : Val → Bool)
  | catch_ (p : Exc → Bool)
  | info
  | diag
  | details

/-- What a handler receives for an argument. -/
inductive ArgVal
  | obj (ty : Ty) (v : Val)
  | ptr (ty : Ty) (v : Option Val)
  | exc (e : Exc)
  | info (id : Id) (ex : Option Exc) (loc : Option Val)
  | diag (id : Id) (ex : Option Exc) (loc : Option Val) (objs : List (Ty × Val))
  | details (id : Id) (ex : Option Exc) (loc : Option Val) (objs : List (Ty × Val)) (captured : List (Ty × Val))
  deriving DecidableEq, Repr

/-- Ghost trace of observable events (newest first in the world).
* `gen id`: this thread generated `id`
* `offered id ty v`: an object was handed to LEAF for error `id` by user code
* `transported id ty v`: an object left a captured result (`result::unload`)
* `called tag`: a user function passed as item was called
* `handled id ex i args`: handler number `i` was called for error `id` with `args`, while handling exception `ex` if any -/
inductive Event
  | gen (id : Id)
  | offered (id : Id) (ty : Ty) (v : Val)
  | transported (id : Id) (ty : Ty) (v : Val)
  | called (tag : Nat)
  | handled (id : Id) (ex : Option Exc) (i : Nat) (args : List ArgVal)
  deriving DecidableEq, Repr

end Leaf
