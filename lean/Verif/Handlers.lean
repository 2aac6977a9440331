import Verif.Types

/-!
# Handler arguments, context deduction, handler selection
-/

namespace Leaf

/-! ## Context deduction -/

/-- `mp_unique` (`mp_set_push_back` of every element onto an empty list), detail/mp11.hpp: first occurrences are kept. -/
def mpUnique {α : Type} [DecidableEq α] (l : List α) : List α :=
  l.foldl (fun acc x => if x ∈ acc then acc else acc ++ [x]) []

/-- `handler_argument_traits<A>::context_types`, context.hpp:42-43, 65, 87, 105, 119; handle_errors.hpp:113-123 (`error_info`);
diagnostics.hpp (`diagnostic_info`, `diagnostic_details`: the latter adds `dynamic_allocator` when `BOOST_LEAF_CFG_CAPTURE`). -/
def Arg.contextTypes (cfg : Cfg) : Arg → List CellTy
  | .req ty => [.obj ty]
  | .ptr ty => [.obj ty]
  | .pred ty _ => [.obj ty]
  | .catch_ _ => []
  | .info => []
  | .diag => [.obj tySrcLoc]
  | .details => if cfg.capture then [.obj tySrcLoc, .da] else [.obj tySrcLoc]

/-- `does_not_participate_in_context_deduction`, context.hpp:236-237. -/
def CellTy.excluded (cfg : Cfg) : CellTy → Bool
  | .obj ty => cfg.isAbstract ty
  | .da => false

/-- `deduce_e_type_list`, context.hpp:242-252, applied to all arguments of all handlers
(`context_type_from_handlers`, context.hpp:419-445; `fn_mp_args` of each handler, appended). -/
def deduce (cfg : Cfg) (specs : List (List Arg)) : List CellTy :=
  (mpUnique ((specs.flatten.map (Arg.contextTypes cfg)).flatten)).filter (fun t => !t.excluded cfg)

/-! ## Reading a context -/

/-- `std::get<slot<E>>(tup)` / `find_in_tuple<slot<E>>`, context.hpp:139-173. -/
def findCell (ty : Ty) : List CtxCell → Option Cell
  | [] => none
  | .obj ty' c :: cs => if ty' = ty then some c else findCell ty cs
  | .da _ _ :: cs => findCell ty cs

/-- `dynamic_cast<E *>` / `peek_exception`, handle_errors.hpp:154-223. -/
def Exc.cast (e : Exc) (ty : Ty) : Option Val := e.casts.lookup ty

/-- `peek`, handle_errors.hpp:262-294 with `peek_tuple`, 227-260. `ex` is `error_info::exception()`. -/
def peek (cfg : Cfg) (cells : List CtxCell) (id : Id) (ex : Option Exc) (ty : Ty) : Option Val :=
  if id = 0#32 then none
  else
    match (if cfg.isAbstract ty then none else (findCell ty cells).bind (Cell.hasValue · id)) with
    | some v => some v
    | none => ex.bind (Exc.cast · ty)

/-- The objects printed by `print_tuple_contents` for `to_print = id`: slot::print, error.hpp:149-158. -/
def ctxObjs (id : Id) (cells : List CtxCell) : List (Ty × Val) :=
  cells.filterMap fun
    | .obj ty (some (k, v)) => if id ≠ 0#32 ∧ k ≠ id then none else some (ty, v)
    | _ => none

/-- The objects of a `dynamic_allocator` printed for `to_print = id`: capture_list::print, detail/capture_list.hpp:99-115. -/
def daObjs (id : Id) (cells : List CtxCell) : List (Ty × Val) :=
  cells.flatMap fun
    | .da key nodes => if key = 0#32 then [] else nodes.filterMap fun
        | (ty, some (k, v)) => if id ≠ 0#32 ∧ k ≠ id then none else some (ty, v)
        | _ => none
    | _ => []

/-! ## Arguments -/

/-- `handler_argument_traits<A>::always_available`, context.hpp:44, 88, 106; handle_errors.hpp:113-123. -/
def Arg.always : Arg → Bool
  | .ptr _ | .info | .diag | .details => true
  | .req _ | .pred _ _ | .catch_ _ => false

/-- `handler_matches_any_error`, handle_errors.hpp:356-370. -/
def matchesAny (args : List Arg) : Bool := args.all Arg.always

/-- `handler_argument_traits<A>::check`, context.hpp:47-50, 71-75, 91-94; handle_errors.hpp:301-328. -/
def Arg.check (cfg : Cfg) (cells : List CtxCell) (id : Id) (ex : Option Exc) : Arg → Bool
  | .req ty => (peek cfg cells id ex ty).isSome
  | .ptr _ => true
  | .pred ty p => match peek cfg cells id ex ty with
    | some v => p v
    | none => false
  | .catch_ p => match ex with
    | some e => p e
    | none => false
  | .info | .diag | .details => true

/-- `check_arguments`, handle_errors.hpp:330-349. -/
def checkArgs (cfg : Cfg) (cells : List CtxCell) (id : Id) (ex : Option Exc) (args : List Arg) : Bool :=
  args.all (Arg.check cfg cells id ex)

/-- `handler_argument_traits<A>::get`, context.hpp:53-56, 78-81, 121-125; handle_errors.hpp:113-123; diagnostics.hpp.
`none`: dereference of a null pointer. `loc` is `error_info::source_location()`. -/
def Arg.get (cfg : Cfg) (cells : List CtxCell) (id : Id) (ex : Option Exc) (loc : Option Val) : Arg → Option ArgVal
  | .req ty => (peek cfg cells id ex ty).map (.obj ty)
  | .ptr ty => some (.ptr ty (peek cfg cells id ex ty))
  | .pred ty _ => (peek cfg cells id ex ty).map (.obj ty)
  | .catch_ _ => ex.map .exc
  | .info => some (.info id ex loc)
  | .diag => some (.diag id ex loc (ctxObjs id cells))
  | .details => some (.details id ex loc (ctxObjs id cells) (daObjs id cells))

def getArgs (cfg : Cfg) (cells : List CtxCell) (id : Id) (ex : Option Exc) (loc : Option Val) : List Arg → Option (List ArgVal)
  | [] => some []
  | a :: as => do
    let v ← Arg.get cfg cells id ex loc a
    let vs ← getArgs cfg cells id ex loc as
    return v :: vs

/-! ## Selection -/

/-- `handle_error_` followed by a catch-all lambda (`try_handle_some`, `try_catch`), handle_errors.hpp:424-433: index of the first
handler whose arguments check, counted from `i`; `none`: the appended lambda. -/
def selectSomeFrom (cfg : Cfg) (cells : List CtxCell) (id : Id) (ex : Option Exc) (i : Nat) : List (List Arg) → Option Nat
  | [] => none
  | h :: hs => if matchesAny h || checkArgs cfg cells id ex h then some i else selectSomeFrom cfg cells id ex (i + 1) hs

def selectSome (cfg : Cfg) (cells : List CtxCell) (id : Id) (ex : Option Exc) (specs : List (List Arg)) : Option Nat :=
  selectSomeFrom cfg cells id ex 0 specs

/-- `handle_error_` of `try_handle_all`, handle_errors.hpp:415-433: the last handler is called without a check (a `static_assert`
requires that it matches any error); `none`: no handlers, or the `static_assert` fails (does not compile). -/
def selectAllFrom (cfg : Cfg) (cells : List CtxCell) (id : Id) (ex : Option Exc) (i : Nat) : List (List Arg) → Option Nat
  | [] => none
  | [h] => if matchesAny h then some i else none
  | h :: hs => if matchesAny h || checkArgs cfg cells id ex h then some i else selectAllFrom cfg cells id ex (i + 1) hs

def selectAll (cfg : Cfg) (cells : List CtxCell) (id : Id) (ex : Option Exc) (specs : List (List Arg)) : Option Nat :=
  selectAllFrom cfg cells id ex 0 specs

end Leaf
