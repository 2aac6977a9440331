import Verif.Handlers
import Verif.PredModel

/-!
# Which predicates are called, and what happens if one throws

`Handlers` again, with predicates that may throw, and a record of the calls. All functions that check a handler are `noexcept` (context.hpp:71-75; handle_errors.hpp:340-348,
378-381): an exception terminates the program.
-/

namespace Leaf

/-- A handler argument; `none`: the predicate throws. -/
inductive XArg
  /-- not a predicate -/
  | plain (a : Arg)
  | pred (ty : Ty) (p : Val → Option Bool)
  | catch_ (p : Exc → Option Bool)

/-- What a predicate is applied to: an error object or an exception. -/
inductive Subject
  | obj (v : Val)
  | exc (e : Exc)

/-- `base::check` of a predicate, context.hpp:71-75; handle_errors.hpp:301-328. -/
def XArg.subject (cfg : Cfg) (cells : List CtxCell) (id : Id) (ex : Option Exc) : XArg → Option Subject
  | .plain _ => none
  | .pred ty _ => (peek cfg cells id ex ty).map .obj
  | .catch_ _ => ex.map .exc

/-- `handler_argument_traits<A>::check`, context.hpp:47-50, 71-75, 91-94; handle_errors.hpp:301-328; `none`: an exception gets out of `Pred::evaluate`. -/
def XArg.check (cfg : Cfg) (cells : List CtxCell) (id : Id) (ex : Option Exc) : XArg → Option Bool
  | .plain a => some (a.check cfg cells id ex)
  | .pred ty p => match peek cfg cells id ex ty with
    | some v => p v
    | none => some false
  | .catch_ p => match ex with
    | some e => p e
    | none => some false

/-- `handler_argument_traits<A>::always_available`, context.hpp:44, 88, 106. -/
def XArg.always : XArg → Bool
  | .plain a => a.always
  | _ => false

/-- A call of the predicate that is argument `arg` of handler `handler`. -/
structure PredCall where
  handler : Nat
  arg : Nat
  subject : Subject

/-- `check_arguments`, handle_errors.hpp:330-349: the calls made, and the result; `none`: `std::terminate`. -/
def checkArgsX (cfg : Cfg) (cells : List CtxCell) (id : Id) (ex : Option Exc) (i : Nat) (j : Nat) : List XArg → List PredCall × Option Bool
  | [] => ([], some true)
  | a :: as =>
    let calls := ((a.subject cfg cells id ex).map fun s => (⟨i, j, s⟩ : PredCall)).toList
    match a.check cfg cells id ex with
    | none => (calls, none)
    | some false => (calls, some false)
    | some true =>
      let r := checkArgsX cfg cells id ex i (j + 1) as
      (calls ++ r.1, r.2)

/-- `handle_error_` followed by a catch-all lambda (`try_handle_some`, `try_catch`), handle_errors.hpp:424-433: the calls made and the handler chosen; `none`: `std::terminate`. -/
def selectSomeX (cfg : Cfg) (cells : List CtxCell) (id : Id) (ex : Option Exc) (i : Nat) : List (List XArg) → List PredCall × Option (Option Nat)
  | [] => ([], some none)
  | h :: hs =>
    if h.all XArg.always then ([], some (some i))
    else match checkArgsX cfg cells id ex i 0 h with
      | (calls, none) => (calls, none)
      | (calls, some true) => (calls, some (some i))
      | (calls, some false) =>
        let r := selectSomeX cfg cells id ex (i + 1) hs
        (calls ++ r.1, r.2)

/-- `handle_error_` of `try_handle_all`, handle_errors.hpp:415-433: the last handler is called without a check; inside, `none`: does not compile. -/
def selectAllX (cfg : Cfg) (cells : List CtxCell) (id : Id) (ex : Option Exc) (i : Nat) : List (List XArg) → List PredCall × Option (Option Nat)
  | [] => ([], some none)
  | [h] => if h.all XArg.always then ([], some (some i)) else ([], some none)
  | h :: hs =>
    if h.all XArg.always then ([], some (some i))
    else match checkArgsX cfg cells id ex i 0 h with
      | (calls, none) => (calls, none)
      | (calls, some true) => (calls, some (some i))
      | (calls, some false) =>
        let r := selectAllX cfg cells id ex (i + 1) hs
        (calls ++ r.1, r.2)

/-- An element of the pack `V1, V...`: the comparison `e == v` or the function may throw (`none`). -/
abbrev XPackItem := Val → Option Bool

/-- `cmp_value_pack(e, car, cdr...)`, pred.hpp:22-48: the number of comparisons made, and the result. -/
def cmpValuePackX (e : Val) (car : XPackItem) : List XPackItem → Nat × Option Bool
  | [] => (1, car e)
  | c :: cs => match car e with
    | none => (1, none)
    | some true => (1, some true)
    | some false =>
      let r := cmpValuePackX e c cs
      (r.1 + 1, r.2)

/-- `XArg` without exceptions, as in `Handlers`. -/
def XArg.ofArg : Arg → XArg
  | .pred ty p => .pred ty fun v => some (p v)
  | .catch_ p => .catch_ fun e => some (p e)
  | a => .plain a

end Leaf
