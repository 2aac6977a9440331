import Verif.Ids

/-!
# Model of the exception objects thrown by `throw_exception`

The objects of the types `detail::exception<Ex>`, and the current error id of the thread. Exception objects that result from copying or moving come from one throw; throws are numbered.
The number of the throw an object comes from is recorded in the model (it is not in the code). Destructor calls that reset the current error are logged.
-/

namespace Leaf

/-- `detail::exception<Ex>`, exception.hpp:80-151: the `error_id` base and `clear_current_error_`; `fam`: the number of the throw. -/
structure XObj where
  fam : Nat
  id : Id
  clear : Bool
  deriving DecidableEq, Repr

/-- Exception objects by address; the thread's current error id; the number of the next throw; the throws whose exception reset the current error, latest first. -/
structure XMem where
  objs : Nat → Option XObj
  cur : Id
  throws : Nat
  resets : List Nat

def XMem.empty (cur : Id) : XMem := ⟨fun _ => none, cur, 0, []⟩

def XMem.put (m : XMem) (a : Nat) (x : Option XObj) : XMem := { m with objs := fun b => if b = a then x else m.objs b }

/-- What happens to exception objects. -/
inductive XOp
  /-- `exception a(id, ...)`: exception.hpp:124-144; the temporary made by `throw_exception` -/
  | make (a : Nat) (id : Id)
  /-- `exception a(b)`, exception.hpp:106-113 -/
  | copy (a b : Nat)
  /-- `exception a(std::move(b))`, exception.hpp:115-122 -/
  | move (a b : Nat)
  /-- `a.get_error_id()`, exception.hpp:93-97, called when LEAF examines the exception (`unpack_error_id`, handle_errors.hpp:17-39) -/
  | examine (a : Nat)
  /-- `~exception()`, exception.hpp:146-150 -/
  | destroy (a : Nat)
  /-- anything else that changes the current error id, such as `new_error` -/
  | setCur (id : Id)

/-- The operations; `none`: use of an object that does not exist, or creation where one exists. -/
def XMem.step (m : XMem) : XOp → Option XMem
  | .make a id =>
    match m.objs a with
    | none => some { m.put a (some ⟨m.throws, id, true⟩) with throws := m.throws + 1 }
    | some _ => none
  | .copy a b =>
    match m.objs a, m.objs b with
    | none, some x => some ((m.put b (some { x with clear := false })).put a (some x))
    | _, _ => none
  | .move a b =>
    match m.objs a, m.objs b with
    | none, some x => some ((m.put b (some { x with clear := false })).put a (some x))
    | _, _ => none
  | .examine a =>
    match m.objs a with
    | some x => some (m.put a (some { x with clear := false }))
    | none => none
  | .destroy a =>
    match m.objs a with
    | some x =>
      if x.clear = true ∧ m.cur = x.id then some { m.put a none with cur := 0#32, resets := x.fam :: m.resets }
      else some (m.put a none)
    | none => none
  | .setCur id => some { m with cur := id }

def XMem.run (m : XMem) : List XOp → Option XMem
  | [] => some m
  | op :: ops => (m.step op).bind (XMem.run · ops)

end Leaf
