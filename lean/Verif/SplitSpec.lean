import Verif.Wf

/-!
# Handlers of two nested scopes

Definitions for the statements in `Verif/PropSplit.lean`.
-/

namespace Leaf

/-- The event, not looking at the position of a handler in its list. -/
def Event.anyIndex : Event → Event
  | .handled id ex _ args => .handled id ex 0 args
  | e => e

/-- The argument is an error object (of any type but `e_source_location`), the exception, or `error_info`; not one of the diagnostic types, which list the content of the scope. -/
def Arg.Plain : Arg → Prop
  | .req t | .ptr t | .pred t _ => t ≠ tySrcLoc
  | .catch_ _ | .info => True
  | .diag | .details => False

def PlainSpecs (H : List (List Arg)) : Prop := ∀ args ∈ H, ∀ a ∈ args, a.Plain

/-- Some handler has an argument for objects of type `t`. -/
def TakesObj (H : List (List Arg)) (t : Ty) : Prop := ∃ args ∈ H, ∃ a ∈ args, a = .req t ∨ a = .ptr t ∨ ∃ f, a = .pred t f

/-- The handlers of a list `H1` followed by those of another list, `g` and `b2`. -/
def joined (H1 : List (List Arg)) (g : Nat → List ArgVal → Val) (b2 : Nat → List ArgVal → Prog) (i : Nat) (args : List ArgVal) : Prog :=
  if i < H1.length then .ret (.val (g i args)) else b2 (i - H1.length) args

end Leaf
