import Verif.ContextModel

/-!
# Model of `activate_context`

context.hpp:283-305 (`raii_deactivator`), 396-399 (`activate_context`): guards that activate a context for the rest of a block. The contexts are those of ContextModel.lean.

Programs are structured in blocks: `guarded c body k` is `{ auto g = activate_context(c); body } k`. Leaving the block early (an exception, `return`) runs the same destructor; the rest of the body is then not part of `body`.
Guards that are moved out of their block: GuardMoveModel.lean.
-/

namespace Leaf

inductive GProg
  | done
  | op (o : UOp) (k : GProg)
  | guarded (c : Nat) (body k : GProg)

/-- `raii_deactivator(context &)`, context.hpp:289-294: activates the context unless it is active already. Returns `ctx_`. -/
def UWorld.guardCtor (cfg : Cfg) (u : UWorld) (c : Nat) : Option (Option Nat × UWorld) :=
  match u.pool c with
  | none => none
  | some x =>
    let ctx := if x.active then none else some c
    match ctx with
    | none => some (none, u)
    | some c => do
      let (_, u) ← u.step cfg (.activate c)
      return (some c, u)

/-- `~raii_deactivator()`, context.hpp:300-304. -/
def UWorld.guardEnd (cfg : Cfg) (u : UWorld) : Option Nat → Option UWorld
  | none => some u
  | some c =>
    match u.pool c with
    | none => none
    | some x =>
      if x.active then do
        let (_, u) ← u.step cfg (.deactivate c)
        return u
      else some u

/-- `raii_deactivator(raii_deactivator &&)`, context.hpp:295-299: `ctx_` of the new guard and of the old one. -/
def guardMove (g : Option Nat) : Option Nat × Option Nat := (g, none)

/-- `activate_context(c)`, context.hpp:396-399: the guard is returned by value (before C++17: moved; the moved-from guard is destroyed). -/
def UWorld.activateContext (cfg : Cfg) (u : UWorld) (c : Nat) : Option (Option Nat × UWorld) := do
  let (g, u) ← u.guardCtor cfg c
  let (g, old) := guardMove g
  let u ← u.guardEnd cfg old
  return (g, u)

/-- Runs a program; the observations are those of the operations on contexts other than activating and deactivating by guards. -/
def GProg.run (cfg : Cfg) : GProg → UWorld → Option (List UObs × UWorld)
  | .done, u => some ([], u)
  | .op o k, u => do
    let (x, u) ← u.step cfg o
    let (xs, u) ← k.run cfg u
    return (x :: xs, u)
  | .guarded c body k, u => do
    let (g, u) ← u.activateContext cfg c
    let (xs, u) ← body.run cfg u
    let u ← u.guardEnd cfg g
    let (ys, u) ← k.run cfg u
    return (xs ++ ys, u)

end Leaf
