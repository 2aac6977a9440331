import Verif.ActivatorModel

/-!
# Model of activation guards as objects

context.hpp:283-305 (`raii_deactivator`), 396-399 (`activate_context`). In ActivatorModel.lean guards live in blocks. Here they are objects with a name (a number) that can be moved, for example out of a function or into a
container, and destroyed in any order. The contexts are those of ContextModel.lean; `UWorld.activateContext`, `UWorld.guardEnd` and `guardMove` are those of ActivatorModel.lean.

Outcome `none`: undefined behaviour or a violated assertion. Naming a guard that does not exist, or giving the name of one that does to a new one, is counted as such; both are impossible in C++.
-/

namespace Leaf

inductive AOp
  /-- anything but guards -/
  | op (o : UOp)
  /-- `auto g = activate_context(c);` -/
  | make (g c : Nat)
  /-- `auto d = std::move(g);` -/
  | move (d g : Nat)
  /-- the lifetime of `g` ends -/
  | drop (g : Nat)

/-- `guards g`: the guard `g`, if it exists: its `ctx_`, context.hpp:287. -/
structure AWorld where
  u : UWorld
  guards : Nat → Option (Option Nat)

def AWorld.step (cfg : Cfg) (a : AWorld) : AOp → Option (UObs × AWorld)
  | .op o => do
    let (x, u) ← a.u.step cfg o
    return (x, { a with u := u })
  | .make g c =>
    match a.guards g with
    | some _ => none
    | none => do
      let (r, u) ← a.u.activateContext cfg c
      return (.nothing, ⟨u, upd a.guards g (some r)⟩)
  | .move d g =>
    match a.guards d, a.guards g with
    | none, some r =>
      let (new, old) := guardMove r
      some (.nothing, { a with guards := upd (upd a.guards g (some old)) d (some new) })
    | _, _ => none
  | .drop g =>
    match a.guards g with
    | none => none
    | some r => do
      let u ← a.u.guardEnd cfg r
      return (.nothing, ⟨u, upd a.guards g none⟩)

def AWorld.run (cfg : Cfg) (a : AWorld) : List AOp → Option (List UObs × AWorld)
  | [] => some ([], a)
  | o :: os => do
    let (x, a) ← a.step cfg o
    let (xs, a) ← a.run cfg os
    return (x :: xs, a)

/-- No guards yet. -/
def AWorld.start (u : UWorld) : AWorld := ⟨u, fun _ => none⟩

end Leaf
