import Verif.Prog

/-!
# `on_error` guards as objects

In `Prog`, a guard lives exactly as long as a block. Here guards are objects: they are constructed, moved (for instance returned from the function
that makes them) and destroyed at any time, while other code of the thread runs in between.
-/

namespace Leaf

/-- `preloaded<Item...>`, on_error.hpp:166-198; `saved` and `uncaught` are the members of its `error_monitor`, on_error.hpp:15-29. -/
structure Guard where
  items : List OnItem
  moved : Bool
  saved : Id
  uncaught : Nat

/-- A thread with guard objects. `flying`: exceptions thrown and not caught yet, newest first (`std::uncaught_exceptions()` is their number). -/
structure GState (M : Type) where
  w : World M
  flying : List Exc
  guards : Nat → Option Guard

/-- What a thread may do. Guard objects have names. -/
inductive GOp
  /-- `on_error(items...)`, on_error.hpp:222-228 -/
  | make (g : Nat) (items : List OnItem)
  /-- `preloaded( preloaded && )` -/
  | move (src dst : Nat)
  | destroy (g : Nat)
  /-- other code; if it is left by an exception, this is now in flight -/
  | run (p : Prog)
  /-- a `catch` clause is entered and left: the exception thrown last is destroyed -/
  | catch_

def GState.setGuard {M : Type} (s : GState M) (g : Nat) (x : Option Guard) : GState M :=
  { s with guards := fun g' => if g' = g then x else s.guards g' }

section
variable {M : Type} [Store M]

/-- `~preloaded`, on_error.hpp:191-197; `n` is `std::uncaught_exceptions()`. -/
def destroyGuard (cfg : Cfg) (x : Guard) (n : Nat) : Comp M Unit := do
  if x.moved then return ()
  let id ← checkId cfg x.saved (decide (n > x.uncaught))
  if id ≠ 0#32 then do
    assertTagged id
    triggerItems cfg id x.items

/-- One step; `none` if undefined (or the named guard does not exist, or exists already). `husk`: what is left of an item that was moved from. -/
def gstep (cfg : Cfg) (husk : OnItem → OnItem) (s : GState M) : GOp → Option (GState M)
  | .make g items =>
    match s.guards g with
    | some _ => none
    | none => (currentId s.w).map fun r => { s with w := r.2 }.setGuard g (some ⟨items, false, r.1, s.flying.length⟩)
  | .move a b =>
    match s.guards a, s.guards b with
    | some x, none =>
      some ((s.setGuard b (some ⟨x.items, false, x.saved, x.uncaught⟩)).setGuard a (some ⟨x.items.map husk, true, x.saved, x.uncaught⟩))
    | _, _ => none
  | .destroy g =>
    match s.guards g with
    | some x => (destroyGuard cfg x s.flying.length s.w).map fun r => { s with w := r.2 }.setGuard g none
    | none => none
  | .run p =>
    (eval cfg p s.w).map fun r =>
      { s with w := r.2, flying := match r.1 with | .exc e => e :: s.flying | _ => s.flying }
  | .catch_ =>
    match s.flying with
    | e :: es => (destroyExc e s.w).map fun r => { s with w := r.2, flying := es }
    | [] => none

def grun (cfg : Cfg) (husk : OnItem → OnItem) (s : GState M) : List GOp → Option (GState M)
  | [] => some s
  | o :: os => (gstep cfg husk s o).bind fun s' => grun cfg husk s' os

/-- A thread without guards. -/
def GState.init (w : World M) (flying : List Exc) : GState M := ⟨w, flying, fun _ => none⟩

end
end Leaf
