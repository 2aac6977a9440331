import Verif.GuardModel
import Verif.PropGuards

/-!
# C46: `on_error` guards may be moved

A guard that is moved acts as if it had stayed one object, destroyed when its last owner is destroyed. This holds for all histories in which no
guard is moved that was moved from already; otherwise it is false (`C46_refuted_moved_twice`): such a guard is not marked as moved.
-/

namespace Leaf

/-! ## Specification -/

/-- The state of a name in a history. -/
inductive Holder
  | unused
  /-- an object that owns the guard made under the name `r` -/
  | owns (r : Nat)
  /-- an object that was moved from -/
  | empty
  /-- destroyed -/
  | gone

/-- Set the state of a name. -/
def hset (st : Nat → Holder) (g : Nat) (h : Holder) : Nat → Holder := fun g' => if g' = g then h else st g'

/-- The history is allowed: names are new, objects destroyed exist, and objects moved from own something. -/
def Allowed (st : Nat → Holder) : List GOp → Prop
  | [] => True
  | .make g _ :: os => st g = .unused ∧ Allowed (hset st g (.owns g)) os
  | .move a b :: os => ∃ r, st a = .owns r ∧ st b = .unused ∧ Allowed (hset (hset st b (.owns r)) a .empty) os
  | .destroy g :: os => (st g = .empty ∨ ∃ r, st g = .owns r) ∧ Allowed (hset st g .gone) os
  | .run _ :: os => Allowed st os
  | .catch_ :: os => Allowed st os

/-- The same history without moves: each guard is one object, destroyed when its last owner is. -/
def unmoved (st : Nat → Holder) : List GOp → List GOp
  | [] => []
  | .make g items :: os => .make g items :: unmoved (hset st g (.owns g)) os
  | .move a b :: os => unmoved (hset (hset st b (st a)) a .empty) os
  | .destroy g :: os =>
    match st g with
    | .owns r => .destroy r :: unmoved (hset st g .gone) os
    | _ => unmoved (hset st g .gone) os
  | .run p :: os => .run p :: unmoved st os
  | .catch_ :: os => .catch_ :: unmoved st os

/-- What the rest of the thread sees. -/
def GState.visible {M : Type} (s : GState M) : World M × List Exc := (s.w, s.flying)

/-! ## Lemmas -/

section
variable {M : Type} [Store M]

/-- `s`: objects as in the code, `t`: guards that are not moved. -/
structure Owned (st : Nat → Holder) (s t : GState M) : Prop where
  w : s.w = t.w
  flying : s.flying = t.flying
  unused : ∀ g, st g = .unused → s.guards g = none ∧ t.guards g = none
  owns : ∀ g r, st g = .owns r → ∃ x, s.guards g = some x ∧ x.moved = false ∧ t.guards r = some x
  empty : ∀ g, st g = .empty → ∃ x, s.guards g = some x ∧ x.moved = true
  inj : ∀ g g' r, st g = .owns r → st g' = .owns r → g = g'
  used : ∀ g r, st g = .owns r → st r ≠ .unused

theorem owned_run (cfg : Cfg) (husk : OnItem → OnItem) {os : List GOp} {st : Nat → Holder} {s t : GState M} (hR : Owned st s t)
    (ha : Allowed st os) : (grun cfg husk s os).map GState.visible = (grun cfg husk t (unmoved st os)).map GState.visible := by
  induction os generalizing st s t with
  | nil => simp only [unmoved, grun, Option.map_some, GState.visible, hR.w, hR.flying]
  | cons o os ih =>
    cases o with
    | make g items =>
      obtain ⟨h1, h2⟩ := ha
      simp only [unmoved, grun, gstep, (hR.unused g h1).1, (hR.unused g h1).2, ← hR.w, ← hR.flying]
      cases hc : currentId s.w with
      | none => rfl
      | some r =>
        simp only [Option.map_some, Option.bind_some]
        refine ih ?_ h2
        constructor
        · rfl
        · rfl
        · intro g' hg
          by_cases he : g' = g
          · subst he; simp [hset] at hg
          · simp only [hset, he, if_false] at hg
            simp only [GState.setGuard, he, if_false]
            exact hR.unused g' hg
        · intro g' r' hg
          by_cases he : g' = g
          · subst he
            simp only [hset, if_true, Holder.owns.injEq] at hg
            subst hg
            exact ⟨_, if_pos rfl, rfl, if_pos rfl⟩
          · simp only [hset, he, if_false] at hg
            have hne : r' ≠ g := fun e => hR.used g' r' hg (e ▸ h1)
            simp only [GState.setGuard, he, hne, if_false]
            exact hR.owns g' r' hg
        · intro g' hg
          by_cases he : g' = g
          · subst he; simp [hset] at hg
          · simp only [hset, he, if_false] at hg
            simp only [GState.setGuard, he, if_false]
            exact hR.empty g' hg
        · intro g1 g2 r' e1 e2
          by_cases he1 : g1 = g <;> by_cases he2 : g2 = g
          · rw [he1, he2]
          · subst he1
            simp only [hset, if_true, Holder.owns.injEq, he2, if_false] at e1 e2
            subst e1
            exact absurd h1 (hR.used g2 _ e2)
          · subst he2
            simp only [hset, if_true, Holder.owns.injEq, he1, if_false] at e1 e2
            subst e2
            exact absurd h1 (hR.used g1 _ e1)
          · simp only [hset, he1, he2, if_false] at e1 e2
            exact hR.inj g1 g2 r' e1 e2
        · intro g' r' hg
          by_cases hr : r' = g
          · simp [hset, hr]
          · simp only [hset, hr, if_false]
            by_cases he : g' = g
            · subst he
              simp only [hset, if_true, Holder.owns.injEq] at hg
              exact absurd hg.symm hr
            · simp only [hset, he, if_false] at hg
              exact hR.used g' r' hg
    | move a b =>
      obtain ⟨r, h1, h2, h3⟩ := ha
      obtain ⟨x, e1, e2, e3⟩ := hR.owns a r h1
      have hab : b ≠ a := fun e => by rw [e, h1] at h2; cases h2
      have hx : (⟨x.items, false, x.saved, x.uncaught⟩ : Guard) = x := by cases x; simp_all
      simp only [unmoved, grun, gstep, e1, (hR.unused b h2).1, Option.bind_some, h1, hx]
      refine ih ?_ h3
      constructor
      · exact hR.w
      · exact hR.flying
      · intro g' hg
        by_cases he : g' = a
        · subst he; simp [hset] at hg
        · by_cases he' : g' = b
          · subst he'; simp [hset, he] at hg
          · simp only [hset, he, he', if_false] at hg
            simp only [GState.setGuard, he, he', if_false]
            exact hR.unused g' hg
      · intro g' r' hg
        by_cases he : g' = a
        · subst he; simp [hset] at hg
        · by_cases he' : g' = b
          · subst he'
            simp only [hset, he, if_false, if_true, Holder.owns.injEq] at hg
            subst hg
            exact ⟨x, by simp [GState.setGuard, he], e2, e3⟩
          · simp only [hset, he, he', if_false] at hg
            simp only [GState.setGuard, he, he', if_false]
            exact hR.owns g' r' hg
      · intro g' hg
        by_cases he : g' = a
        · subst he; exact ⟨_, if_pos rfl, rfl⟩
        · by_cases he' : g' = b
          · subst he'; simp [hset, he] at hg
          · simp only [hset, he, he', if_false] at hg
            simp only [GState.setGuard, he, he', if_false]
            exact hR.empty g' hg
      · have key : ∀ g' r', hset (hset st b (.owns r)) a .empty g' = .owns r' → g' ≠ a ∧ (g' = b ∧ r' = r ∨ g' ≠ b ∧ st g' = .owns r') := by
          intro g' r' hg
          by_cases he : g' = a
          · subst he; simp [hset] at hg
          · by_cases he' : g' = b
            · subst he'
              simp only [hset, he, if_false, if_true, Holder.owns.injEq] at hg
              exact ⟨he, Or.inl ⟨rfl, hg.symm⟩⟩
            · simp only [hset, he, he', if_false] at hg
              exact ⟨he, Or.inr ⟨he', hg⟩⟩
        intro g1 g2 r' e1 e2
        obtain ⟨n1, f1⟩ := key g1 r' e1
        obtain ⟨n2, f2⟩ := key g2 r' e2
        rcases f1 with ⟨rfl, rfl⟩ | ⟨_, f1⟩ <;> rcases f2 with ⟨rfl, f2⟩ | ⟨_, f2⟩
        · rfl
        · exact absurd (hR.inj _ _ _ f2 h1) n2
        · subst f2; exact absurd (hR.inj _ _ _ f1 h1) n1
        · exact hR.inj _ _ _ f1 f2
      · intro g' r' hg
        have hst : ∀ q, st q ≠ .unused → hset (hset st b (.owns r)) a .empty q ≠ .unused := by
          intro q hq
          unfold hset
          split
          · simp
          · split
            · simp
            · exact hq
        refine hst r' ?_
        by_cases he : g' = a
        · subst he; simp [hset] at hg
        · by_cases he' : g' = b
          · subst he'
            simp only [hset, he, if_false, if_true, Holder.owns.injEq] at hg
            subst hg
            exact hR.used _ _ h1
          · simp only [hset, he, he', if_false] at hg
            exact hR.used _ _ hg
    | destroy g =>
      obtain ⟨h1, h2⟩ := ha
      have hst : ∀ q, st q ≠ .unused → hset st g .gone q ≠ .unused := by
        intro q hq
        unfold hset
        split
        · simp
        · exact hq
      have key : ∀ g' h, hset st g .gone g' = h → h ≠ .gone → g' ≠ g ∧ st g' = h := by
        intro g' h hg hh
        by_cases he : g' = g
        · subst he; simp only [hset, if_true] at hg; exact absurd hg.symm hh
        · simp only [hset, he, if_false] at hg; exact ⟨he, hg⟩
      rcases h1 with h1 | ⟨r, h1⟩
      · obtain ⟨x, e1, e2⟩ := hR.empty g h1
        simp only [unmoved, grun, gstep, e1, h1]
        have hd : destroyGuard cfg x s.flying.length s.w = some ((), s.w) := by
          unfold destroyGuard; simp only [e2]; rfl
        simp only [hd, Option.map_some, Option.bind_some]
        refine ih ?_ h2
        constructor
        · exact hR.w
        · exact hR.flying
        · intro g' hg
          obtain ⟨n, hg⟩ := key g' _ hg (by simp)
          simp only [GState.setGuard, n, if_false]
          exact hR.unused g' hg
        · intro g' r' hg
          obtain ⟨n, hg⟩ := key g' _ hg (by simp)
          simp only [GState.setGuard, n, if_false]
          exact hR.owns g' r' hg
        · intro g' hg
          obtain ⟨n, hg⟩ := key g' _ hg (by simp)
          simp only [GState.setGuard, n, if_false]
          exact hR.empty g' hg
        · intro g1 g2 r' f1 f2
          exact hR.inj _ _ _ (key _ _ f1 (by simp)).2 (key _ _ f2 (by simp)).2
        · intro g' r' hg
          exact hst _ (hR.used _ _ (key _ _ hg (by simp)).2)
      · obtain ⟨x, e1, e2, e3⟩ := hR.owns g r h1
        simp only [unmoved, h1, grun, gstep, e1, e3, ← hR.w, ← hR.flying]
        cases hd : destroyGuard cfg x s.flying.length s.w with
        | none => rfl
        | some q =>
          simp only [Option.map_some, Option.bind_some]
          refine ih ?_ h2
          constructor
          · rfl
          · rfl
          · intro g' hg
            obtain ⟨n, hg⟩ := key g' _ hg (by simp)
            have hne : g' ≠ r := fun e => hR.used g r h1 (e ▸ hg)
            simp only [GState.setGuard, n, hne, if_false]
            exact hR.unused g' hg
          · intro g' r' hg
            obtain ⟨n, hg⟩ := key g' _ hg (by simp)
            have hne : r' ≠ r := fun e => n (hR.inj _ _ _ (e ▸ hg) h1)
            simp only [GState.setGuard, n, hne, if_false]
            exact hR.owns g' r' hg
          · intro g' hg
            obtain ⟨n, hg⟩ := key g' _ hg (by simp)
            simp only [GState.setGuard, n, if_false]
            exact hR.empty g' hg
          · intro g1 g2 r' f1 f2
            exact hR.inj _ _ _ (key _ _ f1 (by simp)).2 (key _ _ f2 (by simp)).2
          · intro g' r' hg
            exact hst _ (hR.used _ _ (key _ _ hg (by simp)).2)
    | run p =>
      simp only [unmoved, grun, gstep, ← hR.w, ← hR.flying]
      cases he : eval cfg p s.w with
      | none => rfl
      | some q =>
        simp only [Option.map_some, Option.bind_some]
        exact ih ⟨rfl, rfl, hR.unused, hR.owns, hR.empty, hR.inj, hR.used⟩ ha
    | catch_ =>
      simp only [unmoved, grun, gstep, ← hR.w, ← hR.flying]
      cases hf : s.flying with
      | nil => rfl
      | cons e es =>
        simp only
        cases he : destroyExc e s.w with
        | none => rfl
        | some q =>
          simp only [Option.map_some, Option.bind_some]
          exact ih ⟨rfl, rfl, hR.unused, hR.owns, hR.empty, hR.inj, hR.used⟩ ha

/-- What the destructor of a guard that was not moved does. -/
def guardEnds (cfg : Cfg) (items : List OnItem) (saved : Id) (b : Bool) : Comp M Unit := do
  let id ← checkId cfg saved b
  if id ≠ 0#32 then do
    assertTagged id
    triggerItems cfg id items

theorem destroyGuard_eq (cfg : Cfg) (items : List OnItem) (saved : Id) (m n : Nat) :
    destroyGuard (M := M) cfg ⟨items, false, saved, m⟩ n = guardEnds cfg items saved (decide (n > m)) := rfl

theorem onErrorGuard_ends (cfg : Cfg) (items : List OnItem) (body : Comp M Out) :
    onErrorGuard cfg items body = do
      let saved ← currentId
      let o ← body
      guardEnds cfg items saved (match o with | .exc _ => true | _ => false)
      return o := by
  unfold onErrorGuard guardEnds
  simp only [bind_assoc]
  congr 1; funext saved; congr 1; funext o; congr 1; funext id
  split <;> simp

end

/-! ## Theorems -/

/-- **C46, moving.** Whatever a thread does, it ends (or fails) in the same state as if its guards had never been moved: each guard is examined once,
when its last owner is destroyed, against the error state at the time it was made, with its original items. -/
theorem C46_moved_partial (cfg : Cfg) (husk : OnItem → OnItem) (w : World PtrStore) (flying : List Exc) (os : List GOp)
    (ha : Allowed (fun _ => .unused) os) :
    (grun cfg husk (.init w flying) os).map GState.visible =
      (grun cfg husk (.init w flying) (unmoved (fun _ => .unused) os)).map GState.visible := by
  refine owned_run cfg husk ⟨rfl, rfl, ?_, ?_, ?_, ?_, ?_⟩ ha <;> intros <;> simp_all [GState.init]

/-- **C46, blocks.** A guard made before a piece of code and destroyed after it (in the course of stack unwinding, if this is left by an exception)
is what `Prog.onError` describes, the subject of C24. -/
theorem C46_block (cfg : Cfg) (husk : OnItem → OnItem) (w : World PtrStore) (flying : List Exc) (g : Nat) (items : List OnItem) (p : Prog) :
    (grun cfg husk (.init w flying) [.make g items, .run p, .destroy g]).map GState.visible =
      (eval cfg (.onError items p) w).map fun r => (r.2, match r.1 with | .exc e => e :: flying | _ => flying) := by
  simp only [grun, gstep, GState.init, eval, onErrorGuard_ends, bind_apply]
  cases hc : currentId w with
  | none => rfl
  | some r =>
    simp only [Option.map_some, Option.bind_some, GState.setGuard]
    cases he : eval cfg p r.2 with
    | none => rfl
    | some q =>
      obtain ⟨o, w'⟩ := q
      simp only [Option.map_some, Option.bind_some, if_true, destroyGuard_eq]
      cases o <;> simp only [List.length_cons, gt_iff_lt, Nat.lt_irrefl, Nat.lt_succ_self, decide_true, decide_false] <;>
        generalize guardEnds cfg items r.1 _ w' = x <;> cases x <;> rfl

/-- **C46, exceptions caught.** Code left by an exception that is caught at once: this is destroyed, and afterwards the exceptions in flight and the guards
are those of before. -/
theorem C46_caught (cfg : Cfg) (husk : OnItem → OnItem) (s : GState PtrStore) (p : Prog) {e : Exc} {w : World PtrStore}
    (hp : eval cfg p s.w = some (.exc e, w)) :
    grun cfg husk s [.run p, .catch_] = (destroyExc e w).map fun r => ⟨r.2, s.flying, s.guards⟩ := by
  simp only [grun, gstep, hp, Option.map_some, Option.bind_some]
  cases destroyExc e w <;> rfl

/-- Hence a guard in whose lifetime an exception was thrown and caught is not destroyed in the course of stack unwinding: only the current id counts. -/
theorem C46_caught_inside (cfg : Cfg) (husk : OnItem → OnItem) (w : World PtrStore) (flying : List Exc) (g : Nat) (items : List OnItem) (p : Prog) (v : Nat) :
    (∀ r, currentId w = some r → ∃ e w', eval cfg p r.2 = some (.exc e, w')) →
    (grun cfg husk (.init w flying) [.make g items, .run p, .catch_, .destroy g]).map GState.visible =
      (onErrorGuard cfg items (do
        match ← eval cfg p with
        | .exc e => do destroyExc e; return .val v
        | o => return o) w).map fun r => (r.2, flying) := by
  intro hp
  simp only [grun, gstep, GState.init, onErrorGuard_ends, bind_apply]
  cases hc : currentId w with
  | none => rfl
  | some r =>
    obtain ⟨e, w', he⟩ := hp r hc
    simp only [Option.map_some, Option.bind_some, GState.setGuard, he, bind_apply]
    cases hd : destroyExc e w' with
    | none => rfl
    | some q =>
      simp only [Option.map_some, Option.bind_some, if_true, destroyGuard_eq, gt_iff_lt, Nat.lt_irrefl, decide_false, pure_apply]
      generalize guardEnds cfg items r.1 false q.2 = x
      cases x <;> rfl

/-- The events of a history on a new thread. -/
def gtrace (os : List GOp) (husk : OnItem → OnItem := id) : Option (List Event) :=
  (grun exCfg husk (.init (initThread 1#32) []) os).map fun s => s.w.trace

/-- A guard is made by a function that returns it; then an error is reported; the guard is destroyed by its second owner. -/
def exMoved : List GOp :=
  [.make 0 [.action 7], .move 0 1, .destroy 0, .run (.newError [] fun id => .ret (.err (.plain id))), .move 1 2, .destroy 2, .destroy 1]

/-- The hypothesis holds for it. -/
example : Allowed (fun _ => .unused) exMoved := by
  refine ⟨rfl, 0, rfl, rfl, Or.inl rfl, 0, rfl, rfl, Or.inr ⟨0, rfl⟩, Or.inl rfl, trivial⟩

example : unmoved (fun _ => .unused) [.make 0 [], .move 0 1, .destroy 0, .destroy 1] = [.make 0 [], .destroy 0] := rfl

example : gtrace exMoved = some [.called 7, .gen 5#32] := by decide +kernel

/-- A guard cannot be destroyed twice. -/
example : gtrace [.make 0 [.action 7], .destroy 0, .destroy 0] = none := by decide +kernel

/-- An exception leaves the scope of a guard that was made before, by another owner. -/
example : gtrace [.make 0 [.action 7], .move 0 1, .destroy 0, .run (.ret (.exc ⟨0, true, .none, [], false⟩)), .destroy 1, .catch_] =
    some [.called 7, .gen 5#32] := by decide +kernel

/-- An exception is thrown and caught in the lifetime of a guard: the guard does nothing. If the exception reports a new error, it acts. -/
example : ∃ e w', eval exCfg (.ret (.exc ⟨0, true, .none, [], false⟩)) (initThread 1#32) = some (.exc e, w') := ⟨_, _, rfl⟩

example : gtrace [.make 0 [.action 7], .run (.ret (.exc ⟨0, true, .none, [], false⟩)), .catch_, .destroy 0] = some [] := by decide +kernel

example : gtrace [.make 0 [.action 7], .run (.newError [] fun id => .ret (.exc ⟨0, true, .base id, [], false⟩)), .catch_, .destroy 0] =
    some [.called 7, .gen 5#32] := by decide +kernel

/-- **C46 refuted for guards moved from.** Moving a guard that was moved from already makes a guard that is not marked as moved
(`moved_(false)`, on_error.hpp:184): it acts too, on what the first move left of the items. If a move leaves the item as it was, it is attached (here:
the function called) twice. -/
theorem C46_refuted_moved_twice :
    let os : List GOp :=
      [.make 0 [.action 7], .run (.newError [] fun id => .ret (.err (.plain id))), .move 0 1, .move 0 2, .destroy 2, .destroy 1, .destroy 0]
    gtrace os id = some [.called 7, .called 7, .gen 5#32] ∧ gtrace os (fun _ => .action 99) = some [.called 7, .called 99, .gen 5#32] := by
  decide +kernel

end Leaf
