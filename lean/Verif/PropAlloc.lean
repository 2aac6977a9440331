import Verif.AllocEq
import Verif.AllocTotal
import Verif.PropUnload
import Verif.Flow

/-!
# C67: running out of memory

`evalT mem cfg p n w` runs `p` when `n` nodes have been allocated before; `mem i` tells whether there is memory for the `i`-th node. `some (some (o, n'), w')`: `p` ended with `o`
after `n' - n` allocations. `some (none, w')`: `std::terminate` was called. `none`: undefined behaviour.
-/

set_option linter.unusedSectionVars false

namespace Leaf

/-! ## Specification -/

/-- No object of type `ty` is stored or captured by an active scope, no active scope takes one. -/
def NoPlace (ty : Ty) (ss : List Scope) : Prop := ∀ s ∈ ss, ¬ Handles ty s ∧ ¬ HasCaptured ty s

/-! ## Lemmas -/

section
variable {M : Type}

/-- Code that does not terminate the program, with a condition on the result. -/
def Alive {α : Type} (x : CompT M α) (Q : α → Prop) : Prop := ∀ n w r w', x n w = some (r, w') → ∃ a n', r = some (a, n') ∧ Q a

theorem Alive.pure {α : Type} {a : α} {Q : α → Prop} (h : Q a) : Alive (Pure.pure a : CompT M α) Q := by
  intro n w r w' e
  rw [pureT_apply] at e
  cases e
  exact ⟨a, n, rfl, h⟩

theorem Alive.lift {α : Type} (x : Comp M α) : Alive (Leaf.lift x) (fun _ => True) := by
  intro n w r w' e
  rw [lift_apply] at e
  cases hx : x w with
  | none => simp [hx] at e
  | some p =>
    rw [hx] at e
    simp only [Option.map_some, Option.some.injEq, Prod.mk.injEq] at e
    exact ⟨p.1, n, e.1.symm, trivial⟩

theorem Alive.bind {α β : Type} {x : CompT M α} {f : α → CompT M β} {P : α → Prop} {Q : β → Prop} (hx : Alive x P) (hf : ∀ a, P a → Alive (f a) Q) :
    Alive (x >>= f) Q := by
  intro n w r w' e
  rw [bindT_apply] at e
  cases hy : x n w with
  | none => simp [hy] at e
  | some p =>
    obtain ⟨r1, w1⟩ := p
    obtain ⟨a, n1, rfl, ha⟩ := hx n w r1 w1 hy
    rw [hy] at e
    exact hf a ha n1 w1 r w' e

theorem Alive.mono {α : Type} {x : CompT M α} {P Q : α → Prop} (hx : Alive x P) (h : ∀ a, P a → Q a) : Alive x Q := by
  intro n w r w' e
  obtain ⟨a, n', h1, h2⟩ := hx n w r w' e
  exact ⟨a, n', h1, h a h2⟩

theorem Alive.skip {α β : Type} {x : CompT M α} {f : α → CompT M β} {P : α → Prop} {Q : β → Prop} (hx : Alive x P) (hf : ∀ a, Alive (f a) Q) : Alive (x >>= f) Q :=
  Alive.bind hx (fun a _ => hf a)

theorem alive_allocate (mem : Nat → Bool) : Alive (allocate mem : CompT M Bool) (fun _ => True) := by
  intro n w r w' e
  rw [allocate_apply] at e
  cases e
  exact ⟨_, _, rfl, trivial⟩

variable [Store M]

theorem alive_daAppendT (mem : Nat → Bool) (ty : Ty) (id : Id) (v : Val) : Alive (daAppendT mem ty id v : CompT M Bool) (fun _ => True) := by
  refine Alive.skip (alive_allocate mem) (fun b => ?_)
  cases b
  · exact Alive.pure trivial
  · exact Alive.skip (Alive.lift _) (fun _ => Alive.pure trivial)

theorem alive_dynamicLoadT (mem : Nat → Bool) (id : Id) (ty : Ty) (v : Val) : Alive (dynamicLoadT mem id ty v : CompT M Bool) (fun _ => True) := by
  refine Alive.skip (Alive.lift _) (fun k => ?_)
  cases k with
  | none => exact Alive.pure trivial
  | some k =>
    dsimp only
    split
    · exact alive_daAppendT mem ty id v
    · exact Alive.skip (Alive.lift _) (fun _ => alive_daAppendT mem ty id v)

theorem alive_dynamicAccumulateT (mem : Nat → Bool) (cfg : Cfg) (id : Id) (ty : Ty) (tag : Nat) (f : Val → Val) :
    Alive (dynamicAccumulateT mem cfg id ty tag f : CompT M Bool) (fun _ => True) := by
  have h : Alive (do
      if ← daAppendT mem ty id (f (cfg.dflt ty)) then do
        lift (emit (.called tag)); lift (emit (.offered id ty (f (cfg.dflt ty))))
        return true
      else return false : CompT M Bool) (fun _ => True) := by
    refine Alive.skip (alive_daAppendT mem ty id _) (fun b => ?_)
    cases b
    · exact Alive.pure trivial
    · exact Alive.skip (Alive.lift _) (fun _ => Alive.skip (Alive.lift _) (fun _ => Alive.pure trivial))
  refine Alive.skip (Alive.lift _) (fun k => ?_)
  cases k with
  | none => exact Alive.pure trivial
  | some k =>
    dsimp only
    split
    · exact h
    · exact Alive.skip (Alive.lift _) (fun _ => h)

theorem alive_dynamicT {x : CompT M Bool} (h : Alive x (fun _ => True)) : Alive (dynamicT true x) (· = true) :=
  Alive.skip (Alive.skip h (fun _ => Alive.pure (Q := fun _ => True) trivial)) (fun _ => Alive.pure rfl)

theorem alive_dynamicT' (b : Bool) {x : CompT M Bool} (h : Alive x (fun _ => True)) : Alive (dynamicT b x) (fun _ => True) := by
  cases b
  · exact h
  · exact (alive_dynamicT h).mono (fun _ _ => trivial)

theorem alive_loadItemT (mem : Nat → Bool) (cfg : Cfg) (id : Id) (i : Item) : Alive (loadItemT mem cfg true id i : CompT M Bool) (· = true) := by
  cases i with
  | obj ty v =>
    refine Alive.skip (Alive.lift _) (fun _ => Alive.skip (Alive.lift _) (fun _ => Alive.skip (Alive.lift _) (fun p => ?_)))
    cases p with
    | none =>
      dsimp only
      split
      · exact alive_dynamicT (alive_dynamicLoadT mem id ty v)
      · exact Alive.pure rfl
    | some p =>
      dsimp only
      split
      · exact Alive.skip (Alive.lift _) (fun _ => Alive.pure rfl)
      · exact Alive.pure rfl
  | deferred ty tag v =>
    refine Alive.skip (Alive.lift _) (fun _ => Alive.skip (Alive.lift _) (fun p => ?_))
    cases p with
    | none =>
      dsimp only
      split
      · exact Alive.skip (Alive.lift _) (fun _ => Alive.skip (Alive.lift _) (fun _ => alive_dynamicT (alive_dynamicLoadT mem id ty v)))
      · exact Alive.pure rfl
    | some p =>
      dsimp only
      split
      · exact Alive.skip (Alive.lift _) (fun _ => Alive.skip (Alive.lift _) (fun _ => Alive.skip (Alive.lift _) (fun _ => Alive.pure rfl)))
      · exact Alive.pure rfl
  | accum ty tag f =>
    refine Alive.skip (Alive.lift _) (fun _ => Alive.skip (Alive.lift _) (fun p => ?_))
    cases p with
    | none =>
      dsimp only
      split
      · exact alive_dynamicT (alive_dynamicAccumulateT mem cfg id ty tag f)
      · exact Alive.pure rfl
    | some p => exact Alive.skip (Alive.lift _) (fun _ => Alive.skip (Alive.lift _) (fun _ => Alive.skip (Alive.lift _) (fun _ => Alive.pure rfl)))

theorem alive_noexcept {x : CompT M Bool} (h : Alive x (· = true)) : Alive (noexcept x) (fun _ => True) := by
  refine Alive.bind h (fun b hb => ?_)
  subst hb
  exact Alive.pure trivial

theorem alive_triggerItemsT (mem : Nat → Bool) (cfg : Cfg) (id : Id) (is : List OnItem) : Alive (triggerItemsT mem cfg id is : CompT M Unit) (fun _ => True) := by
  induction is with
  | nil => exact Alive.pure trivial
  | cons i is ih =>
    cases i with
    | item i => exact Alive.skip (alive_noexcept (alive_loadItemT mem cfg id i)) (fun _ => ih)
    | action t => exact Alive.skip (Alive.lift _) (fun _ => ih)

/-- `x` does what `y` does; or memory runs out, and it tells. -/
def OrFails (mem : Nat → Bool) (x : CompT M Bool) (y : Comp M Unit) : Prop :=
  ∀ n w r w', x n w = some (r, w') → ∃ b n', r = some (b, n') ∧ n ≤ n' ∧ w'.cur = w.cur ∧
    ((b = true ∧ y w = some ((), w')) ∨ (b = false ∧ ∃ i, n ≤ i ∧ i < n' ∧ mem i = false))

theorem OrFails.done (mem : Nat → Bool) : OrFails mem (pure true : CompT M Bool) (pure ()) := by
  intro n w r w' h
  rw [pureT_apply] at h
  cases h
  exact ⟨true, n, rfl, Nat.le_refl _, rfl, Or.inl ⟨rfl, rfl⟩⟩

theorem OrFails.step {α : Type} {mem : Nat → Bool} {z : Comp M α} {f : α → CompT M Bool} {f' : α → Comp M Unit} (hz : ∀ w a w', z w = some (a, w') → w'.cur = w.cur)
    (hf : ∀ a, OrFails mem (f a) (f' a)) : OrFails mem (lift z >>= f) (z >>= f') := by
  intro n w r w' h
  rw [bindT_apply, lift_apply] at h
  rw [bind_apply]
  cases hy : z w with
  | none => simp [hy] at h
  | some p =>
    obtain ⟨a, w1⟩ := p
    rw [hy] at h
    simp only [Option.map_some, Option.bind_some] at h ⊢
    obtain ⟨b, n', h1, h2, h3, h4⟩ := hf a n w1 r w' h
    exact ⟨b, n', h1, h2, h3.trans (hz w a w1 hy), h4⟩

theorem OrFails.last {mem : Nat → Bool} {z : Comp M Unit} (hz : ∀ w a w', z w = some (a, w') → w'.cur = w.cur) : OrFails mem (lift z >>= fun _ => pure true) z := by
  have h := OrFails.step (mem := mem) (f' := fun _ => pure ()) hz (fun _ => OrFails.done mem)
  have e : (z >>= fun _ => (pure () : Comp M Unit)) = z := by
    funext w
    rw [bind_apply]
    cases z w <;> rfl
  rwa [e] at h

theorem OrFails.ub {mem : Nat → Bool} {β : Type} {f : β → CompT M Bool} {y : Comp M Unit} : OrFails mem (lift Leaf.ub >>= f) y := by
  intro n w r w' h
  rw [bindT_apply, lift_apply] at h
  cases h

theorem cur_slotGet {ty : Ty} (w : World M) (a : Option Cell) (w' : World M) (h : slotGet ty w = some (a, w')) : w'.cur = w.cur := by
  simp only [slotGet, Option.map_eq_some_iff, Prod.mk.injEq] at h
  obtain ⟨_, _, _, rfl⟩ := h
  rfl
theorem cur_slotSet {ty : Ty} {id : Id} {v : Val} (w : World M) (a : Unit) (w' : World M) (h : slotSet ty id v w = some (a, w')) : w'.cur = w.cur := by
  simp only [slotSet, Option.map_eq_some_iff, Prod.mk.injEq] at h
  obtain ⟨_, _, _, rfl⟩ := h
  rfl
theorem cur_daKey (w : World M) (a : Option Id) (w' : World M) (h : daKey w = some (a, w')) : w'.cur = w.cur := by
  simp only [daKey, Option.map_eq_some_iff, Prod.mk.injEq] at h
  obtain ⟨_, _, _, rfl⟩ := h
  rfl
theorem cur_daReset {id : Id} (w : World M) (a : Unit) (w' : World M) (h : daReset id w = some (a, w')) : w'.cur = w.cur := by
  simp only [daReset, Option.map_eq_some_iff, Prod.mk.injEq] at h
  obtain ⟨_, _, _, rfl⟩ := h
  rfl

theorem orFails_daAppendT (mem : Nat → Bool) (ty : Ty) (id : Id) (v : Val) : OrFails mem (daAppendT mem ty id v : CompT M Bool) (daAppend ty id v) := by
  intro n w r w' h
  simp only [daAppendT, bindT_apply, allocate_apply, Option.bind_some] at h
  cases hm : mem n with
  | false =>
    rw [hm] at h
    simp only [Bool.false_eq_true, if_false, pureT_apply, Option.some.injEq, Prod.mk.injEq] at h
    obtain ⟨rfl, rfl⟩ := h
    exact ⟨false, n + 1, rfl, Nat.le_succ n, rfl, Or.inr ⟨rfl, n, Nat.le_refl n, Nat.lt_succ_self n, hm⟩⟩
  | true =>
    rw [hm] at h
    simp only [if_true, lift_apply, bindT_apply, daAppend, Option.map_map] at h
    cases hd : Store.daAppend ty id v w.mem with
    | none => simp [hd] at h
    | some m =>
      rw [hd] at h
      simp only [Option.map_some, Function.comp, Option.bind_some, pureT_apply, Option.some.injEq, Prod.mk.injEq] at h
      obtain ⟨rfl, rfl⟩ := h
      exact ⟨true, n + 1, rfl, Nat.le_succ n, rfl, Or.inl ⟨rfl, by simp [daAppend, hd]⟩⟩

theorem orFails_dynamicLoadT (mem : Nat → Bool) (id : Id) (ty : Ty) (v : Val) : OrFails mem (dynamicLoadT mem id ty v : CompT M Bool) (dynamicLoad id ty v) := by
  refine OrFails.step cur_daKey (fun k => ?_)
  cases k with
  | none => exact OrFails.done mem
  | some k =>
    dsimp only
    split
    · exact orFails_daAppendT mem ty id v
    · exact OrFails.step cur_daReset (fun _ => orFails_daAppendT mem ty id v)

theorem orFails_slotUnloadT (mem : Nat → Bool) (cfg : Cfg) (id : Id) (ty : Ty) (c : Cell) : OrFails mem (slotUnloadT mem cfg id ty c : CompT M Bool) (slotUnload cfg id ty c) := by
  unfold slotUnloadT slotUnload
  by_cases hid : id = 0#32
  · simp only [hid, if_true]
    exact OrFails.ub
  · simp only [hid, if_false]
    cases c.hasValue id with
    | none => exact OrFails.done mem
    | some v =>
      refine OrFails.step cur_slotGet (fun p => ?_)
      cases p with
      | none =>
        dsimp only
        split
        · exact orFails_dynamicLoadT mem id ty v
        · exact OrFails.done mem
      | some p =>
        dsimp only
        split
        · exact OrFails.last cur_slotSet
        · exact OrFails.done mem

theorem unloadNodesT_cases (mem : Nat → Bool) (cfg : Cfg) (id : Id) (ns : List CapNode) (n : Nat) (w : World M) (r : Option (Option Exc × Nat)) (w' : World M)
    (h : unloadNodesT mem cfg id ns n w = some (r, w')) :
    ∃ o n', r = some (o, n') ∧ n ≤ n' ∧ w'.cur = w.cur ∧
      (unloadNodes cfg id ns w = some (o, w') ∨ (o = some badAlloc ∧ ∃ i, n ≤ i ∧ i < n' ∧ mem i = false)) := by
  induction ns generalizing n w with
  | nil =>
    simp only [unloadNodesT, pureT_apply] at h
    cases h
    exact ⟨none, n, rfl, Nat.le_refl _, rfl, Or.inl rfl⟩
  | cons x ns ih =>
    cases x with
    | exc e =>
      simp only [unloadNodesT, pureT_apply] at h
      cases h
      exact ⟨some e, n, rfl, Nat.le_refl _, rfl, Or.inl rfl⟩
    | obj ty c =>
      have key : ∀ (w0 : World M), w0.cur = w.cur → ((do if ← slotUnloadT mem cfg id ty c then unloadNodesT mem cfg id ns else return some badAlloc : CompT M (Option Exc)) n w0 = some (r, w')) →
          ∃ o n', r = some (o, n') ∧ n ≤ n' ∧ w'.cur = w.cur ∧
            ((slotUnload cfg id ty c >>= fun _ => unloadNodes cfg id ns) w0 = some (o, w') ∨ (o = some badAlloc ∧ ∃ i, n ≤ i ∧ i < n' ∧ mem i = false)) := by
        intro w0 hc h
        rw [bindT_apply] at h
        cases hs : slotUnloadT mem cfg id ty c n w0 with
        | none => simp [hs] at h
        | some p =>
          obtain ⟨r1, w1⟩ := p
          obtain ⟨b, n1, rfl, h2, h3, h4⟩ := orFails_slotUnloadT mem cfg id ty c n w0 r1 w1 hs
          rw [hs] at h
          simp only [Option.bind_some] at h
          rcases h4 with ⟨rfl, h4⟩ | ⟨rfl, i, hi, hi2, hm⟩
          · simp only [if_true] at h
            obtain ⟨o, n', e1, e2, e3, e4⟩ := ih n1 w1 h
            refine ⟨o, n', e1, Nat.le_trans h2 e2, e3.trans (h3.trans hc), ?_⟩
            rcases e4 with e4 | ⟨e4, i, hi, hi2, hm⟩
            · left
              rw [bind_apply, h4]
              exact e4
            · exact Or.inr ⟨e4, i, Nat.le_trans h2 hi, hi2, hm⟩
          · simp only [Bool.false_eq_true, if_false, pureT_apply, Option.some.injEq, Prod.mk.injEq] at h
            obtain ⟨rfl, rfl⟩ := h
            exact ⟨_, n1, rfl, h2, h3.trans hc, Or.inr ⟨rfl, i, hi, hi2, hm⟩⟩
      unfold unloadNodesT at h
      unfold unloadNodes
      cases hv : c.hasValue id with
      | none =>
        rw [hv] at h
        exact key w rfl h
      | some v =>
        rw [hv] at h
        exact key { w with trace := .transported id ty v :: w.trace } rfl h

/-! ## Theorems -/

/-- **C67 (enough memory).** If there is always memory, programs do what they do in all other theorems. -/
theorem C67_enough {mem : Nat → Bool} (hm : ∀ i, mem i = true) (cfg : Cfg) (p : Prog) (n : Nat) (w : World M) :
    (∀ o w', eval cfg p w = some (o, w') → ∃ n', evalT mem cfg p n w = some (some (o, n'), w')) ∧ (eval cfg p w = none → evalT mem cfg p n w = none) := by
  have h := (supply_all (M := M) hm).evalT cfg p (Or.inl trivial) n w trivial
  constructor
  · intro o w' e
    rw [e] at h
    obtain ⟨_, n', _, h⟩ := h
    exact ⟨n', h⟩
  · intro e
    rw [e] at h
    exact h

/-- **C67 (`on_error`).** A guard does not terminate the program, and does not change how its block ends, no matter how much memory there is: a guard that ends (rather than being
undefined) ends like its block. -/
theorem C67_guard (mem : Nat → Bool) (cfg : Cfg) (items : List OnItem) (body : CompT M Out) (n : Nat) (w : World M) (r : Option (Out × Nat)) (w' : World M)
    (h : onErrorGuardT mem cfg items body n w = some (r, w')) :
    ∃ r1 w1, body n w = some (r1, w1) ∧ (r1 = none ↔ r = none) ∧ ∀ o n1, r1 = some (o, n1) → ∃ n', r = some (o, n') := by
  unfold onErrorGuardT at h
  rw [bindT_apply, lift_apply] at h
  have hc : ∀ a w0, (currentId : Comp M Id) w = some (a, w0) → w0 = w := by
    intro a w0 e
    simp only [currentId] at e
    split at e <;> simp at e
    exact e.2.symm
  cases h0 : (currentId : Comp M Id) w with
  | none => simp [h0] at h
  | some p =>
    obtain ⟨saved, w0⟩ := p
    obtain rfl := hc saved w0 h0
    rw [h0] at h
    simp only [Option.map_some, Option.bind_some] at h
    rw [bindT_apply] at h
    cases hb : body n w0 with
    | none => simp [hb] at h
    | some p =>
      obtain ⟨r1, w1⟩ := p
      rw [hb] at h
      refine ⟨r1, w1, rfl, ?_⟩
      cases r1 with
      | none =>
        simp only [Option.bind_some, Option.some.injEq, Prod.mk.injEq] at h
        exact ⟨by simp [← h.1], by simp⟩
      | some p =>
        obtain ⟨o, n1⟩ := p
        simp only [Option.bind_some] at h
        have ha : ∀ b, Alive (do
            let id ← lift (checkId cfg saved b)
            if id ≠ 0#32 then do
              lift (assertTagged id)
              triggerItemsT mem cfg id items
            return o : CompT M Out) (· = o) := by
          intro b
          refine Alive.skip (Alive.lift _) (fun id => ?_)
          dsimp only
          split
          · exact Alive.skip (Alive.lift _) (fun _ => Alive.skip (alive_triggerItemsT mem cfg id items) (fun _ => Alive.pure rfl))
          · exact Alive.pure rfl
        obtain ⟨a, n', rfl, rfl⟩ := ha _ n1 w1 r w' h
        refine ⟨by simp, ?_⟩
        intro o' n1' e
        cases e
        exact ⟨n', rfl⟩

/-- **C67 (`unload`).** `result::unload` does not terminate the program: either it does what it does with enough memory, or an allocation failed and it throws `std::bad_alloc`; then the
id of the result is the current one. -/
theorem C67_unload (mem : Nat → Bool) (cfg : Cfg) (r : ErrRes) (n : Nat) (w : World M) (x : Option (Out × Nat)) (w' : World M)
    (h : resultUnloadT mem cfg r n w = some (x, w')) :
    ∃ o n', x = some (o, n') ∧ (resultUnload cfg r w = some (o, w') ∨ (o = .exc badAlloc ∧ w'.cur = r.errId ∧ ∃ i, n ≤ i ∧ i < n' ∧ mem i = false)) := by
  cases r with
  | plain id =>
    simp only [resultUnloadT, pureT_apply] at h
    cases h
    exact ⟨_, _, rfl, Or.inl rfl⟩
  | captured id ns =>
    simp only [resultUnloadT, bindT_apply, lift_apply, setCur, Option.map_some, Option.bind_some] at h
    cases hu : unloadNodesT mem cfg (ErrRes.captured id ns).errId ns n { w with cur := (ErrRes.captured id ns).errId } with
    | none => simp [hu] at h
    | some p =>
      obtain ⟨r1, w1⟩ := p
      obtain ⟨o, n1, rfl, h2, h3, h4⟩ := unloadNodesT_cases mem cfg _ ns n _ r1 w1 hu
      rw [hu] at h
      simp only [Option.bind_some] at h
      rcases h4 with h4 | ⟨rfl, hi⟩
      · cases o with
        | none =>
          simp only [pureT_apply] at h
          cases h
          exact ⟨_, n1, rfl, Or.inl (by simp [resultUnload, bind_apply, setCur, h4, pure_apply])⟩
        | some e =>
          simp only [pureT_apply] at h
          cases h
          exact ⟨_, n1, rfl, Or.inl (by simp [resultUnload, bind_apply, setCur, h4, pure_apply])⟩
      · simp only [pureT_apply] at h
        cases h
        exact ⟨_, n1, rfl, Or.inr ⟨rfl, h3, hi⟩⟩

end

theorem tagged_ne {id : Id} (h : id.Tagged) : id ≠ 0#32 := by rintro rfl; exact absurd h (by decide)

theorem bound_none_iff (ty : Ty) (ss : List Scope) : boundCell ty ss = none ↔ NoPlace ty ss :=
  ⟨fun h s hs => not_mem_frameTys.mp (boundCell_none h s hs), fun h => boundCell_eq_none fun s hs => not_mem_frameTys.mpr (h s hs)⟩

/-- An object that has no place is offered to the innermost capturing scope. -/
theorem dynamicLoadT_mem {mem : Nat → Bool} {id : Id} {ty : Ty} {v : Val} {n : Nat} {w w' : World PtrStore} {r : Option (Bool × Nat)} (hw : PtrStore.Inv w.mem)
    (h : dynamicLoadT mem id ty v n w = some (r, w')) : ∃ b n', r = some (b, n') ∧ (b = false ↔ (∃ s ∈ scopes w, Captures s) ∧ mem n = false) := by
  have key : ∀ (w1 w2 : World PtrStore) (r1 : Option (Bool × Nat)), daAppendT mem ty id v n w1 = some (r1, w2) → r1 = some (mem n, n + 1) := by
    intro w1 w2 r1 h
    simp only [daAppendT, bindT_apply, allocate_apply, Option.bind_some] at h
    cases hm : mem n with
    | false =>
      rw [hm] at h
      simp only [Bool.false_eq_true, if_false, pureT_apply, Option.some.injEq, Prod.mk.injEq] at h
      exact h.1.symm
    | true =>
      rw [hm] at h
      simp only [if_true, bindT_apply, lift_apply] at h
      cases ha : daAppend ty id v w1 with
      | none => simp [ha] at h
      | some q =>
        simp only [ha, Option.map_some, Option.bind_some, pureT_apply, Option.some.injEq, Prod.mk.injEq] at h
        exact h.1.symm
  have hk := PtrStore.daKey_ok hw
  have hs : (PtrStore.abs w.mem).frames = scopes w := rfl
  rw [hs] at hk
  simp only [dynamicLoadT, bindT_apply, lift_apply, daKey, Store.daKey, hk, Option.map_some, Option.bind_some] at h
  cases hd : boundDa (scopes w) with
  | none =>
    have hx : ¬ ∃ s ∈ scopes w, Captures s := fun h => by have := (boundDa_isSome _).mpr h; simp [hd] at this
    simp only [hd, Option.map_none, pureT_apply, Option.some.injEq, Prod.mk.injEq] at h
    exact ⟨true, n, h.1.symm, by simp [hx]⟩
  | some d =>
    have hx : ∃ s ∈ scopes w, Captures s := (boundDa_isSome _).mp (by simp [hd])
    rw [hd] at h
    simp only [Option.map_some] at h
    refine ⟨mem n, n + 1, ?_, by simp only [hx, true_and]⟩
    split at h
    · exact key _ _ _ h
    · rw [bindT_apply, lift_apply] at h
      cases hz : (daReset id : Comp PtrStore Unit) w with
      | none => simp [hz] at h
      | some q =>
        rw [hz] at h
        exact key _ _ _ h

/-- There is no memory to store an object of type `ty`. -/
def NoMemoryFor (mem : Nat → Bool) (cfg : Cfg) (ty : Ty) (n : Nat) (w : World PtrStore) : Prop :=
  cfg.capture = true ∧ NoPlace ty (scopes w) ∧ (∃ s ∈ scopes w, Captures s) ∧ mem n = false

theorem loadSlotT_mem (mem : Nat → Bool) (cfg : Cfg) {id : Id} (hid : id.Tagged) (ty : Ty) (v : Val) (n : Nat) (w : World PtrStore) (hw : ThreadOk w) :
    ∃ b n' w', loadSlotT mem cfg false id ty v n w = some (some (b, n'), w') ∧ (b = false ↔ NoMemoryFor mem cfg ty n w) := by
  obtain ⟨r, v', h1, _⟩ := totT_loadSlotT mem (shape (absW w).mem.frames) cfg false hid ty v n (absW w) hw.good rfl
  obtain ⟨w', he, _⟩ := simT_run (simT_loadSlotT (n := 0) mem cfg false id ty v) hw.inv (.refl _) h1
  have he0 := he
  have hg := PtrStore.slotGet_ok hw.inv ty
  have hs : (PtrStore.abs w.mem).frames = scopes w := rfl
  rw [hs] at hg
  simp only [loadSlotT, bindT_apply, lift_apply, assertTagged, hid, if_true, Option.map_some, Option.bind_some, slotGet, Store.slotGet, hg] at he
  unfold NoMemoryFor
  rw [← bound_none_iff]
  cases hb : boundCell ty (scopes w) with
  | some c =>
    rw [hb] at he
    simp only [Bool.not_false, Bool.true_or, if_true, bindT_apply, lift_apply, slotSet] at he
    cases hss : Store.slotSet ty id v w.mem with
    | none => simp [hss] at he
    | some m =>
      simp only [hss, Option.map_some, Option.bind_some, pureT_apply, Option.some.injEq, Prod.mk.injEq] at he
      exact ⟨true, n, w', by rw [he0, ← he.1], by simp⟩
  | none =>
    rw [hb] at he
    cases hc : cfg.capture with
    | false =>
      simp only [hc, Bool.false_eq_true, if_false, pureT_apply, Option.some.injEq, Prod.mk.injEq] at he
      exact ⟨true, n, w', by rw [he0, ← he.1], by simp⟩
    | true =>
      simp only [hc, if_true, dynamicT, Bool.false_eq_true, if_false] at he
      obtain ⟨b, n', rfl, hb'⟩ := dynamicLoadT_mem hw.inv he
      exact ⟨b, n', w', he0, by simpa using hb'⟩

theorem slotUnloadT_mem (mem : Nat → Bool) (cfg : Cfg) {id : Id} (hid : id ≠ 0#32) (ty : Ty) (v : Val) (n : Nat) (w : World PtrStore) (hw : ThreadOk w) :
    ∃ b n' w', slotUnloadT mem cfg id ty (some (id, v)) n w = some (some (b, n'), w') ∧ (b = false ↔ NoMemoryFor mem cfg ty n w) := by
  obtain ⟨r, v', h1, _⟩ := totT_slotUnloadT mem (shape (absW w).mem.frames) cfg hid ty (some (id, v)) n (absW w) hw.good rfl
  obtain ⟨w', he, _⟩ := simT_run (simT_slotUnloadT (n := 0) mem cfg id ty (some (id, v))) hw.inv (.refl _) h1
  have he0 := he
  have hg := PtrStore.slotGet_ok hw.inv ty
  have hs : (PtrStore.abs w.mem).frames = scopes w := rfl
  rw [hs] at hg
  have hv : Cell.hasValue (some (id, v)) id = some v := by simp [Cell.hasValue]
  simp only [slotUnloadT, hid, if_false, hv, bindT_apply, lift_apply, Option.map_some, Option.bind_some, slotGet, Store.slotGet, hg] at he
  unfold NoMemoryFor
  rw [← bound_none_iff]
  cases hb : boundCell ty (scopes w) with
  | some c =>
    rw [hb] at he
    dsimp only at he
    split at he
    · rw [bindT_apply, lift_apply] at he
      cases hss : (slotSet ty id v : Comp PtrStore Unit) w with
      | none => simp [hss] at he
      | some m =>
        simp only [hss, Option.map_some, Option.bind_some, pureT_apply, Option.some.injEq, Prod.mk.injEq] at he
        exact ⟨true, n, w', by rw [he0, ← he.1], by simp⟩
    · simp only [pureT_apply, Option.some.injEq, Prod.mk.injEq] at he
      exact ⟨true, n, w', by rw [he0, ← he.1], by simp⟩
  | none =>
    rw [hb] at he
    cases hc : cfg.capture with
    | false =>
      simp only [hc, Bool.false_eq_true, if_false, pureT_apply, Option.some.injEq, Prod.mk.injEq] at he
      exact ⟨true, n, w', by rw [he0, ← he.1], by simp⟩
    | true =>
      simp only [hc, if_true, dynamicT, Bool.false_eq_true, if_false] at he
      obtain ⟨b, n', rfl, hb'⟩ := dynamicLoadT_mem hw.inv he
      exact ⟨b, n', w', he0, by simpa using hb'⟩

theorem noexcept_mem {x : CompT PtrStore Bool} {n : Nat} {w : World PtrStore} {P : Prop} (h : ∃ b n' w', x n w = some (some (b, n'), w') ∧ (b = false ↔ P)) :
    (∃ w', noexcept x n w = some (none, w')) ↔ P := by
  obtain ⟨b, n', w', h1, h2⟩ := h
  rw [← h2]
  simp only [noexcept, bindT_apply, h1, Option.bind_some]
  cases b <;> simp [pureT_apply, terminate_apply]

/-- **C67 (safe).** However much memory there is, a well-formed program has no undefined behaviour, not even up to `std::terminate`, and leaves the thread in order; unless it is
terminated, the active scopes are those from before. (Missing: functions taking `E &` in capturing scopes, which well-formed programs do not use; they have undefined behaviour even
with enough memory, `C11_refuted_accumulate`.) -/
theorem C67_safe_partial (mem : Nat → Bool) (cfg : Cfg) (p : Prog) {da : Bool} (hp : p.WF cfg da) (n : Nat) (w : World PtrStore) (hw : ThreadOk w)
    (hda : da = false → NoCapturingScope w) :
    ∃ r w', evalT mem cfg p n w = some (r, w') ∧ ThreadOk w' ∧ ∀ o n', r = some (o, n') → o.Ok ∧ shape (scopes w') = shape (scopes w) := by
  obtain ⟨r, v, h1, h2, h3⟩ := totT_evalT mem cfg p hp _ (fun h => noDa_of (hda h)) n (absW w) hw.good rfl
  obtain ⟨w', e1, e2, e3, _⟩ := simT_run (simT_evalT (n := 0) mem cfg p) hw.inv (.refl _) h1
  refine ⟨r, w', e1, ⟨e3, e2 ▸ h2⟩, ?_⟩
  intro o n' hr
  obtain ⟨h4, h5⟩ := h3 o n' hr
  exact ⟨h5, by unfold scopes; rw [e2]; exact h4⟩

/-- **C67 (no memory needed).** If no capturing scope is active, a program that captures nothing (no `try_capture_all`, no handler taking `diagnostic_details` where capturing is
enabled) allocates no memory, so runs the same with none at all. -/
theorem C67_unused (mem : Nat → Bool) (cfg : Cfg) (p : Prog) (hc : p.NoCapture cfg) (n : Nat) (w : World PtrStore) (hw : ThreadOk w) (hs : NoCapturingScope w) :
    evalT mem cfg p n w = (eval cfg p w).map fun r => (some (r.1, n), r.2) := by
  have hi : DaFree w.mem := by
    refine ⟨?_, hs⟩
    have h := PtrStore.daKey_ok hw.inv
    have hb : boundDa (PtrStore.abs w.mem).frames = none := boundDa_none (noDa_of hs)
    rw [hb] at h
    unfold PtrStore.daKey at h
    cases ht : w.mem.tlsDa with
    | none => rfl
    | some a =>
      rw [ht] at h
      dsimp only at h
      cases hd : w.mem.dmem a <;> simp [hd] at h
  have h := (supply_none mem).evalT cfg p (Or.inr hc) n w hi
  cases he : eval cfg p w with
  | none => rw [he] at h; exact h
  | some q =>
    rw [he] at h
    obtain ⟨_, n', hn, h⟩ := h
    obtain rfl := hn trivial
    exact h

/-- **C67 (no memory needed, capturing disabled).** Built without capturing, LEAF allocates no memory. -/
theorem C67_disabled (mem : Nat → Bool) (cfg : Cfg) (h : cfg.capture = false) (p : Prog) (n : Nat) (w : World PtrStore) (hw : ThreadOk w) (hs : NoCapturingScope w) :
    evalT mem cfg p n w = (eval cfg p w).map fun r => (some (r.1, n), r.2) := by
  refine C67_unused mem cfg p ?_ n w hw hs
  have hcap : ∀ specs, capturing cfg specs = false := fun specs => by simp [capturing, h]
  induction p with
  | ret _ | unload _ | value _ _ => trivial
  | newError _ _ ih | importCode _ _ _ ih | currentError _ ih | monNew _ ih | monCheck _ _ ih | monAssigned _ _ ih => exact ih
  | load _ _ _ ih | onError _ _ ih | excToResult _ _ ih => exact ih
  | bind _ _ _ ih1 ih2 ih3 => exact ⟨ih1, ih2, ih3⟩
  | handleAll specs _ _ ih1 ih2 | handleSome specs _ _ ih1 ih2 | tryCatch specs _ _ ih1 ih2 => exact ⟨hcap specs, ih1, ih2⟩
  | captureAll _ _ | captureAllVoid _ _ => exact h
  | cppCatch _ _ ih1 ih2 | cppRethrow _ _ ih1 ih2 => exact ⟨ih1, ih2⟩

/-- **C67 (termination: `load`).** `error_id::load` of an object terminates the program exactly if the object goes to a new node of a capturing scope (capturing is enabled, no active
scope has a place for its type, and one is capturing) and there is no memory for it. -/
theorem C67_load (mem : Nat → Bool) (cfg : Cfg) {id : Id} (hid : id.Tagged) (ty : Ty) (v : Val) (n : Nat) (w : World PtrStore) (hw : ThreadOk w) :
    (∃ w', errorIdLoadT mem cfg id [.obj ty v] n w = some (none, w')) ↔
      cfg.capture = true ∧ NoPlace ty (scopes w) ∧ (∃ s ∈ scopes w, Captures s) ∧ mem n = false := by
  unfold errorIdLoadT
  rw [if_pos (tagged_ne hid)]
  refine noexcept_mem ?_
  have hw1 : ThreadOk { w with trace := .offered id ty v :: w.trace } := ⟨hw.inv, ⟨hw.good.1, hw.good.2, hw.good.3, hw.good.4⟩⟩
  obtain ⟨b, n', w', h1, h2⟩ := loadSlotT_mem mem cfg hid ty v n _ hw1
  refine ⟨b, n', w', ?_, h2⟩
  simp only [loadItemsT, loadItemT, bindT_apply, lift_apply, emit, Option.map_some, Option.bind_some, h1]
  cases b <;> rfl

/-- **C67 (termination: `new_error`).** -/
theorem C67_new_error (mem : Nat → Bool) (cfg : Cfg) (ty : Ty) (v : Val) (n : Nat) (w : World PtrStore) (hw : ThreadOk w) :
    (∃ w', newErrorT mem cfg [.obj ty v] n w = some (none, w')) ↔
      cfg.capture = true ∧ NoPlace ty (scopes w) ∧ (∃ s ∈ scopes w, Captures s) ∧ mem n = false := by
  obtain ⟨i, w1, h1, _, hok, _, hi⟩ := tot_ptr (sim_newId (n := 0) cfg) (tot_newId _ cfg) hw rfl
  have hm : w1.mem = w.mem := by
    simp only [newId, Option.some.injEq, Prod.mk.injEq] at h1
    rw [← h1.2]
  have hs : scopes w1 = scopes w := by unfold scopes absW; rw [hm]
  have hk := C67_load mem cfg (makeErrorId_tagged i) ty v n w1 hok
  rw [hs] at hk
  rw [← hk]
  simp only [newErrorT, bindT_apply, lift_apply, h1, Option.map_some, Option.bind_some]
  cases hx : errorIdLoadT mem cfg (makeErrorId i) [.obj ty v] n w1 with
  | none => simp
  | some q =>
    obtain ⟨r, w2⟩ := q
    cases r with
    | none => simp
    | some r => simp [pureT_apply]

/-- **C67 (termination: `error_id(std::error_code)`).** For an error code that does not come from LEAF. -/
theorem C67_import (mem : Nat → Bool) (cfg : Cfg) {ec : ErrorCode} (hv : ec.value ≠ 0#32) (hc : ec.cat ≠ leafCat) (v : Val) (n : Nat) (w : World PtrStore) (hw : ThreadOk w) :
    (∃ w', importCodeT mem cfg ec v n w = some (none, w')) ↔
      cfg.capture = true ∧ NoPlace tyErrorCode (scopes w) ∧ (∃ s ∈ scopes w, Captures s) ∧ mem n = false := by
  obtain ⟨i, w1, h1, _, hok, _, hi⟩ := tot_ptr (sim_newId (n := 0) cfg) (tot_newId _ cfg) hw rfl
  have hm : w1.mem = w.mem := by
    simp only [newId, Option.some.injEq, Prod.mk.injEq] at h1
    rw [← h1.2]
  have hs : scopes w1 = scopes w := by unfold scopes absW; rw [hm]
  have hw1 : ThreadOk { w1 with trace := .offered i tyErrorCode v :: w1.trace } := ⟨hok.inv, ⟨hok.good.1, hok.good.2, hok.good.3, hok.good.4⟩⟩
  have hk := noexcept_mem (loadSlotT_mem mem cfg hi tyErrorCode v n _ hw1)
  have he : importErrorCode ec = .fresh := by simp [importErrorCode, hv, hc]
  have hsc : scopes { w1 with trace := .offered i tyErrorCode v :: w1.trace } = scopes w := hs
  unfold NoMemoryFor at hk
  rw [hsc] at hk
  rw [← hk]
  simp only [importCodeT, he, bindT_apply, lift_apply, h1, emit, Option.map_some, Option.bind_some]
  cases hx : noexcept (loadSlotT mem cfg false i tyErrorCode v) n { w1 with trace := .offered i tyErrorCode v :: w1.trace } with
  | none => simp
  | some q =>
    obtain ⟨r, w2⟩ := q
    cases r with
    | none => simp
    | some r => simp [pureT_apply]

/-- **C67 (termination: propagation).** A scope whose handlers do not handle the error passes its object on (`context::unload`): the same. -/
theorem C67_propagate (mem : Nat → Bool) (cfg : Cfg) {id : Id} (hid : id.Tagged) (ty : Ty) (v : Val) (n : Nat) (w : World PtrStore) (hw : ThreadOk w) :
    (∃ w', unloadCellsT mem cfg id [.obj ty (some (id, v))] n w = some (none, w')) ↔
      cfg.capture = true ∧ NoPlace ty (scopes w) ∧ (∃ s ∈ scopes w, Captures s) ∧ mem n = false := by
  have hk := noexcept_mem (slotUnloadT_mem mem cfg (tagged_ne hid) ty v n w hw)
  unfold NoMemoryFor at hk
  rw [← hk]
  simp only [unloadCellsT, bindT_apply, pureT_apply, Option.bind_some, unloadCellT]

/-- **C67 (termination: propagation of captured objects).** A capturing scope passes an object it captured on when it does not handle the error: the same. -/
theorem C67_propagate_captured (mem : Nat → Bool) (cfg : Cfg) {id : Id} (hid : id.Tagged) {key : Id} (hkey : key ≠ 0#32) (ty : Ty) (v : Val) (n : Nat) (w : World PtrStore) (hw : ThreadOk w) :
    (∃ w', unloadCellsT mem cfg id [.da key [(ty, some (id, v))]] n w = some (none, w')) ↔
      cfg.capture = true ∧ NoPlace ty (scopes w) ∧ (∃ s ∈ scopes w, Captures s) ∧ mem n = false := by
  have hw1 : ThreadOk { w with cur := id } := ⟨hw.inv, ⟨Or.inr hid, hw.good.2, hw.good.3, hw.good.4⟩⟩
  have hk := noexcept_mem (slotUnloadT_mem mem cfg (tagged_ne hid) ty v n _ hw1)
  unfold NoMemoryFor at hk
  have hsc : scopes { w with cur := id } = scopes w := rfl
  rw [hsc] at hk
  rw [← hk]
  have he : unloadDaNodesT (M := PtrStore) mem cfg id [(ty, some (id, v))] = slotUnloadT mem cfg id ty (some (id, v)) := by
    funext n w
    simp only [unloadDaNodesT, bindT_apply]
    cases slotUnloadT mem cfg id ty (some (id, v)) n w with
    | none => rfl
    | some q =>
      obtain ⟨r, w'⟩ := q
      cases r with
      | none => rfl
      | some r => obtain ⟨b, n'⟩ := r; cases b <;> rfl
  simp only [unloadCellsT, bindT_apply, pureT_apply, Option.bind_some, noexcept, unloadCellT, hkey, tagged_ne hid, ne_eq, not_false_eq_true, if_true, if_false, lift_apply, setCur, Option.map_some, he]

/-- **C67 (capturing an exception).** `try_capture_all` is `noexcept`: if its block throws and there is no memory for the node of the exception, the program is terminated. -/
theorem C67_capture_exception (mem : Nat → Bool) (cfg : Cfg) {p : Prog} {da : Bool} (hp : (Prog.captureAll p).WF cfg da) {n n1 : Nat} {w wp w1 : World PtrStore} (hw : ThreadOk w)
    (hda : da = false → NoCapturingScope w) (hpush : pushCtx [.da] w = some ((), wp)) {e : Exc} (hb : evalT mem cfg p n wp = some (some (.exc e, n1), w1)) (hm : mem n1 = false) :
    ∃ w', evalT mem cfg (.captureAll p) n w = some (none, w') := by
  obtain ⟨r, w', h, _⟩ := C67_safe_partial mem cfg _ hp n w hw hda
  have hc : cfg.capture = true := hp.1
  have h0 := h
  simp only [evalT, tryCaptureAllT, hc, Bool.not_true, Bool.false_eq_true, if_false, bindT_apply, lift_apply, hpush, Option.map_some, Option.bind_some, hb] at h
  cases h1 : (popCtx : Comp PtrStore _) w1 with
  | none => simp [h1] at h
  | some q =>
    obtain ⟨cells, w2⟩ := q
    simp only [h1, Option.map_some, Option.bind_some] at h
    cases h2 : (unpackId e : Comp PtrStore _) w2 with
    | none => simp [h2] at h
    | some q =>
      obtain ⟨⟨i, e'⟩, w3⟩ := q
      simp only [h2, Option.map_some, Option.bind_some, extractCapturedT, noexcept, bindT_apply, allocate_apply, hm, Bool.false_eq_true, if_false, terminate_apply,
        Option.some.injEq, Prod.mk.injEq] at h
      exact ⟨w', by rw [h0, ← h.1]⟩

/-! ## The findings -/

/-- **Finding.** Memory runs out while `try_handle_some` unloads a captured result for an outer scope: the handlers, which would have got the captured exception (type 20), get
`std::bad_alloc` (type 4) instead; the captured exception is gone. With enough memory, the same program handles the captured exception. -/
theorem C67_captured_lost :
    let p : Prog := .handleAll [[.details]]
      (.bind (.captureAll (.newError [.obj 10 1, .obj 11 2] fun _ => .ret (.exc ⟨7, true, .none, [(20, 3)], false⟩))) (fun _ => .ret (.val 0))
        (fun r => .handleSome [[.catch_ fun e => (e.cast 20).isSome], [.catch_ fun e => (e.cast tyBadAlloc).isSome]] (.ret (.err r)) (fun i _ => .ret (.val (100 + i)))))
      (fun _ _ => .ret (.val 1))
    ((evalT (fun i => decide (i < 4)) exCfg p 0 (initThread 1#32)).map fun r => r.1) = some (some (.val 101, 5)) ∧
      ((evalT (fun _ => true) exCfg p 0 (initThread 1#32)).map fun r => r.1) = some (some (.val 100, 5)) := by
  constructor <;> decide +kernel

/-- **Finding.** `try_capture_all` in a `catch` block, its block fails with an object: if there is no memory for the exception being handled, which is captured (see C28), the
result contains `std::bad_alloc` instead; without any memory left, the program is terminated. -/
theorem C67_capture_retry :
    let p : Prog := .cppCatch (.ret (.exc ⟨7, true, .none, [(20, 3)], false⟩)) (fun _ => .captureAll (.newError [.obj 10 1] fun id => .ret (.err (.plain id))))
    ((evalT (fun i => decide (i ≠ 1)) exCfg p 0 (initThread 1#32)).map fun r => r.1) =
        some (some (.err (.captured 5#32 [.obj 10 (some (5#32, 1)), .exc badAlloc]), 3)) ∧
      ((evalT (fun i => decide (i < 1)) exCfg p 0 (initThread 1#32)).map fun r => r.1) = some none ∧
      -- the block fails with an older error: its objects are destroyed, and so are those of the other one
      ((evalT (fun i => decide (i ≠ 1)) exCfg (.cppCatch (.ret (.exc ⟨7, true, .none, [(20, 3)], false⟩)) (fun _ => .captureAll (.newError [] fun id =>
        .newError [.obj 10 1] fun _ => .ret (.err (.plain id))))) 0 (initThread 1#32)).map fun r => r.1) = some (some (.err (.captured 9#32 [.exc badAlloc]), 3)) := by
  refine ⟨?_, ?_, ?_⟩ <;> decide +kernel

/-! ## The hypotheses can be met -/

/-- The operation fails with two objects and is retried in a guard; no memory at all. -/
def exNoMemory : Prog :=
  .handleAll [[.req 10, .ptr 11], []]
    (.onError [.item (.obj 11 4), .item (.deferred 12 3 5)] (.handleSome [[.req 12]] (.newError [.obj 10 1] fun id => .ret (.err (.plain id))) (fun _ _ => .ret (.val 0))))
    (fun i _ => .ret (.val i))

/-- The hypotheses of `C67_unused`. -/
example : exNoMemory.NoCapture exCfg ∧ ThreadOk (initThread 1#32) ∧ NoCapturingScope (initThread 1#32) :=
  ⟨⟨rfl, ⟨rfl, fun _ => trivial, fun _ _ => trivial⟩, fun _ _ => trivial⟩, threadOk_init (by decide), by intro x hx; simp [initThread, PtrStore.empty] at hx⟩

/-- It runs without memory: handler 0 is called. -/
example : ((evalT (fun _ => false) exCfg exNoMemory 0 (initThread 1#32)).map fun r => r.1) = some (some (.val 0, 0)) := by decide +kernel

/-- A capturing scope is active, no scope takes type 10: the hypotheses of `C67_load`, `C67_new_error`, `C67_propagate`, `C67_propagate_captured` and their right side hold after `pushCtx [.da]`. -/
example : ∃ w : World PtrStore, pushCtx [.da] (initThread 1#32) = some ((), w) ∧ (evalT (fun _ => false) exCfg (.newError [.obj 10 1] fun id => .ret (.err (.plain id))) 0 w).map (fun r => r.1) =
    some none := by
  refine ⟨_, rfl, ?_⟩
  decide +kernel

/-- In a capturing scope, `new_error` needs memory: the program is terminated without, and goes on with it. -/
example : ((evalT (fun _ => false) exCfg (.captureAll (.newError [.obj 10 1] fun id => .ret (.err (.plain id)))) 0 (initThread 1#32)).map fun r => r.1) = some none ∧
    ((evalT (fun _ => true) exCfg (.captureAll (.newError [.obj 10 1] fun id => .ret (.err (.plain id)))) 0 (initThread 1#32)).map fun r => r.1) =
      some (some (.err (.captured 5#32 [.obj 10 (some (5#32, 1))]), 1)) := by
  constructor <;> decide +kernel

/-- In a guard it does not: the object is lost, the program goes on. -/
example : ((evalT (fun _ => false) exCfg (.captureAll (.onError [.item (.obj 11 4)] (.newError [] fun id => .ret (.err (.plain id))))) 0 (initThread 1#32)).map fun r => r.1) =
    some (some (.err (.captured 5#32 []), 1)) := by
  decide +kernel

/-- The hypotheses of `C67_capture_exception`, with an exception for which there is no memory. -/
example : (Prog.captureAll (.ret (.exc ⟨7, true, .none, [(20, 3)], false⟩))).WF exCfg false ∧
    ((evalT (fun _ => false) exCfg (.captureAll (.ret (.exc ⟨7, true, .none, [(20, 3)], false⟩))) 0 (initThread 1#32)).map fun r => r.1) = some none := by
  constructor
  · exact ⟨rfl, trivial⟩
  · decide +kernel

/-- `unload` without memory: `std::bad_alloc` (`C67_unload`, second case). -/
example : ((evalT (fun i => decide (i < 1)) exCfg (.captureAll (.unload (.captured 5#32 [.obj 10 (some (5#32, 1)), .obj 11 (some (5#32, 2))]))) 0 (initThread 1#32)).map fun r => r.1) =
    some none ∧
  ((evalT (fun i => decide (i ≠ 1)) exCfg (.captureAll (.unload (.captured 5#32 [.obj 10 (some (5#32, 1)), .obj 11 (some (5#32, 2))]))) 0 (initThread 1#32)).map fun r => r.1) =
    some (some (.err (.captured 5#32 [.obj 10 (some (5#32, 1)), .exc badAlloc]), 3)) := by
  constructor <;> decide +kernel

end Leaf
