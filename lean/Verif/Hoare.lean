import Verif.Prog

/-!
# Partial correctness of computations
-/

namespace Leaf

variable {M : Type} {α β : Type}

/-- From a state satisfying `P`, if the computation ends, the outcome satisfies `Q`. -/
def Hoare (P : World M → Prop) (x : Comp M α) (Q : α → World M → Prop) : Prop := ∀ w, P w → ∀ a w', x w = some (a, w') → Q a w'

theorem Hoare.pure {P : World M → Prop} {Q : α → World M → Prop} {a : α} (h : ∀ w, P w → Q a w) : Hoare P (pure a) Q := by
  intro w hw b w' he
  have he : some (a, w) = some (b, w') := he
  simp only [Option.some.injEq, Prod.mk.injEq] at he
  obtain ⟨rfl, rfl⟩ := he
  exact h w hw

theorem Hoare.ub {P : World M → Prop} {Q : α → World M → Prop} : Hoare P (ub : Comp M α) Q := by
  intro w _ b w' he
  simp [Leaf.ub] at he

theorem Hoare.bind {P : World M → Prop} {x : Comp M α} {R : α → World M → Prop} {f : α → Comp M β} {Q : β → World M → Prop}
    (hx : Hoare P x R) (hf : ∀ a, Hoare (R a) (f a) Q) : Hoare P (x >>= f) Q := by
  intro w hw b w' he
  have he : (x w).bind (fun p => f p.1 p.2) = some (b, w') := he
  cases hxw : x w with
  | none => simp [hxw] at he
  | some p =>
    rw [hxw, Option.bind_some] at he
    exact hf p.1 p.2 (hx w hw p.1 p.2 hxw) b w' he

theorem Hoare.mono {P P' : World M → Prop} {x : Comp M α} {Q Q' : α → World M → Prop} (hx : Hoare P x Q) (hp : ∀ w, P' w → P w)
    (hq : ∀ a w, Q a w → Q' a w) : Hoare P' x Q' := fun w hw a w' he => hq a w' (hx w (hp w hw) a w' he)

theorem Hoare.post {P : World M → Prop} {x : Comp M α} {Q Q' : α → World M → Prop} (hx : Hoare P x Q) (hq : ∀ a w, Q a w → Q' a w) :
    Hoare P x Q' := hx.mono (fun _ h => h) hq

/-- A precondition on values only may be assumed. -/
theorem Hoare.assume {p : Prop} {P : World M → Prop} {x : Comp M α} {Q : α → World M → Prop} (h : p → Hoare P x Q) :
    Hoare (fun w => p ∧ P w) x Q := fun w hw => h hw.1 w hw.2

end Leaf
