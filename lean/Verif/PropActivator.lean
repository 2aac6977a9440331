import Verif.ActivatorModel
import Verif.PropContext

/-!
# C53: activation guards nest
-/

namespace Leaf

/-! ## Specification -/

/-- `activate` or `deactivate`, called directly. -/
def UOp.manual : UOp → Bool
  | .activate _ => true
  | .deactivate _ => true
  | _ => false

/-- Only guards activate and deactivate contexts. -/
def GProg.OnlyGuards : GProg → Prop
  | .done => True
  | .op o k => o.manual = false ∧ k.OnlyGuards
  | .guarded _ body k => body.OnlyGuards ∧ k.OnlyGuards

/-- The operations on contexts that a program means, if the contexts `active` are active: a guard for a context that is active has no effect; any other activates the context at the beginning of its block and
deactivates it at the end. -/
def GProg.meaning (active : List Nat) : GProg → List UOp
  | .done => []
  | .op o k => o :: k.meaning active
  | .guarded c body k =>
    if c ∈ active then body.meaning active ++ k.meaning active
    else .activate c :: body.meaning (c :: active) ++ .deactivate c :: k.meaning active

/-- `c` exists and is active. -/
def UWorld.IsActive (u : UWorld) (c : Nat) : Prop := ∃ x, u.pool c = some x ∧ x.active = true

/-- The observations that are not trivial. -/
def visibleObs (os : List UObs) : List UObs := os.filter (· != .nothing)

/-! ## Proofs -/

def UWorld.Matches (u : UWorld) (active : List Nat) : Prop := ∀ c, u.IsActive c ↔ c ∈ active

theorem UWorld.isActive_setPool {u : UWorld} {c : Nat} {x : Option UCtx} {d : Nat} :
    (u.setPool c x).IsActive d ↔ if d = c then (∃ y, x = some y ∧ y.active = true) else u.IsActive d := by
  simp only [IsActive, setPool, upd]
  by_cases h : d = c <;> simp [h]

theorem UWorld.isActive_congr {u v : UWorld} (h : u.pool = v.pool) (d : Nat) : u.IsActive d ↔ v.IsActive d := by
  simp only [IsActive, h]

theorem UWorld.idle_eq {u : UWorld} {c : Nat} {x : UCtx} (h : u.idle c = some x) : u.pool c = some x ∧ x.active = false := by
  simp only [idle] at h
  split at h
  · rename_i y hy
    by_cases e : y.active = true
    · simp [e] at h
    · simp [e] at h
      subst h
      exact ⟨hy, by simpa using e⟩
  · cases h

/-- Operations other than activating and deactivating leave the active contexts active, the others inactive. -/
theorem UWorld.step_isActive {cfg : Cfg} {u u' : UWorld} {o : UOp} {x : UObs} (h : u.step cfg o = some (x, u'))
    (ho : o.manual = false) (d : Nat) : u'.IsActive d ↔ u.IsActive d := by
  cases o with
  | activate c => cases ho
  | deactivate c => cases ho
  | create c spec =>
    simp only [step] at h
    split at h
    · cases h
    · rename_i hc
      split at h
      · cases h
        rw [isActive_setPool]
        by_cases e : d = c
        · subst e; simp [IsActive, hc]
        · simp only [e, if_false]; exact isActive_congr rfl d
      · cases h
  | move c' c =>
    simp only [step] at h
    split at h
    · cases h
    · rename_i hc
      obtain ⟨y, hy, h⟩ := Option.bind_eq_some_iff.mp h
      split at h
      · cases h
      · obtain ⟨⟨cells, m⟩, hm, h⟩ := Option.bind_eq_some_iff.mp h
        cases h
        rw [isActive_setPool]
        by_cases e : d = c'
        · subst e; simp [IsActive, hc]
        · simp only [e, if_false]; exact isActive_congr rfl d
  | unload c id =>
    simp only [step] at h
    obtain ⟨y, hy, h⟩ := Option.bind_eq_some_iff.mp h
    obtain ⟨⟨_, w⟩, hm, h⟩ := Option.bind_eq_some_iff.mp h
    cases h
    obtain ⟨h1, h2⟩ := idle_eq hy
    rw [isActive_setPool]
    by_cases e : d = c
    · subst e; simp [IsActive, h1, h2]
    · simp only [e, if_false]; exact isActive_congr rfl d
  | handle c id specs body =>
    simp only [step] at h
    obtain ⟨y, hy, h⟩ := Option.bind_eq_some_iff.mp h
    obtain ⟨cells, hm, h⟩ := Option.bind_eq_some_iff.mp h
    obtain ⟨⟨o, w⟩, hw, h⟩ := Option.bind_eq_some_iff.mp h
    cases h
    exact isActive_congr rfl d
  | look c =>
    simp only [step] at h
    obtain ⟨y, hy, h⟩ := Option.bind_eq_some_iff.mp h
    obtain ⟨cells, hm, h⟩ := Option.bind_eq_some_iff.mp h
    cases h
    exact Iff.rfl
  | destroy c =>
    simp only [step] at h
    obtain ⟨y, hy, h⟩ := Option.bind_eq_some_iff.mp h
    obtain ⟨m, hm, h⟩ := Option.bind_eq_some_iff.mp h
    cases h
    obtain ⟨h1, h2⟩ := idle_eq hy
    rw [isActive_setPool]
    by_cases e : d = c
    · subst e; simp [IsActive, h1, h2]
    · simp only [e, if_false]; exact isActive_congr rfl d
  | run p =>
    simp only [step] at h
    obtain ⟨⟨o, w⟩, hw, h⟩ := Option.bind_eq_some_iff.mp h
    cases h
    exact isActive_congr rfl d

theorem UWorld.step_activate {cfg : Cfg} {u u' : UWorld} {c : Nat} {x : UObs} (h : u.step cfg (.activate c) = some (x, u')) (d : Nat) :
    x = .nothing ∧ (u'.IsActive d ↔ d = c ∨ u.IsActive d) := by
  simp only [step] at h
  obtain ⟨y, hy, h⟩ := Option.bind_eq_some_iff.mp h
  split at h
  · cases h
  · obtain ⟨m, hm, h⟩ := Option.bind_eq_some_iff.mp h
    cases h
    refine ⟨rfl, ?_⟩
    rw [isActive_setPool]
    by_cases e : d = c
    · simp [e]
    · simp only [e, if_false, false_or]; exact isActive_congr rfl d

theorem UWorld.step_deactivate {cfg : Cfg} {u u' : UWorld} {c : Nat} {x : UObs} (h : u.step cfg (.deactivate c) = some (x, u')) (d : Nat) :
    x = .nothing ∧ (u'.IsActive d ↔ d ≠ c ∧ u.IsActive d) := by
  simp only [step] at h
  split at h
  · cases h
  · split at h
    · obtain ⟨m, hm, h⟩ := Option.bind_eq_some_iff.mp h
      cases h
      refine ⟨rfl, ?_⟩
      rw [isActive_setPool]
      by_cases e : d = c
      · simp [e]
      · simp only [e, if_false, ne_eq, not_false_eq_true, true_and]; exact isActive_congr rfl d
    · cases h

theorem UWorld.run_append (cfg : Cfg) (xs ys : List UOp) : ∀ u : UWorld,
    u.run cfg (xs ++ ys) = (u.run cfg xs).bind fun r => (r.2.run cfg ys).map fun q => (r.1 ++ q.1, q.2) := by
  induction xs with
  | nil => intro u; simp [run]
  | cons x xs ih =>
    intro u
    simp only [List.cons_append, run]
    cases h : u.step cfg x with
    | none => rfl
    | some p =>
      simp only [Option.bind_eq_bind, Option.bind_some, ih]
      cases h1 : p.2.run cfg xs with
      | none => rfl
      | some q =>
        show Option.bind (Option.map _ (q.2.run cfg ys)) _ = Option.map _ (q.2.run cfg ys)
        cases q.2.run cfg ys <;> rfl

/-- A program does what it means, and the same contexts are active at the end. -/
theorem GProg.run_meaning (cfg : Cfg) (g : GProg) : ∀ (active : List Nat) (u : UWorld), g.OnlyGuards → u.Matches active →
    (g.run cfg u).map (fun r => (visibleObs r.1, r.2)) = (u.run cfg (g.meaning active)).map (fun r => (visibleObs r.1, r.2)) ∧
    ∀ os u', g.run cfg u = some (os, u') → u'.Matches active := by
  induction g with
  | done =>
    intro active u _ hm
    refine ⟨rfl, ?_⟩
    intro os u' h
    cases h
    exact hm
  | op o k ih =>
    intro active u hg hm
    simp only [run, meaning, UWorld.run]
    cases h : u.step cfg o with
    | none => exact ⟨rfl, by intro os u' h'; cases h'⟩
    | some p =>
      obtain ⟨x, v⟩ := p
      have hv : v.Matches active := fun d => (UWorld.step_isActive h hg.1 d).trans (hm d)
      obtain ⟨h1, h2⟩ := ih active v hg.2 hv
      simp only [Option.bind_eq_bind, Option.bind_some]
      cases e1 : k.run cfg v with
      | none =>
        rw [e1] at h1
        cases e2 : v.run cfg (k.meaning active) with
        | none => exact ⟨rfl, by intro os u' h'; cases h'⟩
        | some q => rw [e2] at h1; cases h1
      | some r =>
        rw [e1] at h1
        cases e2 : v.run cfg (k.meaning active) with
        | none => rw [e2] at h1; cases h1
        | some q =>
          rw [e2] at h1
          simp only [Option.map_some, Option.some.injEq, Prod.mk.injEq] at h1
          refine ⟨?_, ?_⟩
          · simp only [Option.bind_some, Option.map_some, pure, Option.some.injEq, Prod.mk.injEq]
            refine ⟨?_, h1.2⟩
            rw [show x :: r.1 = [x] ++ r.1 from rfl, show x :: q.1 = [x] ++ q.1 from rfl]
            simp only [visibleObs, List.filter_append] at h1 ⊢
            rw [h1.1]
          · intro os u' h'
            cases h'
            exact h2 _ _ e1
  | guarded c body k ih1 ih2 =>
    intro active u hg hm
    simp only [run, meaning]
    by_cases hc : c ∈ active
    · -- the context is active already
      obtain ⟨x, hx, hxa⟩ := (hm c).mpr hc
      have hs : u.activateContext cfg c = some (none, u) := by
        simp [UWorld.activateContext, UWorld.guardCtor, hx, hxa, guardMove, UWorld.guardEnd]
      rw [hs, if_pos hc, UWorld.run_append]
      obtain ⟨h1, h2⟩ := ih1 active u hg.1 hm
      simp only [Option.bind_eq_bind, Option.bind_some]
      cases e1 : body.run cfg u with
      | none =>
        rw [e1] at h1
        cases e2 : u.run cfg (body.meaning active) with
        | none => exact ⟨rfl, by intro os u' h'; cases h'⟩
        | some q => rw [e2] at h1; cases h1
      | some r =>
        rw [e1] at h1
        cases e2 : u.run cfg (body.meaning active) with
        | none => rw [e2] at h1; cases h1
        | some q =>
          rw [e2] at h1
          simp only [Option.map_some, Option.some.injEq, Prod.mk.injEq] at h1
          obtain ⟨h3, h4⟩ := ih2 active r.2 hg.2 (h2 _ _ e1)
          simp only [Option.bind_some, UWorld.guardEnd]
          rw [← h1.2]
          cases e3 : k.run cfg r.2 with
          | none =>
            rw [e3] at h3
            cases e4 : r.2.run cfg (k.meaning active) with
            | none => exact ⟨rfl, by intro os u' h'; cases h'⟩
            | some q => rw [e4] at h3; cases h3
          | some r' =>
            rw [e3] at h3
            cases e4 : r.2.run cfg (k.meaning active) with
            | none => rw [e4] at h3; cases h3
            | some q' =>
              rw [e4] at h3
              simp only [Option.map_some, Option.some.injEq, Prod.mk.injEq] at h3
              refine ⟨?_, ?_⟩
              · simp only [Option.bind_some, Option.map_some, pure, Option.some.injEq, Prod.mk.injEq]
                refine ⟨?_, h3.2⟩
                simp only [visibleObs, List.filter_append] at h1 h3 ⊢
                rw [h1.1, h3.1]
              · intro os u' h'
                cases h'
                exact h4 _ _ e3
    · -- the guard activates it
      have hna : ¬ u.IsActive c := fun h => hc ((hm c).mp h)
      have hs : u.activateContext cfg c = (u.step cfg (.activate c)).map fun r => (some c, r.2) := by
        simp only [UWorld.activateContext, UWorld.guardCtor]
        cases hp : u.pool c with
        | none => simp [UWorld.step, UWorld.idle, hp]
        | some x =>
          have : x.active = false := by
            cases e : x.active with
            | false => rfl
            | true => exact (hna ⟨x, hp, e⟩).elim
          simp only [this, Bool.false_eq_true, if_false]
          cases u.step cfg (.activate c) <;> rfl
      rw [hs, if_neg hc]
      simp only [List.cons_append, UWorld.run]
      cases e0 : u.step cfg (.activate c) with
      | none => exact ⟨rfl, by intro os u' h'; cases h'⟩
      | some p =>
        obtain ⟨x, v⟩ := p
        have hv : v.Matches (c :: active) := by
          intro d
          rw [(UWorld.step_activate e0 d).2, List.mem_cons, hm d]
        have hx : x = .nothing := (UWorld.step_activate e0 0).1
        subst hx
        obtain ⟨h1, h2⟩ := ih1 (c :: active) v hg.1 hv
        simp only [Option.map_some, Option.bind_eq_bind, Option.bind_some, UWorld.run_append]
        cases e1 : body.run cfg v with
        | none =>
          rw [e1] at h1
          cases e2 : v.run cfg (body.meaning (c :: active)) with
          | none => exact ⟨rfl, by intro os u' h'; cases h'⟩
          | some q => rw [e2] at h1; cases h1
        | some r =>
          rw [e1] at h1
          cases e2 : v.run cfg (body.meaning (c :: active)) with
          | none => rw [e2] at h1; cases h1
          | some q =>
            rw [e2] at h1
            simp only [Option.map_some, Option.some.injEq, Prod.mk.injEq] at h1
            have hr := h2 _ _ e1
            obtain ⟨y, hy, hya⟩ := (hr c).mpr (List.mem_cons_self ..)
            simp only [Option.bind_some, UWorld.guardEnd, hy, hya, if_true, UWorld.run]
            rw [← h1.2]
            cases e5 : r.2.step cfg (.deactivate c) with
            | none => exact ⟨rfl, by intro os u' h'; cases h'⟩
            | some p5 =>
              obtain ⟨x5, v5⟩ := p5
              have hx5 : x5 = .nothing := (UWorld.step_deactivate e5 0).1
              subst hx5
              have hv5 : v5.Matches active := by
                intro d
                rw [(UWorld.step_deactivate e5 d).2, hr d, List.mem_cons]
                constructor
                · rintro ⟨h6, h7⟩
                  exact h7.resolve_left h6
                · intro h6
                  exact ⟨by rintro rfl; exact hc h6, Or.inr h6⟩
              obtain ⟨h3, h4⟩ := ih2 active v5 hg.2 hv5
              simp only [Option.bind_eq_bind, Option.bind_some]
              cases e3 : k.run cfg v5 with
              | none =>
                rw [e3] at h3
                cases e4 : v5.run cfg (k.meaning active) with
                | none => exact ⟨by simp [e3], by intro os u' h'; simp [e3] at h'⟩
                | some q => rw [e4] at h3; cases h3
              | some r' =>
                rw [e3] at h3
                cases e4 : v5.run cfg (k.meaning active) with
                | none => rw [e4] at h3; cases h3
                | some q' =>
                  rw [e4] at h3
                  simp only [Option.map_some, Option.some.injEq, Prod.mk.injEq] at h3
                  refine ⟨?_, ?_⟩
                  · simp only [pure, Option.bind_some, Option.map_some, Option.some.injEq, Prod.mk.injEq, e3]
                    refine ⟨?_, h3.2⟩
                    have : visibleObs (UObs.nothing :: (q.1 ++ UObs.nothing :: q'.1)) = visibleObs (q.1 ++ q'.1) := by
                      simp [visibleObs]
                    rw [this]
                    simp only [visibleObs, List.filter_append] at h1 h3 ⊢
                    rw [h1.1, h3.1]
                  · intro os u' h'
                    simp only [pure, Option.bind_some, e3] at h'
                    cases h'
                    exact h4 _ _ e3

theorem CRel.matches_active {u : UWorld} {s : SWorld} (h : CRel u s) : u.Matches s.active := by
  intro c
  have hp := h.pool c
  cases hu : u.pool c with
  | none =>
    have : c ∉ s.active := by
      have key : ∀ (cs : List Nat) (fs : List (List PCell)), ActRel u.pool cs fs → c ∉ cs := by
        intro cs
        induction cs with
        | nil => intro _ _; simp
        | cons d cs ih =>
          intro fs hf
          cases fs with
          | nil => exact hf.elim
          | cons f fs =>
            obtain ⟨⟨x, hx, _⟩, hr⟩ := hf
            intro hc
            rcases List.mem_cons.mp hc with rfl | hc
            · rw [hu] at hx; cases hx
            · exact ih fs hr hc
      exact key _ _ h.act
    simp [UWorld.IsActive, hu, this]
  | some x =>
    rw [hu] at hp
    cases hs : s.pool c with
    | none => rw [hs] at hp; exact hp.elim
    | some y =>
      rw [hs] at hp
      cases y with
      | active => simp [UWorld.IsActive, hu, hp.1, hp.2.2]
      | idle cells pinned spent => simp [UWorld.IsActive, hu, hp.1, hp.2.2.1]

theorem SWorld.step_active {cfg : Cfg} {s s' : SWorld} {o : UOp} {x : UObs} (h : s.step cfg o = some (x, s')) (ho : o.manual = false) : s'.active = s.active := by
  cases o with
  | activate c => cases ho
  | deactivate c => cases ho
  | create c spec =>
    simp only [step] at h
    split at h
    · cases h; rfl
    · cases h
  | move d c =>
    simp only [step] at h
    split at h
    · cases h; rfl
    · cases h
  | unload c id =>
    simp only [step] at h
    split at h
    · obtain ⟨⟨_, w⟩, _, h⟩ := Option.bind_eq_some_iff.mp h
      cases h; rfl
    · cases h
  | handle c id specs body =>
    simp only [step] at h
    split at h
    · obtain ⟨⟨_, w⟩, _, h⟩ := Option.bind_eq_some_iff.mp h
      cases h; rfl
    · cases h
  | look c =>
    simp only [step] at h
    split at h
    · cases h; rfl
    · cases h
  | destroy c =>
    simp only [step] at h
    split at h
    · cases h; rfl
    · cases h
  | run p =>
    simp only [step] at h
    obtain ⟨⟨_, w⟩, _, h⟩ := Option.bind_eq_some_iff.mp h
    cases h; rfl

theorem SWorld.run_append_inv {cfg : Cfg} {xs ys : List UOp} : ∀ {s s' : SWorld} {os : List UObs}, s.run cfg (xs ++ ys) = some (os, s') →
    ∃ os1 s1 os2, s.run cfg xs = some (os1, s1) ∧ s1.run cfg ys = some (os2, s') := by
  induction xs with
  | nil => intro s s' os h; exact ⟨[], s, os, rfl, h⟩
  | cons x xs ih =>
    intro s s' os h
    obtain ⟨o1, s1, os1, hs1, h1, rfl⟩ := SWorld.run_cons_inv h
    obtain ⟨os2, s2, os3, h2, h3⟩ := ih h1
    exact ⟨o1 :: os2, s2, os3, by simp [SWorld.run, hs1, h2], h3⟩

theorem SWorld.run_meaning_active (cfg : Cfg) (g : GProg) : ∀ (active : List Nat) {s s' : SWorld} {os : List UObs}, g.OnlyGuards →
    s.run cfg (g.meaning active) = some (os, s') → s'.active = s.active := by
  induction g with
  | done => intro active s s' os _ h; cases h; rfl
  | op o k ih =>
    intro active s s' os hg h
    obtain ⟨o1, s1, os1, hs1, h1, rfl⟩ := SWorld.run_cons_inv h
    exact (ih active hg.2 h1).trans (SWorld.step_active hs1 hg.1)
  | guarded c body k ih1 ih2 =>
    intro active s s' os hg h
    simp only [GProg.meaning] at h
    split at h
    · obtain ⟨os1, s1, os2, h1, h2⟩ := SWorld.run_append_inv h
      exact (ih2 active hg.2 h2).trans (ih1 active hg.1 h1)
    · obtain ⟨o1, s1, os1, hs1, h1, rfl⟩ := SWorld.run_cons_inv h
      obtain ⟨os2, s2, os3, h2, h3⟩ := SWorld.run_append_inv h1
      obtain ⟨o4, s4, os4, hs4, h4, rfl⟩ := SWorld.run_cons_inv h3
      have e1 : s1.active = c :: s.active := by
        simp only [SWorld.step] at hs1
        split at hs1
        · split at hs1
          · cases hs1
          · cases hs1; rfl
        · cases hs1
      have e2 := ih1 _ hg.1 h2
      have e4 : s4.active = s2.active.tail := by
        simp only [SWorld.step] at hs4
        split at hs4
        · rename_i ha _
          split at hs4
          · cases hs4
            rw [ha]; rfl
          · cases hs4
        · cases hs4
      rw [ih2 active hg.2 h4, e4, e2, e1]
      rfl

/-! ## The property -/

/-- **C53.** For all programs in which contexts are activated by guards, in any nesting, in any state: the program does exactly what its meaning says: a guard for a context that is active already does
nothing, neither at its beginning nor at its end; any other guard activates the context at its beginning and deactivates it at its end. In particular one is undefined behaviour if and only if the other is.
Afterwards exactly those contexts are active that were before. -/
theorem C53_guards (cfg : Cfg) (g : GProg) (hg : g.OnlyGuards) (active : List Nat) (u : UWorld) (hu : ∀ c, u.IsActive c ↔ c ∈ active) :
    (g.run cfg u).map (fun r => (visibleObs r.1, r.2)) = (u.run cfg (g.meaning active)).map (fun r => (visibleObs r.1, r.2)) ∧
    ∀ os u', g.run cfg u = some (os, u') → ∀ c, u'.IsActive c ↔ u.IsActive c := by
  obtain ⟨h1, h2⟩ := g.run_meaning cfg active u hg hu
  exact ⟨h1, fun os u' h c => (h2 os u' h c).trans (hu c).symm⟩

/-- **C53, with the specification of contexts.** After any allowed history: if what a program with guards means is allowed, the program runs without undefined behaviour, everything observed is what the specification says,
and the same contexts are active as before, in the same order. -/
theorem C53_guards_allowed (cfg : Cfg) (counter : Id) (ops : List UOp) {os : List UObs} {s : SWorld} (h : (SWorld.initial counter).run cfg ops = some (os, s))
    (g : GProg) (hg : g.OnlyGuards) {os' : List UObs} {s' : SWorld} (hs : s.run cfg (g.meaning s.active) = some (os', s')) :
    s'.active = s.active ∧ ∃ u os'' u', (UWorld.initial counter).run cfg ops = some (os, u) ∧ g.run cfg u = some (os'', u') ∧ visibleObs os'' = visibleObs os' ∧ absW u'.w = s'.w ∧
      ∀ c, u'.IsActive c ↔ u.IsActive c := by
  obtain ⟨u, h1, r0⟩ := context_run_refines cfg ops (.initial counter) h
  obtain ⟨v, h2, r1⟩ := context_run_refines cfg _ r0 hs
  refine ⟨SWorld.run_meaning_active cfg g _ hg hs, u, ?_⟩
  obtain ⟨h3, h4⟩ := C53_guards cfg g hg s.active u r0.matches_active
  rw [h2] at h3
  cases hr : g.run cfg u with
  | none => rw [hr] at h3; cases h3
  | some r =>
    rw [hr] at h3
    simp only [Option.map_some, Option.some.injEq, Prod.mk.injEq] at h3
    exact ⟨r.1, r.2, h1, rfl, h3.1, by rw [h3.2]; exact r1.w, h4 _ _ hr⟩

/-- **C53, deactivated by hand.** If the context was deactivated inside the block, the end of the guard's block does nothing. -/
theorem C53_already_deactivated (cfg : Cfg) (u : UWorld) (c : Nat) (x : UCtx) (hx : u.pool c = some x) (hi : x.active = false) : u.guardEnd cfg (some c) = some u := by
  simp [UWorld.guardEnd, hx, hi]

/-! ## Examples -/

/-- context_activator_test.cpp: a function activates a context that its caller activated already, and reports an error. The object is in the context. -/
def exActivator : GProg :=
  .op (.create 1 [.obj 5]) (.guarded 1
    (.guarded 1 (.op (.run (reportObj 5 7)) .done) (.op (.run (reportObj 5 8)) .done))
    (.op (.look 1) (.op (.destroy 1) .done)))

example : exActivator.OnlyGuards := by simp [exActivator, GProg.OnlyGuards, UOp.manual]

example : exActivator.meaning [] = [.create 1 [.obj 5], .activate 1, .run (reportObj 5 7), .run (reportObj 5 8), .deactivate 1, .look 1, .destroy 1] := by rfl

example : ((SWorld.initial 1#32).run exCfg (exActivator.meaning (SWorld.initial 1#32).active)).isSome := by decide +kernel

/-- The second object is stored too: the end of the inner guard does not deactivate the context. -/
example : (exActivator.run exCfg (UWorld.initial 1#32)).map (fun r => visibleObs r.1) =
    some [.out (.err (.plain 5#32)), .out (.err (.plain 9#32)), .content [.obj 5 (some (9#32, 8))]] := by decide +kernel

/-- Two contexts, the outer one activated again inside the inner one. -/
example : ((GProg.op (.create 1 [.obj 5]) (.op (.create 2 [.obj 5]) (.guarded 1 (.guarded 2 (.guarded 1 (.op (.run (reportObj 5 7)) .done) .done) .done)
    (.op (.look 1) (.op (.look 2) .done))))).run exCfg (UWorld.initial 1#32)).map (fun r => visibleObs r.1) =
    some [.out (.err (.plain 5#32)), .content [.obj 5 none], .content [.obj 5 (some (5#32, 7))]] := by decide +kernel

end Leaf
