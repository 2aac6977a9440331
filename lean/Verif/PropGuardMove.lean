import Verif.GuardMoveModel
import Verif.PropActivator

/-!
# C76: activation guards may be moved; in which order they have to be destroyed
-/

namespace Leaf

/-! ## Specification -/

/-- Only guards activate and deactivate contexts. -/
def AOp.manual : AOp → Bool
  | .op o => o.manual
  | _ => false

/-- The names of guards are used as C++ uses variables: new guards have new names; only guards that exist are moved or destroyed. -/
def NamesOk (names : List Nat) : List AOp → Prop
  | [] => True
  | .op _ :: os => NamesOk names os
  | .make g _ :: os => g ∉ names ∧ NamesOk (g :: names) os
  | .move d g :: os => d ∉ names ∧ g ∈ names ∧ NamesOk (d :: names) os
  | .drop g :: os => g ∈ names ∧ NamesOk (names.filter (· ≠ g)) os

/-- What guards are for: `held` lists the activations that are to be undone, the latest first, each with the guard that is responsible. Making a guard activates the context, unless it is active (`outer`: active before);
moving a guard passes the responsibility on; destroying the guard that is responsible deactivates the context. -/
def guardsMeaning (outer : List Nat) (held : List (Nat × Nat)) : List AOp → List UOp
  | [] => []
  | .op o :: os => o :: guardsMeaning outer held os
  | .make g c :: os =>
    if c ∈ outer ∨ c ∈ held.map (·.2) then guardsMeaning outer held os
    else .activate c :: guardsMeaning outer ((g, c) :: held) os
  | .move d g :: os => guardsMeaning outer (held.map fun p => if p.1 = g then (d, p.2) else p) os
  | .drop g :: os => (held.filter (·.1 = g)).map (fun p => .deactivate p.2) ++ guardsMeaning outer (held.filter (·.1 ≠ g)) os

/-! ## Proofs -/

structure GuardRel (a : AWorld) (outer names : List Nat) (held : List (Nat × Nat)) : Prop where
  exist : ∀ g, (a.guards g).isSome ↔ g ∈ names
  holds : ∀ g c, a.guards g = some (some c) ↔ (g, c) ∈ held
  nodup : (held.map (·.2)).Nodup
  apart : ∀ c, c ∈ outer → c ∉ held.map (·.2)
  active : ∀ c, a.u.IsActive c ↔ c ∈ outer ∨ c ∈ held.map (·.2)

theorem GuardRel.filter_eq {a : AWorld} {outer names : List Nat} {held : List (Nat × Nat)} (h : GuardRel a outer names held) {g c : Nat} (hg : a.guards g = some (some c)) :
    held.filter (·.1 = g) = [(g, c)] := by
  have hm := (h.holds g c).mp hg
  have huniq : ∀ c', (g, c') ∈ held → c' = c := by
    intro c' h'
    have := (h.holds g c').mpr h'
    rw [hg] at this
    cases this
    rfl
  have hn := h.nodup
  clear h hg
  induction held with
  | nil => cases hm
  | cons p ps ih =>
    obtain ⟨g', c'⟩ := p
    simp only [List.map_cons, List.nodup_cons] at hn
    rcases List.mem_cons.mp hm with e | hm'
    · cases e
      have : ps.filter (·.1 = g) = [] := by
        rw [List.filter_eq_nil_iff]
        intro q hq e
        obtain ⟨g2, c2⟩ := q
        simp only [decide_eq_true_eq] at e
        subst e
        have := huniq c2 (List.mem_cons_of_mem _ hq)
        subst this
        exact hn.1 (List.mem_map.mpr ⟨_, hq, rfl⟩)
      simp [this]
    · have hne : g' ≠ g := by
        rintro rfl
        have := huniq c' (List.mem_cons_self ..)
        subst this
        exact hn.1 (List.mem_map.mpr ⟨_, hm', rfl⟩)
      rw [List.filter_cons_of_neg (by simpa using hne)]
      exact ih hm' (fun c2 h2 => huniq c2 (List.mem_cons_of_mem _ h2)) hn.2

theorem GuardRel.filter_nil {a : AWorld} {outer names : List Nat} {held : List (Nat × Nat)} (h : GuardRel a outer names held) {g : Nat} (hg : a.guards g = some none) :
    held.filter (·.1 = g) = [] := by
  rw [List.filter_eq_nil_iff]
  rintro ⟨g', c⟩ hq e
  simp only [decide_eq_true_eq] at e
  subst e
  have := (h.holds g' c).mpr hq
  rw [hg] at this
  cases this

theorem activateContext_active {cfg : Cfg} {u : UWorld} {c : Nat} (h : u.IsActive c) : u.activateContext cfg c = some (none, u) := by
  obtain ⟨x, hx, hxa⟩ := h
  simp [UWorld.activateContext, UWorld.guardCtor, hx, hxa, guardMove, UWorld.guardEnd]

theorem activateContext_idle {cfg : Cfg} {u : UWorld} {c : Nat} (h : ¬ u.IsActive c) :
    u.activateContext cfg c = (u.step cfg (.activate c)).map fun r => (some c, r.2) := by
  simp only [UWorld.activateContext, UWorld.guardCtor]
  cases hp : u.pool c with
  | none => simp [UWorld.step, UWorld.idle, hp]
  | some x =>
    have : x.active = false := by
      cases e : x.active with
      | false => rfl
      | true => exact (h ⟨x, hp, e⟩).elim
    simp only [this, Bool.false_eq_true, if_false]
    cases u.step cfg (.activate c) <;> rfl

theorem guardEnd_active {cfg : Cfg} {u : UWorld} {c : Nat} (h : u.IsActive c) : u.guardEnd cfg (some c) = (u.step cfg (.deactivate c)).map (·.2) := by
  obtain ⟨x, hx, hxa⟩ := h
  simp only [UWorld.guardEnd, hx, hxa, if_true]
  cases u.step cfg (.deactivate c) <;> rfl

theorem held_unique : ∀ {held : List (Nat × Nat)} {g g' c : Nat}, (held.map (·.2)).Nodup → (g, c) ∈ held → (g', c) ∈ held → g = g'
  | [], _, _, _, _, h, _ => by cases h
  | p :: ps, g, g', c, hn, h, h' => by
    simp only [List.map_cons, List.nodup_cons] at hn
    rcases List.mem_cons.mp h with e | h1
    · rcases List.mem_cons.mp h' with e' | h2
      · rw [← e'] at e; cases e; rfl
      · subst e; exact (hn.1 (List.mem_map.mpr ⟨_, h2, rfl⟩)).elim
    · rcases List.mem_cons.mp h' with e' | h2
      · subst e'; exact (hn.1 (List.mem_map.mpr ⟨_, h1, rfl⟩)).elim
      · exact held_unique hn.2 h1 h2

/-- What is compared: the observations and the final state. -/
def seenA (r : List UObs × AWorld) : List UObs × UWorld := (visibleObs r.1, r.2.u)
def seenU (r : List UObs × UWorld) : List UObs × UWorld := (visibleObs r.1, r.2)

theorem seen_cons {x : UObs} {xs ys : List UObs} (h : visibleObs xs = visibleObs ys) : visibleObs (x :: xs) = visibleObs (x :: ys) := by
  simp only [visibleObs] at h ⊢
  rw [List.filter_cons, List.filter_cons, h]

theorem seen_nothing (xs : List UObs) : visibleObs (.nothing :: xs) = visibleObs xs := by
  simp [visibleObs]

/-- Each side makes a step. -/
theorem run_both {cfg : Cfg} {a : AWorld} {u : UWorld} {x : UObs} {os : List AOp} {us : List UOp}
    (h : (a.run cfg os).map seenA = (u.run cfg us).map seenU) :
    ((a.run cfg os).map fun r => (x :: r.1, r.2)).map seenA = ((u.run cfg us).map fun r => (x :: r.1, r.2)).map seenU := by
  cases e1 : a.run cfg os with
  | none =>
    cases e2 : u.run cfg us with
    | none => rfl
    | some q => rw [e1, e2] at h; cases h
  | some r =>
    cases e2 : u.run cfg us with
    | none => rw [e1, e2] at h; cases h
    | some q =>
      rw [e1, e2] at h
      simp only [Option.map_some, Option.some.injEq, seenA, seenU, Prod.mk.injEq] at h ⊢
      exact ⟨seen_cons h.1, h.2⟩

/-- Only the guards make a step. -/
theorem run_one {cfg : Cfg} {a : AWorld} {os : List AOp} :
    ((a.run cfg os).map fun r => (UObs.nothing :: r.1, r.2)).map seenA = (a.run cfg os).map seenA := by
  cases a.run cfg os with
  | none => rfl
  | some r => simp [seenA, seen_nothing]

theorem AWorld.run_cons (cfg : Cfg) (a : AWorld) (o : AOp) (os : List AOp) :
    a.run cfg (o :: os) = (a.step cfg o).bind fun p => (p.2.run cfg os).map fun r => (p.1 :: r.1, r.2) := by
  simp only [run]
  cases a.step cfg o with
  | none => rfl
  | some p =>
    show Option.bind (p.2.run cfg os) _ = _
    simp only [Option.bind_some]
    cases p.2.run cfg os <;> rfl

theorem UWorld.run_cons (cfg : Cfg) (u : UWorld) (o : UOp) (os : List UOp) :
    u.run cfg (o :: os) = (u.step cfg o).bind fun p => (p.2.run cfg os).map fun r => (p.1 :: r.1, r.2) := by
  simp only [run]
  cases u.step cfg o with
  | none => rfl
  | some p =>
    show Option.bind (p.2.run cfg os) _ = _
    simp only [Option.bind_some]
    cases p.2.run cfg os <;> rfl

theorem guards_run (cfg : Cfg) (outer : List Nat) (os : List AOp) : ∀ (names : List Nat) (held : List (Nat × Nat)) (a : AWorld),
    (∀ o ∈ os, o.manual = false) → NamesOk names os → GuardRel a outer names held →
    (a.run cfg os).map seenA = (a.u.run cfg (guardsMeaning outer held os)).map seenU ∧
    ∀ xs a', a.run cfg os = some (xs, a') → ∃ names' held', GuardRel a' outer names' held' := by
  induction os with
  | nil =>
    intro names held a _ _ hr
    exact ⟨rfl, by intro xs a' h; cases h; exact ⟨names, held, hr⟩⟩
  | cons o os ih =>
    intro names held a hm hn hr
    have hm' : ∀ o ∈ os, o.manual = false := fun o h => hm o (List.mem_cons_of_mem _ h)
    have hmo := hm o (List.mem_cons_self ..)
    -- the same step on both sides, or only guards are concerned
    have fin : ∀ {a1 : AWorld} {x : UObs} {names1 : List Nat} {held1 : List (Nat × Nat)}, a.step cfg o = some (x, a1) → NamesOk names1 os → GuardRel a1 outer names1 held1 →
        ((a.run cfg (o :: os)) = (a1.run cfg os).map fun r => (x :: r.1, r.2)) ∧
        (a1.run cfg os).map seenA = (a1.u.run cfg (guardsMeaning outer held1 os)).map seenU ∧
        ∀ xs a', a.run cfg (o :: os) = some (xs, a') → ∃ names' held', GuardRel a' outer names' held' := by
      intro a1 x names1 held1 hs hn1 hr1
      obtain ⟨h1, h2⟩ := ih names1 held1 a1 hm' hn1 hr1
      have e : (a.run cfg (o :: os)) = (a1.run cfg os).map fun r => (x :: r.1, r.2) := by rw [AWorld.run_cons, hs]; rfl
      refine ⟨e, h1, ?_⟩
      intro xs a' h
      rw [e] at h
      obtain ⟨r, hr', h⟩ := Option.map_eq_some_iff.mp h
      cases h
      exact h2 _ _ hr'
    have stuck : a.step cfg o = none → (a.run cfg (o :: os)) = none := by
      intro h; rw [AWorld.run_cons, h]; rfl
    cases o with
    | op o =>
      simp only [NamesOk] at hn
      simp only [guardsMeaning]
      cases h : a.u.step cfg o with
      | none =>
        have := stuck (by simp [AWorld.step, h])
        rw [this, UWorld.run_cons, h]
        exact ⟨rfl, by intro xs a' h; cases h⟩
      | some p =>
        obtain ⟨x, v⟩ := p
        have hr1 : GuardRel ⟨v, a.guards⟩ outer names held :=
          ⟨hr.exist, hr.holds, hr.nodup, hr.apart, fun c => (UWorld.step_isActive h hmo c).trans (hr.active c)⟩
        obtain ⟨e1, e2, e3⟩ := fin (x := x) (a1 := ⟨v, a.guards⟩) (by simp [AWorld.step, h]) hn hr1
        refine ⟨?_, e3⟩
        rw [e1, UWorld.run_cons, h]
        exact run_both e2
    | make g c =>
      obtain ⟨hg, hn⟩ := hn
      have hg' : a.guards g = none := by
        cases e : a.guards g with
        | none => rfl
        | some r => exact (hg ((hr.exist g).mp (by simp [e]))).elim
      have hex : ∀ r, ∀ g', (upd a.guards g (some r) g').isSome ↔ g' ∈ g :: names := by
        intro r g'
        by_cases e : g' = g
        · simp [upd, e]
        · simp [upd, e, hr.exist g']
      simp only [guardsMeaning]
      by_cases hc : a.u.IsActive c
      · rw [if_pos ((hr.active c).mp hc)]
        have hr1 : GuardRel ⟨a.u, upd a.guards g (some none)⟩ outer (g :: names) held := by
          refine ⟨hex none, ?_, hr.nodup, hr.apart, hr.active⟩
          intro g' c'
          by_cases e : g' = g
          · subst e
            have : (g', c') ∉ held := fun hh => by
              have := (hr.holds g' c').mpr hh
              rw [hg'] at this; cases this
            simp [upd, this]
          · simp only [upd, e, if_false]; exact hr.holds g' c'
        obtain ⟨e1, e2, e3⟩ := fin (x := .nothing) (a1 := ⟨a.u, upd a.guards g (some none)⟩) (by simp [AWorld.step, hg', activateContext_active hc]) hn hr1
        refine ⟨?_, e3⟩
        rw [e1, run_one]
        exact e2
      · rw [if_neg (fun h => hc ((hr.active c).mpr h))]
        cases h : a.u.step cfg (.activate c) with
        | none =>
          have := stuck (by simp [AWorld.step, hg', activateContext_idle hc, h])
          rw [this, UWorld.run_cons, h]
          exact ⟨rfl, by intro xs a' h; cases h⟩
        | some p =>
          obtain ⟨x, v⟩ := p
          have hx : x = .nothing := (UWorld.step_activate h 0).1
          subst hx
          have hc' : c ∉ held.map (·.2) := fun hh => hc ((hr.active c).mpr (Or.inr hh))
          have hr1 : GuardRel ⟨v, upd a.guards g (some (some c))⟩ outer (g :: names) ((g, c) :: held) := by
            refine ⟨hex (some c), ?_, ?_, ?_, ?_⟩
            · intro g' c'
              by_cases e : g' = g
              · subst e
                have : (g', c') ∉ held := fun hh => by
                  have := (hr.holds g' c').mpr hh
                  rw [hg'] at this; cases this
                simp [upd, this, eq_comm]
              · simp only [upd, e, if_false, List.mem_cons, Prod.mk.injEq, false_and, false_or]; exact hr.holds g' c'
            · exact List.nodup_cons.mpr ⟨hc', hr.nodup⟩
            · intro c' h' hh
              rcases List.mem_cons.mp hh with e | hh
              · simp only at e
                subst e
                exact hc ((hr.active c').mpr (Or.inl h'))
              · exact hr.apart c' h' hh
            · intro c'
              rw [(UWorld.step_activate h c').2, hr.active c', List.map_cons, List.mem_cons]
              constructor
              · rintro (h | h | h)
                · exact Or.inr (Or.inl h)
                · exact Or.inl h
                · exact Or.inr (Or.inr h)
              · rintro (h | h | h)
                · exact Or.inr (Or.inl h)
                · exact Or.inl h
                · exact Or.inr (Or.inr h)
          obtain ⟨e1, e2, e3⟩ := fin (x := .nothing) (a1 := ⟨v, upd a.guards g (some (some c))⟩) (by simp [AWorld.step, hg', activateContext_idle hc, h]) hn hr1
          refine ⟨?_, e3⟩
          rw [e1, UWorld.run_cons, h]
          exact run_both e2
    | move d g =>
      obtain ⟨hd, hg, hn⟩ := hn
      have hd' : a.guards d = none := by
        cases e : a.guards d with
        | none => rfl
        | some r => exact (hd ((hr.exist d).mp (by simp [e]))).elim
      obtain ⟨r, hg'⟩ := Option.isSome_iff_exists.mp ((hr.exist g).mpr hg)
      have hne : d ≠ g := by rintro rfl; exact hd hg
      have hsnd : (held.map fun p => if p.1 = g then (d, p.2) else p).map (·.2) = held.map (·.2) := by
        rw [List.map_map]
        apply List.map_congr_left
        rintro ⟨g', c'⟩ _
        simp only [Function.comp]
        split <;> rfl
      have hnd : ∀ c, (d, c) ∉ held := fun c hh => by
        have := (hr.holds d c).mpr hh
        rw [hd'] at this; cases this
      simp only [guardsMeaning]
      have hr1 : GuardRel ⟨a.u, upd (upd a.guards g (some none)) d (some r)⟩ outer (d :: names) (held.map fun p => if p.1 = g then (d, p.2) else p) := by
        refine ⟨?_, ?_, by rw [hsnd]; exact hr.nodup, by rw [hsnd]; exact hr.apart, by rw [hsnd]; exact hr.active⟩
        · intro g'
          by_cases e : g' = d
          · simp [upd, e]
          · by_cases e2 : g' = g
            · subst e2; simp [upd, e, hg]
            · simp [upd, e, e2, hr.exist g']
        · intro g' c'
          rw [List.mem_map]
          by_cases e : g' = d
          · subst e
            simp only [upd, if_true, Option.some.injEq]
            constructor
            · rintro rfl
              exact ⟨(g, c'), (hr.holds g c').mp hg', by simp⟩
            · rintro ⟨⟨g2, c2⟩, hh, e⟩
              split at e
              · rename_i e2
                simp only at e2
                subst e2
                cases e
                have := (hr.holds g2 c2).mpr hh
                rw [hg'] at this
                cases this
                rfl
              · cases e
                exact (hnd c' hh).elim
          · by_cases e2 : g' = g
            · subst e2
              simp only [upd, e, if_false, if_true, Option.some.injEq, reduceCtorEq, false_iff]
              rintro ⟨⟨g2, c2⟩, hh, e'⟩
              split at e'
              · cases e'; exact e rfl
              · rename_i e3
                cases e'
                exact e3 rfl
            · simp only [upd, e, e2, if_false]
              rw [hr.holds g' c']
              constructor
              · intro hh
                exact ⟨(g', c'), hh, by simp [e2]⟩
              · rintro ⟨⟨g2, c2⟩, hh, e'⟩
                split at e'
                · cases e'; exact (e rfl).elim
                · cases e'; exact hh
      obtain ⟨e1, e2, e3⟩ := fin (x := .nothing) (a1 := ⟨a.u, upd (upd a.guards g (some none)) d (some r)⟩) (by simp [AWorld.step, hd', hg', guardMove]) hn hr1
      refine ⟨?_, e3⟩
      rw [e1, run_one]
      exact e2
    | drop g =>
      obtain ⟨hg, hn⟩ := hn
      obtain ⟨r, hg'⟩ := Option.isSome_iff_exists.mp ((hr.exist g).mpr hg)
      simp only [guardsMeaning]
      have hex : ∀ g', (upd a.guards g none g').isSome ↔ g' ∈ names.filter (· ≠ g) := by
        intro g'
        by_cases e : g' = g
        · simp [upd, e]
        · simp [upd, e, hr.exist g']
      have hho : ∀ g' c', upd a.guards g none g' = some (some c') ↔ (g', c') ∈ held.filter (·.1 ≠ g) := by
        intro g' c'
        by_cases e : g' = g
        · simp [upd, e]
        · simp [upd, e, hr.holds g' c']
      have hsub : ((held.filter (·.1 ≠ g)).map (·.2)).Sublist (held.map (·.2)) := List.filter_sublist.map _
      have hap : ∀ c, c ∈ outer → c ∉ (held.filter (·.1 ≠ g)).map (·.2) := fun c h hh => hr.apart c h (hsub.mem hh)
      cases r with
      | none =>
        have hf := hr.filter_nil hg'
        have hall : held.filter (·.1 ≠ g) = held := by
          rw [List.filter_eq_self]
          intro p hp
          have := (List.filter_eq_nil_iff.mp hf) p hp
          simpa using this
        rw [hf]
        have hr1 : GuardRel ⟨a.u, upd a.guards g none⟩ outer (names.filter (· ≠ g)) (held.filter (·.1 ≠ g)) :=
          ⟨hex, hho, hr.nodup.sublist hsub, hap, by rw [hall]; exact hr.active⟩
        obtain ⟨e1, e2, e3⟩ := fin (x := .nothing) (a1 := ⟨a.u, upd a.guards g none⟩) (by simp [AWorld.step, hg', UWorld.guardEnd]) hn hr1
        refine ⟨?_, e3⟩
        rw [e1, run_one]
        exact e2
      | some c =>
        have hf := hr.filter_eq hg'
        have hin := (hr.holds g c).mp hg'
        have hca : a.u.IsActive c := (hr.active c).mpr (Or.inr (List.mem_map.mpr ⟨_, hin, rfl⟩))
        rw [hf]
        show _ = Option.map _ (a.u.run cfg (.deactivate c :: guardsMeaning outer (held.filter (·.1 ≠ g)) os)) ∧ _
        cases h : a.u.step cfg (.deactivate c) with
        | none =>
          have := stuck (by simp [AWorld.step, hg', guardEnd_active hca, h])
          rw [this, UWorld.run_cons, h]
          exact ⟨rfl, by intro xs a' h; cases h⟩
        | some p =>
          obtain ⟨x, v⟩ := p
          have hx : x = .nothing := (UWorld.step_deactivate h 0).1
          subst hx
          have hr1 : GuardRel ⟨v, upd a.guards g none⟩ outer (names.filter (· ≠ g)) (held.filter (·.1 ≠ g)) := by
            refine ⟨hex, hho, hr.nodup.sublist hsub, hap, ?_⟩
            intro c'
            rw [(UWorld.step_deactivate h c').2, hr.active c']
            constructor
            · rintro ⟨h1, h2 | h2⟩
              · exact Or.inl h2
              · right
                obtain ⟨⟨g2, c2⟩, h3, h4⟩ := List.mem_map.mp h2
                simp only at h4
                subst h4
                refine List.mem_map.mpr ⟨(g2, c2), List.mem_filter.mpr ⟨h3, ?_⟩, rfl⟩
                simp only [ne_eq, decide_not, Bool.not_eq_true', decide_eq_false_iff_not]
                rintro rfl
                have : (g2, c2) ∈ held.filter (·.1 = g2) := List.mem_filter.mpr ⟨h3, by simp⟩
                rw [hf] at this
                simp only [List.mem_singleton, Prod.mk.injEq, true_and] at this
                exact h1 this
            · intro h1
              refine ⟨?_, h1.imp_right fun h => hsub.mem h⟩
              rintro rfl
              rcases h1 with h1 | h1
              · exact hr.apart _ h1 (List.mem_map.mpr ⟨_, hin, rfl⟩)
              · obtain ⟨⟨g2, c2⟩, h3, h4⟩ := List.mem_map.mp h1
                simp only at h4
                subst h4
                obtain ⟨h5, h6⟩ := List.mem_filter.mp h3
                -- the context would be held twice
                have hne : g2 ≠ g := by simpa using h6
                exact hne (held_unique hr.nodup h5 hin)
          obtain ⟨e1, e2, e3⟩ := fin (x := .nothing) (a1 := ⟨v, upd a.guards g none⟩) (by simp [AWorld.step, hg', guardEnd_active hca, h]) hn hr1
          refine ⟨?_, e3⟩
          rw [e1, UWorld.run_cons, h]
          exact run_both e2


theorem GuardRel.start {u : UWorld} {outer : List Nat} (hu : ∀ c, u.IsActive c ↔ c ∈ outer) : GuardRel (.start u) outer [] [] :=
  ⟨by simp [AWorld.start], by simp [AWorld.start], by simp, by simp, by simpa [AWorld.start] using hu⟩

/-! ## The property -/

/-- **C76.** For all programs in which only guards activate and deactivate contexts, in which guards are moved and destroyed in any order, in any state: the program does exactly what guards are for (`guardsMeaning`): the
activation by a guard is undone when the guard that it was last moved to is destroyed, not before and not twice. In particular one is undefined behaviour if and only if the other is. -/
theorem C76_moved (cfg : Cfg) (os : List AOp) (hm : ∀ o ∈ os, o.manual = false) (hn : NamesOk [] os) (outer : List Nat) (u : UWorld) (hu : ∀ c, u.IsActive c ↔ c ∈ outer) :
    ((AWorld.start u).run cfg os).map (fun r => (visibleObs r.1, r.2.u)) = (u.run cfg (guardsMeaning outer [] os)).map (fun r => (visibleObs r.1, r.2)) :=
  (guards_run cfg outer os [] [] _ hm hn (.start hu)).1

/-- **C76, who is responsible.** At any time, a context is active if and only if it was active before there were guards, or there is a guard for it that is responsible; then there is exactly one. -/
theorem C76_responsible (cfg : Cfg) (os : List AOp) (hm : ∀ o ∈ os, o.manual = false) (hn : NamesOk [] os) (u : UWorld) (outer : List Nat) (hu : ∀ c, u.IsActive c ↔ c ∈ outer)
    {xs : List UObs} {a : AWorld} (h : (AWorld.start u).run cfg os = some (xs, a)) :
    (∀ c, a.u.IsActive c ↔ u.IsActive c ∨ ∃ g, a.guards g = some (some c)) ∧
    (∀ c g g', a.guards g = some (some c) → a.guards g' = some (some c) → g = g') ∧
    ∀ c g, a.guards g = some (some c) → ¬ u.IsActive c := by
  obtain ⟨names, held, hr⟩ := (guards_run cfg outer os [] [] _ hm hn (.start hu)).2 xs a h
  refine ⟨?_, ?_, ?_⟩
  · intro c
    rw [hr.active c, hu c]
    refine or_congr Iff.rfl ⟨?_, ?_⟩
    · intro h
      obtain ⟨⟨g, c'⟩, h1, h2⟩ := List.mem_map.mp h
      cases h2
      exact ⟨g, (hr.holds g c').mpr h1⟩
    · rintro ⟨g, h⟩
      exact List.mem_map.mpr ⟨_, (hr.holds g c).mp h, rfl⟩
  · intro c g g' h1 h2
    exact held_unique hr.nodup ((hr.holds g c).mp h1) ((hr.holds g' c).mp h2)
  · intro c g h1 h2
    exact hr.apart c ((hu c).mp h2) (List.mem_map.mpr ⟨_, (hr.holds g c).mp h1, rfl⟩)

/-- **C76, at the end.** When all guards are destroyed, exactly those contexts are active that were before. -/
theorem C76_end (cfg : Cfg) (os : List AOp) (hm : ∀ o ∈ os, o.manual = false) (hn : NamesOk [] os) (u : UWorld) (outer : List Nat) (hu : ∀ c, u.IsActive c ↔ c ∈ outer)
    {xs : List UObs} {a : AWorld} (h : (AWorld.start u).run cfg os = some (xs, a)) (he : ∀ g, a.guards g = none) (c : Nat) : a.u.IsActive c ↔ u.IsActive c := by
  rw [(C76_responsible cfg os hm hn u outer hu h).1 c]
  constructor
  · rintro (h | ⟨g, h⟩)
    · exact h
    · rw [he g] at h; cases h
  · exact Or.inl

/-- **C76, with the specification of contexts.** After any allowed history: if what a program with guards means is allowed (in particular the last context activated is the first one deactivated), the program runs without
undefined behaviour, and everything observed is what the specification says. -/
theorem C76_allowed (cfg : Cfg) (counter : Id) (ops : List UOp) {ys : List UObs} {s : SWorld} (h : (SWorld.initial counter).run cfg ops = some (ys, s))
    (os : List AOp) (hm : ∀ o ∈ os, o.manual = false) (hn : NamesOk [] os) {ys' : List UObs} {s' : SWorld} (hs : s.run cfg (guardsMeaning s.active [] os) = some (ys', s')) :
    ∃ u xs a, (UWorld.initial counter).run cfg ops = some (ys, u) ∧ (AWorld.start u).run cfg os = some (xs, a) ∧ visibleObs xs = visibleObs ys' ∧ absW a.u.w = s'.w := by
  obtain ⟨u, h1, r0⟩ := context_run_refines cfg ops (.initial counter) h
  obtain ⟨v, h2, r1⟩ := context_run_refines cfg _ r0 hs
  have h3 := C76_moved cfg os hm hn s.active u r0.matches_active
  rw [h2] at h3
  cases hr : (AWorld.start u).run cfg os with
  | none => rw [hr] at h3; cases h3
  | some r =>
    rw [hr] at h3
    simp only [Option.map_some, Option.some.injEq, Prod.mk.injEq] at h3
    exact ⟨u, r.1, r.2, h1, hr, h3.1, by rw [h3.2]; exact r1.w⟩

/-! ## What is not so -/

/-- What a program shows, started in a new thread. -/
def guardsShow (os : List AOp) : Option (List UObs) := ((AWorld.start (UWorld.initial 1#32)).run exCfg os).map fun r => visibleObs r.1

/-- Two contexts for the same type, each with a guard. -/
def twoGuards : List AOp := [.op (.create 1 [.obj 5]), .op (.create 2 [.obj 5]), .make 11 1, .make 12 2]

/-- **C76, the order matters.** Guards are destroyed in the order in which they were made. After the first one, context 2 is active but gets no objects. After the second one, no context is active; yet an error object is
stored in context 1; and if context 1 is destroyed, the thread still refers to its slot. -/
theorem C76_refuted_order :
    guardsShow (twoGuards ++ [.drop 11, .op (.run (reportObj 5 7)), .drop 12, .op (.look 2)]) = some [.out (.err (.plain 5#32)), .content [.obj 5 none]] ∧
    guardsShow (twoGuards ++ [.drop 11, .drop 12, .op (.run (reportObj 5 7)), .op (.look 1)]) = some [.out (.err (.plain 5#32)), .content [.obj 5 (some (5#32, 7))]] ∧
    guardsShow (twoGuards ++ [.drop 11, .drop 12, .op (.destroy 1)]) = none := by
  decide +kernel

/-- **C76, deactivated by hand.** A guard whose context was deactivated by hand and then activated by another guard ends the activation of the other guard: context 1 gets no objects though guard 12 exists. -/
theorem C76_refuted_stale :
    guardsShow [.op (.create 1 [.obj 5]), .make 11 1, .op (.deactivate 1), .make 12 1, .drop 11, .op (.run (reportObj 5 7)), .drop 12, .op (.look 1)] =
      some [.out (.err (.plain 5#32)), .content [.obj 5 none]] := by
  decide +kernel

/-! ## Examples -/

/-- The guard for context 1 is moved, twice; the ends of the guards that it was moved from do nothing: the error object is stored in context 1. -/
def exMovedGuard : List AOp :=
  twoGuards ++ [.move 13 11, .drop 11, .drop 12, .move 14 13, .drop 13, .op (.run (reportObj 5 7)), .drop 14, .op (.run (reportObj 5 8)), .op (.look 1), .op (.look 2), .op (.destroy 1), .op (.destroy 2)]

example : NamesOk [] exMovedGuard ∧ ∀ o ∈ exMovedGuard, o.manual = false := by
  refine ⟨by simp [exMovedGuard, twoGuards, NamesOk], by decide⟩

example : guardsMeaning [] [] exMovedGuard =
    [.create 1 [.obj 5], .create 2 [.obj 5], .activate 1, .activate 2, .deactivate 2, .run (reportObj 5 7), .deactivate 1, .run (reportObj 5 8), .look 1, .look 2, .destroy 1, .destroy 2] := by rfl

example : ((SWorld.initial 1#32).run exCfg (guardsMeaning (SWorld.initial 1#32).active [] exMovedGuard)).isSome := by decide +kernel

example : guardsShow exMovedGuard = some [.out (.err (.plain 5#32)), .out (.err (.plain 9#32)), .content [.obj 5 (some (5#32, 7))], .content [.obj 5 none]] := by decide +kernel

/-- A context that is active already: the second guard is not responsible, though the first one is moved and outlives it. -/
example : guardsShow [.op (.create 1 [.obj 5]), .make 11 1, .make 12 1, .move 13 11, .drop 11, .drop 12, .op (.run (reportObj 5 7)), .drop 13, .op (.look 1)] =
    some [.out (.err (.plain 5#32)), .content [.obj 5 (some (5#32, 7))]] := by decide +kernel

end Leaf
