import Verif.OptionalLemmas

/-!
# C08: the storage of error objects
-/

namespace Leaf

/-! ## Specification -/

/-- What the operations mean, for a collection of cells, each empty or containing a value tagged with an id. `none`: not allowed (creating a cell where one exists, using
one that does not, the id 0, taking a value that is not there). A cell assigned to itself becomes empty. -/
def OStates.step (dflt : Nat) (s : OStates) : OOp → Option OStates
  | .mk a => if s a = none then some (s.set a (some none)) else none
  | .mkLoaded a k v thr => if s a = none then (if thr then some s else if k = 0#32 then none else some (s.set a (some (some (k, v))))) else none
  | .copyCtor a b thr =>
    match s a, s b with
    | none, some none => some (s.set a (some none))
    | none, some (some x) => if thr then some s else some (s.set a (some (some x)))
    | _, _ => none
  | .moveCtor a b =>
    match s a, s b with
    | none, some x => some ((s.set b (some none)).set a (some x))
    | _, _ => none
  | .copyAssign a b thr =>
    match s a, s b with
    | some _, some x => if a = b ∨ thr then some (s.set a (some none)) else some (s.set a (some x))
    | _, _ => none
  | .moveAssign a b =>
    match s a, s b with
    | some _, some x => if a = b then some (s.set a (some none)) else some ((s.set b (some none)).set a (some x))
    | _, _ => none
  | .reset a => if s a = none then none else some (s.set a (some none))
  | .load a k v thr => if s a = none ∨ k = 0#32 then none else some (s.set a (some (if thr then none else some (k, v))))
  | .modify a k v =>
    if k = 0#32 then none
    else match s a with
    | none => none
    | some none => some s
    | some (some (k', _)) => if k' = k then some (s.set a (some (some (k, v)))) else some s
  | .take a k =>
    match s a with
    | some (some (k', _)) => if k' = k then some (s.set a (some none)) else none
    | _ => none
  | .valueOrDefault a k =>
    if k = 0#32 then none
    else match s a with
    | none => none
    | some none => some (s.set a (some (some (k, dflt))))
    | some (some (k', _)) => if k' = k then some s else some (s.set a (some (some (k, dflt))))
  | .drop a => if s a = none then none else some (s.set a none)

def OStates.run (dflt : Nat) (s : OStates) : List OOp → Option OStates
  | [] => some s
  | op :: ops => (s.step dflt op).bind (OStates.run dflt · ops)

/-! ## Proofs -/

theorem OPool.step_refines {mv : Nat → Nat} {dflt : Nat} {p : OPool} (h : p.Inv) {op : OOp} {s : OStates} (hs : p.states.step dflt op = some s) :
    ∃ p', p.step mv dflt op = some p' ∧ p'.Inv ∧ p'.states = s := by
  cases op with
  | mk a =>
    simp only [OStates.step, Option.ite_none_right_eq_some, Option.some.injEq] at hs
    obtain ⟨ha, rfl⟩ := hs
    exact OPool.alloc_inv h ha
  | mkLoaded a k v thr =>
    simp only [OStates.step, Option.ite_none_right_eq_some] at hs
    obtain ⟨ha, hs⟩ := hs
    simp only [OPool.step]
    cases thr with
    | true =>
      simp only [if_true, Option.some.injEq] at hs
      have hc := OPool.states_none.mp ha
      refine ⟨p, ?_, h, hs⟩
      simp [OPool.alloc, hc]
    | false =>
      simp only [Bool.false_eq_true, if_false, Option.ite_none_left_eq_some, Option.some.injEq] at hs
      obtain ⟨hk, rfl⟩ := hs
      obtain ⟨p1, p', e1, _, e2, e3, e4⟩ := OPool.alloc_construct h ha hk v
      refine ⟨p', ?_, e3, e4⟩
      simp [e1, e2, hk]
  | copyCtor a b thr =>
    simp only [OStates.step] at hs
    cases ha : p.states a with
    | some _ => simp [ha] at hs
    | none =>
      cases hb : p.states b with
      | none => simp [ha, hb] at hs
      | some x =>
        have hab : b ≠ a := by rintro rfl; rw [ha] at hb; simp at hb
        simp only [OPool.step, OPool.key_eq h hb]
        cases x with
        | none =>
          simp only [ha, hb, Option.some.injEq] at hs
          subst hs
          obtain ⟨p', e1, e2, e3⟩ := OPool.alloc_inv h ha
          exact ⟨p', by simp [e1], e2, e3⟩
        | some kv =>
          obtain ⟨k, v⟩ := kv
          obtain ⟨hk, o, hc⟩ := OPool.states_full h hb
          obtain ⟨p1, p', e1, e0, e2, e3, e4⟩ := OPool.alloc_construct h ha hk v
          have hr : p1.read b = some v := by simp [OPool.read, e0 b hab, hc]
          cases thr with
          | true =>
            simp only [ha, hb, if_true, Option.some.injEq] at hs
            exact ⟨p, by simp [e1, hk, hr], h, hs⟩
          | false =>
            simp only [ha, hb, Bool.false_eq_true, if_false, Option.some.injEq] at hs
            exact ⟨p', by simp [e1, hk, hr, e2], e3, by rw [e4, hs]⟩
  | moveCtor a b =>
    simp only [OStates.step] at hs
    cases ha : p.states a with
    | some _ => simp [ha] at hs
    | none =>
      cases hb : p.states b with
      | none => simp [ha, hb] at hs
      | some x =>
        have hab : b ≠ a := by rintro rfl; rw [ha] at hb; simp at hb
        simp only [ha, hb, Option.some.injEq] at hs
        subst hs
        simp only [OPool.step, OPool.key_eq h hb]
        cases x with
        | none =>
          obtain ⟨p', e1, e2, e3⟩ := OPool.alloc_inv h ha
          exact ⟨p', by simp [e1], e2, by rw [e3, OStates.set_self hb]⟩
        | some kv =>
          obtain ⟨k, v⟩ := kv
          obtain ⟨hk, o, hc⟩ := OPool.states_full h hb
          -- moving from `b` before or after allocating `a` is the same
          obtain ⟨q, f1, f2, f3⟩ := OPool.write_inv h hb (mv v)
          have hqa : q.states a = none := by rw [f3, OStates.set_ne _ _ hab.symm, ha]
          obtain ⟨q1, q2, g1, g0, g2, g3, g4⟩ := OPool.alloc_construct f2 hqa hk v
          have hsb : q2.states b = some (some (k, mv v)) := by rw [g4, OStates.set_ne _ _ hab, f3, OStates.set_get]
          obtain ⟨p', r1, r2, r3⟩ := OPool.reset_inv g3 hsb
          refine ⟨p', ?_, r2, ?_⟩
          · have hca := OPool.states_none.mp ha
            have e1 : p.alloc a k = some (p.put a (some ⟨k, none⟩)) := by simp [OPool.alloc, hca]
            have e2 : (p.put a (some ⟨k, none⟩)).read b = some v := by simp [OPool.read, OPool.put_ne _ _ hab, hc]
            have e3 : (p.put a (some ⟨k, none⟩)).write b (mv v) = some q1 := by
              have hq : q = p.put b (some ⟨k, some (o, mv v)⟩) := by simpa [OPool.write, hc] using f1.symm
              have hq1 : q1 = q.put a (some ⟨k, none⟩) := by
                have hcq := OPool.states_none.mp hqa
                simpa [OPool.alloc, hcq] using g1.symm
              rw [hq1, hq]
              simp only [OPool.write, OPool.put_ne _ _ hab, hc, Option.some.injEq]
              unfold OPool.put
              congr 1
              funext c
              by_cases h1 : c = a
              · by_cases h2 : c = b
                · exact absurd (h2.symm.trans h1) hab
                · simp [h1, hab.symm]
              · by_cases h2 : c = b <;> simp [h2, hab, h1]
            simp [e1, hk, e2, e3, g2, r1]
          · rw [r3, g4, f3, OStates.set_comm _ hab.symm, OStates.set_set]
  | copyAssign a b thr =>
    simp only [OStates.step] at hs
    cases ha : p.states a with
    | none => simp [ha] at hs
    | some y =>
      cases hb : p.states b with
      | none => simp [ha, hb] at hs
      | some x =>
        simp only [ha, hb] at hs
        obtain ⟨p1, e1, e2, e3⟩ := OPool.reset_inv h ha
        simp only [OPool.step, e1]
        by_cases hab : a = b
        · subst hab
          simp only [true_or, if_true, Option.some.injEq] at hs
          subst hs
          have hb1 : p1.states a = some none := by rw [e3, OStates.set_get]
          exact ⟨p1, by simp [OPool.key_eq e2 hb1], e2, e3⟩
        · have hb1 : p1.states b = some x := by rw [e3, OStates.set_ne _ _ (fun e => hab e.symm), hb]
          have ha1 : p1.states a = some none := by rw [e3, OStates.set_get]
          cases x with
          | none =>
            have hs' : s = p.states.set a (some none) := by
              split at hs <;> exact (Option.some.inj hs).symm
            subst hs'
            exact ⟨p1, by simp [OPool.key_eq e2 hb1], e2, e3⟩
          | some kv =>
            obtain ⟨k, v⟩ := kv
            obtain ⟨hk, o, hc⟩ := OPool.states_full e2 hb1
            obtain ⟨p2, f1, f2, f3⟩ := OPool.load_inv e2 ha1 hk v thr
            cases thr with
            | true =>
              simp only [or_true, if_true, Option.some.injEq] at hs
              subst hs
              exact ⟨p2, by simp [OPool.key_eq e2 hb1, hk, OPool.read_eq e2 hb1, f1], f2, by rw [f3, e3, OStates.set_set]; rfl⟩
            | false =>
              simp only [hab, Bool.false_eq_true, or_self, if_false, Option.some.injEq] at hs
              subst hs
              have ha2 : p2.states a = some (some (k, v)) := by rw [f3, OStates.set_get]; rfl
              obtain ⟨_, o2, hc2⟩ := OPool.states_full f2 ha2
              refine ⟨p2, ?_, f2, by rw [f3, e3, OStates.set_set]; rfl⟩
              have hset : p2.setKey a k = some p2 := by
                simp only [OPool.setKey, hc2, Option.some.injEq]
                unfold OPool.put
                obtain ⟨cs, fr, dd⟩ := p2
                congr 1
                funext c
                by_cases hca : c = a
                · subst hca
                  simp only at hc2
                  simp [hc2]
                · simp [hca]
              simp [OPool.key_eq e2 hb1, hk, OPool.read_eq e2 hb1, f1, hset]
  | moveAssign a b =>
    simp only [OStates.step] at hs
    cases ha : p.states a with
    | none => simp [ha] at hs
    | some y =>
      cases hb : p.states b with
      | none => simp [ha, hb] at hs
      | some x =>
        simp only [ha, hb] at hs
        obtain ⟨p1, e1, e2, e3⟩ := OPool.reset_inv h ha
        simp only [OPool.step, e1]
        by_cases hab : a = b
        · subst hab
          simp only [if_true, Option.some.injEq] at hs
          subst hs
          have hb1 : p1.states a = some none := by rw [e3, OStates.set_get]
          exact ⟨p1, by simp [OPool.key_eq e2 hb1], e2, e3⟩
        · have hba : b ≠ a := fun e => hab e.symm
          have hb1 : p1.states b = some x := by rw [e3, OStates.set_ne _ _ hba, hb]
          have ha1 : p1.states a = some none := by rw [e3, OStates.set_get]
          simp only [hab, if_false, Option.some.injEq] at hs
          subst hs
          cases x with
          | none => exact ⟨p1, by simp [OPool.key_eq e2 hb1], e2, by rw [e3, OStates.set_self hb]⟩
          | some kv =>
            obtain ⟨k, v⟩ := kv
            obtain ⟨hk, o, hc⟩ := OPool.states_full e2 hb1
            obtain ⟨p2, f1, f2, f3⟩ := OPool.write_inv e2 hb1 (mv v)
            have ha2 : p2.states a = some none := by rw [f3, OStates.set_ne _ _ hab, ha1]
            obtain ⟨p3, g1, g2, g3⟩ := OPool.load_inv f2 ha2 hk v false
            have hb3 : p3.states b = some (some (k, mv v)) := by rw [g3, OStates.set_ne _ _ hba, f3, OStates.set_get]
            obtain ⟨p4, r1, r2, r3⟩ := OPool.reset_inv g2 hb3
            refine ⟨p4, ?_, r2, ?_⟩
            · simp [OPool.key_eq e2 hb1, hk, OPool.read_eq e2 hb1, f1, g1, r1]
            · rw [r3, g3, f3, e3, OStates.set_comm _ hab, OStates.set_set, OStates.set_comm _ hba, OStates.set_set, OStates.set_comm _ hab]
              rfl
  | reset a =>
    simp only [OStates.step, Option.ite_none_left_eq_some, Option.some.injEq] at hs
    obtain ⟨ha, rfl⟩ := hs
    obtain ⟨x, hx⟩ := Option.ne_none_iff_exists'.mp ha
    exact OPool.reset_inv h hx
  | load a k v thr =>
    simp only [OStates.step, Option.ite_none_left_eq_some, Option.some.injEq, not_or] at hs
    obtain ⟨⟨ha, hk⟩, rfl⟩ := hs
    obtain ⟨x, hx⟩ := Option.ne_none_iff_exists'.mp ha
    exact OPool.load_inv h hx hk v thr
  | modify a k v =>
    simp only [OStates.step, Option.ite_none_left_eq_some] at hs
    obtain ⟨hk, hs⟩ := hs
    cases ha : p.states a with
    | none => simp [ha] at hs
    | some x =>
      simp only [OPool.step, OPool.hasValue_eq h ha hk]
      cases x with
      | none =>
        simp only [ha, Option.some.injEq] at hs
        exact ⟨p, rfl, h, hs⟩
      | some kv =>
        obtain ⟨k', v'⟩ := kv
        by_cases hkk : k' = k
        · subst hkk
          simp only [ha, if_true, Option.some.injEq] at hs
          subst hs
          obtain ⟨p', e1, e2, e3⟩ := OPool.write_inv h ha v
          exact ⟨p', by simp [e1], e2, e3⟩
        · simp only [ha, hkk, if_false, Option.some.injEq] at hs
          exact ⟨p, by simp [hkk], h, hs⟩
  | take a k =>
    simp only [OStates.step] at hs
    cases ha : p.states a with
    | none => simp [ha] at hs
    | some x =>
      cases x with
      | none => simp [ha] at hs
      | some kv =>
        obtain ⟨k', v'⟩ := kv
        simp only [ha, Option.ite_none_right_eq_some, Option.some.injEq] at hs
        obtain ⟨rfl, rfl⟩ := hs
        obtain ⟨hk, _⟩ := OPool.states_full h ha
        obtain ⟨p1, e1, e2, e3⟩ := OPool.write_inv h ha (mv v')
        obtain ⟨p2, f1, f2, f3⟩ := OPool.reset_inv e2 (a := a) (by rw [e3]; exact OStates.set_get ..)
        refine ⟨p2, ?_, f2, by rw [f3, e3, OStates.set_set]⟩
        simp only [OPool.step, OPool.hasValue_eq h ha hk]
        simp [e1, f1]
  | valueOrDefault a k =>
    simp only [OStates.step, Option.ite_none_left_eq_some] at hs
    obtain ⟨hk, hs⟩ := hs
    cases ha : p.states a with
    | none => simp [ha] at hs
    | some x =>
      simp only [OPool.step, OPool.hasValue_eq h ha hk]
      obtain ⟨p', e1, e2, e3⟩ := OPool.load_inv h ha hk dflt false
      cases x with
      | none =>
        simp only [ha, Option.some.injEq] at hs
        exact ⟨p', by simp [e1], e2, by rw [e3, ← hs]; rfl⟩
      | some kv =>
        obtain ⟨k', v'⟩ := kv
        by_cases hkk : k' = k
        · subst hkk
          simp only [ha, if_true, Option.some.injEq] at hs
          exact ⟨p, by simp, h, hs⟩
        · simp only [ha, hkk, if_false, Option.some.injEq] at hs
          exact ⟨p', by simp [hkk, e1], e2, by rw [e3, ← hs]; rfl⟩
  | drop a =>
    simp only [OStates.step, Option.ite_none_left_eq_some, Option.some.injEq] at hs
    obtain ⟨ha, rfl⟩ := hs
    obtain ⟨x, hx⟩ := Option.ne_none_iff_exists'.mp ha
    obtain ⟨p1, e1, e2, e3⟩ := OPool.reset_inv h hx
    have hc := OPool.states_empty e2 (a := a) (by rw [e3, OStates.set_get])
    refine ⟨p1.put a none, by simp [OPool.step, e1], ⟨?_, OPool.ok_put e2.ok (by simp)⟩, ?_⟩
    · exact e2.life.keep fun b => by
        rw [OPool.held_put]; split
        · rename_i hb; subst hb; simp [OPool.held, hc]
        · rfl
    · rw [OPool.put_states, e3, OStates.set_set]
      rfl

theorem OPool.run_refines {mv : Nat → Nat} {dflt : Nat} (ops : List OOp) {p : OPool} (h : p.Inv) {s : OStates} (hs : p.states.run dflt ops = some s) :
    ∃ p', p.run mv dflt ops = some p' ∧ p'.Inv ∧ p'.states = s := by
  induction ops generalizing p s with
  | nil =>
    simp only [OStates.run, Option.some.injEq] at hs
    exact ⟨p, rfl, h, hs⟩
  | cons op ops ih =>
    unfold OStates.run at hs
    cases h1 : p.states.step dflt op with
    | none => simp [h1] at hs
    | some s1 =>
      simp only [h1, Option.bind_some] at hs
      obtain ⟨p1, e1, e2, e3⟩ := step_refines h h1
      rw [← e3] at hs
      obtain ⟨p', f1, f2, f3⟩ := ih e2 hs
      refine ⟨p', ?_, f2, f3⟩
      unfold OPool.run
      rw [e1]
      exact f1

theorem OPool.reset_absent {p : OPool} {a : Nat} (ha : p.states a = none) : p.reset a = none := by
  simp [OPool.reset, OPool.states_none.mp ha]

theorem OPool.alloc_present {p : OPool} {a : Nat} {x} (ha : p.states a = some x) (k : Id) : p.alloc a k = none := by
  cases hc : p.cells a with
  | none => rw [OPool.states_none.mpr hc] at ha; simp at ha
  | some c => simp [OPool.alloc, hc]

theorem OPool.hasValue_absent {p : OPool} {a : Nat} (ha : p.states a = none) (k : Id) : p.hasValue a k = none := by
  simp [OPool.hasValue, OPool.states_none.mp ha]

theorem OPool.key_absent {p : OPool} {a : Nat} (ha : p.states a = none) : p.key a = none := by
  simp [OPool.key, OPool.states_none.mp ha]

theorem OPool.step_undefined {mv : Nat → Nat} {dflt : Nat} {p : OPool} (h : p.Inv) {op : OOp} (hs : p.states.step dflt op = none) :
    p.step mv dflt op = none := by
  cases op with
  | mk a =>
    cases ha : p.states a with
    | none => simp [OStates.step, ha] at hs
    | some x => exact OPool.alloc_present ha _
  | mkLoaded a k v thr =>
    simp only [OPool.step]
    cases ha : p.states a with
    | some x => simp [OPool.alloc_present ha]
    | none =>
      cases thr with
      | true => simp [OStates.step, ha] at hs
      | false =>
        have hk : k = 0#32 := by simpa [OStates.step, ha] using hs
        simp [hk]
  | copyCtor a b thr =>
    simp only [OPool.step]
    cases hb : p.states b with
    | none => simp [OPool.key_absent hb]
    | some y =>
      cases ha : p.states a with
      | some x => simp [OPool.alloc_present ha]
      | none =>
        cases y with
        | none => simp [OStates.step, ha, hb] at hs
        | some y => cases thr <;> simp [OStates.step, ha, hb] at hs
  | moveCtor a b =>
    simp only [OPool.step]
    cases hb : p.states b with
    | none => simp [OPool.key_absent hb]
    | some y =>
      cases ha : p.states a with
      | some x => simp [OPool.alloc_present ha]
      | none => simp [OStates.step, ha, hb] at hs
  | copyAssign a b thr =>
    simp only [OPool.step]
    cases ha : p.states a with
    | none => simp [OPool.reset_absent ha]
    | some x =>
      cases hb : p.states b with
      | some y => simp only [OStates.step, ha, hb] at hs; split at hs <;> simp at hs
      | none =>
        have hab : b ≠ a := by rintro rfl; simp [ha] at hb
        obtain ⟨p1, e1, _, e3⟩ := OPool.reset_inv h ha
        have : p1.states b = none := by rw [e3, OStates.set_ne _ _ hab, hb]
        simp [e1, OPool.key_absent this]
  | moveAssign a b =>
    simp only [OPool.step]
    cases ha : p.states a with
    | none => simp [OPool.reset_absent ha]
    | some x =>
      cases hb : p.states b with
      | some y => simp only [OStates.step, ha, hb] at hs; split at hs <;> simp at hs
      | none =>
        have hab : b ≠ a := by rintro rfl; simp [ha] at hb
        obtain ⟨p1, e1, _, e3⟩ := OPool.reset_inv h ha
        have : p1.states b = none := by rw [e3, OStates.set_ne _ _ hab, hb]
        simp [e1, OPool.key_absent this]
  | reset a =>
    cases ha : p.states a with
    | none => exact OPool.reset_absent ha
    | some x => simp [OStates.step, ha] at hs
  | load a k v thr =>
    simp only [OPool.step, OPool.load]
    by_cases hk : k = 0#32
    · simp [hk]
    · cases ha : p.states a with
      | none => simp [hk, OPool.reset_absent ha]
      | some x => simp [OStates.step, ha, hk] at hs
  | modify a k v =>
    simp only [OPool.step]
    by_cases hk : k = 0#32
    · simp [hk, OPool.hasValue]
    · cases ha : p.states a with
      | none => simp [OPool.hasValue_absent ha]
      | some x =>
        cases x with
        | none => simp [OStates.step, ha, hk] at hs
        | some x => simp only [OStates.step, ha, hk, if_false] at hs; split at hs <;> simp at hs
  | take a k =>
    simp only [OPool.step]
    by_cases hk : k = 0#32
    · simp [hk, OPool.hasValue]
    · cases ha : p.states a with
      | none => simp [OPool.hasValue_absent ha]
      | some x =>
        rw [OPool.hasValue_eq h ha hk]
        cases x with
        | none => rfl
        | some x =>
          have : x.1 ≠ k := by simpa [OStates.step, ha] using hs
          simp [this]
  | valueOrDefault a k =>
    simp only [OPool.step]
    by_cases hk : k = 0#32
    · simp [hk, OPool.hasValue]
    · cases ha : p.states a with
      | none => simp [OPool.hasValue_absent ha]
      | some x =>
        cases x with
        | none => simp [OStates.step, ha, hk] at hs
        | some x => simp only [OStates.step, ha, hk, if_false] at hs; split at hs <;> simp at hs
  | drop a =>
    cases ha : p.states a with
    | none => simp [OPool.step, OPool.reset_absent ha]
    | some x => simp [OStates.step, ha] at hs

/-! ## The properties -/

/-- **C08: content and lookups.** Any sequence of allowed operations on any number of cells runs without undefined behaviour; afterwards a lookup with a valid id finds
a value exactly if the cell contains it under this id, according to the meaning of the operations. -/
theorem C08_lookup (mv : Nat → Nat) (dflt : Nat) (ops : List OOp) {s : OStates} (hs : OStates.run dflt (fun _ => none) ops = some s) :
    ∃ p, OPool.empty.run mv dflt ops = some p ∧ (∀ a, p.cells a = none ↔ s a = none) ∧
      (∀ a, s a = some none → p.hasValueAnyKey a = some none ∧ ∀ k, k ≠ 0#32 → p.hasValue a k = some none) ∧
      (∀ a k v, s a = some (some (k, v)) → k ≠ 0#32 ∧ p.hasValueAnyKey a = some (some v) ∧ p.hasValue a k = some (some v) ∧
        ∀ k', k' ≠ 0#32 → k' ≠ k → p.hasValue a k' = some none) := by
  obtain ⟨p, h1, h2, h3⟩ := OPool.run_refines ops OPool.empty_inv hs
  refine ⟨p, h1, fun a => by rw [← h3, OPool.states_none], fun a ha => ?_, fun a k v ha => ?_⟩
  · rw [← h3] at ha
    have hc := OPool.states_empty h2 ha
    exact ⟨by simp [OPool.hasValueAnyKey, hc], fun k hk => by rw [OPool.hasValue_eq h2 ha hk]⟩
  · rw [← h3] at ha
    obtain ⟨hk, o, hc⟩ := OPool.states_full h2 ha
    refine ⟨hk, by simp [OPool.hasValueAnyKey, hc, OPool.read, hk], by rw [OPool.hasValue_eq h2 ha hk]; simp, fun k' hk' hne => ?_⟩
    rw [OPool.hasValue_eq h2 ha hk']
    simp [Ne.symm hne]

/-- **C08: lifetimes.** After any sequence of allowed operations, an object constructed in a cell was either destroyed exactly once and is in no cell, or was
not destroyed and is in exactly one. -/
theorem C08_lifetimes (mv : Nat → Nat) (dflt : Nat) (ops : List OOp) {s : OStates} (hs : OStates.run dflt (fun _ => none) ops = some s) :
    ∃ p, OPool.empty.run mv dflt ops = some p ∧ (∀ i ∈ p.dead, i < p.fresh) ∧
      ∀ i < p.fresh, (p.dead.count i = 1 ∧ ∀ a, p.held a ≠ some i) ∨ (p.dead.count i = 0 ∧ ∃ a, p.held a = some i ∧ ∀ b, p.held b = some i → b = a) := by
  obtain ⟨p, h1, h2, h3⟩ := OPool.run_refines ops OPool.empty_inv hs
  exact ⟨p, h1, h2.life.deadLt, fun i hi => h2.life.alive_or_dead hi⟩

/-- **C08: no leak.** When every cell is empty or gone, every object constructed was destroyed exactly once. -/
theorem C08_exactly_once (mv : Nat → Nat) (dflt : Nat) (ops : List OOp) {s : OStates} (hs : OStates.run dflt (fun _ => none) ops = some s)
    (he : ∀ a, s a = none ∨ s a = some none) : ∃ p, OPool.empty.run mv dflt ops = some p ∧ ∀ i < p.fresh, p.dead.count i = 1 := by
  obtain ⟨p, h1, h2, h3⟩ := OPool.run_refines ops OPool.empty_inv hs
  refine ⟨p, h1, fun i hi => h2.life.all_dead (fun a => ?_) hi⟩
  rcases he a with ha | ha <;> rw [← h3] at ha
  · simp [OPool.held, OPool.states_none.mp ha]
  · simp [OPool.held, OPool.states_empty h2 ha]

/-- The operation does not concern cell `a`, except for looking at it or copying from it. -/
def OOp.Leaves (a : Nat) : OOp → Prop
  | .mk b | .mkLoaded b _ _ _ | .reset b | .load b _ _ _ | .modify b _ _ | .take b _ | .valueOrDefault b _ | .drop b | .copyCtor b _ _ | .copyAssign b _ _ => b ≠ a
  | .moveCtor b c | .moveAssign b c => b ≠ a ∧ c ≠ a

theorem OStates.step_leaves {dflt : Nat} {s s' : OStates} {op : OOp} {a : Nat} (h : op.Leaves a) (hs : s.step dflt op = some s') : s' a = s a := by
  have key : ∀ b, b ≠ a → ∀ x, s.set b x a = s a := fun b hb x => OStates.set_ne _ _ (Ne.symm hb)
  have key2 : ∀ b c, b ≠ a → c ≠ a → ∀ x y, (s.set c y).set b x a = s a := fun b c hb hc x y => by
    rw [OStates.set_ne _ _ (Ne.symm hb), OStates.set_ne _ _ (Ne.symm hc)]
  cases op <;> simp only [OStates.step] at hs
  case moveCtor b c =>
    split at hs
    · cases hs; exact key2 b c h.1 h.2 _ _
    · simp at hs
  case moveAssign b c =>
    split at hs
    · split at hs
      · cases hs; exact key b h.1 _
      · cases hs; exact key2 b c h.1 h.2 _ _
    · simp at hs
  all_goals
    repeat' split at hs
    all_goals
      first
      | (simp at hs; done)
      | (cases hs; first | rfl | exact key _ h _)

/-- **C08: the last object loaded.** Whatever happened before, and whatever operations on other cells (including copies of this one) follow, a lookup finds the object
loaded last, under the id it was loaded for. -/
theorem C08_last_loaded (mv : Nat → Nat) (dflt : Nat) {pre ops : List OOp} {a v : Nat} {k : Id} {s : OStates}
    (hs : OStates.run dflt (fun _ => none) (pre ++ .load a k v false :: ops) = some s) (hl : ∀ op ∈ ops, op.Leaves a) :
    ∃ p, OPool.empty.run mv dflt (pre ++ .load a k v false :: ops) = some p ∧ p.hasValue a k = some (some v) ∧
      ∀ k', k' ≠ 0#32 → k' ≠ k → p.hasValue a k' = some none := by
  obtain ⟨p, h1, _, _, h4⟩ := C08_lookup mv dflt _ hs
  have cons : ∀ {s s' : OStates} {op ops}, s.run dflt (op :: ops) = some s' → ∃ s1, s.step dflt op = some s1 ∧ s1.run dflt ops = some s' := by
    intro s s' op ops h
    unfold OStates.run at h
    cases h1 : s.step dflt op with
    | none => simp [h1] at h
    | some s1 => exact ⟨s1, rfl, by simpa [h1] using h⟩
  have app : ∀ (pre : List OOp) {s s' : OStates} {ops}, s.run dflt (pre ++ ops) = some s' → ∃ s1 : OStates, s1.run dflt ops = some s' := by
    intro pre
    induction pre with
    | nil => intro s s' ops h; exact ⟨s, h⟩
    | cons op pre ih =>
      intro s s' ops h
      obtain ⟨s1, _, h2⟩ := cons h
      exact ih h2
  obtain ⟨s0, hs0⟩ := app pre hs
  obtain ⟨s1, e1, e2⟩ := cons hs0
  have hv : s1 a = some (some (k, v)) := by
    simp only [OStates.step, Option.ite_none_left_eq_some, Option.some.injEq] at e1
    rw [← e1.2, OStates.set_get]
    rfl
  have fin : s a = some (some (k, v)) := by
    clear hs hs0 e1 h1 h4
    induction ops generalizing s1 with
    | nil =>
      simp only [OStates.run, Option.some.injEq] at e2
      rw [← e2, hv]
    | cons op ops ih =>
      obtain ⟨s2, f1, f2⟩ := cons e2
      exact ih (fun op ho => hl op (List.mem_cons_of_mem _ ho)) s2 f2 (by rw [OStates.step_leaves (hl op (List.mem_cons_self ..)) f1, hv])
  obtain ⟨_, _, h5, h6⟩ := h4 a k v fin
  exact ⟨p, h1, h5, h6⟩

/-! ## The hypotheses can be met -/

def exOOps : List OOp := [.mk 0, .load 0 5#32 7 false, .mk 1, .mkLoaded 2 9#32 3 false, .load 0 13#32 8 false, .copyCtor 3 0 false, .moveAssign 1 2, .modify 3 13#32 20,
  .load 2 5#32 1 true, .take 1 9#32, .copyAssign 1 0 false]

example : ∃ s, OStates.run 0 (fun _ => none) exOOps = some s ∧ s 0 = some (some (13#32, 8)) ∧ s 1 = some (some (13#32, 8)) ∧ s 2 = some none ∧
    s 3 = some (some (13#32, 20)) := ⟨_, rfl, by decide, by decide, by decide, by decide⟩

example : ∀ op ∈ exOOps.drop 5, op.Leaves 0 := by
  simp [exOOps, OOp.Leaves]

example : ∃ s, OStates.run 0 (fun _ => none) (exOOps ++ [.drop 0, .reset 1, .drop 3]) = some s ∧ ∀ a, a < 4 → s a = none ∨ s a = some none :=
  ⟨_, rfl, by decide⟩

/-- **C08: nothing else is allowed.** Any other sequence has undefined behaviour (or violates an assertion): the conditions above are not stronger than needed. -/
theorem C08_misuse (mv : Nat → Nat) (dflt : Nat) (ops : List OOp) (hs : OStates.run dflt (fun _ => none) ops = none) :
    OPool.empty.run mv dflt ops = none := by
  suffices ∀ (ops : List OOp) (p : OPool), p.Inv → p.states.run dflt ops = none → p.run mv dflt ops = none from
    this ops _ OPool.empty_inv hs
  intro ops
  induction ops with
  | nil => intro p _ h; simp [OStates.run] at h
  | cons op ops ih =>
    intro p h hs
    unfold OStates.run at hs
    unfold OPool.run
    cases h1 : p.states.step dflt op with
    | none => rw [OPool.step_undefined h h1]; rfl
    | some s1 =>
      obtain ⟨p1, e1, e2, e3⟩ := OPool.step_refines (mv := mv) h h1
      rw [e1]
      rw [h1, ← e3] at hs
      exact ih p1 e2 hs

/-- A value is given the id 0. -/
example : OStates.run 0 (fun _ => none) [.mk 0, .mkLoaded 1 0#32 7 false] = none := by decide

end Leaf
