import Verif.ResultLemmas

/-!
# C06, C07 (and parts of C02, C40): `result<T>`
-/

namespace Leaf

/-! ## Specification -/

/-- What a result is, for its user. -/
inductive RState
  | value (v : Nat)
  | error (id : Id)
  | captured (id : Id) (l : List Nat)
  deriving DecidableEq, Repr

/-- The state of a result in memory. -/
def RObj.state (r : RObj) : RState :=
  match r.u with
  | .stored _ v => .value v
  | .cap _ l => .captured (makeErrorId r.what) l
  | .raw => .error r.what

/-- The result moved to, when a result in this state is moved; `conv` converts the value. -/
def RState.moveTo (conv : Nat → Nat) : RState → RState
  | .value v => .value (conv v)
  | s => s

/-- The result moved from: an error keeps its id, captured objects are gone, a value is what its move constructor makes of it. -/
def RState.movedFrom (mv : Nat → Nat) : RState → RState
  | .value v => .value (mv v)
  | .error id => .error id
  | .captured id _ => .captured id []

/-- The result initialised by `r.error()`. (Of a result with a value: an error with the empty id.) -/
def RState.forward : RState → RState
  | .value _ => .error 0#32
  | .error id => .error (makeErrorId id)
  | .captured id l => .captured id l

/-- The result after `result<U> x(r.error())`. -/
def RState.forwardedFrom : RState → RState
  | .captured id _ => .captured id []
  | s => s

/-- Results by address. -/
abbrev RStates := Nat → Option RState

def RStates.set (s : RStates) (a : Nat) (x : Option RState) : RStates := fun b => if b = a then x else s b

/-- What the operations mean; `none`: not allowed (creating an object where one exists, using one that does not, an invalid id, self move assignment). -/
def RStates.step (mv : Nat → Nat) (s : RStates) : ROp → Option RStates
  | .mkVal a v => if s a = none then some (s.set a (some (.value v))) else none
  | .mkErr a id => if s a = none ∧ (id = 0#32 ∨ id.Tagged) then some (s.set a (some (.error id))) else none
  | .mkCap a id l => if s a = none ∧ id.Tagged then some (s.set a (some (.captured id l))) else none
  | .moveCtor a b conv =>
    match s a, s b with
    | none, some x => some ((s.set b (some (x.movedFrom mv))).set a (some (x.moveTo conv)))
    | _, _ => none
  | .moveAssign a b conv =>
    match s a, s b with
    | some _, some x => if a = b then none else some ((s.set b (some (x.movedFrom mv))).set a (some (x.moveTo conv)))
    | _, _ => none
  | .forward a b =>
    match s a, s b with
    | none, some x => some ((s.set b (some x.forwardedFrom)).set a (some x.forward))
    | _, _ => none
  | .take a =>
    match s a with
    | some (.value v) => some (s.set a (some (.value (mv v))))
    | _ => none
  | .unload a =>
    match s a with
    | some (.captured id _) => some (s.set a (some (.captured id [])))
    | some _ => some s
    | none => none
  | .drop a => if s a = none then none else some (s.set a none)

def RStates.run (mv : Nat → Nat) (s : RStates) : List ROp → Option RStates
  | [] => some s
  | op :: ops => (s.step mv op).bind (RStates.run mv · ops)

theorem RStates.run_cons {mv : Nat → Nat} {s s' : RStates} {op : ROp} {ops : List ROp} (h : s.run mv (op :: ops) = some s') :
    ∃ s1, s.step mv op = some s1 ∧ s1.run mv ops = some s' := by
  unfold RStates.run at h
  cases h1 : s.step mv op with
  | none => simp [h1] at h
  | some s1 => exact ⟨s1, rfl, by simpa [h1] using h⟩

/-- The states of all results in memory. -/
def RPool.states (p : RPool) : RStates := fun a => (p.objs a).map RObj.state

/-! ## Proofs -/

theorem states_put (p : RPool) (a : Nat) (x : Option RObj) : (p.put a x).states = p.states.set a (x.map RObj.state) := by
  funext b
  unfold RPool.states RPool.put RStates.set
  by_cases h : b = a <;> simp [h]

theorem RStates.set_set (s : RStates) (a : Nat) (x y : Option RState) : (s.set a x).set a y = s.set a y := by
  funext b
  unfold RStates.set
  by_cases h : b = a <;> simp [h]

theorem RStates.set_self (s : RStates) (a : Nat) {x : Option RState} (h : s a = x) : s.set a x = s := by
  funext b
  unfold RStates.set
  split
  · rename_i hb; rw [hb, h]
  · rfl

theorem put_put (p : RPool) (a : Nat) (x y : Option RObj) : (p.put a x).put a y = p.put a y := by
  unfold RPool.put
  congr 1
  funext b
  by_cases h : b = a <;> simp [h]

theorem put_objs_self (p : RPool) (a : Nat) (x : Option RObj) : (p.put a x).objs a = x := by simp [RPool.put]
theorem put_objs_ne (p : RPool) {a b : Nat} (x : Option RObj) (h : b ≠ a) : (p.put a x).objs b = p.objs b := by simp [RPool.put, h]

theorem ok_put {p : RPool} (h : ∀ a r, p.objs a = some r → r.Ok) {a : Nat} {x : Option RObj} (hx : ∀ r, x = some r → r.Ok) :
    ∀ b r, (p.put a x).objs b = some r → r.Ok := by
  intro b r hb
  by_cases hba : b = a
  · subst hba
    rw [put_objs_self] at hb
    exact hx r hb
  · rw [put_objs_ne _ _ hba] at hb
    exact h b r hb

theorem ok_stored {r : RObj} (h : r.Ok) (hk : kind r.what = 3#32) : r.what = 3#32 ∧ ∃ o v, r.u = .stored o v := by
  rcases h with h | ⟨h1, _⟩ | ⟨h1 | h1, _⟩
  · exact h
  · rw [hk] at h1; exact absurd h1 (by decide)
  · rw [h1, kind_zero] at hk; exact absurd hk (by decide)
  · rw [kind_tagged h1] at hk; exact absurd hk (by decide)

theorem ok_cap {r : RObj} (h : r.Ok) (hk : kind r.what = 2#32) : ∃ o l, r.u = .cap o l := by
  rcases h with ⟨h1, _⟩ | ⟨_, h1⟩ | ⟨h1 | h1, _⟩
  · rw [h1] at hk; exact absurd hk (by decide)
  · exact h1
  · rw [h1, kind_zero] at hk; exact absurd hk (by decide)
  · rw [kind_tagged h1] at hk; exact absurd hk (by decide)

theorem ok_raw {r : RObj} (h : r.Ok) (hk3 : kind r.what ≠ 3#32) (hk2 : kind r.what ≠ 2#32) : (r.what = 0#32 ∨ r.what.Tagged) ∧ r.u = .raw := by
  rcases h with ⟨h1, _⟩ | ⟨h1, _⟩ | h
  · rw [h1] at hk3; exact absurd rfl hk3
  · exact absurd h1 hk2
  · exact h

/-- Destroying the member, if any. -/
theorem destroy_eq {p : RPool} (h : p.Inv) {a : Nat} {r : RObj} (ha : p.objs a = some r) :
    ∃ p', p.destroy a = some p' ∧ p'.Life ∧ p'.objs = (p.put a (some { r with u := .raw })).objs := by
  have hok := h.ok a r ha
  unfold RPool.destroy
  simp only [ha]
  by_cases h3 : kind r.what = 3#32
  · obtain ⟨_, o, v, hu⟩ := ok_stored hok h3
    rw [if_pos h3, hu]
    exact ⟨_, rfl, life_kill h.life (a := a) (by simp [RPool.held, ha, hu, UMem.obj]) rfl, rfl⟩
  · rw [if_neg h3]
    by_cases h2 : kind r.what = 2#32
    · obtain ⟨o, l, hu⟩ := ok_cap hok h2
      rw [if_pos h2, hu]
      exact ⟨_, rfl, life_kill h.life (a := a) (by simp [RPool.held, ha, hu, UMem.obj]) rfl, rfl⟩
    · rw [if_neg h2]
      obtain ⟨_, hu⟩ := ok_raw hok h3 h2
      refine ⟨p, rfl, h.life, ?_⟩
      funext b
      by_cases hb : b = a
      · subst hb
        rw [put_objs_self, ha, ← hu]
      · rw [put_objs_ne _ _ hb]

/-- Moving into an object with nothing alive in its union, and setting the discriminant. -/
theorem moveFrom_eq (mv conv : Nat → Nat) {p : RPool} (hl : p.Life) {a b : Nat} (hab : a ≠ b) {r x : RObj} (ha : p.objs a = some r) (hr : r.u = .raw)
    (hb : p.objs b = some x) (hx : x.Ok) :
    ∃ p1 what p' y z, p.moveFrom mv conv a b = some (p1, what) ∧ p1.setWhat a what = some p' ∧ p'.Life ∧
      p'.objs = ((p.put b (some y)).put a (some z)).objs ∧ y.Ok ∧ z.Ok ∧ y.state = x.state.movedFrom mv ∧ z.state = x.state.moveTo conv := by
  have hba : b ≠ a := fun h => hab h.symm
  unfold RPool.moveFrom
  simp only [hb]
  by_cases h3 : kind x.what = 3#32
  · obtain ⟨hw, o, v, hu⟩ := ok_stored hx h3
    rw [if_pos h3, hu]
    simp only [put_objs_ne _ _ hab, ha]
    have l1 : (p.put b (some { x with u := .stored o (mv v) })).Life := life_put hl (by simp [RPool.held, hb, hu, UMem.obj])
    have l2 := life_construct l1 (a := a) (x := some { r with u := .stored p.fresh (conv v) }) (by rw [held_put, if_neg hab]; simp [RPool.held, ha, hr, UMem.obj]) rfl
    refine ⟨_, _, RPool.put { (p.put b (some { x with u := .stored o (mv v) })).put a (some { r with u := .stored p.fresh (conv v) }) with fresh := p.fresh + 1 } a (some ⟨x.what, .stored p.fresh (conv v)⟩), { x with u := .stored o (mv v) }, ⟨x.what, .stored p.fresh (conv v)⟩, rfl,
        ?_, ?_, ?_, ?_, ?_, ?_, ?_⟩
    · unfold RPool.setWhat
      simp only [RPool.put, if_true]
    · exact life_put l2 (by simp [RPool.held, RPool.put, UMem.obj])
    · funext c
      by_cases hc : c = a
      · subst hc; simp [RPool.put]
      · simp [RPool.put, hc]
    · exact Or.inl ⟨hw, o, _, rfl⟩
    · exact Or.inl ⟨hw, _, _, rfl⟩
    · simp [RObj.state, hu, RState.movedFrom]
    · simp [RObj.state, hu, RState.moveTo]
  · rw [if_neg h3]
    by_cases h2 : kind x.what = 2#32
    · obtain ⟨o, l, hu⟩ := ok_cap hx h2
      rw [if_pos h2, hu]
      simp only [put_objs_ne _ _ hab, ha]
      have l1 : (p.put b (some { x with u := .cap o [] })).Life := life_put hl (by simp [RPool.held, hb, hu, UMem.obj])
      have l2 := life_construct l1 (a := a) (x := some { r with u := .cap p.fresh l }) (by rw [held_put, if_neg hab]; simp [RPool.held, ha, hr, UMem.obj]) rfl
      refine ⟨_, _, RPool.put { (p.put b (some { x with u := .cap o [] })).put a (some { r with u := .cap p.fresh l }) with fresh := p.fresh + 1 } a (some ⟨x.what, .cap p.fresh l⟩), { x with u := .cap o [] }, ⟨x.what, .cap p.fresh l⟩, rfl,
        ?_, ?_, ?_, ?_, ?_, ?_, ?_⟩
      · unfold RPool.setWhat
        simp only [RPool.put, if_true]
      · exact life_put l2 (by simp [RPool.held, RPool.put, UMem.obj])
      · funext c
        by_cases hc : c = a
        · subst hc; simp [RPool.put]
        · simp [RPool.put, hc]
      · exact Or.inr (Or.inl ⟨h2, o, _, rfl⟩)
      · exact Or.inr (Or.inl ⟨h2, _, _, rfl⟩)
      · simp [RObj.state, hu, RState.movedFrom]
      · simp [RObj.state, hu, RState.moveTo]
    · rw [if_neg h2]
      obtain ⟨hw, hu⟩ := ok_raw hx h3 h2
      refine ⟨_, _, p.put a (some { r with what := x.what }), x, ⟨x.what, .raw⟩, rfl, ?_, ?_, ?_, hx, ?_, ?_, ?_⟩
      · unfold RPool.setWhat
        simp only [ha]
      · exact life_put hl (by simp [RPool.held, ha])
      · funext c
        by_cases hc : c = a
        · subst hc; simp [RPool.put, ← hr]
        · by_cases hcb : c = b
          · subst hcb; simp [RPool.put, hc, hb]
          · simp [RPool.put, hc, hcb]
      · exact Or.inr (Or.inr ⟨hw, rfl⟩)
      · simp [RObj.state, hu, RState.movedFrom]
      · simp [RObj.state, hu, RState.moveTo]

theorem states_none {p : RPool} {a : Nat} : p.states a = none ↔ p.objs a = none := by simp [RPool.states]
theorem states_some {p : RPool} {a : Nat} {s : RState} (h : p.states a = some s) : ∃ r, p.objs a = some r ∧ r.state = s := by
  simpa [RPool.states] using h

theorem inv_of {p p' : RPool} (hl : p'.Life) {a : Nat} {x : Option RObj} (h : ∀ a r, p.objs a = some r → r.Ok) (hx : ∀ r, x = some r → r.Ok)
    (ho : p'.objs = (p.put a x).objs) : p'.Inv := by
  refine ⟨hl, fun b r hb => ?_⟩
  rw [ho] at hb
  exact ok_put h hx b r hb

theorem states_of {p p' : RPool} {a : Nat} {x : Option RObj} (ho : p'.objs = (p.put a x).objs) : p'.states = p.states.set a (x.map RObj.state) := by
  rw [← states_put]
  unfold RPool.states
  rw [ho]

theorem state_kind {r : RObj} (h : r.Ok) :
    (∀ v, r.state = .value v → kind r.what = 3#32 ∧ ∃ o, r.u = .stored o v) ∧
    (∀ id, r.state = .error id → kind r.what ≠ 3#32 ∧ kind r.what ≠ 2#32 ∧ r.what = id ∧ (id = 0#32 ∨ id.Tagged) ∧ r.u = .raw) ∧
    (∀ id l, r.state = .captured id l → kind r.what = 2#32 ∧ makeErrorId r.what = id ∧ ∃ o, r.u = .cap o l) := by
  rcases h with ⟨h1, o, v, hu⟩ | ⟨h1, o, l, hu⟩ | ⟨h1, hu⟩
  · simp only [RObj.state, hu]
    refine ⟨?_, by simp, by simp⟩
    intro v' hv
    cases hv
    exact ⟨by rw [h1]; decide, o, rfl⟩
  · simp only [RObj.state, hu]
    refine ⟨by simp, by simp, ?_⟩
    intro id l' hv
    cases hv
    exact ⟨h1, rfl, o, rfl⟩
  · simp only [RObj.state, hu]
    refine ⟨by simp, ?_, by simp⟩
    intro id hv
    cases hv
    refine ⟨?_, ?_, rfl, h1, trivial⟩
    all_goals
      rcases h1 with h1 | h1
      · rw [h1]; decide
      · rw [kind_tagged h1]; decide

theorem set_get (s : RStates) (a : Nat) (x : Option RState) : s.set a x a = x := by simp [RStates.set]

theorem alloc_eq {p : RPool} {a : Nat} (h : p.objs a = none) : p.alloc a = some (p.put a (some ⟨0#32, .raw⟩)) := by
  unfold RPool.alloc
  rw [h]

theorem step_refines {mv : Nat → Nat} {p : RPool} (h : p.Inv) {op : ROp} {s : RStates} (hs : p.states.step mv op = some s) :
    ∃ p', p.step mv op = some p' ∧ p'.Inv ∧ p'.states = s := by
  have rawNone : ∀ a, p.objs a = none → p.held a = none := fun a ha => by simp [RPool.held, ha]
  cases op with
  | mkVal a v =>
    simp only [RStates.step, states_none, Option.ite_none_right_eq_some, Option.some.injEq] at hs
    obtain ⟨ha, rfl⟩ := hs
    refine ⟨_, by simp only [RPool.step, alloc_eq ha]; rfl, ?_⟩
    have l1 : (p.put a (some ⟨0#32, .raw⟩)).Life := life_put h.life (by simp [rawNone a ha, UMem.obj])
    have l2 := life_construct l1 (a := a) (x := some ⟨whatVal, .stored p.fresh v⟩) (by rw [held_put]; simp [UMem.obj]) rfl
    have ho : (RPool.construct (p.put a (some ⟨0#32, .raw⟩)) a (.stored · v) whatVal).objs = (p.put a (some ⟨whatVal, .stored p.fresh v⟩)).objs := by
      unfold RPool.construct
      rw [put_put]
      rfl
    exact ⟨inv_of l2 h.ok (by rintro r ⟨rfl⟩; exact Or.inl ⟨rfl, _, _, rfl⟩) ho, states_of ho⟩
  | mkErr a id =>
    simp only [RStates.step, states_none, Option.ite_none_right_eq_some, Option.some.injEq] at hs
    obtain ⟨⟨ha, hid⟩, rfl⟩ := hs
    have ho : ((p.put a (some ⟨0#32, .raw⟩)).put a (some ⟨id, .raw⟩)).objs = (p.put a (some ⟨id, .raw⟩)).objs := by rw [put_put]
    refine ⟨(p.put a (some ⟨0#32, .raw⟩)).put a (some ⟨id, .raw⟩), ?_, ?_, ?_⟩
    · simp only [RPool.step, alloc_eq ha, whatErr, if_pos hid]
      show RPool.setWhat _ _ _ = _
      unfold RPool.setWhat
      rw [put_objs_self]
    · have l1 : (p.put a (some ⟨0#32, .raw⟩)).Life := life_put h.life (by simp [rawNone a ha, UMem.obj])
      exact inv_of (life_put l1 (by rw [held_put]; simp [UMem.obj])) h.ok (by rintro r ⟨rfl⟩; exact Or.inr (Or.inr ⟨hid, rfl⟩)) ho
    · exact states_of ho
  | mkCap a id l =>
    simp only [RStates.step, states_none, Option.ite_none_right_eq_some, Option.some.injEq] at hs
    obtain ⟨⟨ha, hid⟩, rfl⟩ := hs
    refine ⟨_, by simp only [RPool.step, alloc_eq ha, whatCap, if_pos hid]; rfl, ?_⟩
    have l1 : (p.put a (some ⟨0#32, .raw⟩)).Life := life_put h.life (by simp [rawNone a ha, UMem.obj])
    have l2 := life_construct l1 (a := a) (x := some ⟨(id &&& ~~~3#32) ||| 2#32, .cap p.fresh l⟩) (by rw [held_put]; simp [UMem.obj]) rfl
    have ho : (RPool.construct (p.put a (some ⟨0#32, .raw⟩)) a (.cap · l) ((id &&& ~~~3#32) ||| 2#32)).objs =
        (p.put a (some ⟨(id &&& ~~~3#32) ||| 2#32, .cap p.fresh l⟩)).objs := by
      unfold RPool.construct
      rw [put_put]
      rfl
    refine ⟨inv_of l2 h.ok (by rintro r ⟨rfl⟩; exact Or.inr (Or.inl ⟨kind_cap id, _, _, rfl⟩)) ho, ?_⟩
    rw [states_of ho]
    congr 2
    show some (RState.captured (makeErrorId _) l) = _
    rw [← errorId_double, errorId_cap hid]
  | moveCtor a b conv =>
    simp only [RStates.step] at hs
    cases ha : p.states a with
    | some _ => simp [ha] at hs
    | none =>
      cases hb : p.states b with
      | none => simp [ha, hb] at hs
      | some xs =>
        simp only [ha, hb, Option.some.injEq] at hs
        obtain ⟨x, hx, rfl⟩ := states_some hb
        rw [states_none] at ha
        have hab : a ≠ b := by rintro rfl; rw [hx] at ha; simp at ha
        have l1 : (p.put a (some ⟨0#32, .raw⟩)).Life := life_put h.life (by simp [rawNone a ha, UMem.obj])
        obtain ⟨p1, what, p', y, z, e1, e2, e3, e4, e5, e6, e7, e8⟩ := moveFrom_eq mv conv l1 hab (put_objs_self _ _ _) rfl
          ((put_objs_ne _ _ hab.symm).trans hx) (h.ok b x hx)
        refine ⟨p', ?_, ⟨e3, ?_⟩, ?_⟩
        · simp only [RPool.step, alloc_eq ha]
          show (RPool.moveFrom mv conv _ a b >>= _) = _
          rw [e1]
          exact e2
        · intro c r hc
          rw [e4] at hc
          exact ok_put (ok_put (ok_put h.ok (by rintro r ⟨rfl⟩; exact Or.inr (Or.inr ⟨Or.inl rfl, rfl⟩))) (by rintro r ⟨rfl⟩; exact e5))
            (by rintro r ⟨rfl⟩; exact e6) c r hc
        · rw [← hs]
          have : p'.states = ((((p.put a (some ⟨0#32, .raw⟩)).put b (some y)).put a (some z))).states := by unfold RPool.states; rw [e4]
          rw [this, states_put, states_put, states_put, Option.map_some, Option.map_some, Option.map_some, e7, e8]
          funext c
          by_cases hc : c = a
          · simp [RStates.set, hc]
          · by_cases hcb : c = b
            · simp [RStates.set, hcb, hab.symm]
            · simp [RStates.set, hc, hcb]
  | moveAssign a b conv =>
    simp only [RStates.step] at hs
    cases ha : p.states a with
    | none => simp [ha] at hs
    | some as =>
      cases hb : p.states b with
      | none => simp [ha, hb] at hs
      | some xs =>
        simp only [ha, hb] at hs
        by_cases hab : a = b
        · simp [hab] at hs
        · simp only [hab, if_false, Option.some.injEq] at hs
          obtain ⟨x, hx, rfl⟩ := states_some hb
          obtain ⟨r, hr, rfl⟩ := states_some ha
          obtain ⟨p0, d1, d2, d3⟩ := destroy_eq h hr
          have hx0 : p0.objs b = some x := by rw [d3, put_objs_ne _ _ (fun e => hab e.symm), hx]
          have hr0 : p0.objs a = some { r with u := .raw } := by rw [d3, put_objs_self]
          obtain ⟨p1, what, p', y, z, e1, e2, e3, e4, e5, e6, e7, e8⟩ := moveFrom_eq mv conv d2 hab hr0 rfl hx0 (h.ok b x hx)
          refine ⟨p', ?_, ⟨e3, ?_⟩, ?_⟩
          · simp only [RPool.step, d1]
            show (RPool.moveFrom mv conv _ a b >>= _) = _
            rw [e1]
            exact e2
          · intro c r' hc
            rw [e4] at hc
            by_cases hca : c = a
            · subst hca
              rw [put_objs_self] at hc
              cases hc
              exact e6
            · rw [put_objs_ne _ _ hca] at hc
              by_cases hcb : c = b
              · subst hcb
                rw [put_objs_self] at hc
                cases hc
                exact e5
              · rw [put_objs_ne _ _ hcb, d3, put_objs_ne _ _ hca] at hc
                exact h.ok c r' hc
          · rw [← hs]
            funext c
            show (p'.objs c).map RObj.state = _
            rw [e4]
            by_cases hca : c = a
            · subst hca
              rw [put_objs_self]
              simp [RStates.set, e8]
            · rw [put_objs_ne _ _ hca]
              by_cases hcb : c = b
              · subst hcb
                rw [put_objs_self]
                simp [RStates.set, e7, hca]
              · rw [put_objs_ne _ _ hcb, d3, put_objs_ne _ _ hca]
                simp [RStates.set, hca, hcb, RPool.states]
  | forward a b =>
    simp only [RStates.step] at hs
    cases ha : p.states a with
    | some _ => simp [ha] at hs
    | none =>
      cases hb : p.states b with
      | none => simp [ha, hb] at hs
      | some xs =>
        simp only [ha, hb, Option.some.injEq] at hs
        obtain ⟨x, hx, rfl⟩ := states_some hb
        rw [states_none] at ha
        have hab : a ≠ b := by rintro rfl; rw [hx] at ha; simp at ha
        have hok := h.ok b x hx
        have hk := state_kind hok
        have l1 : (p.put a (some ⟨0#32, .raw⟩)).Life := life_put h.life (by simp [rawNone a ha, UMem.obj])
        -- a plain error is constructed at `a`
        have plain : ∀ id : Id, (id = 0#32 ∨ id.Tagged) → ∃ p', (do let p ← p.alloc a; p.setWhat a (← whatErr id)) = some p' ∧ p'.Inv ∧
            p'.states = p.states.set a (some (.error id)) := by
          intro id hid
          have ho : ((p.put a (some ⟨0#32, .raw⟩)).put a (some ⟨id, .raw⟩)).objs = (p.put a (some ⟨id, .raw⟩)).objs := by rw [put_put]
          refine ⟨(p.put a (some ⟨0#32, .raw⟩)).put a (some ⟨id, .raw⟩), ?_, ?_, states_of ho⟩
          · have hw : whatErr id = some id := if_pos hid
            rw [hw, alloc_eq ha]
            show RPool.setWhat _ _ _ = _
            unfold RPool.setWhat
            rw [put_objs_self]
          · exact inv_of (life_put l1 (by rw [held_put]; simp [UMem.obj])) h.ok (by rintro r ⟨rfl⟩; exact Or.inr (Or.inr ⟨hid, rfl⟩)) ho
        simp only [RPool.step, hx]
        cases hst : x.state with
        | value v =>
          obtain ⟨h3, _⟩ := hk.1 v hst
          obtain ⟨p', e1, e2, e3⟩ := plain 0#32 (Or.inl rfl)
          refine ⟨p', ?_, e2, ?_⟩
          · simpa [h3] using e1
          · rw [e3, ← hs, hst]
            simp only [RState.forwardedFrom, RState.forward]
            rw [RStates.set_self _ b (by simp [RPool.states, hx, hst])]
        | error id =>
          obtain ⟨h3, h2, hw, hid, _⟩ := hk.2.1 id hst
          obtain ⟨p', e1, e2, e3⟩ := plain (makeErrorId id) (Or.inr (makeErrorId_tagged id))
          refine ⟨p', ?_, e2, ?_⟩
          · have hwid : whatErrorId x.what = some (makeErrorId id) := by
              unfold whatErrorId
              rw [if_neg h3, errorId_double, hw]
            have : (fun p : RPool => (do p.setWhat a (← whatErr (← whatErrorId x.what)) : Option RPool)) = fun p : RPool => (do p.setWhat a (← whatErr (makeErrorId id))) := by
              rw [hwid]; rfl
            show (if kind x.what = 3#32 then _ else if kind x.what = 2#32 then _ else (p.alloc a >>= fun p : RPool => (do p.setWhat a (← whatErr (← whatErrorId x.what)) : Option RPool))) = _
            rw [if_neg h3, if_neg h2, this]
            exact e1
          · rw [e3, ← hs, hst]
            simp only [RState.forwardedFrom, RState.forward]
            rw [RStates.set_self _ b (by simp [RPool.states, hx, hst])]
        | captured id l =>
          obtain ⟨h2, hid, o, hu⟩ := hk.2.2 id l hst
          have h3 : kind x.what ≠ 3#32 := by rw [h2]; decide
          have hidt : id.Tagged := by rw [← hid]; exact makeErrorId_tagged _
          have hwid : whatErrorId x.what = some id := by
            unfold whatErrorId
            rw [if_neg h3, errorId_double, hid]
          have ha' : (p.put b (some { x with u := .cap o [] })).objs a = none := by rw [put_objs_ne _ _ hab, ha]
          have l2 : (p.put b (some { x with u := .cap o [] })).Life := life_put h.life (by simp [RPool.held, hx, hu, UMem.obj])
          have l3 : ((p.put b (some { x with u := .cap o [] })).put a (some ⟨0#32, .raw⟩)).Life :=
            life_put l2 (by simp [RPool.held, ha', UMem.obj])
          have l4 := life_construct l3 (a := a) (x := some ⟨(id &&& ~~~3#32) ||| 2#32, .cap p.fresh l⟩) (by rw [held_put]; simp [UMem.obj]) rfl
          have ho : (RPool.construct ((p.put b (some { x with u := .cap o [] })).put a (some ⟨0#32, .raw⟩)) a (.cap · l) ((id &&& ~~~3#32) ||| 2#32)).objs =
              ((p.put b (some { x with u := .cap o [] })).put a (some ⟨(id &&& ~~~3#32) ||| 2#32, .cap p.fresh l⟩)).objs := by
            unfold RPool.construct
            rw [put_put]
            rfl
          refine ⟨_, ?_, inv_of l4 (ok_put h.ok (by rintro r ⟨rfl⟩; exact Or.inr (Or.inl ⟨h2, _, _, rfl⟩))) (by rintro r ⟨rfl⟩; exact Or.inr (Or.inl ⟨kind_cap id, _, _, rfl⟩)) ho, ?_⟩
          · show (if kind x.what = 3#32 then _ else if kind x.what = 2#32 then _ else _) = _
            rw [if_neg h3, if_pos h2, hu]
            simp only [alloc_eq ha', hwid]
            show (whatCap id >>= _) = _
            unfold whatCap
            rw [if_pos hidt]
            rfl
          · show (RPool.construct ((p.put b (some { x with u := .cap o [] })).put a (some ⟨0#32, .raw⟩)) a (.cap · l) ((id &&& ~~~3#32) ||| 2#32)).states = _
            rw [states_of ho, states_put, ← hs, hst]
            simp only [RState.forwardedFrom, RState.forward, Option.map_some]
            congr 2
            · simp [RObj.state, hid]
            · show RState.captured (makeErrorId _) l = _
              rw [← errorId_double, errorId_cap hidt]
  | take a =>
    simp only [RStates.step] at hs
    cases ha : p.states a with
    | none => simp [ha] at hs
    | some xs =>
      obtain ⟨x, hx, rfl⟩ := states_some ha
      have hk := state_kind (h.ok a x hx)
      cases hst : x.state with
      | error id => simp [ha, hst] at hs
      | captured id l => simp [ha, hst] at hs
      | value v =>
        simp only [ha, hst, Option.some.injEq] at hs
        obtain ⟨h3, o, hu⟩ := hk.1 v hst
        refine ⟨p.put a (some { x with u := .stored o (mv v) }), ?_, ?_, ?_⟩
        · simp only [RPool.step, hx]
          show (if kind x.what = 3#32 then _ else _) = _
          rw [if_pos h3, hu]
          rfl
        · exact ⟨life_put h.life (by simp [RPool.held, hx, hu, UMem.obj]),
            ok_put h.ok (by rintro r ⟨rfl⟩; exact Or.inl ⟨(ok_stored (h.ok a x hx) h3).1, _, _, rfl⟩)⟩
        · rw [states_put, ← hs]
          rfl
  | unload a =>
    simp only [RStates.step] at hs
    cases ha : p.states a with
    | none => simp [ha] at hs
    | some xs =>
      obtain ⟨x, hx, rfl⟩ := states_some ha
      have hk := state_kind (h.ok a x hx)
      simp only [RPool.step, hx]
      cases hst : x.state with
      | value v =>
        simp only [ha, hst, Option.some.injEq] at hs
        obtain ⟨h3, o, hu⟩ := hk.1 v hst
        refine ⟨p, ?_, h, hs⟩
        show (if kind x.what = 2#32 then _ else _) = _
        rw [if_neg (by rw [h3]; decide)]
        rfl
      | error id =>
        simp only [ha, hst, Option.some.injEq] at hs
        obtain ⟨h3, h2, _⟩ := hk.2.1 id hst
        refine ⟨p, ?_, h, hs⟩
        show (if kind x.what = 2#32 then _ else _) = _
        rw [if_neg h2]
        rfl
      | captured id l =>
        simp only [ha, hst, Option.some.injEq] at hs
        obtain ⟨h2, hid, o, hu⟩ := hk.2.2 id l hst
        refine ⟨p.put a (some { x with u := .cap o [] }), ?_, ?_, ?_⟩
        · show (if kind x.what = 2#32 then _ else _) = _
          rw [if_pos h2, hu]
          rfl
        · exact ⟨life_put h.life (by simp [RPool.held, hx, hu, UMem.obj]),
            ok_put h.ok (by rintro r ⟨rfl⟩; exact Or.inr (Or.inl ⟨h2, _, _, rfl⟩))⟩
        · rw [states_put, ← hs]
          simp [RObj.state, hid]
  | drop a =>
    simp only [RStates.step] at hs
    cases ha : p.states a with
    | none => simp [ha] at hs
    | some xs =>
      simp only [ha, reduceCtorEq, if_false, Option.some.injEq] at hs
      obtain ⟨x, hx, rfl⟩ := states_some ha
      obtain ⟨p0, d1, d2, d3⟩ := destroy_eq h hx
      refine ⟨p0.put a none, ?_, ?_, ?_⟩
      · simp only [RPool.step, d1]
        rfl
      · refine ⟨life_put d2 (by simp [RPool.held, d3, put_objs_self, UMem.obj]), ?_⟩
        intro c r hc
        by_cases hca : c = a
        · subst hca; rw [put_objs_self] at hc; simp at hc
        · rw [put_objs_ne _ _ hca, d3, put_objs_ne _ _ hca] at hc
          exact h.ok c r hc
      · rw [states_put, states_of d3, RStates.set_set, ← hs]
        rfl

theorem empty_inv : RPool.empty.Inv := by
  refine ⟨⟨List.nodup_nil, by simp [RPool.empty], ?_, ?_, by simp [RPool.empty]⟩, by simp [RPool.empty]⟩
  · intro a o h; simp [RPool.held, RPool.empty] at h
  · intro a b o h; simp [RPool.held, RPool.empty] at h

theorem run_refines {mv : Nat → Nat} (ops : List ROp) {p : RPool} (h : p.Inv) {s : RStates} (hs : p.states.run mv ops = some s) :
    ∃ p', p.run mv ops = some p' ∧ p'.Inv ∧ p'.states = s := by
  induction ops generalizing p s with
  | nil =>
    simp only [RStates.run, Option.some.injEq] at hs
    exact ⟨p, rfl, h, hs⟩
  | cons op ops ih =>
    unfold RStates.run at hs
    cases h1 : p.states.step mv op with
    | none => simp [h1] at hs
    | some s1 =>
      simp only [h1, Option.bind_some] at hs
      obtain ⟨p1, e1, e2, e3⟩ := step_refines h h1
      rw [← e3] at hs
      obtain ⟨p', f1, f2, f3⟩ := ih e2 hs
      refine ⟨p', ?_, f2, f3⟩
      unfold RPool.run
      rw [e1]
      exact f1

/-! ## The properties -/

/-- **C06: the code does what the operations mean.** Any sequence of allowed operations on any number of results runs without undefined behaviour, and
afterwards each result is in the state that the meaning of the operations says. -/
theorem C06_operations (mv : Nat → Nat) (ops : List ROp) {s : RStates} (hs : RStates.run mv (fun _ => none) ops = some s) :
    ∃ p, RPool.empty.run mv ops = some p ∧ p.states = s := by
  obtain ⟨p, h1, _, h3⟩ := run_refines ops empty_inv hs
  exact ⟨p, h1, h3⟩

/-- **C06: observers.** After any sequence of allowed operations, a result is in exactly one of the three states, and `has_value`, `has_error`, `operator bool`,
`value()` and `error()` tell which (an error with the empty id reports id 1: C05_refuted). -/
theorem C06_observers (mv : Nat → Nat) (ops : List ROp) {p : RPool} {s : RStates} (hs : RStates.run mv (fun _ => none) ops = some s)
    (hp : RPool.empty.run mv ops = some p) {a : Nat} {r : RObj} (ha : p.objs a = some r) :
    match s a with
    | none => False
    | some (.value v) => r.hasValue = true ∧ r.hasError = false ∧ r.toBool = true ∧ r.value = some v
    | some (.error id) => r.hasValue = false ∧ r.hasError = true ∧ r.toBool = false ∧ r.value = none ∧ whatErrorId r.what = some (makeErrorId id) ∧ (id = 0#32 ∨ id.Tagged)
    | some (.captured id l) => r.hasValue = false ∧ r.hasError = true ∧ r.toBool = false ∧ r.value = none ∧ whatErrorId r.what = some id ∧ ∃ o, r.u = .cap o l := by
  obtain ⟨p', h1, h2, h3⟩ := run_refines ops empty_inv hs
  rw [hp] at h1
  cases h1
  have hst : s a = some r.state := by rw [← h3]; simp [RPool.states, ha]
  have hk := state_kind (h2.ok a r ha)
  rw [hst]
  cases hr : r.state with
  | value v =>
    obtain ⟨h3, o, hu⟩ := hk.1 v hr
    simp [RObj.hasValue, RObj.hasError, RObj.toBool, RObj.value, h3, hu]
  | error id =>
    obtain ⟨h3, h2', hw, hid, hu⟩ := hk.2.1 id hr
    have hv : r.hasValue = false := by simpa [RObj.hasValue] using h3
    refine ⟨hv, by simp [RObj.hasError, hv], hv, by simp [RObj.value, h3], ?_, hid⟩
    unfold whatErrorId
    rw [if_neg h3, errorId_double, hw]
  | captured id l =>
    obtain ⟨h2', hid, o, hu⟩ := hk.2.2 id l hr
    have h3 : kind r.what ≠ 3#32 := by rw [h2']; decide
    have hv : r.hasValue = false := by simpa [RObj.hasValue] using h3
    refine ⟨hv, by simp [RObj.hasError, hv], hv, by simp [RObj.value, h3], ?_, o, hu⟩
    unfold whatErrorId
    rw [if_neg h3, errorId_double, hid]

/-- Operation `op` does not concern the result at `a`. -/
def ROp.Leaves (a : Nat) : ROp → Prop
  | .mkVal b _ | .mkErr b _ | .mkCap b _ _ | .take b | .unload b | .drop b => b ≠ a
  | .moveCtor b c _ | .moveAssign b c _ | .forward b c => b ≠ a ∧ c ≠ a

/-- The content of the result at `a` is passed on, by the operations, to the result at `a'`, its value being converted by `conv`; other operations happen in
between. -/
inductive Passed : List ROp → Nat → Nat → (Nat → Nat) → Prop
  | done (a) : Passed [] a a (fun v => v)
  | other {ops a a' conv op} : op.Leaves a → Passed ops a a' conv → Passed (op :: ops) a a' conv
  | construct {ops a b a' f conv} : Passed ops b a' conv → Passed (.moveCtor b a f :: ops) a a' (conv ∘ f)
  | assign {ops a b a' f conv} : Passed ops b a' conv → Passed (.moveAssign b a f :: ops) a a' (conv ∘ f)

/-- The same for an error, which may also be passed on by `error()`. -/
inductive ErrorPassed : List ROp → Nat → Nat → Prop
  | done (a) : ErrorPassed [] a a
  | other {ops a a' op} : op.Leaves a → ErrorPassed ops a a' → ErrorPassed (op :: ops) a a'
  | construct {ops a b a' f} : ErrorPassed ops b a' → ErrorPassed (.moveCtor b a f :: ops) a a'
  | assign {ops a b a' f} : ErrorPassed ops b a' → ErrorPassed (.moveAssign b a f :: ops) a a'
  | forward {ops a b a'} : ErrorPassed ops b a' → ErrorPassed (.forward b a :: ops) a a'

theorem step_leaves {mv : Nat → Nat} {s s' : RStates} {op : ROp} {a : Nat} (h : op.Leaves a) (hs : s.step mv op = some s') : s' a = s a := by
  cases op with
  | mkVal b v => simp only [RStates.step, Option.ite_none_right_eq_some, Option.some.injEq] at hs; rw [← hs.2]; simp [RStates.set, Ne.symm h]
  | mkErr b id => simp only [RStates.step, Option.ite_none_right_eq_some, Option.some.injEq] at hs; rw [← hs.2]; simp [RStates.set, Ne.symm h]
  | mkCap b id l => simp only [RStates.step, Option.ite_none_right_eq_some, Option.some.injEq] at hs; rw [← hs.2]; simp [RStates.set, Ne.symm h]
  | moveCtor b c f =>
    simp only [RStates.step] at hs
    split at hs
    · cases hs; simp [RStates.set, Ne.symm h.1, Ne.symm h.2]
    · simp at hs
  | moveAssign b c f =>
    simp only [RStates.step] at hs
    split at hs
    · split at hs
      · simp at hs
      · cases hs; simp [RStates.set, Ne.symm h.1, Ne.symm h.2]
    · simp at hs
  | forward b c =>
    simp only [RStates.step] at hs
    split at hs
    · cases hs; simp [RStates.set, Ne.symm h.1, Ne.symm h.2]
    · simp at hs
  | take b =>
    simp only [RStates.step] at hs
    split at hs
    · cases hs; simp [RStates.set, Ne.symm h]
    · simp at hs
  | unload b =>
    simp only [RStates.step] at hs
    split at hs
    · cases hs; simp [RStates.set, Ne.symm h]
    · cases hs; rfl
    · simp at hs
  | drop b => simp only [RStates.step, Option.ite_none_left_eq_some, Option.some.injEq] at hs; rw [← hs.2]; simp [RStates.set, Ne.symm h]

theorem step_moveCtor {mv : Nat → Nat} {s s' : RStates} {a b : Nat} {f : Nat → Nat} {x : RState} (h : s a = some x)
    (hs : s.step mv (.moveCtor b a f) = some s') : s' b = some (x.moveTo f) := by
  simp only [RStates.step, h] at hs
  split at hs
  · rename_i he; cases he; cases hs; simp [RStates.set]
  · simp at hs

theorem step_moveAssign {mv : Nat → Nat} {s s' : RStates} {a b : Nat} {f : Nat → Nat} {x : RState} (h : s a = some x)
    (hs : s.step mv (.moveAssign b a f) = some s') : s' b = some (x.moveTo f) := by
  simp only [RStates.step, h] at hs
  split at hs
  · rename_i he
    cases he
    split at hs
    · simp at hs
    · cases hs; simp [RStates.set]
  · simp at hs

theorem step_forward {mv : Nat → Nat} {s s' : RStates} {a b : Nat} {x : RState} (h : s a = some x)
    (hs : s.step mv (.forward b a) = some s') : s' b = some x.forward := by
  simp only [RStates.step, h] at hs
  split at hs
  · rename_i he; cases he; cases hs; simp [RStates.set]
  · simp at hs

/-- **C06: values survive.** A value passed on from result to result, by any number of moves and conversions, with any other operations on other
results in between, arrives (converted). -/
theorem C06_value_kept {mv conv : Nat → Nat} {ops : List ROp} {a a' : Nat} (hp : Passed ops a a' conv) {s s' : RStates} {v : Nat} (h : s a = some (.value v))
    (hs : s.run mv ops = some s') : s' a' = some (.value (conv v)) := by
  induction hp generalizing s v with
  | done a => simp only [RStates.run, Option.some.injEq] at hs; rw [← hs, h]
  | other hl _ ih =>
    obtain ⟨s1, h1, hs⟩ := RStates.run_cons hs
    exact ih (by rw [step_leaves hl h1, h]) hs
  | construct _ ih =>
    obtain ⟨s1, h1, hs⟩ := RStates.run_cons hs
    exact ih (step_moveCtor h h1) hs
  | assign _ ih =>
    obtain ⟨s1, h1, hs⟩ := RStates.run_cons hs
    exact ih (step_moveAssign h h1) hs

/-- **C06: errors survive.** An error (with a valid id) passed on from result to result, by any number of moves, conversions and `error()`, arrives with the
same id and the same captured objects. -/
theorem C06_error_kept {mv : Nat → Nat} {ops : List ROp} {a a' : Nat} (hp : ErrorPassed ops a a') {s s' : RStates} {x : RState}
    (hx : (∃ id, id.Tagged ∧ x = .error id) ∨ ∃ id l, x = .captured id l) (h : s a = some x) (hs : s.run mv ops = some s') : s' a' = some x := by
  have hm : ∀ f, x.moveTo f = x := by
    rcases hx with ⟨id, _, rfl⟩ | ⟨id, l, rfl⟩ <;> intro f <;> rfl
  have hf : x.forward = x := by
    rcases hx with ⟨id, hid, rfl⟩ | ⟨id, l, rfl⟩
    · simp [RState.forward, makeErrorId_of_tagged hid]
    · rfl
  induction hp generalizing s with
  | done a => simp only [RStates.run, Option.some.injEq] at hs; rw [← hs, h]
  | other hl _ ih =>
    obtain ⟨s1, h1, hs⟩ := RStates.run_cons hs
    exact ih (by rw [step_leaves hl h1, h]) hs
  | construct _ ih =>
    obtain ⟨s1, h1, hs⟩ := RStates.run_cons hs
    exact ih (by rw [step_moveCtor h h1, hm]) hs
  | assign _ ih =>
    obtain ⟨s1, h1, hs⟩ := RStates.run_cons hs
    exact ih (by rw [step_moveAssign h h1, hm]) hs
  | forward _ ih =>
    obtain ⟨s1, h1, hs⟩ := RStates.run_cons hs
    exact ih (by rw [step_forward h h1, hf]) hs

theorem RStates.run_append {mv : Nat → Nat} {s s' : RStates} {pre ops : List ROp} (h : s.run mv (pre ++ ops) = some s') :
    ∃ s1, s.run mv pre = some s1 ∧ s1.run mv ops = some s' := by
  induction pre generalizing s with
  | nil => exact ⟨s, rfl, h⟩
  | cons op pre ih =>
    obtain ⟨s1, h1, h2⟩ := RStates.run_cons h
    obtain ⟨s2, h3, h4⟩ := ih h2
    exact ⟨s2, by unfold RStates.run; rw [h1]; exact h3, h4⟩

/-- **C06, in the code: values.** A result is created with a value, at any point of a history of allowed operations; wherever the value was passed on to, there is
at the end a result in value state whose `value()` is the (converted) value. -/
theorem C06_value_arrives (mv : Nat → Nat) {pre ops : List ROp} {a a' v : Nat} {conv : Nat → Nat} {s : RStates} (hp : Passed ops a a' conv)
    (hs : RStates.run mv (fun _ => none) (pre ++ .mkVal a v :: ops) = some s) :
    ∃ p r, RPool.empty.run mv (pre ++ .mkVal a v :: ops) = some p ∧ p.objs a' = some r ∧ r.hasValue = true ∧ r.hasError = false ∧ r.toBool = true ∧
      r.value = some (conv v) := by
  obtain ⟨p, h1, h2⟩ := C06_operations mv _ hs
  obtain ⟨s1, h3, h4⟩ := RStates.run_append hs
  obtain ⟨s2, h5, h6⟩ := RStates.run_cons h4
  have hv : s2 a = some (.value v) := by
    simp only [RStates.step, Option.ite_none_right_eq_some, Option.some.injEq] at h5
    rw [← h5.2]
    exact set_get _ _ _
  have he := C06_value_kept hp hv h6
  obtain ⟨r, hr, _⟩ := states_some (p := p) (by rw [h2]; exact he)
  have := C06_observers mv _ hs h1 hr
  rw [he] at this
  exact ⟨p, r, h1, hr, this⟩

/-- **C06, in the code: errors.** A result is created with a valid error id; wherever the error was passed on to, there is at the end a result in error state with
this id. -/
theorem C06_error_arrives (mv : Nat → Nat) {pre ops : List ROp} {a a' : Nat} {id : Id} (hid : id.Tagged) {s : RStates} (hp : ErrorPassed ops a a')
    (hs : RStates.run mv (fun _ => none) (pre ++ .mkErr a id :: ops) = some s) :
    ∃ p r, RPool.empty.run mv (pre ++ .mkErr a id :: ops) = some p ∧ p.objs a' = some r ∧ r.hasValue = false ∧ r.hasError = true ∧ r.toBool = false ∧
      whatErrorId r.what = some id := by
  obtain ⟨p, h1, h2⟩ := C06_operations mv _ hs
  obtain ⟨s1, h3, h4⟩ := RStates.run_append hs
  obtain ⟨s2, h5, h6⟩ := RStates.run_cons h4
  have hv : s2 a = some (.error id) := by
    simp only [RStates.step, Option.ite_none_right_eq_some, Option.some.injEq] at h5
    rw [← h5.2]
    exact set_get _ _ _
  have he := C06_error_kept hp (Or.inl ⟨id, hid, rfl⟩) hv h6
  obtain ⟨r, hr, _⟩ := states_some (p := p) (by rw [h2]; exact he)
  have := C06_observers mv _ hs h1 hr
  rw [he] at this
  exact ⟨p, r, h1, hr, this.1, this.2.1, this.2.2.1, by rw [this.2.2.2.2.1, makeErrorId_of_tagged hid]⟩

/-- **C06, in the code: captured errors.** The same for a result created with captured objects `l`: the id and the objects arrive. -/
theorem C06_captured_arrives (mv : Nat → Nat) {pre ops : List ROp} {a a' : Nat} {id : Id} {l : List Nat} {s : RStates} (hp : ErrorPassed ops a a')
    (hs : RStates.run mv (fun _ => none) (pre ++ .mkCap a id l :: ops) = some s) :
    ∃ p r o, RPool.empty.run mv (pre ++ .mkCap a id l :: ops) = some p ∧ p.objs a' = some r ∧ r.hasValue = false ∧ r.hasError = true ∧ r.toBool = false ∧
      whatErrorId r.what = some id ∧ r.u = .cap o l := by
  obtain ⟨p, h1, h2⟩ := C06_operations mv _ hs
  obtain ⟨s1, h3, h4⟩ := RStates.run_append hs
  obtain ⟨s2, h5, h6⟩ := RStates.run_cons h4
  have hv : s2 a = some (.captured id l) := by
    simp only [RStates.step, Option.ite_none_right_eq_some, Option.some.injEq] at h5
    rw [← h5.2]
    exact set_get _ _ _
  have he := C06_error_kept hp (Or.inr ⟨id, l, rfl⟩) hv h6
  obtain ⟨r, hr, _⟩ := states_some (p := p) (by rw [h2]; exact he)
  have := C06_observers mv _ hs h1 hr
  rw [he] at this
  obtain ⟨t1, t2, t3, _, t5, o, t6⟩ := this
  exact ⟨p, r, o, h1, hr, t1, t2, t3, t5, t6⟩

/-- **C07.** After any sequence of allowed operations (which runs without undefined behaviour, in particular nothing is read or destroyed outside its lifetime):
no value or capture list was destroyed twice; those not destroyed are each held by exactly one existing result, in its union. -/
theorem C07_lifetimes (mv : Nat → Nat) (ops : List ROp) {s : RStates} (hs : RStates.run mv (fun _ => none) ops = some s) :
    ∃ p, RPool.empty.run mv ops = some p ∧ p.dead.Nodup ∧ (∀ i ∈ p.dead, i < p.fresh) ∧
      ∀ i < p.fresh, (i ∈ p.dead ∧ ∀ a, p.held a ≠ some i) ∨ (i ∉ p.dead ∧ ∃ a, p.held a = some i ∧ ∀ b, p.held b = some i → b = a) := by
  obtain ⟨p, h1, h2, h3⟩ := run_refines ops empty_inv hs
  refine ⟨p, h1, h2.life.nodup, h2.life.deadLt, fun i hi => ?_⟩
  rcases h2.life.complete i hi with hd | ⟨a, ha⟩
  · exact Or.inl ⟨hd, fun a ha => (h2.life.heldLt a i ha).2 hd⟩
  · exact Or.inr ⟨(h2.life.heldLt a i ha).2, a, ha, fun b hb => h2.life.unique b a i hb ha⟩

/-- **C07: no leak.** When all results have been destroyed, every value and capture list ever constructed has been destroyed, exactly once. -/
theorem C07_exactly_once (mv : Nat → Nat) (ops : List ROp) (hs : RStates.run mv (fun _ => none) ops = some (fun _ => none)) :
    ∃ p, RPool.empty.run mv ops = some p ∧ ∀ i < p.fresh, p.dead.count i = 1 := by
  obtain ⟨p, h1, h2, h3⟩ := run_refines ops empty_inv hs
  refine ⟨p, h1, fun i hi => ?_⟩
  have hd : i ∈ p.dead := by
    rcases h2.life.complete i hi with hd | ⟨a, ha⟩
    · exact hd
    · exfalso
      have : p.objs a = none := states_none.mp (by rw [h3])
      simp [RPool.held, this] at ha
  exact List.Nodup.count h2.life.nodup ▸ by simp [hd]

/-- **C07, self move assignment** (outside the claim): the value is read after it was destroyed. -/
theorem C07_self_move (mv conv : Nat → Nat) (v : Nat) : RPool.empty.run mv [.mkVal 0 v, .moveAssign 0 0 conv] = none := by
  simp [RPool.run, RPool.step, RPool.alloc, RPool.empty, RPool.construct, RPool.destroy, RPool.moveFrom, RPool.put, kind, whatVal]

/-- **C02: a result initialised with a valid id is in an error state,** with this id. -/
theorem C02_result_error (mv : Nat → Nat) {id : Id} (hid : id.Tagged) (a : Nat) :
    ∃ p r, RPool.empty.run mv [.mkErr a id] = some p ∧ p.objs a = some r ∧ r.hasValue = false ∧ r.hasError = true ∧ whatErrorId r.what = some id := by
  have hs : RStates.run mv (fun _ => none) [.mkErr a id] = some (RStates.set (fun _ => none) a (some (.error id))) := by
    simp [RStates.run, RStates.step, hid]
  obtain ⟨p, h1, h3⟩ := C06_operations mv _ hs
  obtain ⟨r, hr, hst⟩ := states_some (p := p) (a := a) (s := .error id) (by rw [h3]; simp [RStates.set])
  have := C06_observers mv _ hs h1 hr
  simp only [set_get] at this
  exact ⟨p, r, h1, hr, this.1, this.2.1, by rw [this.2.2.2.2.1, makeErrorId_of_tagged hid]⟩

/-- **C40, value state.** `value()` of a result in value state gives the value it was created with, after any allowed operations that passed it on; it has no
effect (it only reads). -/
theorem C40_value (mv : Nat → Nat) (ops : List ROp) {p : RPool} {s : RStates} (hs : RStates.run mv (fun _ => none) ops = some s)
    (hp : RPool.empty.run mv ops = some p) {a v : Nat} (ha : s a = some (.value v)) : ∃ r, p.objs a = some r ∧ r.value = some v := by
  obtain ⟨p', h1, h2, h3⟩ := run_refines ops empty_inv hs
  rw [hp] at h1
  cases h1
  obtain ⟨r, hr, _⟩ := states_some (p := p) (a := a) (s := .value v) (by rw [h3, ha])
  have := C06_observers mv ops hs hp hr
  rw [ha] at this
  exact ⟨r, hr, this.2.2.2⟩

/-! ## The hypotheses can be met -/

def exOps : List ROp := [.mkVal 0 7, .mkErr 1 5#32, .moveCtor 2 0 (· + 1), .mkCap 3 9#32 [1, 2], .moveAssign 1 2 (· * 2), .forward 4 3, .drop 3, .moveCtor 5 4 (fun v => v),
  .drop 0, .drop 2, .drop 4]

/-- The value 7 travels from 0 to 2 (plus one) to 1 (times two); the captured error from 3 to 4 to 5. -/
example : ∃ s, RStates.run (fun _ => 0) (fun _ => none) exOps = some s ∧ s 1 = some (.value 16) ∧ s 5 = some (.captured 9#32 [1, 2]) ∧ s 3 = none :=
  ⟨_, rfl, rfl, by decide, rfl⟩

example : Passed (exOps.drop 1) 0 1 ((fun v => v) ∘ (· * 2) ∘ (· + 1)) := by
  refine .other ?_ (.construct (.other ?_ (.assign (.other ?_ (.other ?_ (.other ?_ (.other ?_ (.other ?_ (.other ?_ (.done _)))))))))) <;> simp [ROp.Leaves]

example : ErrorPassed (exOps.drop 4) 3 5 := by
  refine .other ?_ (.forward (.other ?_ (.construct (.other ?_ (.other ?_ (.other ?_ (.done _))))))) <;> simp [ROp.Leaves]

/-- Everything destroyed in the end: four values and three capture lists. -/
example : ∃ s p, RStates.run (fun _ => 0) (fun _ => none) (exOps ++ [.drop 1, .drop 5]) = some s ∧ RPool.empty.run (fun _ => 0) (exOps ++ [.drop 1, .drop 5]) = some p ∧
    p.fresh = 6 ∧ p.dead = [5, 3, 4, 1, 0, 2] :=
  ⟨_, _, rfl, rfl, rfl, rfl⟩

end Leaf
