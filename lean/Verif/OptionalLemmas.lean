import Verif.OptionalModel

/-! Lemmas about the model of `detail::optional<T>`. -/

namespace Leaf

def OPool.held (p : OPool) (a : Nat) : Option Nat := (p.cells a).bind fun c => c.mem.map (·.1)

/-- The key says whether a `T` is alive. -/
def OCell.Ok (c : OCell) : Prop := c.key = 0#32 ↔ c.mem = none

structure OPool.Inv (p : OPool) : Prop where
  life : Lifetimes p.held p.fresh p.dead
  ok : ∀ a c, p.cells a = some c → c.Ok

/-- The content of an `optional`. -/
def OCell.state (c : OCell) : Option (Id × Nat) := c.mem.map fun m => (c.key, m.2)

abbrev OStates := Nat → Option (Option (Id × Nat))

def OStates.set (s : OStates) (a : Nat) (x : Option (Option (Id × Nat))) : OStates := fun b => if b = a then x else s b

def OPool.states (p : OPool) : OStates := fun a => (p.cells a).map OCell.state

theorem OStates.set_get (s : OStates) (a x) : s.set a x a = x := by simp [OStates.set]
theorem OStates.set_ne (s : OStates) {a b : Nat} (x) (h : b ≠ a) : s.set a x b = s b := by simp [OStates.set, h]
theorem OStates.set_set (s : OStates) (a x y) : (s.set a x).set a y = s.set a y := by
  funext b; by_cases h : b = a <;> simp [OStates.set, h]
theorem OStates.set_self {s : OStates} {a : Nat} {x} (h : s a = x) : s.set a x = s := by
  funext b
  by_cases hb : b = a
  · subst hb; simp [OStates.set, h]
  · simp [OStates.set, hb]
theorem OStates.set_comm (s : OStates) {a b : Nat} (h : a ≠ b) (x y) : (s.set a x).set b y = (s.set b y).set a x := by
  funext c
  by_cases h1 : c = a
  · by_cases h2 : c = b
    · exact absurd (h1.symm.trans h2) h
    · simp [OStates.set, h1, h]
  · by_cases h2 : c = b <;> simp [OStates.set, h1, h2]
    intro he
    exact absurd he.symm h

theorem OPool.put_self (p : OPool) (a x) : (p.put a x).cells a = x := by simp [OPool.put]
theorem OPool.put_ne (p : OPool) {a b : Nat} (x) (h : b ≠ a) : (p.put a x).cells b = p.cells b := by simp [OPool.put, h]
theorem OPool.put_states (p : OPool) (a x) : (p.put a x).states = p.states.set a (x.map OCell.state) := by
  funext b; by_cases h : b = a <;> simp [OPool.put, OPool.states, OStates.set, h]
theorem OPool.held_put (p : OPool) (a x) (b : Nat) : (p.put a x).held b = if b = a then x.bind (fun c => c.mem.map (·.1)) else p.held b := by
  by_cases h : b = a <;> simp [OPool.held, OPool.put, h]

theorem OPool.ok_put {p : OPool} (h : ∀ a c, p.cells a = some c → c.Ok) {a : Nat} {x : Option OCell} (hx : ∀ c, x = some c → c.Ok) :
    ∀ b c, (p.put a x).cells b = some c → c.Ok := by
  intro b c hb
  by_cases hba : b = a
  · subst hba
    rw [put_self] at hb
    exact hx c hb
  · rw [put_ne _ _ hba] at hb
    exact h b c hb

theorem OPool.states_none {p : OPool} {a : Nat} : p.states a = none ↔ p.cells a = none := by simp [OPool.states]

/-- An empty object. -/
theorem OPool.states_empty {p : OPool} (h : p.Inv) {a : Nat} (hs : p.states a = some none) : p.cells a = some ⟨0#32, none⟩ := by
  unfold OPool.states at hs
  cases hc : p.cells a with
  | none => simp [hc] at hs
  | some c =>
    have hok := h.ok a c hc
    obtain ⟨k, m⟩ := c
    simp only [hc, Option.map_some, Option.some.injEq, OCell.state, Option.map_eq_none_iff] at hs
    subst hs
    have : k = 0#32 := hok.mpr rfl
    rw [this]

/-- A full object. -/
theorem OPool.states_full {p : OPool} (h : p.Inv) {a : Nat} {k : Id} {v : Nat} (hs : p.states a = some (some (k, v))) :
    k ≠ 0#32 ∧ ∃ o, p.cells a = some ⟨k, some (o, v)⟩ := by
  unfold OPool.states at hs
  cases hc : p.cells a with
  | none => simp [hc] at hs
  | some c =>
    have hok := h.ok a c hc
    obtain ⟨k', m⟩ := c
    simp only [hc, Option.map_some, Option.some.injEq, OCell.state, Option.map_eq_some_iff, Prod.mk.injEq] at hs
    obtain ⟨⟨o, v'⟩, h1, h2, h3⟩ := hs
    subst h1 h2 h3
    refine ⟨fun hk => ?_, o, rfl⟩
    have := hok.mp hk
    simp at this

theorem OPool.alloc_inv {p : OPool} (h : p.Inv) {a : Nat} (hs : p.states a = none) :
    ∃ p', p.alloc a 0#32 = some p' ∧ p'.Inv ∧ p'.states = p.states.set a (some none) := by
  have hc := states_none.mp hs
  refine ⟨p.put a (some ⟨0#32, none⟩), by simp [OPool.alloc, hc], ⟨?_, ?_⟩, ?_⟩
  · exact h.life.keep fun b => by
      rw [held_put]; split
      · rename_i hb; subst hb; simp [OPool.held, hc]
      · rfl
  · exact ok_put h.ok (by rintro c ⟨rfl⟩; simp [OCell.Ok])
  · rw [put_states]; rfl

/-- A new object constructed with key and value. -/
theorem OPool.alloc_construct {p : OPool} (h : p.Inv) {a : Nat} (hs : p.states a = none) {k : Id} (hk : k ≠ 0#32) (v : Nat) :
    ∃ p1 p', p.alloc a k = some p1 ∧ (∀ b, b ≠ a → p1.cells b = p.cells b) ∧ p1.construct a v = some p' ∧ p'.Inv ∧ p'.states = p.states.set a (some (some (k, v))) := by
  have hc := states_none.mp hs
  refine ⟨p.put a (some ⟨k, none⟩), { p.put a (some ⟨k, some (p.fresh, v)⟩) with fresh := p.fresh + 1 }, by simp [OPool.alloc, hc],
    fun b hb => put_ne _ _ hb, ?_, ⟨?_, ?_⟩, ?_⟩
  · unfold OPool.construct
    rw [put_self]
    simp only [Option.some.injEq]
    unfold OPool.put
    congr 1
    funext b
    by_cases hb : b = a <;> simp [hb]
  · refine h.life.construct (a := a) (by simp [OPool.held, hc]) fun b => ?_
    show (p.put a (some ⟨k, some (p.fresh, v)⟩)).held b = _
    rw [held_put]
    rfl
  · exact ok_put (p := p) h.ok (by rintro c ⟨rfl⟩; simp [OCell.Ok, hk])
  · show (p.put a (some ⟨k, some (p.fresh, v)⟩)).states = _
    rw [put_states]
    rfl

theorem OPool.reset_inv {p : OPool} (h : p.Inv) {a : Nat} {x} (hs : p.states a = some x) :
    ∃ p', p.reset a = some p' ∧ p'.Inv ∧ p'.states = p.states.set a (some none) := by
  cases x with
  | none =>
    have hc := states_empty h hs
    exact ⟨p, by simp [OPool.reset, hc], h, (OStates.set_self hs).symm⟩
  | some kv =>
    obtain ⟨k, v⟩ := kv
    obtain ⟨hk, o, hc⟩ := states_full h hs
    refine ⟨{ p.put a (some ⟨0#32, none⟩) with dead := o :: p.dead }, by simp [OPool.reset, hc, hk], ⟨?_, ?_⟩, ?_⟩
    · refine h.life.kill (a := a) (by simp [OPool.held, hc]) fun b => ?_
      show (p.put a (some ⟨0#32, none⟩)).held b = _
      rw [held_put]
      rfl
    · exact ok_put (p := p) h.ok (by rintro c ⟨rfl⟩; simp [OCell.Ok])
    · show (p.put a (some ⟨0#32, none⟩)).states = _
      rw [put_states]
      rfl

theorem OPool.write_inv {p : OPool} (h : p.Inv) {a : Nat} {k : Id} {v : Nat} (hs : p.states a = some (some (k, v))) (v' : Nat) :
    ∃ p', p.write a v' = some p' ∧ p'.Inv ∧ p'.states = p.states.set a (some (some (k, v'))) := by
  obtain ⟨hk, o, hc⟩ := states_full h hs
  refine ⟨p.put a (some ⟨k, some (o, v')⟩), by simp [OPool.write, hc], ⟨?_, ?_⟩, ?_⟩
  · exact h.life.keep fun b => by
      rw [held_put]; split
      · rename_i hb; subst hb; simp [OPool.held, hc]
      · rfl
  · exact ok_put h.ok (by rintro c ⟨rfl⟩; simp [OCell.Ok, hk])
  · rw [put_states]; rfl

theorem OPool.load_inv {p : OPool} (h : p.Inv) {a : Nat} {x} (hs : p.states a = some x) {k : Id} (hk : k ≠ 0#32) (v : Nat) (thr : Bool) :
    ∃ p', p.load a k v thr = some p' ∧ p'.Inv ∧ p'.states = p.states.set a (some (if thr then none else some (k, v))) := by
  obtain ⟨p1, e1, e2, e3⟩ := reset_inv h hs
  unfold OPool.load
  rw [if_neg hk]
  simp only [e1]
  cases thr with
  | true => exact ⟨p1, rfl, e2, e3⟩
  | false =>
    have hc := states_empty e2 (a := a) (by rw [e3, OStates.set_get])
    refine ⟨{ p1.put a (some ⟨k, some (p1.fresh, v)⟩) with fresh := p1.fresh + 1 }, ?_, ⟨?_, ?_⟩, ?_⟩
    · show (p1.construct a v >>= fun p => p.setKey a k) = _
      unfold OPool.construct
      rw [hc]
      show OPool.setKey _ a k = _
      unfold OPool.setKey
      simp only [put_self]
      simp only [Option.some.injEq]
      unfold OPool.put
      congr 1
      funext b
      by_cases hb : b = a <;> simp [hb]
    · refine e2.life.construct (a := a) (by simp [OPool.held, hc]) fun b => ?_
      show (p1.put a (some ⟨k, some (p1.fresh, v)⟩)).held b = _
      rw [held_put]
      rfl
    · exact ok_put (p := p1) e2.ok (by rintro c ⟨rfl⟩; simp [OCell.Ok, hk])
    · show (p1.put a (some ⟨k, some (p1.fresh, v)⟩)).states = _
      rw [put_states, e3, OStates.set_set]
      rfl

theorem OPool.key_eq {p : OPool} (h : p.Inv) {a : Nat} {x} (hs : p.states a = some x) :
    p.key a = some (match x with | none => 0#32 | some (k, _) => k) := by
  cases x with
  | none => simp [OPool.key, states_empty h hs]
  | some kv =>
    obtain ⟨_, o, hc⟩ := states_full h (k := kv.1) (v := kv.2) hs
    simp [OPool.key, hc]

theorem OPool.read_eq {p : OPool} (h : p.Inv) {a : Nat} {k : Id} {v : Nat} (hs : p.states a = some (some (k, v))) : p.read a = some v := by
  obtain ⟨_, o, hc⟩ := states_full h hs
  simp [OPool.read, hc]

theorem OPool.hasValue_eq {p : OPool} (h : p.Inv) {a : Nat} {x} (hs : p.states a = some x) {k : Id} (hk : k ≠ 0#32) :
    p.hasValue a k = some (match x with | none => none | some (k', v) => if k' = k then some v else none) := by
  unfold OPool.hasValue
  rw [if_neg hk]
  cases x with
  | none =>
    have hc := states_empty h hs
    simp [hc, hk.symm]
  | some kv =>
    obtain ⟨k', v⟩ := kv
    obtain ⟨_, o, hc⟩ := states_full h hs
    simp only [hc, read_eq h hs]
    show (if k' = k then _ else _) = _
    split <;> rename_i hkk
    · simp
    · simp

theorem OPool.empty_inv : OPool.empty.Inv := by
  refine ⟨Lifetimes.start.keep fun b => rfl, by simp [OPool.empty]⟩

end Leaf
