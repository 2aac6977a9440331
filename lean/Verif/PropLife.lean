import Verif.LifeLemmas
import Verif.PropArr

/-!
# C61: error objects in scopes are destroyed exactly once, storage is not leaked
-/

namespace Leaf

/-- The object numbered `o` lives in the slot at address `a`, and that slot belongs to an active scope and is not empty. -/
def Held (l : LifeStore) (o : Nat) (a : Addr) : Prop :=
  l.obj a = some o ∧ l.base.Owned a ∧ ∃ s k v, l.base.mem a = some s ∧ s.cell = some (k, v)

/-- States of the storage in which the record is complete: every object constructed so far was destroyed once, or it is held by exactly one slot of an active scope, and not both;
every non-empty slot holds an object; all allocated storage belongs to active scopes, and new addresses are unused. -/
structure Accounted (l : LifeStore) : Prop where
  once : l.dead.Nodup
  known : ∀ o ∈ l.dead, o < l.built
  held : ∀ o, o < l.built → o ∈ l.dead ∨ ∃ a, Held l o a
  alive : ∀ o a, Held l o a → o < l.built ∧ o ∉ l.dead
  one : ∀ o a b, Held l o a → Held l o b → a = b
  full : ∀ a s k v, l.base.mem a = some s → s.cell = some (k, v) → ∃ o, Held l o a
  empty : ∀ a, (∀ s, l.base.mem a = some s → s.cell = none) → l.obj a = none
  noLeak : l.base.NoLeak

theorem Accounted.of {l : LifeStore} (h : l.Objs) (hl : l.base.NoLeak) : Accounted l := by
  have held : ∀ o a, l.obj a = some o → Held l o a := by
    intro o a ho
    cases hm : l.base.mem a with
    | none => rw [h.free a hm] at ho; cases ho
    | some s =>
      have hc := h.cell a s hm
      rw [ho] at hc
      cases hs : s.cell with
      | none => rw [hs] at hc; cases hc
      | some kv => exact ⟨ho, hl.slots a (by rw [hm]; simp), s, kv.1, kv.2, hm, hs⟩
  refine ⟨h.nodup, h.dlt, ?_, fun o a ha => h.lt a o ha.1, fun o a b ha hb => h.inj a b o ha.1 hb.1, ?_, ?_, hl⟩
  · intro o ho
    rcases h.all o ho with h1 | ⟨a, h1⟩
    · exact .inl h1
    · exact .inr ⟨a, held o a h1⟩
  · intro a s k v hm hs
    have hc := h.cell a s hm
    rw [hs] at hc
    cases ho : l.obj a with
    | none => rw [ho] at hc; cases hc
    | some o => exact ⟨o, held o a ho⟩
  · intro a ha
    cases hm : l.base.mem a with
    | none => exact h.free a hm
    | some s =>
      have hc := h.cell a s hm
      rw [ha s hm] at hc
      cases ho : l.obj a with
      | none => rfl
      | some o => rw [ho] at hc; cases hc

theorem Accounted.objs {l : LifeStore} (h : Accounted l) : l.Objs := by
  have hh : ∀ a o, l.obj a = some o → Held l o a := by
    intro a o ho
    cases hm : l.base.mem a with
    | none =>
      have := h.empty a (by intro s hs; rw [hm] at hs; cases hs)
      rw [ho] at this; cases this
    | some s =>
      cases hs : s.cell with
      | none =>
        have := h.empty a (by intro s' hs'; rw [hm] at hs'; cases hs'; exact hs)
        rw [ho] at this; cases this
      | some kv => exact ⟨ho, h.noLeak.slots a (by rw [hm]; simp), s, kv.1, kv.2, hm, hs⟩
  refine ⟨?_, ?_, fun a b o ha hb => h.one o a b (hh a o ha) (hh b o hb), fun a o ha => h.alive o a (hh a o ha), h.known, h.once, ?_⟩
  · intro a s hm
    cases hs : s.cell with
    | none => rw [h.empty a (by intro s' hs'; rw [hm] at hs'; cases hs'; exact hs)]; rfl
    | some kv =>
      obtain ⟨o, ho⟩ := h.full a s kv.1 kv.2 hm hs
      rw [ho.1]; rfl
  · intro a hm
    exact h.empty a (by intro s hs; rw [hm] at hs; cases hs)
  · intro o ho
    rcases h.held o ho with h1 | ⟨a, h1⟩
    · exact .inl h1
    · exact .inr ⟨a, h1.1⟩

/-- **C61**, any program in any state: if the run of a program is free of undefined behaviour, then so is the run that keeps the record (no destructor is called for an object that is not there),
it does the same, and the record is complete when the program finishes: every error object ever constructed in a slot has been destroyed exactly once or is held by exactly one slot of a scope
that is still active; no storage but that of active scopes is allocated. -/
theorem C61_accounted (cfg : Cfg) (p : Prog) (w : World PtrStore) (o : Out) (w' : World PtrStore) (h : (eval cfg p : Comp PtrStore Out) w = some (o, w'))
    (l : LifeStore) (hl : l.base = w.mem) (ha : Accounted l) :
    ∃ l', (eval cfg p : Comp LifeStore Out) (withMem w l) = some (o, withMem w' l') ∧ l'.base = w'.mem ∧ Accounted l' := by
  obtain ⟨l', e, h1, h2, h3⟩ := ssim_run lifeSim cfg p w o w' l h trivial ⟨hl, ha.objs, by rw [← hl]; exact ha.noLeak⟩
  exact ⟨l', e, h1, .of h2 (by rw [h1]; exact h3)⟩

/-- **C61**, a program in a new thread: it runs without undefined behaviour (C11); when it is done, every object constructed has been destroyed, exactly once, and nothing is allocated. -/
theorem C61_thread (cfg : Cfg) (p : Prog) (hp : p.WF cfg false) (n : Id) (hn : Id.Tagged n) :
    ∃ o w' l', (eval cfg p : Comp PtrStore Out) (initThread n) = some (o, w') ∧
      (eval cfg p : Comp LifeStore Out) (withMem (initThread n) LifeStore.empty) = some (o, withMem w' l') ∧ l'.base = w'.mem ∧
      l'.dead.Nodup ∧ (∀ x, x ∈ l'.dead ↔ x < l'.built) ∧ ∀ a, w'.mem.mem a = none ∧ w'.mem.dmem a = none := by
  have hw : ThreadOk (initThread n) := threadOk_init hn
  obtain ⟨o, w', e, _, hs, _⟩ := C10_bindings_restored cfg p hp (initThread n) hw (fun _ => (noCapturing_iff _).mpr (by intro f hf; cases hf))
  have h0 : Accounted LifeStore.empty := by
    refine ⟨List.nodup_nil, fun _ h => absurd h List.not_mem_nil, fun o h => absurd h (Nat.not_lt_zero o), ?_, ?_, ?_, fun _ _ => rfl, ?_⟩
    · intro o a h; cases h.1
    · intro o a b h; cases h.1
    · intro a s k v h; cases h
    · exact ⟨fun a h => absurd rfl h, fun a h => absurd rfl h, fun _ _ => ⟨rfl, rfl⟩⟩
  obtain ⟨l', e1, e2, ha⟩ := C61_accounted cfg p (initThread n) o w' e LifeStore.empty rfl h0
  have hc : w'.mem.ctxs = [] := List.eq_nil_of_length_eq_zero hs
  have hfree : ∀ a, w'.mem.mem a = none ∧ w'.mem.dmem a = none := by
    intro a
    constructor
    · cases hm : w'.mem.mem a with
      | none => rfl
      | some s =>
        obtain ⟨f, hf, _⟩ := ha.noLeak.slots a (by rw [e2, hm]; simp)
        rw [e2, hc] at hf; cases hf
    · cases hm : w'.mem.dmem a with
      | none => rfl
      | some s =>
        obtain ⟨f, hf, _⟩ := ha.noLeak.das a (by rw [e2, hm]; simp)
        rw [e2, hc] at hf; cases hf
  refine ⟨o, w', l', e, e1, e2, ha.once, ?_, hfree⟩
  intro x
  refine ⟨ha.known x, fun hx => ?_⟩
  rcases ha.held x hx with h1 | ⟨a, _, _, s, _, _, hm, _⟩
  · exact h1
  · rw [e2, (hfree a).1] at hm; cases hm

/-! ## Examples -/

/-- Numbers of objects constructed and destroyed, latest destroyed first. -/
def lifeOf (cfg : Cfg) (p : Prog) : Option (Nat × List Nat) :=
  ((eval cfg p : Comp LifeStore Out) (withMem (initThread 1#32) LifeStore.empty)).map fun r => (r.2.mem.built, r.2.mem.dead)

/-- An object replaced by another one of the type; an error handled in the inner scope, whose handler reports another one; its object is captured, then delivered to a scope. -/
def exLife : Prog :=
  .bind (.captureAll (.handleSome [[.req 10, .req 11], []]
      (.newError [.obj 10 1, .obj 10 2] fun a => .ret (.err (.plain a))) (fun _ _ => .newError [.obj 30 6] fun a => .ret (.err (.plain a)))))
    (fun v => .ret (.val v)) (fun r => .handleAll [[.req 20], [.req 30], []] (.unload r) (fun i _ => .ret (.val i)))

example : exLife.WF exCfg false := by
  refine ⟨⟨rfl, ⟨by simp [Item.Ok], fun _ _ => trivial⟩, fun _ _ _ => ⟨by simp [Item.Ok], fun _ _ => trivial⟩⟩, fun _ => trivial, fun r hr => ⟨⟨[[.req 20], [.req 30]], [], rfl, rfl⟩, hr, fun _ _ _ => ⟨trivial, by simp [Prog.NoErr]⟩⟩⟩
example : lifeOf exCfg exLife = some (4, [3, 2, 1, 0]) := by decide +kernel
example : Id.Tagged 1#32 := by decide

end Leaf
