import Verif.LifeModel
import Verif.GenSim
import Verif.PtrKeep

/-!
# Lifetime of error objects: invariant
-/

namespace Leaf

/-- The slot at address `a` is part of an active context, as an element or as a node of its dynamic allocator. -/
def PtrStore.Owned (m : PtrStore) (a : Addr) : Prop :=
  ∃ f ∈ m.ctxs, ∃ c ∈ f, (∃ ty, c = .obj ty a) ∨ ∃ b d ty, c = .da b ∧ m.dmem b = some d ∧ (ty, a) ∈ d.nodes

/-- The dynamic allocator at address `b` is part of an active context. -/
def PtrStore.OwnedDa (m : PtrStore) (b : Addr) : Prop := ∃ f ∈ m.ctxs, .da b ∈ f

/-- All allocated storage belongs to active contexts. -/
structure PtrStore.NoLeak (m : PtrStore) : Prop where
  slots : ∀ a, m.mem a ≠ none → m.Owned a
  das : ∀ b, m.dmem b ≠ none → m.OwnedDa b
  fresh : ∀ a, m.next ≤ a → m.mem a = none ∧ m.dmem a = none

namespace LifeStore

/-- The record of objects agrees with the storage. -/
structure Objs (l : LifeStore) : Prop where
  cell : ∀ a s, l.base.mem a = some s → s.cell.isSome = (l.obj a).isSome
  free : ∀ a, l.base.mem a = none → l.obj a = none
  inj : ∀ a b o, l.obj a = some o → l.obj b = some o → a = b
  lt : ∀ a o, l.obj a = some o → o < l.built ∧ o ∉ l.dead
  dlt : ∀ o ∈ l.dead, o < l.built
  nodup : l.dead.Nodup
  all : ∀ o, o < l.built → o ∈ l.dead ∨ ∃ a, l.obj a = some o

theorem Objs.reset {l : LifeStore} (h : Objs l) {a : Addr} {s : PSlot} (e : l.base.mem a = some s) :
    ∃ l', l.reset a s.cell = some l' ∧ l'.base = l.base ∧ l'.obj a = none ∧ (∀ b, b ≠ a → l'.obj b = l.obj b) ∧ l'.built = l.built ∧
      (∀ b o, l'.obj b = some o → l.obj b = some o ∧ o < l'.built ∧ o ∉ l'.dead) ∧ (∀ o ∈ l'.dead, o < l'.built) ∧ l'.dead.Nodup ∧
      (∀ o, o < l'.built → o ∈ l'.dead ∨ ∃ b, l'.obj b = some o) := by
  have hc := h.cell a s e
  unfold LifeStore.reset
  cases hs : s.cell with
  | none =>
    rw [hs] at hc
    have ho : l.obj a = none := by cases hh : l.obj a with | none => rfl | some _ => rw [hh] at hc; cases hc
    exact ⟨l, rfl, rfl, ho, fun _ _ => rfl, rfl, fun b o hb => ⟨hb, h.lt b o hb⟩, h.dlt, h.nodup, h.all⟩
  | some kv =>
    rw [hs] at hc
    cases ho : l.obj a with
    | none => rw [ho] at hc; cases hc
    | some o =>
      refine ⟨_, rfl, rfl, by simp [upd], fun b hb => by simp [upd, hb], rfl, ?_, ?_, ?_, ?_⟩
      · intro b o' hb
        by_cases hba : b = a
        · subst hba; simp [upd] at hb
        · simp only [upd, if_neg hba] at hb
          refine ⟨hb, (h.lt b o' hb).1, ?_⟩
          simp only [List.mem_cons, not_or]
          refine ⟨?_, (h.lt b o' hb).2⟩
          intro e2; subst e2
          exact hba (h.inj b a o' hb ho)
      · intro o' ho'
        simp only [List.mem_cons] at ho'
        rcases ho' with rfl | ho'
        · exact (h.lt a _ ho).1
        · exact h.dlt o' ho'
      · exact List.nodup_cons.2 ⟨(h.lt a o ho).2, h.nodup⟩
      · intro o' ho'
        rcases h.all o' ho' with h1 | ⟨b, h1⟩
        · exact .inl (List.mem_cons_of_mem _ h1)
        · by_cases hba : b = a
          · subst hba; rw [ho] at h1; cases h1; exact .inl (List.mem_cons_self ..)
          · exact .inr ⟨b, by simp [upd, hba, h1]⟩

theorem Objs.freeSlot {l : LifeStore} (h : Objs l) {ty : Ty} {a : Addr} {m : PtrStore} (e : PtrStore.freeSlot ty a l.base = some m) :
    ∃ l', l.freeSlot ty a = some l' ∧ l'.base = m ∧ Objs l' := by
  unfold PtrStore.freeSlot at e
  cases hm : l.base.mem a with
  | none => rw [hm] at e; cases e
  | some s =>
    rw [hm] at e
    simp only at e
    split at e
    · cases e
    · rename_i ht
      cases e
      obtain ⟨l', e1, hb, h1, h2, h3, h4, h5, h6, h7⟩ := h.reset hm
      refine ⟨{ l' with base := { l'.base with mem := upd l'.base.mem a none } }, ?_, by rw [hb], ?_⟩
      · simp only [LifeStore.freeSlot, hm, if_neg ht, e1]
      · refine ⟨?_, ?_, ?_, fun b o hb => (h4 b o hb).2, h5, h6, h7⟩
        · intro b s' hs'
          simp only [hb] at hs'
          by_cases hba : b = a
          · subst hba; simp [upd] at hs'
          · simp only [upd, if_neg hba] at hs'
            show s'.cell.isSome = (l'.obj b).isSome
            rw [h2 b hba]
            exact h.cell b s' hs'
        · intro b hs'
          show l'.obj b = none
          simp only [hb] at hs'
          by_cases hba : b = a
          · rw [hba]; exact h1
          · simp only [upd, if_neg hba] at hs'
            rw [h2 b hba]
            exact h.free b hs'
        · intro b b' o hb hb'
          exact h.inj b b' o (h4 b o hb).1 (h4 b' o hb').1

theorem Objs.freeNodes {l : LifeStore} (h : Objs l) {ns : List (Ty × Addr)} {m : PtrStore} (e : PtrStore.freeNodes ns l.base = some m) :
    ∃ l', l.freeNodes ns = some l' ∧ l'.base = m ∧ Objs l' := by
  induction ns generalizing l with
  | nil => cases e; exact ⟨l, rfl, rfl, h⟩
  | cons p ns ih =>
    obtain ⟨ty, a⟩ := p
    simp only [PtrStore.freeNodes] at e
    cases hf : PtrStore.freeSlot ty a l.base with
    | none => rw [hf] at e; cases e
    | some m1 =>
      rw [hf, Option.bind_some] at e
      obtain ⟨l1, e1, hb, h1⟩ := h.freeSlot hf
      rw [← hb] at e
      obtain ⟨l2, e2, hb2, h2⟩ := ih h1 e
      exact ⟨l2, by simp only [LifeStore.freeNodes, e1, Option.bind_some, e2], hb2, h2⟩

/-- Changes to anything but the slots. -/
theorem Objs.withBase {l : LifeStore} (h : Objs l) {m : PtrStore} (e : m.mem = l.base.mem) : Objs { l with base := m } := by
  refine ⟨?_, ?_, h.inj, h.lt, h.dlt, h.nodup, h.all⟩
  · intro a s hs
    simp only [e] at hs
    exact h.cell a s hs
  · intro a hs
    simp only [e] at hs
    exact h.free a hs

theorem Objs.destroy {l : LifeStore} (h : Objs l) {cs : List PCell} {m : PtrStore} (e : PtrStore.destroy cs l.base = some m) :
    ∃ l', l.destroy cs = some l' ∧ l'.base = m ∧ Objs l' := by
  induction cs generalizing l with
  | nil => cases e; exact ⟨l, rfl, rfl, h⟩
  | cons c cs ih =>
    cases c with
    | obj ty a =>
      simp only [PtrStore.destroy] at e
      cases hf : PtrStore.freeSlot ty a l.base with
      | none => rw [hf] at e; cases e
      | some m1 =>
        rw [hf, Option.bind_some] at e
        obtain ⟨l1, e1, hb, h1⟩ := h.freeSlot hf
        rw [← hb] at e
        obtain ⟨l2, e2, hb2, h2⟩ := ih h1 e
        exact ⟨l2, by simp only [LifeStore.destroy, e1, Option.bind_some, e2], hb2, h2⟩
    | da a =>
      simp only [PtrStore.destroy] at e
      cases hd : l.base.dmem a with
      | none => rw [hd] at e; cases e
      | some d =>
        rw [hd] at e
        simp only at e
        split at e
        · cases e
        · rename_i ht
          cases hf : PtrStore.freeNodes d.nodes l.base with
          | none => rw [hf] at e; cases e
          | some m1 =>
            rw [hf] at e
            simp only at e
            obtain ⟨l1, e1, hb, h1⟩ := h.freeNodes hf
            rw [← hb] at e
            obtain ⟨l2, e2, hb2, h2⟩ := ih (l := { l1 with base := { l1.base with dmem := upd l1.base.dmem a none } }) (h1.withBase rfl) e
            exact ⟨l2, by simp only [LifeStore.destroy, hd, if_neg ht, e1, e2], hb2, h2⟩

end LifeStore

namespace PtrStore

/-! ## No leaks -/

theorem freeSlot_spec {ty : Ty} {a : Addr} {m m' : PtrStore} (e : freeSlot ty a m = some m') : m' = { m with mem := upd m.mem a none } := by
  unfold freeSlot at e
  split at e
  · cases e
  · split at e
    · cases e
    · cases e; rfl

theorem freeNodes_spec {ns : List (Ty × Addr)} {m m' : PtrStore} (e : freeNodes ns m = some m') :
    m'.dmem = m.dmem ∧ m'.ctxs = m.ctxs ∧ m'.next = m.next ∧ (∀ a, m'.mem a ≠ none → m.mem a ≠ none) ∧ ∀ p ∈ ns, m'.mem p.2 = none := by
  induction ns generalizing m with
  | nil => cases e; exact ⟨rfl, rfl, rfl, fun _ h => h, fun _ h => by cases h⟩
  | cons p ns ih =>
    obtain ⟨ty, a⟩ := p
    simp only [freeNodes] at e
    cases hf : freeSlot ty a m with
    | none => rw [hf] at e; cases e
    | some m1 =>
      rw [hf, Option.bind_some] at e
      have hs := freeSlot_spec hf
      subst hs
      obtain ⟨h1, h2, h3, h4, h5⟩ := ih e
      have hsub : ∀ b, m'.mem b ≠ none → b ≠ a ∧ m.mem b ≠ none := by
        intro b hb
        have := h4 b hb
        by_cases hba : b = a
        · subst hba; simp [upd] at this
        · simp only [upd, if_neg hba] at this; exact ⟨hba, this⟩
      refine ⟨h1, h2, h3, fun b hb => (hsub b hb).2, ?_⟩
      intro p hp
      rcases List.mem_cons.1 hp with rfl | hp
      · cases hm : m'.mem a with
        | none => rfl
        | some s => exact absurd rfl (hsub a (by rw [hm]; simp)).1
      · exact h5 p hp

/-- The slots of a cell. -/
def HasSlot (dmem : Addr → Option PDa) (c : PCell) (a : Addr) : Prop :=
  (∃ ty, c = .obj ty a) ∨ ∃ b d ty, c = .da b ∧ dmem b = some d ∧ (ty, a) ∈ d.nodes

theorem destroy_spec {cs : List PCell} {m m' : PtrStore} (e : destroy cs m = some m') :
    m'.ctxs = m.ctxs ∧ m'.next = m.next ∧ (∀ a, m'.mem a ≠ none → m.mem a ≠ none) ∧ (∀ c ∈ cs, ∀ a, HasSlot m.dmem c a → m'.mem a = none) ∧
      (∀ b, .da b ∈ cs → m'.dmem b = none) ∧ ∀ b, .da b ∉ cs → m'.dmem b = m.dmem b := by
  induction cs generalizing m with
  | nil =>
    cases e
    exact ⟨rfl, rfl, fun _ h => h, fun _ h => absurd h List.not_mem_nil, fun _ h => absurd h List.not_mem_nil, fun _ _ => rfl⟩
  | cons c cs ih =>
    cases c with
    | obj ty a =>
      simp only [destroy] at e
      cases hf : freeSlot ty a m with
      | none => rw [hf] at e; cases e
      | some m1 =>
        rw [hf, Option.bind_some] at e
        have hs := freeSlot_spec hf
        subst hs
        obtain ⟨h1, h2, h3, h4, h5, h6⟩ := ih e
        have hsub : ∀ b, m'.mem b ≠ none → b ≠ a ∧ m.mem b ≠ none := by
          intro b hb
          have := h3 b hb
          by_cases hba : b = a
          · subst hba; simp [upd] at this
          · simp only [upd, if_neg hba] at this; exact ⟨hba, this⟩
        refine ⟨h1, h2, fun b hb => (hsub b hb).2, ?_, ?_, ?_⟩
        · intro c hc b hb
          rcases List.mem_cons.1 hc with rfl | hc
          · rcases hb with ⟨ty', hb⟩ | ⟨_, _, _, hb, _⟩
            · cases hb
              cases hm : m'.mem a with
              | none => rfl
              | some s => exact absurd rfl (hsub a (by rw [hm]; simp)).1
            · cases hb
          · exact h4 c hc b hb
        · intro b hb
          rcases List.mem_cons.1 hb with hb | hb
          · cases hb
          · exact h5 b hb
        · intro b hb
          exact h6 b (fun hh => hb (List.mem_cons_of_mem _ hh))
    | da x =>
      simp only [destroy] at e
      cases hd : m.dmem x with
      | none => rw [hd] at e; cases e
      | some d =>
        rw [hd] at e
        simp only at e
        split at e
        · cases e
        · cases hf : freeNodes d.nodes m with
          | none => rw [hf] at e; cases e
          | some m1 =>
            rw [hf] at e
            simp only at e
            obtain ⟨g1, g2, g3, g4, g5⟩ := freeNodes_spec hf
            obtain ⟨h1, h2, h3, h4, h5, h6⟩ := ih e
            have gone : ∀ a, m1.mem a = none → m'.mem a = none := by
              intro a ha
              cases hm : m'.mem a with
              | none => rfl
              | some s => exact absurd ha (h3 a (by rw [hm]; simp))
            refine ⟨h1.trans g2, h2.trans g3, fun b hb => g4 b (h3 b hb), ?_, ?_, ?_⟩
            · intro c hc b hb
              rcases List.mem_cons.1 hc with rfl | hc
              · rcases hb with ⟨_, hb⟩ | ⟨y, d', ty, hb, hy, hn⟩
                · cases hb
                · cases hb
                  rw [hd] at hy; cases hy
                  exact gone b (g5 (ty, b) hn)
              · rcases hb with ⟨ty, hb⟩ | ⟨y, d', ty, hb, hy, hn⟩
                · exact h4 c hc b (.inl ⟨ty, hb⟩)
                · by_cases hyx : y = x
                  · subst hyx
                    rw [hd] at hy; cases hy
                    exact gone b (g5 (ty, b) hn)
                  · exact h4 c hc b (.inr ⟨y, d', ty, hb, by simp only [upd, if_neg hyx, g1]; exact hy, hn⟩)
            · intro b hb
              rcases List.mem_cons.1 hb with hb | hb
              · cases hb
                by_cases hin : PCell.da x ∈ cs
                · exact h5 x hin
                · rw [h6 x hin]; simp [upd]
              · exact h5 b hb
            · intro b hb
              rw [h6 b (fun hh => hb (List.mem_cons_of_mem _ hh))]
              have : b ≠ x := fun hh => hb (by rw [hh]; exact List.mem_cons_self ..)
              simp only [upd, if_neg this, g1]

theorem NoLeak.slotSet {m m' : PtrStore} (h : NoLeak m) {ty : Ty} {id : Id} {v : Val} (e : slotSet ty id v m = some m') : NoLeak m' := by
  unfold PtrStore.slotSet at e
  cases ht : m.tls ty with
  | none => rw [ht] at e; cases e
  | some a =>
    rw [ht] at e
    simp only at e
    cases hm : m.mem a with
    | none => rw [hm] at e; cases e
    | some s =>
      rw [hm] at e
      cases e
      refine ⟨?_, h.das, ?_⟩
      · intro b hb
        by_cases hba : b = a
        · subst hba; exact h.slots b (by rw [hm]; simp)
        · simp only [upd, if_neg hba] at hb; exact h.slots b hb
      · intro b hb
        refine ⟨?_, (h.fresh b hb).2⟩
        by_cases hba : b = a
        · subst hba
          have := (h.fresh b hb).1
          rw [hm] at this; cases this
        · simp only [upd, if_neg hba]; exact (h.fresh b hb).1

theorem NoLeak.daReset {m m' : PtrStore} (h : NoLeak m) {id : Id} (e : daReset id m = some m') : NoLeak m' := by
  unfold PtrStore.daReset at e
  cases ht : m.tlsDa with
  | none => rw [ht] at e; cases e
  | some x =>
    rw [ht] at e
    simp only at e
    cases hd : m.dmem x with
    | none => rw [hd] at e; cases e
    | some d =>
      rw [hd] at e
      simp only at e
      cases hf : PtrStore.freeNodes d.nodes m with
      | none => rw [hf] at e; cases e
      | some m1 =>
        rw [hf] at e
        cases e
        obtain ⟨g1, g2, g3, g4, g5⟩ := freeNodes_spec hf
        refine ⟨?_, ?_, ?_⟩
        · intro a ha
          obtain ⟨f, hf', c, hc, hs⟩ := h.slots a (g4 a ha)
          refine ⟨f, by simp only [g2]; exact hf', c, hc, ?_⟩
          rcases hs with hs | ⟨y, d', ty, hs, hy, hn⟩
          · exact .inl hs
          · by_cases hyx : y = x
            · subst hyx
              rw [hd] at hy; cases hy
              exact absurd (g5 (ty, a) hn) ha
            · exact .inr ⟨y, d', ty, hs, by simp only [upd, if_neg hyx, g1]; exact hy, hn⟩
        · intro b hb
          have : m.dmem b ≠ none := by
            by_cases hbx : b = x
            · rw [hbx, hd]; simp
            · simp only [upd, if_neg hbx, g1] at hb; exact hb
          obtain ⟨f, hf', hc⟩ := h.das b this
          exact ⟨f, by simp only [g2]; exact hf', hc⟩
        · intro a ha
          simp only [g3] at ha
          constructor
          · show m1.mem a = none
            cases hm : m1.mem a with
            | none => rfl
            | some s => exact absurd (h.fresh a ha).1 (g4 a (by rw [hm]; simp))
          · have : a ≠ x := by
              intro hh; subst hh
              have := (h.fresh a ha).2
              rw [hd] at this; cases this
            simp only [upd, if_neg this, g1]
            exact (h.fresh a ha).2

theorem NoLeak.daAppend {m m' : PtrStore} (h : NoLeak m) {ty : Ty} {id : Id} {v : Val} (e : daAppend ty id v m = some m') : NoLeak m' := by
  unfold PtrStore.daAppend at e
  cases ht : m.tlsDa with
  | none => rw [ht] at e; cases e
  | some x =>
    rw [ht] at e
    simp only at e
    cases hd : m.dmem x with
    | none => rw [hd] at e; cases e
    | some d =>
      rw [hd] at e
      simp only at e
      split at e
      · cases e
      · split at e
        · cases e
        · cases e
          refine ⟨?_, ?_, ?_⟩
          · intro a ha
            by_cases han : a = m.next
            · obtain ⟨f, hf, hc⟩ := h.das x (by rw [hd]; simp)
              exact ⟨f, hf, _, hc, .inr ⟨x, _, ty, rfl, by simp [upd]; rfl, by simp [han]⟩⟩
            · simp only [upd, if_neg han] at ha
              obtain ⟨f, hf, c, hc, hs⟩ := h.slots a ha
              refine ⟨f, hf, c, hc, ?_⟩
              rcases hs with hs | ⟨y, d', ty', hs, hy, hn⟩
              · exact .inl hs
              · by_cases hyx : y = x
                · subst hyx
                  rw [hd] at hy; cases hy
                  exact .inr ⟨y, _, ty', hs, by simp [upd]; rfl, List.mem_append_left _ hn⟩
                · exact .inr ⟨y, d', ty', hs, by simp only [upd, if_neg hyx]; exact hy, hn⟩
          · intro b hb
            have : m.dmem b ≠ none := by
              by_cases hbx : b = x
              · rw [hbx, hd]; simp
              · simp only [upd, if_neg hbx] at hb; exact hb
            obtain ⟨f, hf', hc⟩ := h.das b this
            exact ⟨f, hf', hc⟩
          · intro a ha
            have ha' : m.next + 1 ≤ a := ha
            have hle : m.next ≤ a := Nat.le_of_succ_le ha'
            have h1 : a ≠ m.next := Ne.symm (Nat.ne_of_lt ha')
            have h2 : a ≠ x := by
              intro hh; subst hh
              have := (h.fresh a hle).2
              rw [hd] at this; cases this
            simp only [upd, if_neg h1, if_neg h2]
            exact h.fresh a hle

/-- What `activate` does to the storage. -/
theorem activate_spec (spec : List CellTy) (m : PtrStore) :
    (activate spec m).2.ctxs = m.ctxs ∧ m.next ≤ (activate spec m).2.next ∧
      (∀ a, a < m.next → (activate spec m).2.mem a = m.mem a ∧ (activate spec m).2.dmem a = m.dmem a) ∧
      (∀ a, m.next ≤ a → a < (activate spec m).2.next → (m.mem a = none → m.dmem a = none →
        ((activate spec m).2.mem a ≠ none → ∃ ty, .obj ty a ∈ (activate spec m).1) ∧ ((activate spec m).2.dmem a ≠ none → .da a ∈ (activate spec m).1))) ∧
      (∀ a, (activate spec m).2.next ≤ a → (activate spec m).2.mem a = m.mem a ∧ (activate spec m).2.dmem a = m.dmem a) ∧
      (∀ a s, m.next ≤ a → a < (activate spec m).2.next → m.mem a = none → (activate spec m).2.mem a = some s → s.cell = none) := by
  induction spec generalizing m with
  | nil => exact ⟨rfl, Nat.le_refl _, fun _ _ => ⟨rfl, rfl⟩, fun a h1 h2 => absurd (Nat.lt_of_lt_of_le h2 h1) (Nat.lt_irrefl _), fun _ _ => ⟨rfl, rfl⟩,
      fun a s h1 h2 => absurd (Nat.lt_of_lt_of_le h2 h1) (Nat.lt_irrefl _)⟩
  | cons c spec ih =>
    cases c with
    | obj ty =>
      let m1 : PtrStore := { m with mem := upd m.mem m.next (some ⟨none, m.tls ty⟩), tls := upd m.tls ty (some m.next), next := m.next + 1 }
      obtain ⟨h1, h2, h3, h4, h5, h6⟩ := ih m1
      show (activate spec m1).2.ctxs = m.ctxs ∧ m.next ≤ (activate spec m1).2.next ∧
        (∀ a, a < m.next → (activate spec m1).2.mem a = m.mem a ∧ (activate spec m1).2.dmem a = m.dmem a) ∧
        (∀ a, m.next ≤ a → a < (activate spec m1).2.next → (m.mem a = none → m.dmem a = none →
        ((activate spec m1).2.mem a ≠ none → ∃ ty', PCell.obj ty' a ∈ PCell.obj ty m.next :: (activate spec m1).1) ∧
          ((activate spec m1).2.dmem a ≠ none → PCell.da a ∈ PCell.obj ty m.next :: (activate spec m1).1))) ∧
        (∀ a, (activate spec m1).2.next ≤ a → (activate spec m1).2.mem a = m.mem a ∧ (activate spec m1).2.dmem a = m.dmem a) ∧
        (∀ a s, m.next ≤ a → a < (activate spec m1).2.next → m.mem a = none → (activate spec m1).2.mem a = some s → s.cell = none)
      have hn : m1.next = m.next + 1 := rfl
      have hmem : ∀ a, a ≠ m.next → m1.mem a = m.mem a := fun a ha => by show upd m.mem _ _ a = _; simp [upd, ha]
      have hself : m1.mem m.next = some ⟨none, m.tls ty⟩ := by show upd m.mem _ _ _ = _; simp [upd]
      refine ⟨h1, Nat.le_trans (Nat.le_succ _) h2, ?_, ?_, ?_, ?_⟩
      · intro a ha
        obtain ⟨g1, g2⟩ := h3 a (Nat.lt_succ_of_lt ha)
        exact ⟨g1.trans (hmem a (Nat.ne_of_lt ha)), g2⟩
      · intro a ha hlt hm hd
        by_cases han : a = m.next
        · subst han
          refine ⟨fun _ => ⟨ty, List.mem_cons_self ..⟩, fun hh => ?_⟩
          exact absurd ((h3 m.next (Nat.lt_succ_self _)).2.trans hd) hh
        · have hle : m1.next ≤ a := Nat.lt_of_le_of_ne ha (Ne.symm han)
          obtain ⟨g1, g2⟩ := h4 a hle hlt ((hmem a han).trans hm) hd
          exact ⟨fun hh => let ⟨t, ht⟩ := g1 hh; ⟨t, List.mem_cons_of_mem _ ht⟩, fun hh => List.mem_cons_of_mem _ (g2 hh)⟩
      · intro a ha
        obtain ⟨g1, g2⟩ := h5 a ha
        have : a ≠ m.next := Ne.symm (Nat.ne_of_lt (Nat.lt_of_lt_of_le (Nat.lt_succ_self _) (Nat.le_trans h2 ha)))
        exact ⟨g1.trans (hmem a this), g2⟩
      · intro a s ha hlt hm hs
        by_cases han : a = m.next
        · subst han
          rw [(h3 m.next (Nat.lt_succ_self _)).1, hself] at hs
          cases hs; rfl
        · exact h6 a s (Nat.lt_of_le_of_ne ha (Ne.symm han)) hlt ((hmem a han).trans hm) hs
    | da =>
      let m1 : PtrStore := { m with dmem := upd m.dmem m.next (some ⟨0#32, [], m.tlsDa⟩), tlsDa := some m.next, next := m.next + 1 }
      obtain ⟨h1, h2, h3, h4, h5, h6⟩ := ih m1
      show (activate spec m1).2.ctxs = m.ctxs ∧ m.next ≤ (activate spec m1).2.next ∧
        (∀ a, a < m.next → (activate spec m1).2.mem a = m.mem a ∧ (activate spec m1).2.dmem a = m.dmem a) ∧
        (∀ a, m.next ≤ a → a < (activate spec m1).2.next → (m.mem a = none → m.dmem a = none →
        ((activate spec m1).2.mem a ≠ none → ∃ ty', PCell.obj ty' a ∈ PCell.da m.next :: (activate spec m1).1) ∧
          ((activate spec m1).2.dmem a ≠ none → PCell.da a ∈ PCell.da m.next :: (activate spec m1).1))) ∧
        (∀ a, (activate spec m1).2.next ≤ a → (activate spec m1).2.mem a = m.mem a ∧ (activate spec m1).2.dmem a = m.dmem a) ∧
        (∀ a s, m.next ≤ a → a < (activate spec m1).2.next → m.mem a = none → (activate spec m1).2.mem a = some s → s.cell = none)
      have hdmem : ∀ a, a ≠ m.next → m1.dmem a = m.dmem a := fun a ha => by show upd m.dmem _ _ a = _; simp [upd, ha]
      refine ⟨h1, Nat.le_trans (Nat.le_succ _) h2, ?_, ?_, ?_, ?_⟩
      · intro a ha
        obtain ⟨g1, g2⟩ := h3 a (Nat.lt_succ_of_lt ha)
        exact ⟨g1, g2.trans (hdmem a (Nat.ne_of_lt ha))⟩
      · intro a ha hlt hm hd
        by_cases han : a = m.next
        · subst han
          refine ⟨fun hh => ?_, fun _ => List.mem_cons_self ..⟩
          exact absurd ((h3 m.next (Nat.lt_succ_self _)).1.trans hm) hh
        · have hle : m1.next ≤ a := Nat.lt_of_le_of_ne ha (Ne.symm han)
          obtain ⟨g1, g2⟩ := h4 a hle hlt hm ((hdmem a han).trans hd)
          exact ⟨fun hh => let ⟨t, ht⟩ := g1 hh; ⟨t, List.mem_cons_of_mem _ ht⟩, fun hh => List.mem_cons_of_mem _ (g2 hh)⟩
      · intro a ha
        obtain ⟨g1, g2⟩ := h5 a ha
        have : a ≠ m.next := Ne.symm (Nat.ne_of_lt (Nat.lt_of_lt_of_le (Nat.lt_succ_self _) (Nat.le_trans h2 ha)))
        exact ⟨g1, g2.trans (hdmem a this)⟩
      · intro a s ha hlt hm hs
        by_cases han : a = m.next
        · subst han
          rw [(h3 m.next (Nat.lt_succ_self _)).1] at hs
          have : m.mem m.next = some s := hs
          rw [hm] at this; cases this
        · exact h6 a s (Nat.lt_of_le_of_ne ha (Ne.symm han)) hlt hm hs

theorem NoLeak.push {m m' : PtrStore} (h : NoLeak m) {spec : List CellTy} (e : push spec m = some m') :
    NoLeak m' ∧ (∀ a, m.mem a ≠ none → m'.mem a = m.mem a) ∧ ∀ a s, m.mem a = none → m'.mem a = some s → s.cell = none := by
  unfold PtrStore.push at e
  split at e
  · cases e
    obtain ⟨h1, h2, h3, h4, h5, h6⟩ := activate_spec spec m
    have old : ∀ a, m.mem a ≠ none → a < m.next := fun a ha => Nat.lt_of_not_le fun hle => ha (h.fresh a hle).1
    have oldD : ∀ a, m.dmem a ≠ none → a < m.next := fun a ha => Nat.lt_of_not_le fun hle => ha (h.fresh a hle).2
    refine ⟨⟨?_, ?_, ?_⟩, fun a ha => (h3 a (old a ha)).1, ?_⟩
    · intro a ha
      by_cases hlt : a < m.next
      · have ha' : m.mem a ≠ none := by rw [← (h3 a hlt).1]; exact ha
        obtain ⟨f, hf, c, hc, hs⟩ := h.slots a ha'
        refine ⟨f, List.mem_cons_of_mem _ (by simp only [h1]; exact hf), c, hc, ?_⟩
        rcases hs with hs | ⟨y, d', ty', hs, hy, hn⟩
        · exact .inl hs
        · exact .inr ⟨y, d', ty', hs, by show (activate spec m).2.dmem y = _; rw [(h3 y (oldD y (by rw [hy]; simp))).2]; exact hy, hn⟩
      · have hle := Nat.le_of_not_lt hlt
        by_cases hlt2 : a < (activate spec m).2.next
        · obtain ⟨ty, ht⟩ := (h4 a hle hlt2 (h.fresh a hle).1 (h.fresh a hle).2).1 ha
          exact ⟨_, List.mem_cons_self .., _, ht, .inl ⟨ty, rfl⟩⟩
        · exact absurd ((h5 a (Nat.le_of_not_lt hlt2)).1.trans (h.fresh a hle).1) ha
    · intro b hb
      by_cases hlt : b < m.next
      · have hb' : m.dmem b ≠ none := by rw [← (h3 b hlt).2]; exact hb
        obtain ⟨f, hf, hc⟩ := h.das b hb'
        exact ⟨f, List.mem_cons_of_mem _ (by simp only [h1]; exact hf), hc⟩
      · have hle := Nat.le_of_not_lt hlt
        by_cases hlt2 : b < (activate spec m).2.next
        · exact ⟨_, List.mem_cons_self .., (h4 b hle hlt2 (h.fresh b hle).1 (h.fresh b hle).2).2 hb⟩
        · exact absurd ((h5 b (Nat.le_of_not_lt hlt2)).2.trans (h.fresh b hle).2) hb
    · intro a ha
      obtain ⟨g1, g2⟩ := h5 a ha
      exact ⟨g1.trans (h.fresh a (Nat.le_trans h2 ha)).1, g2.trans (h.fresh a (Nat.le_trans h2 ha)).2⟩
    · intro a s ha hs
      by_cases hlt : a < m.next
      · have : m.mem a = some s := by rw [← (h3 a hlt).1]; exact hs
        rw [ha] at this; cases this
      · have hle := Nat.le_of_not_lt hlt
        by_cases hlt2 : a < (activate spec m).2.next
        · exact h6 a s hle hlt2 ha hs
        · have : m.mem a = some s := by rw [← (h5 a (Nat.le_of_not_lt hlt2)).1]; exact hs
          rw [ha] at this; cases this
  · cases e

theorem NoLeak.destroyed {m m1 m2 : PtrStore} (h : NoLeak m) {f : List PCell} {fs : List (List PCell)} (hc : m.ctxs = f :: fs) (e1 : deactivate f m = some m1)
    (e2 : destroy f m1 = some m2) : NoLeak { m2 with ctxs := fs } := by
  obtain ⟨k1, k2, k3, k4⟩ := deactivate_keeps _ _ _ e1
  obtain ⟨h1, h2, h3, h4, h5, h6⟩ := destroy_spec e2
  have gone : ∀ c ∈ f, ∀ a, HasSlot m.dmem c a → m2.mem a = none := by rw [← k2]; exact h4
  refine ⟨?_, ?_, ?_⟩
  · intro a ha
    have ha2 : m2.mem a ≠ none := ha
    have ha' : m.mem a ≠ none := by rw [← k3]; exact h3 a ha
    obtain ⟨g, hg, c, hcg, hs⟩ := h.slots a ha'
    rw [hc] at hg
    rcases List.mem_cons.1 hg with rfl | hg
    · exact absurd (gone c hcg a hs) ha2
    · refine ⟨g, hg, c, hcg, ?_⟩
      rcases hs with hs | ⟨y, d', ty', hs, hy, hn⟩
      · exact .inl hs
      · by_cases hyf : PCell.da y ∈ f
        · exact absurd (gone _ hyf a (.inr ⟨y, d', ty', rfl, hy, hn⟩)) ha2
        · exact .inr ⟨y, d', ty', hs, by show m2.dmem y = _; rw [h6 y hyf, k2]; exact hy, hn⟩
  · intro b hb
    have hb2 : m2.dmem b ≠ none := hb
    by_cases hbf : PCell.da b ∈ f
    · exact absurd (h5 b hbf) hb2
    · rw [h6 b hbf, k2] at hb2
      obtain ⟨g, hg, hcg⟩ := h.das b hb2
      rw [hc] at hg
      rcases List.mem_cons.1 hg with rfl | hg
      · exact absurd hcg hbf
      · exact ⟨g, hg, hcg⟩
  · intro a ha
    have ha' : m.next ≤ a := by
      have : m2.next ≤ a := ha
      rw [h2, k4] at this; exact this
    constructor
    · show m2.mem a = none
      cases hm : m2.mem a with
      | none => rfl
      | some s =>
        have := h3 a (by rw [hm]; simp)
        rw [k3] at this
        exact absurd (h.fresh a ha').1 this
    · show m2.dmem a = none
      by_cases hbf : PCell.da a ∈ f
      · exact h5 a hbf
      · rw [h6 a hbf, k2]; exact (h.fresh a ha').2

end PtrStore

/-! ## The correspondence -/

/-- The storage with a record of the objects does what the storage does. -/
def lifeSim : StoreSim LifeStore PtrStore where
  R l m := l.base = m ∧ l.Objs ∧ m.NoLeak
  Good _ := True
  slotGet ty l m a h _ e := by obtain ⟨rfl, _⟩ := h; exact e
  daKey l m a h _ e := by obtain ⟨rfl, _⟩ := h; exact e
  slotSet_good _ _ _ _ _ _ _ := trivial
  slotSet ty id v l m m' h _ e := by
    obtain ⟨rfl, ho, hl⟩ := h
    have hl' : PtrStore.NoLeak m' := hl.slotSet e
    replace e : PtrStore.slotSet ty id v l.base = some m' := e
    show ∃ l', LifeStore.slotSet ty id v l = some l' ∧ _
    unfold PtrStore.slotSet at e
    cases ht : l.base.tls ty with
    | none => rw [ht] at e; cases e
    | some a =>
      rw [ht] at e
      simp only at e
      cases hm : l.base.mem a with
      | none => rw [hm] at e; cases e
      | some s =>
        rw [hm] at e
        cases e
        obtain ⟨l1, e1, hb, h1, h2, h3, h4, h5, h6, h7⟩ := ho.reset hm
        refine ⟨{ l1.construct a with base := { l1.base with mem := upd l1.base.mem a (some { s with cell := some (id, v) }) } }, by simp only [LifeStore.slotSet, ht, hm, e1]; rfl,
          by simp only [hb], ?_, hl'⟩
        refine ⟨?_, ?_, ?_, ?_, ?_, h6, ?_⟩
        · intro b s' hs'
          simp only [LifeStore.construct, hb] at hs' ⊢
          by_cases hba : b = a
          · subst hba
            simp only [upd, if_true] at hs' ⊢
            cases hs'; rfl
          · simp only [upd, if_neg hba] at hs' ⊢
            rw [h2 b hba]
            exact ho.cell b s' hs'
        · intro b hs'
          simp only [LifeStore.construct, hb] at hs' ⊢
          by_cases hba : b = a
          · subst hba
            simp [upd] at hs'
          · simp only [upd, if_neg hba] at hs' ⊢
            rw [h2 b hba]
            exact ho.free b hs'
        · intro b b' o hb1 hb2
          simp only [LifeStore.construct] at hb1 hb2
          by_cases hba : b = a <;> by_cases hba' : b' = a
          · rw [hba, hba']
          · simp only [upd, if_pos hba, if_neg hba'] at hb1 hb2
            cases hb1
            exact absurd (h4 b' _ hb2).2.1 (Nat.lt_irrefl _)
          · simp only [upd, if_neg hba, if_pos hba'] at hb1 hb2
            cases hb2
            exact absurd (h4 b _ hb1).2.1 (Nat.lt_irrefl _)
          · simp only [upd, if_neg hba, if_neg hba'] at hb1 hb2
            exact ho.inj b b' o (h4 b o hb1).1 (h4 b' o hb2).1
        · intro b o hb1
          simp only [LifeStore.construct] at hb1 ⊢
          by_cases hba : b = a
          · simp only [upd, if_pos hba] at hb1
            cases hb1
            exact ⟨Nat.lt_succ_self _, fun hh => absurd (h5 _ hh) (Nat.lt_irrefl _)⟩
          · simp only [upd, if_neg hba] at hb1
            exact ⟨Nat.lt_succ_of_lt (h4 b o hb1).2.1, (h4 b o hb1).2.2⟩
        · intro o hd
          exact Nat.lt_succ_of_lt (h5 o hd)
        · intro o hlt
          simp only [LifeStore.construct] at hlt ⊢
          rcases Nat.lt_succ_iff_lt_or_eq.1 hlt with hlt | rfl
          · rcases h7 o hlt with hd | ⟨b, hb1⟩
            · exact .inl hd
            · refine .inr ⟨b, ?_⟩
              have : b ≠ a := by intro hh; rw [hh, h1] at hb1; cases hb1
              simp only [upd, if_neg this]; exact hb1
          · exact .inr ⟨a, by simp [upd]⟩
  daReset_good _ _ _ _ _ := trivial
  daReset id l m m' h _ e := by
    obtain ⟨rfl, ho, hl⟩ := h
    have hl' : PtrStore.NoLeak m' := hl.daReset e
    replace e : PtrStore.daReset id l.base = some m' := e
    show ∃ l', LifeStore.daReset id l = some l' ∧ _
    unfold PtrStore.daReset at e
    cases ht : l.base.tlsDa with
    | none => rw [ht] at e; cases e
    | some x =>
      rw [ht] at e
      simp only at e
      cases hd : l.base.dmem x with
      | none => rw [hd] at e; cases e
      | some d =>
        rw [hd] at e
        simp only at e
        cases hf : PtrStore.freeNodes d.nodes l.base with
        | none => rw [hf] at e; cases e
        | some m1 =>
          rw [hf] at e
          cases e
          obtain ⟨l1, e1, hb, h1⟩ := ho.freeNodes hf
          refine ⟨{ l1 with base := { l1.base with dmem := upd l1.base.dmem x (some { d with key := id, nodes := [] }) } }, by simp only [LifeStore.daReset, ht, hd, e1],
            by simp only [hb], h1.withBase rfl, hl'⟩
  daAppend_good _ _ _ _ _ _ _ := trivial
  daAppend ty id v l m m' h _ e := by
    obtain ⟨rfl, ho, hl⟩ := h
    have hl' : PtrStore.NoLeak m' := hl.daAppend e
    replace e : PtrStore.daAppend ty id v l.base = some m' := e
    show ∃ l', LifeStore.daAppend ty id v l = some l' ∧ _
    refine ⟨{ l.construct l.base.next with base := m' }, by simp only [LifeStore.daAppend, e], rfl, ?_, hl'⟩
    have hmem : m'.mem = upd l.base.mem l.base.next (some ⟨some (id, v), l.base.tls ty⟩) := by
      unfold PtrStore.daAppend at e
      repeat' split at e
      all_goals first | cases e | skip
      rename_i hh
      rw [hh]
    have hn : l.obj l.base.next = none := ho.free _ (hl.fresh _ (Nat.le_refl _)).1
    refine ⟨?_, ?_, ?_, ?_, ?_, ho.nodup, ?_⟩
    · intro b s' hs'
      simp only [LifeStore.construct, hmem] at hs' ⊢
      by_cases hba : b = l.base.next
      · simp only [upd, if_pos hba] at hs' ⊢
        cases hs'; rfl
      · simp only [upd, if_neg hba] at hs' ⊢
        exact ho.cell b s' hs'
    · intro b hs'
      simp only [LifeStore.construct, hmem] at hs' ⊢
      by_cases hba : b = l.base.next
      · simp [upd, hba] at hs'
      · simp only [upd, if_neg hba] at hs' ⊢
        exact ho.free b hs'
    · intro b b' o hb1 hb2
      simp only [LifeStore.construct] at hb1 hb2
      by_cases hba : b = l.base.next <;> by_cases hba' : b' = l.base.next
      · rw [hba, hba']
      · simp only [upd, if_pos hba, if_neg hba'] at hb1 hb2
        cases hb1
        exact absurd (ho.lt b' _ hb2).1 (Nat.lt_irrefl _)
      · simp only [upd, if_neg hba, if_pos hba'] at hb1 hb2
        cases hb2
        exact absurd (ho.lt b _ hb1).1 (Nat.lt_irrefl _)
      · simp only [upd, if_neg hba, if_neg hba'] at hb1 hb2
        exact ho.inj b b' o hb1 hb2
    · intro b o hb1
      simp only [LifeStore.construct] at hb1 ⊢
      by_cases hba : b = l.base.next
      · simp only [upd, if_pos hba] at hb1
        cases hb1
        exact ⟨Nat.lt_succ_self _, fun hh => absurd (ho.dlt _ hh) (Nat.lt_irrefl _)⟩
      · simp only [upd, if_neg hba] at hb1
        exact ⟨Nat.lt_succ_of_lt (ho.lt b o hb1).1, (ho.lt b o hb1).2⟩
    · intro o hd
      exact Nat.lt_succ_of_lt (ho.dlt o hd)
    · intro o hlt
      simp only [LifeStore.construct] at hlt ⊢
      rcases Nat.lt_succ_iff_lt_or_eq.1 hlt with hlt | rfl
      · rcases ho.all o hlt with hd | ⟨b, hb1⟩
        · exact .inl hd
        · refine .inr ⟨b, ?_⟩
          have : b ≠ l.base.next := by intro hh; rw [hh, hn] at hb1; cases hb1
          simp only [upd, if_neg this]; exact hb1
      · exact .inr ⟨l.base.next, by simp [upd]⟩
  push_good _ _ _ _ _ := trivial
  push spec l m m' h _ e := by
    obtain ⟨rfl, ho, hl⟩ := h
    replace e : PtrStore.push spec l.base = some m' := e
    obtain ⟨hl', h1, h2⟩ := hl.push e
    show ∃ l', LifeStore.push spec l = some l' ∧ _
    refine ⟨{ l with base := m' }, by simp only [LifeStore.push, e], rfl, ?_, hl'⟩
    refine ⟨?_, ?_, ho.inj, ho.lt, ho.dlt, ho.nodup, ho.all⟩
    · intro a s hs
      simp only at hs ⊢
      cases hm : l.base.mem a with
      | none => rw [h2 a s hm hs, ho.free a hm]; rfl
      | some s' =>
        rw [h1 a (by rw [hm]; simp), hm] at hs
        cases hs
        exact ho.cell a s hm
    · intro a hs
      simp only at hs ⊢
      cases hm : l.base.mem a with
      | none => exact ho.free a hm
      | some s' =>
        rw [h1 a (by rw [hm]; simp), hm] at hs
        cases hs
  pop_good _ _ _ _ _ := trivial
  pop l m c m' h _ e := by
    obtain ⟨rfl, ho, hl⟩ := h
    replace e : PtrStore.pop l.base = some (c, m') := e
    show ∃ l', LifeStore.pop l = some (c, l') ∧ _
    unfold PtrStore.pop at e
    cases hc : l.base.ctxs with
    | nil => rw [hc] at e; cases e
    | cons f fs =>
      rw [hc] at e
      simp only at e
      cases h1 : PtrStore.deactivate f l.base with
      | none => rw [h1] at e; cases e
      | some m1 =>
        rw [h1] at e
        simp only at e
        cases h2 : PtrStore.readOut f m1 with
        | none => rw [h2] at e; cases e
        | some cells =>
          cases h3 : PtrStore.destroy f m1 with
          | none => rw [h2, h3] at e; cases e
          | some m2 =>
            rw [h2, h3] at e
            cases e
            obtain ⟨_, _, k3, _⟩ := PtrStore.deactivate_keeps _ _ _ h1
            obtain ⟨l2, e2, hb, ho2⟩ := LifeStore.Objs.destroy (l := { l with base := m1 }) (ho.withBase k3) h3
            refine ⟨{ l2 with base := { l2.base with ctxs := fs } }, by simp only [LifeStore.pop, hc, h1, h2, e2], by simp only [hb], ho2.withBase rfl, hl.destroyed hc h1 h3⟩

end Leaf
