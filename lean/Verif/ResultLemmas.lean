import Verif.ResultModel

/-! Lemmas about the model of `result<T>`. -/

namespace Leaf

/-- The union member alive at `a`. -/
def RPool.held (p : RPool) (a : Nat) : Option Nat := (p.objs a).bind (·.u.obj)

/-- Lifetimes: no member is destroyed twice, no member held by two results or held after destruction, every member is destroyed or held. -/
structure RPool.Life (p : RPool) : Prop where
  nodup : p.dead.Nodup
  deadLt : ∀ i ∈ p.dead, i < p.fresh
  heldLt : ∀ a o, p.held a = some o → o < p.fresh ∧ o ∉ p.dead
  unique : ∀ a b o, p.held a = some o → p.held b = some o → a = b
  complete : ∀ i < p.fresh, i ∈ p.dead ∨ ∃ a, p.held a = some i

/-- Discriminant and union agree. -/
def RObj.Ok (r : RObj) : Prop :=
  (r.what = 3#32 ∧ ∃ o v, r.u = .stored o v) ∨ (kind r.what = 2#32 ∧ ∃ o l, r.u = .cap o l) ∨ ((r.what = 0#32 ∨ r.what.Tagged) ∧ r.u = .raw)

structure RPool.Inv (p : RPool) : Prop where
  life : p.Life
  ok : ∀ a r, p.objs a = some r → r.Ok

theorem held_put (p : RPool) (a : Nat) (x : Option RObj) (b : Nat) : (p.put a x).held b = if b = a then x.bind (·.u.obj) else p.held b := by
  unfold RPool.held RPool.put
  by_cases h : b = a <;> simp [h]

theorem life_put {p : RPool} (h : p.Life) {a : Nat} {x : Option RObj} (hx : x.bind (·.u.obj) = p.held a) : (p.put a x).Life := by
  have hh : ∀ b, (p.put a x).held b = p.held b := by
    intro b
    rw [held_put]
    split
    · rename_i hb; rw [hb, hx]
    · rfl
  exact ⟨h.nodup, h.deadLt, fun b o hb => h.heldLt b o (by rw [← hh]; exact hb), fun b c o hb hc => h.unique b c o (by rw [← hh]; exact hb) (by rw [← hh]; exact hc),
    fun i hi => (h.complete i hi).imp (fun h => h) fun ⟨b, hb⟩ => ⟨b, by rw [hh]; exact hb⟩⟩

theorem life_kill {p : RPool} (h : p.Life) {a o : Nat} (ho : p.held a = some o) {x : Option RObj} (hx : x.bind (·.u.obj) = none) :
    RPool.Life { p.put a x with dead := o :: p.dead } := by
  have hh : ∀ b, RPool.held { p.put a x with dead := o :: p.dead } b = if b = a then none else p.held b := by
    intro b
    show (p.put a x).held b = _
    rw [held_put, hx]
  refine ⟨?_, ?_, ?_, ?_, ?_⟩
  · show (o :: p.dead).Nodup
    exact List.nodup_cons.mpr ⟨(h.heldLt a o ho).2, h.nodup⟩
  · intro i hi
    simp only [List.mem_cons] at hi
    rcases hi with rfl | hi
    · exact (h.heldLt a i ho).1
    · exact h.deadLt i hi
  · intro b o' hb
    rw [hh] at hb
    split at hb
    · simp at hb
    · rename_i hne
      refine ⟨(h.heldLt b o' hb).1, ?_⟩
      simp only [List.mem_cons, not_or]
      refine ⟨?_, (h.heldLt b o' hb).2⟩
      rintro rfl
      exact hne (h.unique b a o' hb ho)
  · intro b c o' hb hc
    rw [hh] at hb hc
    split at hb
    · simp at hb
    · split at hc
      · simp at hc
      · exact h.unique b c o' hb hc
  · intro i hi
    rcases h.complete i hi with h1 | ⟨b, hb⟩
    · exact Or.inl (List.mem_cons_of_mem _ h1)
    · by_cases hba : b = a
      · subst hba
        rw [ho] at hb
        cases hb
        exact Or.inl (List.mem_cons_self ..)
      · exact Or.inr ⟨b, by rw [hh, if_neg hba]; exact hb⟩

theorem life_construct {p : RPool} (h : p.Life) {a : Nat} (ha : p.held a = none) {x : Option RObj} (hx : x.bind (·.u.obj) = some p.fresh) :
    RPool.Life { p.put a x with fresh := p.fresh + 1 } := by
  have hh : ∀ b, RPool.held { p.put a x with fresh := p.fresh + 1 } b = if b = a then some p.fresh else p.held b := by
    intro b
    show (p.put a x).held b = _
    rw [held_put, hx]
  refine ⟨h.nodup, fun i hi => Nat.lt_succ_of_lt (h.deadLt i hi), ?_, ?_, ?_⟩
  · intro b o hb
    rw [hh] at hb
    split at hb
    · cases hb
      exact ⟨Nat.lt_succ_self _, fun hd => Nat.lt_irrefl _ (h.deadLt _ hd)⟩
    · exact ⟨Nat.lt_succ_of_lt (h.heldLt b o hb).1, (h.heldLt b o hb).2⟩
  · intro b c o hb hc
    rw [hh] at hb hc
    split at hb
    · rename_i hba
      split at hc
      · rename_i hca; rw [hba, hca]
      · cases hb
        exact absurd (h.heldLt c _ hc).1 (Nat.lt_irrefl _)
    · split at hc
      · cases hc
        exact absurd (h.heldLt b _ hb).1 (Nat.lt_irrefl _)
      · exact h.unique b c o hb hc
  · intro i hi
    rcases Nat.lt_succ_iff_lt_or_eq.mp hi with hlt | rfl
    · rcases h.complete i hlt with h1 | ⟨b, hb⟩
      · exact Or.inl h1
      · refine Or.inr ⟨b, ?_⟩
        rw [hh, if_neg]
        · exact hb
        · rintro rfl
          rw [ha] at hb
          simp at hb
    · exact Or.inr ⟨a, by rw [hh, if_pos rfl]⟩

theorem kind_tagged {x : Id} (h : x.Tagged) : kind x = 1#32 := h
theorem kind_zero : kind 0#32 = 0#32 := rfl
theorem kind_val : kind whatVal = 3#32 := by decide

theorem cap_toNat (x : Id) : ((x &&& ~~~3#32) ||| 2#32).toNat = 4 * (x.toNat / 4) + 2 := by
  have h3 : (~~~3#32 : Id).toNat = 4294967292 := by decide
  rw [BitVec.toNat_or, BitVec.toNat_and, h3, nat_and_not3 _ x.isLt]
  exact nat_or2 _

theorem kind_cap (x : Id) : kind ((x &&& ~~~3#32) ||| 2#32) = 2#32 := by
  apply BitVec.eq_of_toNat_eq
  unfold kind
  rw [and3_toNat, cap_toNat]
  simp

theorem errorId_cap {x : Id} (h : x.Tagged) : makeErrorId ((((x &&& ~~~3#32) ||| 2#32) &&& ~~~3#32) ||| 1#32) = x := by
  have h1 : ((((x &&& ~~~3#32) ||| 2#32) &&& ~~~3#32) ||| 1#32) = makeErrorId ((x &&& ~~~3#32) ||| 2#32) := rfl
  rw [h1, makeErrorId_of_tagged (makeErrorId_tagged _)]
  apply BitVec.eq_of_toNat_eq
  rw [makeErrorId_toNat, cap_toNat]
  rw [tagged_iff] at h
  omega

theorem errorId_double (x : Id) : makeErrorId ((x &&& ~~~3#32) ||| 1#32) = makeErrorId x := by
  show makeErrorId (makeErrorId x) = makeErrorId x
  exact makeErrorId_of_tagged (makeErrorId_tagged x)

end Leaf
