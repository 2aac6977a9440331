/-! Accounting of object lifetimes: objects are numbered in order of construction, destructor calls are logged. -/

namespace Leaf

/-- `held a`: the object alive at place `a`. No object is destroyed twice, is at two places or at a place after its destruction; every object is destroyed or somewhere. -/
structure Lifetimes (held : Nat → Option Nat) (fresh : Nat) (dead : List Nat) : Prop where
  nodup : dead.Nodup
  deadLt : ∀ i ∈ dead, i < fresh
  heldLt : ∀ a o, held a = some o → o < fresh ∧ o ∉ dead
  unique : ∀ a b o, held a = some o → held b = some o → a = b
  complete : ∀ i < fresh, i ∈ dead ∨ ∃ a, held a = some i

variable {held held' : Nat → Option Nat} {fresh : Nat} {dead : List Nat}

theorem Lifetimes.start : Lifetimes (fun _ => none) 0 [] :=
  ⟨List.nodup_nil, by simp, by simp, by simp, by simp⟩

theorem Lifetimes.keep (h : Lifetimes held fresh dead) (he : ∀ b, held' b = held b) : Lifetimes held' fresh dead := by
  rw [show held' = held from funext he]
  exact h

/-- The object at `a` is destroyed. -/
theorem Lifetimes.kill (h : Lifetimes held fresh dead) {a o : Nat} (ho : held a = some o) (he : ∀ b, held' b = if b = a then none else held b) :
    Lifetimes held' fresh (o :: dead) := by
  refine ⟨?_, ?_, ?_, ?_, ?_⟩
  · exact List.nodup_cons.mpr ⟨(h.heldLt a o ho).2, h.nodup⟩
  · intro i hi
    simp only [List.mem_cons] at hi
    rcases hi with rfl | hi
    · exact (h.heldLt a i ho).1
    · exact h.deadLt i hi
  · intro b o' hb
    rw [he] at hb
    split at hb
    · simp at hb
    · rename_i hne
      refine ⟨(h.heldLt b o' hb).1, ?_⟩
      simp only [List.mem_cons, not_or]
      refine ⟨?_, (h.heldLt b o' hb).2⟩
      rintro rfl
      exact hne (h.unique b a o' hb ho)
  · intro b c o' hb hc
    rw [he] at hb hc
    split at hb
    · simp at hb
    · split at hc
      · simp at hc
      · exact h.unique b c o' hb hc
  · intro i hi
    rcases h.complete i hi with h1 | ⟨b, hb⟩
    · exact Or.inl (List.mem_cons_of_mem _ h1)
    · by_cases hba : b = a
      · subst hba
        rw [ho] at hb
        cases hb
        exact Or.inl (List.mem_cons_self ..)
      · exact Or.inr ⟨b, by rw [he, if_neg hba]; exact hb⟩

/-- A new object is constructed at `a`, where there was none. -/
theorem Lifetimes.construct (h : Lifetimes held fresh dead) {a : Nat} (ha : held a = none) (he : ∀ b, held' b = if b = a then some fresh else held b) :
    Lifetimes held' (fresh + 1) dead := by
  refine ⟨h.nodup, fun i hi => Nat.lt_succ_of_lt (h.deadLt i hi), ?_, ?_, ?_⟩
  · intro b o hb
    rw [he] at hb
    split at hb
    · cases hb
      exact ⟨Nat.lt_succ_self _, fun hd => Nat.lt_irrefl _ (h.deadLt _ hd)⟩
    · exact ⟨Nat.lt_succ_of_lt (h.heldLt b o hb).1, (h.heldLt b o hb).2⟩
  · intro b c o hb hc
    rw [he] at hb hc
    split at hb
    · rename_i hba
      split at hc
      · rename_i hca; rw [hba, hca]
      · cases hb
        exact absurd (h.heldLt c _ hc).1 (Nat.lt_irrefl _)
    · split at hc
      · cases hc
        exact absurd (h.heldLt b _ hb).1 (Nat.lt_irrefl _)
      · exact h.unique b c o hb hc
  · intro i hi
    rcases Nat.lt_succ_iff_lt_or_eq.mp hi with hlt | rfl
    · rcases h.complete i hlt with h1 | ⟨b, hb⟩
      · exact Or.inl h1
      · refine Or.inr ⟨b, ?_⟩
        rw [he, if_neg]
        · exact hb
        · rintro rfl
          rw [ha] at hb
          simp at hb
    · exact Or.inr ⟨a, by rw [he, if_pos rfl]⟩

/-- What `Lifetimes` says about object number `i`. -/
theorem Lifetimes.alive_or_dead (h : Lifetimes held fresh dead) {i : Nat} (hi : i < fresh) :
    (dead.count i = 1 ∧ ∀ a, held a ≠ some i) ∨ (dead.count i = 0 ∧ ∃ a, held a = some i ∧ ∀ b, held b = some i → b = a) := by
  rcases h.complete i hi with hd | ⟨a, ha⟩
  · exact Or.inl ⟨by rw [h.nodup.count, if_pos hd], fun a ha => (h.heldLt a i ha).2 hd⟩
  · exact Or.inr ⟨List.count_eq_zero.mpr (h.heldLt a i ha).2, a, ha, fun b hb => h.unique b a i hb ha⟩

/-- With nothing alive, every object was destroyed exactly once. -/
theorem Lifetimes.all_dead (h : Lifetimes held fresh dead) (hn : ∀ a, held a = none) {i : Nat} (hi : i < fresh) : dead.count i = 1 := by
  rcases h.alive_or_dead hi with ⟨h1, _⟩ | ⟨_, a, ha, _⟩
  · exact h1
  · rw [hn] at ha; simp at ha

end Leaf
