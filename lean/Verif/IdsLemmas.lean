import Verif.Ids

/-! Helper lemmas about the bit arithmetic of ids. -/

namespace Leaf

theorem and3_toNat (a : Id) : (a &&& 3#32).toNat = a.toNat % 4 := by
  rw [BitVec.toNat_and]
  exact Nat.and_two_pow_sub_one_eq_mod a.toNat 2

theorem tagged_iff (a : Id) : a.Tagged ↔ a.toNat % 4 = 1 := by
  unfold Id.Tagged
  constructor
  · intro h
    have := congrArg BitVec.toNat h
    rw [and3_toNat] at this
    simpa using this
  · intro h
    apply BitVec.eq_of_toNat_eq
    rw [and3_toNat, h]; rfl

theorem nat_and_not3 (n : Nat) (h : n < 2 ^ 32) : n &&& 4294967292 = 4 * (n / 4) := by
  apply Nat.eq_of_testBit_eq
  intro i
  have e : (4294967292 : Nat) = 2 ^ 2 * (2 ^ 30 - 1) + 0 := by decide
  have e2 : 4 * (n / 4) = 2 ^ 2 * (n / 2 ^ 2) + 0 := by simp
  rw [e2, e, Nat.testBit_and, Nat.testBit_two_pow_mul_add _ (by decide),
    Nat.testBit_two_pow_mul_add _ (by decide)]
  by_cases hi : i < 2
  · simp [hi]
  · simp only [hi, if_false, Nat.testBit_two_pow_sub_one, Nat.testBit_div_two_pow]
    have : i - 2 + 2 = i := by omega
    rw [this]
    by_cases h3 : i - 2 < 30
    · simp [h3]
    · have : n.testBit i = false := by
        apply Nat.testBit_lt_two_pow
        exact Nat.lt_of_lt_of_le h (Nat.pow_le_pow_right (by decide) (by omega))
      simp [h3, this]

theorem nat_or1 (n : Nat) : (4 * n) ||| 1 = 4 * n + 1 := by
  have := Nat.two_pow_add_eq_or_of_lt (i := 2) (b := 1) (by decide) n
  simpa using this.symm

theorem nat_or2 (n : Nat) : (4 * n) ||| 2 = 4 * n + 2 := by
  have := Nat.two_pow_add_eq_or_of_lt (i := 2) (b := 2) (by decide) n
  simpa using this.symm

theorem makeErrorId_toNat (a : Id) : (makeErrorId a).toNat = 4 * (a.toNat / 4) + 1 := by
  unfold makeErrorId
  rw [BitVec.toNat_or, BitVec.toNat_and]
  have : (~~~3#32).toNat = 4294967292 := by decide
  rw [this, nat_and_not3 _ a.isLt]
  have : (1#32).toNat = 1 := by decide
  rw [this, nat_or1]

theorem makeErrorId_tagged (a : Id) : (makeErrorId a).Tagged := by
  rw [tagged_iff, makeErrorId_toNat]; omega

theorem makeErrorId_of_tagged {a : Id} (h : a.Tagged) : makeErrorId a = a := by
  apply BitVec.eq_of_toNat_eq
  rw [makeErrorId_toNat]
  rw [tagged_iff] at h
  omega

theorem tagged_ne_zero {a : Id} (h : a.Tagged) : a ≠ 0#32 := by
  rintro rfl
  revert h; decide

theorem makeErrorId_ne_zero (a : Id) : makeErrorId a ≠ 0#32 := tagged_ne_zero (makeErrorId_tagged a)

theorem add4_tagged {a : Id} (h : a.Tagged) : (a + 4#32).Tagged := by
  rw [tagged_iff] at *
  rw [BitVec.toNat_add]
  have : (4#32).toNat = 4 := by decide
  rw [this]
  omega

theorem genIds_length (n : Nat) (c : Id) : (genIds n c).length = n := by
  induction n generalizing c with
  | zero => rfl
  | succ n ih => simp [genIds, generateNextId, ih]

theorem genIds_getElem (n : Nat) (c : Id) (k : Nat) (h : k < (genIds n c).length) :
    (genIds n c)[k] = c + BitVec.ofNat 32 (4 * (k + 1)) := by
  induction n generalizing c k with
  | zero => simp [genIds] at h
  | succ n ih =>
    cases k with
    | zero => simp [genIds, generateNextId]
    | succ k =>
      have := ih (c + 4#32) k (by simpa [genIds, generateNextId] using h)
      simp only [genIds, generateNextId, List.getElem_cons_succ, this]
      rw [BitVec.add_assoc]
      congr 1
      apply BitVec.eq_of_toNat_eq
      simp only [BitVec.toNat_add, BitVec.toNat_ofNat]
      omega

/-- The arithmetic heart of uniqueness: counter offsets differ unless they differ by a multiple of `2^30`. -/
theorem offset_inj (c : Id) (i j : Nat) :
    c + BitVec.ofNat 32 (4 * i) = c + BitVec.ofNat 32 (4 * j) ↔ i % 2 ^ 30 = j % 2 ^ 30 := by
  have e : ∀ k, (BitVec.ofNat 32 (4 * k)).toNat = 4 * (k % 2 ^ 30) := by
    intro k
    rw [BitVec.toNat_ofNat]
    have : (2 : Nat) ^ 32 = 4 * 2 ^ 30 := by decide
    rw [this, Nat.mul_mod_mul_left]
  constructor
  · intro h
    have h' := (BitVec.add_right_inj c).1 h
    have := congrArg BitVec.toNat h'
    rw [e, e] at this
    omega
  · intro h
    congr 1
    apply BitVec.eq_of_toNat_eq
    rw [e, e, h]

theorem toInt_tagged {a : Id} (h : a.Tagged) :
    ∃ k : Int, a.toInt = 4 * k + 1 ∧ -536870912 ≤ k ∧ k < 536870912 := by
  rw [tagged_iff] at h
  have hlt := a.isLt
  refine ⟨(a.toInt - 1) / 4, ?_, ?_, ?_⟩ <;> (rw [BitVec.toInt_eq_toNat_cond]; split <;> omega)

theorem serial_of_toInt {a : Id} {k : Int} (h : a.toInt = 4 * k + 1) :
    a.serial = if k < 0 then k + 1 else k := by
  unfold Id.serial
  rw [h]
  split
  · rename_i hk
    have : (4 * k + 1).tdiv 4 = -((-(4 * k + 1)).tdiv 4) := by simp [Int.neg_tdiv]
    rw [this, Int.tdiv_eq_ediv_of_nonneg (by omega)]
    omega
  · rw [Int.tdiv_eq_ediv_of_nonneg (by omega)]
    omega

end Leaf
