import Verif.IdsLemmas
import Verif.Threads

/-! Helper lemmas about schedules of the id generator. -/

namespace Leaf

/-! ## Helper: the history of any schedule is the sequence of counter values -/

theorem run_hist (sched : List GenStep) (s : GenState) (n : Nat)
    (hh : s.hist.map Prod.snd = genIds n counterInit)
    (hc : s.counter = counterInit + BitVec.ofNat 32 (4 * n)) :
    ∃ m, (s.run sched).hist.map Prod.snd = genIds m counterInit := by
  induction sched generalizing s n with
  | nil => exact ⟨n, hh⟩
  | cons st rest ih =>
    have happ : ∀ (m : Nat) (c : Id), genIds (m + 1) c = genIds m c ++ [c + BitVec.ofNat 32 (4 * (m + 1))] := by
      intro m
      induction m with
      | zero => intro c; simp [genIds, generateNextId]
      | succ m ih =>
        intro c
        rw [genIds]
        simp only [generateNextId]
        rw [ih, genIds]
        simp only [generateNextId, List.cons_append, List.cons.injEq, true_and]
        congr 2
        rw [BitVec.add_assoc]
        congr 1
        apply BitVec.eq_of_toNat_eq
        simp only [BitVec.toNat_add, BitVec.toNat_ofNat]
        omega
    cases st with
    | fetchAdd t =>
      cases hr : s.reg t with
      | some v =>
        have : s.step (.fetchAdd t) = s := by simp [GenState.step, hr]
        show ∃ m, ((s.step (.fetchAdd t)).run rest).hist.map Prod.snd = _
        rw [this]; exact ih s n hh hc
      | none =>
        refine ih (s.step (.fetchAdd t)) (n + 1) ?_ ?_
        · rw [happ]
          simp only [GenState.step, hr, generateNextId, List.map_append, hh, List.map_cons, List.map_nil, hc]
          congr 2
          rw [BitVec.add_assoc]
          congr 1
          apply BitVec.eq_of_toNat_eq
          simp only [BitVec.toNat_add, BitVec.toNat_ofNat]
          omega
        · simp only [GenState.step, hr, generateNextId, hc]
          rw [BitVec.add_assoc]
          congr 1
          apply BitVec.eq_of_toNat_eq
          simp only [BitVec.toNat_add, BitVec.toNat_ofNat]
          omega
    | writeTls t =>
      refine ih (s.step (.writeTls t)) n ?_ ?_ <;>
        (cases hr : s.reg t <;> simp [GenState.step, hr, hh, hc])


theorem hist_get (sched : List GenStep) (k : Nat) (hk : k < ((GenState.init).run sched).hist.length) :
    (((GenState.init).run sched).hist[k]).2 = counterInit + BitVec.ofNat 32 (4 * (k + 1)) := by
  obtain ⟨m, hm⟩ := run_hist sched GenState.init 0 rfl (by decide)
  have h1 : k < (((GenState.init).run sched).hist.map Prod.snd).length := by simpa using hk
  have h2 : (((GenState.init).run sched).hist.map Prod.snd)[k] = (((GenState.init).run sched).hist[k]).2 := by
    simp
  rw [← h2]
  have h4 : (((GenState.init).run sched).hist.map Prod.snd)[k] = (genIds m counterInit)[k]'(by rw [← hm]; exact h1) := by
    simp only [hm]
  rw [h4, genIds_getElem]

end Leaf
