import Verif.ConcLemmas
import Verif.RenameRun
import Verif.Flow
import Verif.Handling

/-!
# Threads: the ids of two runs
-/

namespace Leaf
open PtrStore (abs)

set_option smartUnfolding false in
theorem wf_interf (cfg : Cfg) (i : Nat → Nat) (p : Prog) (da : Bool) : p.WF { cfg with interf := i } da = p.WF cfg da := rfl

theorem absW_init (c : Id) : absW (initThread c) = ⟨0#32, c, 0, [], [], ⟨[]⟩⟩ := rfl

/-- The program is well-formed, and started between two LEAF calls, outside of any scope. -/
structure Job.Ok (cfg : Cfg) (j : Job) : Prop where
  wf : j.prog.WF cfg false
  good : j.start.Good
  frames : j.start.mem.frames = []
  handling : j.start.handling = []

theorem Job.first_ok {cfg : Cfg} {p : Prog} (hp : p.WF cfg false) : (Job.first p).Ok cfg :=
  ⟨hp, (threadOk_init (c := counterInit) (by decide)).good, rfl, rfl⟩

theorem Job.Ok.run {cfg : Cfg} {j : Job} (h : j.Ok cfg) (i : Nat → Nat) :
    ∃ o v, (eval { cfg with interf := i } j.prog : Comp AbsStore Out) j.start = some (o, v) ∧ v.Good ∧ v.mem.frames = [] ∧ v.handling = [] ∧ o.Ok := by
  have hp' : j.prog.WF { cfg with interf := i } false := by rw [wf_interf]; exact h.wf
  obtain ⟨o, v, h1, h2, h3, h4⟩ := tot_eval _ j.prog hp' [] (fun _ => by intro f hf; simp at hf) j.start h.good (by rw [h.frames]; rfl)
  exact ⟨o, v, h1, h2, by simpa [shape] using h3, by rw [eval_handling h1, h.handling], h4⟩

theorem Job.Ok.safe {cfg : Cfg} {j : Job} (h : j.Ok cfg) : SafeAlone cfg j := by
  intro i
  obtain ⟨o, v, h1, _⟩ := h.run i
  rw [h1]
  exact Option.some_ne_none _

theorem safeAlone_of_wf {cfg : Cfg} {p : Prog} (hp : p.WF cfg false) : SafeAlone cfg (.first p) := (Job.first_ok hp).safe

/-- Ids generated from the moment a thread generated its `t`-th id until it generated `j` more. -/
def idTotal (i : Nat → Nat) : Nat → Nat → Nat
  | t, 0 => i t + 1
  | t, j + 1 => i t + 1 + idTotal i (t + 1) j

theorem idAt_eq (i : Nat → Nat) (c : Id) (t j : Nat) : idAt i c t j = c + BitVec.ofNat 32 (4 * idTotal i t j) := by
  have step : ∀ (c : Id) (n : Nat), c + BitVec.ofNat 32 (4 * n) + 4#32 = c + BitVec.ofNat 32 (4 * (n + 1)) := by
    intro c n
    rw [BitVec.add_assoc, show 4#32 = BitVec.ofNat 32 4 from rfl, ← BitVec.ofNat_add]
    rfl
  induction j generalizing c t with
  | zero => simp only [idAt, idTotal, step]
  | succ j ih => rw [idAt, ih, step, idTotal, BitVec.add_assoc, ← BitVec.ofNat_add, ← Nat.mul_add]

theorem idTotal_pos (i : Nat → Nat) (t j : Nat) : 0 < idTotal i t j := by
  cases j <;> simp only [idTotal] <;> omega

theorem idTotal_lt (i : Nat → Nat) (t j k : Nat) (h : j < k) : idTotal i t j < idTotal i t k := by
  induction j generalizing t k with
  | zero =>
    cases k with
    | zero => omega
    | succ k => have := idTotal_pos i (t + 1) k; simp only [idTotal]; omega
  | succ j ih =>
    cases k with
    | zero => omega
    | succ k => have := ih (t + 1) k (by omega); simp only [idTotal]; omega

theorem idTotal_shift (a : Nat) (l : List Nat) (t j : Nat) : idTotal (extend (a :: l)) (t + 1) j = idTotal (extend l) t j := by
  induction j generalizing t with
  | zero => simp [idTotal, extend]
  | succ j ih =>
    rw [idTotal, idTotal, ih (t + 1)]
    simp [extend]

theorem idTotal_extend (l : List Nat) (j : Nat) (h : j < l.length) : idTotal (extend l) 0 j ≤ l.sum + l.length := by
  induction l generalizing j with
  | nil => simp at h
  | cons a l ih =>
    cases j with
    | zero => simp [idTotal, extend]; omega
    | succ j =>
      have := ih j (by simpa using h)
      rw [idTotal, idTotal_shift]
      simp [extend]
      omega

theorem ren_serial (ρ : Ren) (n : Nat) (hn : n < 2 ^ 30) : ren ρ (counterInit + BitVec.ofNat 32 (4 * n)) = counterInit + BitVec.ofNat 32 (4 * ρ.fwd n) := by
  have h := ρ.lt n hn
  have key : ∀ n, n < 2 ^ 30 → (counterInit + BitVec.ofNat 32 (4 * n)).toNat = 4 * n + 1 := by
    intro n hn
    simp only [counterInit, BitVec.toNat_add, BitVec.toNat_ofNat]
    omega
  show BitVec.ofNat 32 (4 * ρ.fwd ((counterInit + BitVec.ofNat 32 (4 * n)).toNat / 4) + (counterInit + BitVec.ofNat 32 (4 * n)).toNat % 4) = _
  rw [key n hn]
  apply BitVec.eq_of_toNat_eq
  rw [key _ h, BitVec.toNat_ofNat, show (4 * n + 1) / 4 = n by omega, show (4 * n + 1) % 4 = 1 by omega]
  omega

/-- Two runs of an id-agnostic program, each with its own interference. -/
theorem solo_ren {cfg : Cfg} {p : Prog} (ha : p.IdAgnostic) {l l' : List Nat} (hl : l.sum + l.length < 2 ^ 30) (hl' : l'.sum + l'.length < 2 ^ 30)
    {o : Out} {w : World AbsStore}
    (h : eval { cfg with interf := extend l } p ⟨0#32, counterInit, 0, [], [], ⟨[]⟩⟩ = some (o, w)) (hw : w.ticks = l.length) (hlen : l.length ≤ l'.length) :
    ∃ (ρ : Ren) (c : Id), eval { cfg with interf := extend l' } p ⟨0#32, counterInit, 0, [], [], ⟨[]⟩⟩ = some (ren ρ o, renWorld ρ c w) := by
  obtain ⟨ρ, hρ⟩ := exists_ren l.length (idTotal (extend l) 0) (idTotal (extend l') 0)
    (fun j hj => ⟨idTotal_pos _ _ _, Nat.lt_of_le_of_lt (idTotal_extend l j hj) hl⟩)
    (fun j hj => ⟨idTotal_pos _ _ _, Nat.lt_of_le_of_lt (idTotal_extend l' j (Nat.lt_of_lt_of_le hj hlen)) hl'⟩)
    (fun i j hij _ => Nat.ne_of_lt (idTotal_lt _ _ _ _ hij)) (fun i j hij _ => Nat.ne_of_lt (idTotal_lt _ _ _ _ hij))
  rw [← run_eval] at h
  have he := Small.eqv_eval (ρ := ρ) { cfg with interf := extend l } p
  rw [ha ρ] at he
  obtain ⟨c, hc'⟩ := run_ren (cfg' := { cfg with interf := extend l' }) he counterInit _ _ _ h (by
    intro j hj
    simp only [Nat.zero_add, hw] at hj
    simp only [idAt_eq]
    rw [ren_serial ρ _ (Nat.lt_of_le_of_lt (idTotal_extend l j hj) hl), hρ j hj])
  refine ⟨ρ, c, ?_⟩
  rw [← run_eval, eval_interf]
  rw [eval_interf] at hc'
  have e0 : renWorld ρ counterInit ⟨0#32, counterInit, 0, [], [], ⟨[]⟩⟩ = ⟨0#32, counterInit, 0, [], [], ⟨[]⟩⟩ := by
    simp [renWorld]
    rfl
  rw [e0] at hc'
  exact hc'

end Leaf
