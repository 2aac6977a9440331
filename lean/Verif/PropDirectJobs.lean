import Verif.PropRemote

/-!
# C48 in threads that run one program after another
-/

namespace Leaf

/-- **C48, jobs:** a thread that is done, whatever it and the other threads have run before, is given a program of the language of C48. Whatever other
threads run meanwhile: what the program does is what an ideal run does in which the other threads took some of the ids.

Conditions: the current error of the thread is none, or generated in this process, in which no more than `2^30` ids are generated. -/
theorem C48_jobs {cfg : Cfg} {p : Direct} (hp : p.prog.WF cfg false) (hpo : p.Ok) {s0 s : Sys} {t : Tid} {o0 o : Out} {evs : List Ev}
    (h0 : Reached cfg s0) (hd0 : s0.Done t o0) (hcur : s0.CurKnown t) (he : ∀ e ∈ evs, e.WF cfg) (ht : ∀ q, .start t q ∉ evs)
    (hs : (s0.start cfg t p.prog).play cfg evs = some s) (ho : s.Done t o) (hn : s.hist.length ≤ 2 ^ 30) :
    ∃ i io n l, Ideal { cfg with interf := i } s0.counter p 0 io n l ∧ io.Is o ∧ s0.hist.length + gens i n ≤ s.hist.length ∧
      callsIn (s.thr t).trace = l.reverse ++ callsIn (s0.thr t).trace ∧ (∀ id A ex, io = .failed id A ex → (s.thr t).cur = id) := by
  obtain ⟨jobs0, hj0⟩ := h0.jobs
  obtain ⟨hok, hsc, hh, _⟩ := C45_between h0 hd0
  obtain ⟨i, w, r1, r2, r3, r4⟩ := job_done h0 hd0 hp he ht hs ho
  have hnc : (false : Bool) = false → NoCapturingScope (s0.world t) :=
    fun _ => (noCapturing_iff _).mpr (by rw [show scopes (s0.world t) = [] from hsc]; intro f hf; cases hf)
  obtain ⟨io, l, b1, b2, b3, b4, _⟩ := C48_ideal (cfg := { cfg with interf := i }) (c := s0.counter) (by rw [wf_interf]; exact hp) hpo hok hnc
    (show gens i _ ≤ _ by omega) (start_done hj0.hist hsc hcur (show _ + gens i _ ≤ _ by omega)) r1 (Nat.le_refl _)
  refine ⟨i, io, w.ticks, l, b1, b2, r2, by rw [r3]; exact b3, fun id A ex hio => ?_⟩
  subst hio
  rw [r4]
  exact b4.1

set_option smartUnfolding false in
theorem plain_interf (cfg : Cfg) (i : Nat → Nat) (p : Prog) : p.Plain { cfg with interf := i } = p.Plain cfg := rfl

/-- **C48, jobs**, the condition on the current error: it holds when the thread starts, and a program that uses neither captured results nor capturing
scopes preserves it, so that `C48_jobs` applies to the next program the thread is given. -/
theorem C48_jobs_next {cfg : Cfg} {p : Prog} (hp : p.WF cfg false) (hpl : p.Plain cfg) {s0 s : Sys} {t : Tid} {o0 o : Out} {evs : List Ev}
    (h0 : Reached cfg s0) (hd0 : s0.Done t o0) (hcur : s0.CurKnown t) (he : ∀ e ∈ evs, e.WF cfg) (ht : ∀ q, .start t q ∉ evs)
    (hs : (s0.start cfg t p).play cfg evs = some s) (ho : s.Done t o) : s.CurKnown t := by
  obtain ⟨jobs0, hj0⟩ := h0.jobs
  obtain ⟨hok, hsc, hh, _⟩ := C45_between h0 hd0
  obtain ⟨i, w, r1, r2, r3, r4⟩ := job_done h0 hd0 hp he ht hs ho
  have hs1 : Reached cfg s := by
    refine h0.play (evs := .start t p :: evs) (fun e hm => ?_) hs
    rcases List.mem_cons.mp hm with rfl | hm
    · exact hp
    · exact he e hm
  have hnc : NoCapturingScope (s0.world t) :=
    (noCapturing_iff _).mpr (by rw [show scopes (s0.world t) = [] from hsc]; intro f hf; cases hf)
  by_cases hz : (s.thr t).cur = 0#32
  · exact .inl hz
  have hl := C24_last_reported (cfg := { cfg with interf := i }) (da := false) (by rw [wf_interf]; exact hp) (by rw [plain_interf]; exact hpl) hok hnc r1 (by rw [← r4]; exact hz)
  rw [← r4] at hl
  have hids := (C45_ids hs1).1 t
  cases hr : reported (s0.world t) w with
  | none =>
    rw [hr] at hl
    have hl : (s.thr t).cur = (s0.thr t).cur := hl
    rcases hcur with h | ⟨x, hx, hx'⟩
    · exact absurd (hl.trans h) hz
    · obtain ⟨m, m1, m2, m3⟩ := hist_id hj0.hist hx
      obtain ⟨jobs1, hj1⟩ := hs1.jobs
      have hlt : s.hist.length - m < s.hist.length := by omega
      refine .inr ⟨s.hist[s.hist.length - m], List.getElem_mem hlt, ?_⟩
      rw [hj1.hist.ids _ hlt, hl, ← hx', m3]
      congr 3
      omega
  | some id =>
    rw [hr] at hl
    have hl : (s.thr t).cur = id := hl
    have hm : id ∈ (s.thr t).ids := by
      have : id ∈ generated w := List.mem_of_mem_take (List.mem_of_mem_head? hr)
      rw [show (s.thr t).ids = generated w from by unfold Thr.ids generated; rw [r3]; rfl]
      exact this
    rw [hids, List.mem_map] at hm
    obtain ⟨x, hx, rfl⟩ := hm
    exact .inr ⟨x, (List.mem_filter.mp hx).1, hl.symm⟩

/-- The hypotheses can be met: thread 1 generates an id, and after that thread 0, which is done, is given a function that reports an error and fails. -/
example : exFunction.prog.WF exCfg false ∧ exFunction.Ok ∧ exFunction.prog.Plain exCfg ∧
    outcome exRemote0 0 = some (.val 0) ∧ exRemote0.map (fun s => ((s.thr 0).cur, s.hist)) = some (0#32, [(1, 5#32)]) ∧
    (let s := (exRemote0.map fun s => s.start exCfg 0 exFunction.prog).bind (·.play exCfg exScript.2.1)
     outcome s 0 = some (.err (.plain 9#32)) ∧ s.map (fun s => ((s.thr 0).cur, s.hist)) = some (9#32, [(1, 13#32), (0, 9#32), (1, 5#32)])) := by
  refine ⟨?_, by simp [exFunction, Direct.Ok], ?_, by decide +kernel, by decide +kernel, by decide +kernel⟩
  · refine ⟨?_, ⟨?_, fun _ _ => trivial⟩⟩ <;> simp [OnItem.Ok, Item.Ok]
  simp [exFunction, Direct.prog, Prog.Plain, report, Out.Plain]

end Leaf
