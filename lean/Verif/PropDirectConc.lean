import Verif.PropDirect
import Verif.PropThreads

/-!
# C48 with several threads
-/

namespace Leaf

theorem gens_extend (l : List Nat) : gens (extend l) l.length = l.sum + l.length := by
  have key : ∀ k, k ≤ l.length → gens (extend l) k = (l.take k).sum + k := by
    intro k
    induction k with
    | zero => intro _; simp [gens]
    | succ k ih =>
      intro h
      have hk : k < l.length := h
      rw [gens, ih (Nat.le_of_lt hk), extend_spec l k hk, List.take_add_one, List.getElem?_eq_getElem hk]
      simp only [List.sum_append, Option.toList_some, List.sum_cons, List.sum_nil]
      omega
  rw [key _ (Nat.le_refl _), List.take_length]

/-- **C48, several threads:** in a process in which fewer than `2^30` ids were generated, whatever other threads run, and under every schedule, what a
thread that is done has done is what an ideal run does in which the other threads took some of the ids. -/
theorem C48_threads {cfg : Cfg} {progs : Tid → Prog} (hp : ∀ t, (progs t).WF cfg false) {sched : List Tid} {s : Sys}
    (hs : (Sys.init cfg progs).run cfg sched = some s) (hn : (Sys.init cfg progs).generated cfg sched ≤ 2 ^ 30) {t : Tid} {p : Direct}
    (ht : progs t = p.prog) (hd : p.Ok) {o : Out} (ho : s.Done t o) :
    ∃ i io n l, Ideal { cfg with interf := i } counterInit p 0 io n l ∧ gens i n ≤ (Sys.init cfg progs).generated cfg sched ∧ io.Is o ∧
      callsIn (s.thr t).trace = l.reverse ∧
      ∀ id A ex, io = .failed id A ex → (s.thr t).cur = id := by
  obtain ⟨s1, h1, h2⟩ := sys_run (fun t => safeAlone_of_wf (hp t)) sched (sysRel_init cfg progs)
  rw [hs] at h1
  cases h1
  obtain ⟨l, seen, hle, hsum, hsolo⟩ := (h2.thr t).solo
  simp only [Job.first] at hsolo hsum
  have e := hsolo _ (extend_spec l)
  unfold Sys.Done at ho
  rw [ho, ht] at e
  have hw : p.prog.WF { cfg with interf := extend l } false := by rw [wf_interf, ← ht]; exact hp t
  have hok : ThreadOk (initThread counterInit) := threadOk_init (by decide)
  have hnc : (false : Bool) = false → NoCapturingScope (initThread counterInit) := fun _ => (noCapturing_iff _).mpr (by intro f hf; cases hf)
  obtain ⟨o1, w1, he⟩ := eval_total hw hok hnc
  obtain ⟨ha, _⟩ := eval_abs hw hok hnc he
  rw [absW_init, e] at ha
  have k := Option.some.inj ha
  have k1 : o = o1 := congrArg Prod.fst k
  have k2 : soloWorld s t seen l.length = absW w1 := congrArg Prod.snd k
  have k3 : l.length = w1.ticks := congrArg World.ticks k2
  have k4 : (s.thr t).trace = w1.trace := congrArg World.trace k2
  have k5 : (s.thr t).cur = w1.cur := congrArg World.cur k2
  have hg : gens (extend l) w1.ticks ≤ (Sys.init cfg progs).generated cfg sched := by
    rw [← k3, gens_extend]
    omega
  obtain ⟨io, c, f1, f2, f3, f4, _⟩ := C48_ideal hw hd hok hnc (Nat.le_trans hg hn) (start_init _ (by decide) _) he (Nat.le_refl _)
  refine ⟨extend l, io, _, c, f1, hg, k1 ▸ f2, ?_, ?_⟩
  · rw [k4, f3]
    simp [initThread, callsIn]
  · intro id A ex hio
    subst hio
    rw [k5]
    exact f4.1

/-- The hypotheses can be met: two threads run `exDirect`, their steps interleaved, and generate four ids. -/
example : (∀ _ : Tid, exDirect.prog.WF exCfg false) ∧ exDirect.Ok ∧
    (let sched := ((List.replicate 200 [0, 1]).flatten : List Tid)
     outcome ((Sys.init exCfg (fun _ => exDirect.prog)).run exCfg sched) 0 = some (.val 1) ∧
     outcome ((Sys.init exCfg (fun _ => exDirect.prog)).run exCfg sched) 1 = some (.val 1) ∧
     (Sys.init exCfg (fun _ => exDirect.prog)).generated exCfg sched = 4) := by
  refine ⟨fun _ => exDirect_wf _, by simp [exDirect, Direct.Ok, Item.isAccum, leafCat], by decide +kernel⟩

end Leaf
