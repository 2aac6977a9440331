import Verif.PropJobs

/-!
# C63: no thread waits for another one

Liveness, for the machine of `ConcModel`: a thread that is scheduled again and again finishes its program, whatever the other threads do.
-/

namespace Leaf

variable {cfg : Cfg}

/-- The state after the first `n` events of an infinite script. `none`: undefined behaviour. -/
def Sys.after (cfg : Cfg) (s : Sys) (ev : Nat → Ev) (n : Nat) : Option Sys := s.play cfg ((List.range n).map ev)

/-- Thread `t` is scheduled again and again. -/
def Served (ev : Nat → Ev) (t : Tid) : Prop := ∀ n, ∃ m, n ≤ m ∧ ev m = .step t

theorem after_succ (s : Sys) (ev : Nat → Ev) (n : Nat) :
    s.after cfg ev (n + 1) = (s.happen cfg (ev 0)).bind (fun s1 => s1.after cfg (fun i => ev (i + 1)) n) := by
  unfold Sys.after
  rw [List.range_succ_eq_map, List.map_cons, List.map_map]
  rfl

theorem after_add (s : Sys) (ev : Nat → Ev) (m n : Nat) :
    s.after cfg ev (m + n) = (s.after cfg ev m).bind (fun s1 => s1.after cfg (fun i => ev (m + i)) n) := by
  induction m generalizing s ev with
  | zero => simp [Sys.after, Sys.play]
  | succ m ih =>
    rw [Nat.add_right_comm, after_succ, after_succ]
    cases s.happen cfg (ev 0) with
    | none => rfl
    | some s1 =>
      simp only [Option.bind_some, ih]
      congr 1
      funext s2
      congr 1
      funext i
      congr 1
      omega

theorem Served.shift {ev : Nat → Ev} {t : Tid} (h : Served ev t) (k : Nat) : Served (fun i => ev (k + i)) t := by
  intro n
  obtain ⟨m, h1, h2⟩ := h (k + n)
  exact ⟨m - k, by omega, by show ev (k + (m - k)) = _; rw [Nat.add_sub_cancel' (by omega)]; exact h2⟩

/-- Every script of valid events is defined, and leads to reached states. -/
theorem after_reached {s : Sys} (h : Reached cfg s) {ev : Nat → Ev} (he : ∀ n, (ev n).WF cfg) (n : Nat) :
    ∃ s', s.after cfg ev n = some s' ∧ Reached cfg s' := by
  induction n generalizing s ev with
  | zero => exact ⟨s, rfl, h⟩
  | succ n ih =>
    obtain ⟨s1, h1, h2, _⟩ := C45_step h (he 0)
    rw [after_succ, h1, Option.bind_some]
    exact ih h2 fun n => he (n + 1)

/-- A thread that is not done stays as it is until it is scheduled. -/
theorem until_served {s : Sys} (h : Reached cfg s) {ev : Nat → Ev} (he : ∀ n, (ev n).WF cfg) {t : Tid} (hn : ∀ o, ¬ s.Done t o) {m : Nat} (hm : ev m = .step t) :
    ∃ n s', s.after cfg ev n = some s' ∧ s'.thr t = s.thr t ∧ ev n = .step t := by
  induction m generalizing s ev with
  | zero => exact ⟨0, s, rfl, rfl, hm⟩
  | succ m ih =>
    by_cases h0 : ev 0 = .step t
    · exact ⟨0, s, rfl, rfl, h0⟩
    · obtain ⟨s1, h1, h2, h3⟩ := C45_step h (he 0)
      have hs : s1.thr t = s.thr t := by
        by_cases ht : t = (ev 0).tid
        · cases hev : ev 0 with
          | step u => rw [hev] at ht h0; exact absurd (by rw [ht]; rfl) h0
          | start u p =>
            rw [hev] at ht h1
            have ht : t = u := ht
            subst ht
            simp only [Sys.happen, Option.some.injEq] at h1
            rw [← h1]
            unfold Sys.start
            split
            · exact absurd (by assumption) (hn _)
            · rfl
        · exact (h3 t ht).1
      obtain ⟨n, s', a1, a2, a3⟩ := ih h2 (fun n => he (n + 1)) (ev := fun i => ev (i + 1)) (by unfold Sys.Done; rw [hs]; exact hn) hm
      exact ⟨n + 1, s', by rw [after_succ, h1, Option.bind_some]; exact a1, by rw [a2, hs], a3⟩

/-- One operation of a thread. -/
theorem step_code {s s' : Sys} {t : Tid} {o : Op} {k : o.Res → Act Out} (hc : (s.thr t).code = .op o k) (h : s.step cfg t = some s') :
    ∃ r, (s'.thr t).code = k r := by
  unfold Sys.step at h
  rw [hc] at h
  split at h
  · rename_i h'; cases h'
  · rename_i h'; cases h'
  · rename_i h'
    cases h'
    cases h
    exact ⟨_, by simp only [upd, if_pos]; rfl⟩
  · rename_i h'
    cases h'
    split at h
    · cases h
    · cases h
      exact ⟨_, by simp only [Sys.put, upd, if_pos]; rfl⟩

/-- **C63: a thread that is scheduled again and again finishes,** whatever the other threads do and are given to do meanwhile, and however the threads are
scheduled. -/
theorem C63_finishes {s : Sys} (h : Reached cfg s) {ev : Nat → Ev} (he : ∀ n, (ev n).WF cfg) {t : Tid} (hs : Served ev t) :
    ∃ n s' o, s.after cfg ev n = some s' ∧ s'.Done t o := by
  generalize hc : (s.thr t).code = code
  induction code generalizing s ev with
  | ret o => exact ⟨0, s, o, rfl, hc⟩
  | ub =>
    obtain ⟨m, _, hm⟩ := hs 0
    obtain ⟨n, s1, a1, a2, a3⟩ := until_served h he (t := t) (by intro o ho; rw [Sys.Done, hc] at ho; cases ho) hm
    obtain ⟨s1', b1, b2⟩ := after_reached h he n
    rw [a1] at b1
    cases b1
    obtain ⟨s2, d1, _⟩ := C45_step b2 (he n)
    rw [a3] at d1
    have d1 : s1.step cfg t = some s2 := d1
    unfold Sys.step at d1
    rw [a2, hc] at d1
    cases d1
  | op o k ih =>
    obtain ⟨m, _, hm⟩ := hs 0
    obtain ⟨n, s1, a1, a2, a3⟩ := until_served h he (t := t) (by intro o ho; rw [Sys.Done, hc] at ho; cases ho) hm
    obtain ⟨s1', b1, b2⟩ := after_reached h he n
    rw [a1] at b1
    cases b1
    obtain ⟨s2, d1, d2, _⟩ := C45_step b2 (he n)
    rw [a3] at d1
    obtain ⟨r, hr⟩ := step_code (by rw [a2]; exact hc) (show s1.step cfg t = some s2 from d1)
    obtain ⟨n', s', o', f1, f2⟩ := ih r d2 (ev := fun i => ev (n + 1 + i)) (fun i => he _) (hs.shift _) hr
    refine ⟨n + 1 + n', s', o', ?_, f2⟩
    rw [after_add, after_add, a1]
    simp only [Option.bind_some]
    have : s1.after cfg (fun i => ev (n + i)) 1 = some s2 := by
      rw [after_succ]
      show (s1.happen cfg (ev n)).bind _ = _
      rw [a3, d1]
      rfl
    rw [this]
    exact f1

/-- A thread that is done stays done, with the same outcome, until it is given another program. -/
theorem done_stays {s s' : Sys} (h : Reached cfg s) {e : Ev} (he : e.WF cfg) {t : Tid} {o : Out} (hd : s.Done t o) (hn : ∀ q, e ≠ .start t q)
    (hh : s.happen cfg e = some s') : s'.Done t o := by
  obtain ⟨s1, h1, _, h3⟩ := C45_step h he
  rw [hh] at h1
  cases h1
  by_cases ht : t = e.tid
  · cases e with
    | step u =>
      have ht : t = u := ht
      subst ht
      have hh : s.step cfg t = some s' := hh
      unfold Sys.step at hh
      rw [hd] at hh
      cases hh
      exact hd
    | start u p => exact absurd (by rw [show t = u from ht]) (hn p)
  · unfold Sys.Done
    rw [(h3 t ht).1]
    exact hd

/-- **C63: all of them finish.** When no more programs are given to the threads `ts`, and each of them is scheduled again and again, a time comes from which on all of
them are done. -/
theorem C63_all_finish {s : Sys} (h : Reached cfg s) {ev : Nat → Ev} (he : ∀ n, (ev n).WF cfg) {ts : List Tid} (hs : ∀ t ∈ ts, Served ev t)
    (hn : ∀ t ∈ ts, ∀ n q, ev n ≠ .start t q) :
    ∃ n, ∀ m, n ≤ m → ∃ s', s.after cfg ev m = some s' ∧ ∀ t ∈ ts, ∃ o, s'.Done t o := by
  have stays : ∀ (t : Tid), (∀ n q, ev n ≠ .start t q) → ∀ n s1 o, s.after cfg ev n = some s1 → s1.Done t o → ∀ k,
      ∃ s2, s.after cfg ev (n + k) = some s2 ∧ s2.Done t o := by
    intro t ht n s1 o h1 hd k
    induction k with
    | zero => exact ⟨s1, h1, hd⟩
    | succ k ih =>
      obtain ⟨s2, a1, a2⟩ := ih
      obtain ⟨s2', b1, b2⟩ := after_reached h he (n + k)
      rw [a1] at b1
      cases b1
      obtain ⟨s3, d1, _⟩ := C45_step b2 (he (n + k))
      refine ⟨s3, ?_, done_stays b2 (he _) a2 (ht _) d1⟩
      rw [← Nat.add_assoc, after_add, a1, Option.bind_some, after_succ]
      show (s2.happen cfg (ev (n + k))).bind _ = _
      rw [d1]
      rfl
  induction ts with
  | nil =>
    refine ⟨0, fun m _ => ?_⟩
    obtain ⟨s', h1, _⟩ := after_reached h he m
    exact ⟨s', h1, by simp⟩
  | cons t ts ih =>
    obtain ⟨n1, h1⟩ := ih (fun t ht => hs t (List.mem_cons_of_mem _ ht)) (fun t ht => hn t (List.mem_cons_of_mem _ ht))
    obtain ⟨n2, s2, o, h2, h3⟩ := C63_finishes h he (hs t (List.mem_cons_self ..))
    refine ⟨max n1 n2, fun m hm => ?_⟩
    obtain ⟨s', a1, a2⟩ := h1 m (by omega)
    obtain ⟨s'', b1, b2⟩ := stays t (hn t (List.mem_cons_self ..)) n2 s2 o h2 h3 (m - n2)
    rw [Nat.add_sub_cancel' (by omega), a1] at b1
    cases b1
    refine ⟨s', a1, fun u hu => ?_⟩
    rcases List.mem_cons.mp hu with rfl | hu
    · exact ⟨o, b2⟩
    · exact a2 u hu

/-- **C63, with C45: every program given to a thread is run to its end, as if alone.** A thread that is done is given program `p`, and is then scheduled again and
again: a time comes when it is done, with the outcome, in the state and after the events that `p` gives when run alone in the state the thread was in, with an id
counter which advances by some amounts `i` between the ids it generates itself. -/
theorem C63_as_if_alone {s0 : Sys} (h : Reached cfg s0) {t : Tid} {o0 : Out} (hd : s0.Done t o0) {p : Prog} (hp : p.WF cfg false) {ev : Nat → Ev}
    (he : ∀ n, (ev n).WF cfg) (ht : ∀ n q, ev n ≠ .start t q) (hs : Served ev t) :
    ∃ n s i o w, (s0.start cfg t p).after cfg ev n = some s ∧ s.Done t o ∧ eval { cfg with interf := i } p (s0.world t) = some (o, w) ∧
      (s.thr t).trace = w.trace ∧ (s.thr t).cur = w.cur ∧ s.scopes t = scopes w := by
  have h0 : Reached cfg (s0.start cfg t p) := h.play (evs := [.start t p]) (fun e hm => by rw [List.mem_singleton.mp hm]; exact hp) rfl
  obtain ⟨n, s, o, h1, h2⟩ := C63_finishes h0 he hs
  obtain ⟨s', k1, i, o', w, k2, _, k3⟩ := C45_as_if_alone h hd hp (evs := (List.range n).map ev)
    (fun e hm => by obtain ⟨m, _, rfl⟩ := List.mem_map.mp hm; exact he m)
    (fun q hm => by obtain ⟨m, _, hm⟩ := List.mem_map.mp hm; exact ht m q hm)
  unfold Sys.after at h1
  rw [h1] at k1
  cases k1
  obtain ⟨rfl, k4, k5, k6⟩ := k3 o h2
  exact ⟨n, s, i, o, w, h1, h2, k2, k4, k5, k6⟩

/-! ## Examples -/

theorem exThread_wf (v : Val) : (exThread v).WF exCfg false :=
  ⟨⟨⟨⟨by simp [Item.Ok], fun _ _ => trivial⟩, fun _ _ _ => trivial⟩, fun _ => trivial, fun r h => h⟩, fun _ _ _ => ⟨by simp [Item.Ok], fun _ _ => trivial⟩⟩

/-- Two threads run `exThread`, in turns; a third one is given it again and again. -/
def exTurns : Nat → Ev := fun n => if n % 4 = 3 then .start 2 (exThread n) else .step (n % 4)

theorem exTurns_wf (n : Nat) : (exTurns n).WF exCfg := by
  unfold exTurns
  split
  · exact exThread_wf n
  · trivial

theorem exTurns_served {t : Tid} (h : t < 3) : Served exTurns t := by
  intro n
  have h1 : (4 * n + t) % 4 = t := by rw [Nat.mul_add_mod]; exact Nat.mod_eq_of_lt (Nat.lt_succ_of_lt h)
  refine ⟨4 * n + t, Nat.le_trans (Nat.le_mul_of_pos_left n (by decide)) (Nat.le_add_right _ _), ?_⟩
  unfold exTurns
  rw [h1, if_neg (Nat.ne_of_lt h)]

/-- The hypotheses of the theorems: the threads start with `exThread`; after 60 events threads 0 and 1 are done for good; thread 2, given more and more to do, is done
at times, and then runs the next program to its end. -/
example : Reached exCfg (Sys.init exCfg exThread) ∧ (∀ n, (exTurns n).WF exCfg) ∧ (∀ t ∈ [0, 1], Served exTurns t) ∧ (∀ t ∈ [0, 1], ∀ n q, exTurns n ≠ .start t q) ∧
    (let s := fun n => (Sys.init exCfg exThread).after exCfg exTurns n
     (outcome (s 55) 0).isNone ∧ outcome (s 60) 0 = some (.err (.plain 17#32)) ∧ outcome (s 60) 1 = some (.err (.plain 21#32)) ∧
       (outcome (s 58) 2).isNone ∧ outcome (s 59) 2 = some (.err (.plain 25#32)) ∧ (outcome (s 60) 2).isNone ∧ (outcome (s 119) 2).isSome) := by
  refine ⟨⟨exThread, [], exThread_wf, by simp, rfl⟩, exTurns_wf, ?_, ?_, by decide +kernel⟩
  · intro t ht
    refine exTurns_served ?_
    rcases List.mem_cons.mp ht with rfl | ht
    · decide
    · rw [List.mem_singleton.mp ht]; decide
  · intro t ht n q h
    unfold exTurns at h
    split at h
    · cases h
      revert ht
      decide
    · cases h

end Leaf
