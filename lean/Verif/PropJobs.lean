import Verif.JobLemmas
import Verif.PropIdsConc
import Verif.PropCapture

/-!
# C45: threads that exchange work and results

Threads are given programs to run while other threads are running. What a thread is given may depend on the outcome of other threads (in particular, a
captured result): the theorems are about all scripts, a script being any sequence of operations of any threads, and of programs given to
threads that are done with the previous one.
-/

namespace Leaf

/-- A state reached by threads running any (valid) programs, under any schedule, and given any (valid) programs later. -/
def Reached (cfg : Cfg) (s : Sys) : Prop :=
  ∃ (progs : Tid → Prog) (evs : List Ev), (∀ t, (progs t).WF cfg false) ∧ (∀ e ∈ evs, e.WF cfg) ∧ (Sys.init cfg progs).play cfg evs = some s

/-- The thread that acts in an event. -/
def Ev.tid : Ev → Tid
  | .step t => t
  | .start t _ => t

theorem Reached.jobs {cfg : Cfg} {s : Sys} (h : Reached cfg s) : ∃ jobs, JobsOk cfg jobs s := by
  obtain ⟨progs, evs, h1, h2, h3⟩ := h
  obtain ⟨s', jobs, h4, h5, _⟩ := play_ok evs (jobsOk_init h1) h2
  rw [h3] at h4
  cases h4
  exact ⟨jobs, h5⟩

theorem play_append {cfg : Cfg} (a b : List Ev) (s : Sys) : s.play cfg (a ++ b) = (s.play cfg a).bind (·.play cfg b) := by
  induction a generalizing s with
  | nil => rfl
  | cons e es ih =>
    simp only [List.cons_append, Sys.play]
    cases s.happen cfg e with
    | none => rfl
    | some s1 => simp only [Option.bind_some, ih]

theorem Reached.play {cfg : Cfg} {s s' : Sys} (h : Reached cfg s) {evs : List Ev} (he : ∀ e ∈ evs, e.WF cfg) (hp : s.play cfg evs = some s') :
    Reached cfg s' := by
  obtain ⟨progs, evs0, h1, h2, h3⟩ := h
  refine ⟨progs, evs0 ++ evs, h1, fun e hm => ?_, by rw [play_append, h3]; exact hp⟩
  rcases List.mem_append.mp hm with hm | hm
  · exact h2 e hm
  · exact he e hm

variable {cfg : Cfg}

/-- **C45**, one event: whatever happens next is defined, and changes nothing of any other thread: not its current error, thread-local pointers,
contexts, recorded events or what it will do next; and not the error objects in its scopes. -/
theorem C45_step {s : Sys} (h : Reached cfg s) {e : Ev} (he : e.WF cfg) :
    ∃ s', s.happen cfg e = some s' ∧ Reached cfg s' ∧ ∀ u, u ≠ e.tid → s'.thr u = s.thr u ∧ s'.scopes u = s.scopes u := by
  obtain ⟨jobs, hj⟩ := h.jobs
  have key : ∃ s', s.happen cfg e = some s' ∧ ∀ u, u ≠ e.tid → s'.thr u = s.thr u ∧ s'.scopes u = s.scopes u := by
    cases e with
    | step t =>
      obtain ⟨s', h1, _, h3⟩ := sys_step (fun t => (hj.ok t).safe) hj.rel t
      refine ⟨s', h1, fun u hu => ⟨(h3 u hu).1, ?_⟩⟩
      unfold Sys.scopes
      rw [(h3 u hu).2]
    | start t p =>
      refine ⟨_, rfl, fun u (hu : u ≠ t) => ?_⟩
      by_cases hd : ∃ o, (s.thr t).code = .ret o
      · obtain ⟨o, hd⟩ := hd
        rw [start_eq hd]
        simp only [Sys.scopes, Sys.view, PtrStore.upd_ne _ _ hu, and_self]
      · rw [start_busy (fun o ho => hd ⟨o, ho⟩)]
        exact ⟨rfl, rfl⟩
  obtain ⟨s', h1, h2⟩ := key
  exact ⟨s', h1, h.play (evs := [e]) (by simpa using he) (by simp [Sys.play, h1]), h2⟩

/-- The run of a job, with what is known about the interference. -/
theorem job_run {s0 : Sys} (h : Reached cfg s0) {t : Tid} {o0 : Out} (hd : s0.Done t o0) {p : Prog} (hp : p.WF cfg false) {evs : List Ev}
    (he : ∀ e ∈ evs, e.WF cfg) (ht : ∀ q, .start t q ∉ evs) :
    ∃ s, (s0.start cfg t p).play cfg evs = some s ∧ ∃ i o w, eval { cfg with interf := i } p (s0.world t) = some (o, w) ∧
      (∃ later, w.trace = later ++ (s.thr t).trace) ∧
      (∀ o', s.Done t o' → o' = o ∧ (s.thr t).trace = w.trace ∧ (s.thr t).cur = w.cur ∧ s.scopes t = scopes w) ∧
      (i 0 = 0 ∨ s0.hist.length + i 0 + 1 ≤ s.hist.length) := by
  obtain ⟨jobs, hj⟩ := h.jobs
  obtain ⟨hok, hsc, hh, _⟩ := done_ok hj hd
  obtain ⟨s, jobs', h1, h2, h3⟩ := play_ok evs (jobs_start hj hd hp) he
  have hjob : jobs' t = ⟨p, absW (s0.world t), s0.hist.length⟩ := by
    rw [h3 t, PtrStore.upd_same]
    intro e hm
    cases e with
    | step u => exact trivial
    | start u q => exact fun e => ht q (e ▸ hm)
  refine ⟨s, h1, ?_⟩
  obtain ⟨l, seen, hle, hsum, hsolo⟩ := (h2.rel.thr t).solo
  rw [hjob] at hsum hsolo
  have hs := hsolo _ (extend_spec l)
  have hp' : p.WF { cfg with interf := extend l } false := by rw [wf_interf]; exact hp
  have hnc : (false : Bool) = false → NoCapturingScope (s0.world t) := fun _ => (noCapturing_iff _).mpr (by rw [hsc]; intro f hf; cases hf)
  obtain ⟨o, w, he'⟩ := eval_total hp' hok hnc
  obtain ⟨ha, _⟩ := eval_abs hp' hok hnc he'
  rw [hs] at ha
  refine ⟨extend l, o, w, he', ?_, fun o' ho => ?_, ?_⟩
  · obtain ⟨x, hx⟩ := run_trace _ _ _ _ _ ha
    exact ⟨x, hx⟩
  · unfold Sys.Done at ho
    rw [ho] at ha
    have e : o' = o ∧ soloWorld s t seen l.length = absW w := by
      have := Option.some.inj ha
      exact ⟨congrArg Prod.fst this, congrArg Prod.snd this⟩
    exact ⟨e.1, congrArg World.trace e.2, congrArg World.cur e.2, congrArg (fun w => w.mem.frames) e.2⟩
  · cases l with
    | nil => exact .inl rfl
    | cons a l =>
      right
      simp only [extend, List.getElem?_cons_zero, Option.getD_some]
      simp only [List.sum_cons, List.length_cons] at hsum
      omega

/-- **C45**, whole runs: a thread that is done is given program `p`. Whatever else happens from then on (other threads running, being given
programs), it is defined, and what the thread does is what `p` does when run alone in the state the thread was in, with an id counter which it
sees advance by some amounts `i` between the ids it generates itself. -/
theorem C45_as_if_alone {s0 : Sys} (h : Reached cfg s0) {t : Tid} {o0 : Out} (hd : s0.Done t o0) {p : Prog} (hp : p.WF cfg false) {evs : List Ev}
    (he : ∀ e ∈ evs, e.WF cfg) (ht : ∀ q, .start t q ∉ evs) :
    ∃ s, (s0.start cfg t p).play cfg evs = some s ∧ ∃ i o w, eval { cfg with interf := i } p (s0.world t) = some (o, w) ∧
      (∃ later, w.trace = later ++ (s.thr t).trace) ∧
      ∀ o', s.Done t o' → o' = o ∧ (s.thr t).trace = w.trace ∧ (s.thr t).cur = w.cur ∧ s.scopes t = scopes w := by
  obtain ⟨s, h1, i, o, w, h2, h3, h4, _⟩ := job_run h hd hp he ht
  exact ⟨s, h1, i, o, w, h2, h3, h4⟩

/-- **C45**, between programs: a thread that is done is outside of any scope, and is not handling an exception. -/
theorem C45_between {s : Sys} (h : Reached cfg s) {t : Tid} {o : Out} (hd : s.Done t o) :
    ThreadOk (s.world t) ∧ s.scopes t = [] ∧ (s.thr t).handling = [] ∧ o.Ok := by
  obtain ⟨jobs, hj⟩ := h.jobs
  exact done_ok hj hd

/-- **C45**, ids: the ids recorded by each thread are its entries in the history; in the history, ids less than `2^30` apart are different. -/
theorem C45_ids {s : Sys} (h : Reached cfg s) :
    (∀ t, (s.thr t).ids = (s.hist.filter (·.1 == t)).map (·.2)) ∧
    ∀ i j (hi : i < s.hist.length) (hj : j < s.hist.length), i < j → j - i < 2 ^ 30 → (s.hist[i]).2 ≠ (s.hist[j]).2 := by
  obtain ⟨jobs, hj⟩ := h.jobs
  refine ⟨hj.hist.thr, fun i j hi hj' hij hd e => ?_⟩
  rw [hj.hist.ids i hi, hj.hist.ids j hj', offset_inj] at e
  omega

theorem hist_id {s : Sys} (h : HistOk s) {x : Tid × Id} (hx : x ∈ s.hist) :
    ∃ m, 0 < m ∧ m ≤ s.hist.length ∧ x.2 = counterInit + BitVec.ofNat 32 (4 * m) := by
  obtain ⟨k, hk, rfl⟩ := List.getElem_of_mem hx
  exact ⟨s.hist.length - k, by omega, by omega, h.ids k hk⟩

theorem hist_grows (cfg : Cfg) (evs : List Ev) {s s' : Sys} (h : HistOk s) (hp : s.play cfg evs = some s') : s.hist.length ≤ s'.hist.length := by
  induction evs generalizing s with
  | nil => cases hp; exact Nat.le_refl _
  | cons e es ih =>
    simp only [Sys.play, Option.bind_eq_some_iff] at hp
    obtain ⟨s1, h1, h2⟩ := hp
    refine Nat.le_trans ?_ (ih (histOk_happen h h1) h2)
    cases e with
    | step t => rw [(histOk_step h h1).2]; exact Nat.le_add_right _ _
    | start t p =>
      cases h1
      unfold Sys.start
      split <;> exact Nat.le_refl _

set_option smartUnfolding false in
theorem attached_interf (cfg : Cfg) (j : Nat → Nat) (items : List Item) (ls : List Layer) : attached { cfg with interf := j } items ls = attached cfg items ls := rfl

theorem passesAll_interf (cfg : Cfg) (j : Nat → Nat) (items : List Item) (ex : Option Exc) (th : Bool) (ls : List Layer) :
    PassesAll { cfg with interf := j } items ex th ls ↔ PassesAll cfg items ex th ls := by
  induction ls with
  | nil => exact Iff.rfl
  | cons l ls ih =>
    unfold PassesAll
    rw [ih, attached_interf]
    cases l <;> exact Iff.rfl

section
variable {ls : List Layer} {items : List Item} {f : Option (Id → Exc)} {specs : List (List Arg)} {body : Nat → List ArgVal → Prog}

/-- **C45**, captured errors cross threads: thread `t` is given `try_capture_all` around code that reports an error and does not handle it. When it is
done, with a result `r`, any thread `u` (the same or another one) is given `r`, to be handled with `try_handle_all`. Whatever happens
before, in between and meanwhile: the id of the error is one that `t` generated, `t` called no handler, and the handler called by `u`, and
the arguments it gets, are determined by the objects attached to the error in `t`.

Conditions: the current error of `t` is none, or one generated by LEAF in this process; less than `2^30` ids have been generated. -/
theorem C45_crosses {s0 s1 s2 s3 : Sys} {t u : Tid} {o0 o1 o2 o3 : Out} {evs1 evs2 evs3 : List Ev}
    (hp : (Prog.captureAll (within ls (report items f))).WF cfg false)
    (hid : ∀ id : Id, id.Tagged → ∀ g, f = some g → (g id).seenId id = id ∧ (g id).Ok)
    (hpass : ∀ id : Id, id.Tagged → PassesAll cfg items (visible (f.map (· id))) f.isSome ls)
    (hall : ValidAll specs) (hbody : ∀ i args, (∀ a ∈ args, ArgVal.Ok a) → (body i args).WF cfg false ∧ (body i args).NoErr)
    -- `t` captures
    (h0 : Reached cfg s0) (hd0 : s0.Done t o0) (hcur : (s0.thr t).cur = 0#32 ∨ ∃ x ∈ s0.hist, x.2 = (s0.thr t).cur)
    (he1 : ∀ e ∈ evs1, e.WF cfg) (ht : ∀ q, .start t q ∉ evs1)
    (h1 : (s0.start cfg t (.captureAll (within ls (report items f)))).play cfg evs1 = some s1) (hd1 : s1.Done t o1) (hn : s1.hist.length < 2 ^ 30) :
    ∃ r id, o1 = .err r ∧ r.errId = id ∧ id ∈ (s1.thr t).ids ∧ NoHandlerCalled (s0.world t) (s1.world t) ∧
      -- `u` handles
      ((∀ e ∈ evs2, e.WF cfg) → s1.play cfg evs2 = some s2 → s2.Done u o2 → (∀ e ∈ evs3, e.WF cfg) → (∀ q, .start u q ∉ evs3) →
        (s2.start cfg u (.handleAll specs (.ret (.err r)) body)).play cfg evs3 = some s3 → s3.Done u o3 →
        ∃ j i vals, Handled { cfg with interf := j } (s2.world u) (attached cfg items ls) id (visible (f.map (· id))) specs body i vals o3 (s3.world u)) := by
  obtain ⟨hok, hsc, hh, _⟩ := C45_between h0 hd0
  obtain ⟨_, g1, j, o, w, g2, _, g4, g5⟩ := job_run h0 hd0 hp he1 ht
  rw [h1] at g1
  cases g1
  obtain ⟨rfl, k1, k2, k3⟩ := g4 o1 hd1
  obtain ⟨jobs, hj⟩ := h0.jobs
  -- the id is new to `t`
  have hidt : (nextId { cfg with interf := j } (s0.world t)).Tagged := nextId_tagged (w := absW (s0.world t)) hok.good
  have hlen : s0.hist.length ≤ s1.hist.length :=
    hist_grows cfg (.start t (.captureAll (within ls (report items f))) :: evs1) hj.hist h1
  have hne : nextId { cfg with interf := j } (s0.world t) ≠ (s0.world t).cur := by
    intro e
    rcases hcur with hc | ⟨x, hx, hc⟩
    · rw [show (s0.world t).cur = 0#32 from hc] at e
      exact tagged_ne_zero hidt e
    · obtain ⟨m, m1, m2, m3⟩ := hist_id hj.hist hx
      rw [show (s0.world t).cur = x.2 from hc.symm, m3] at e
      have e2 : nextId { cfg with interf := j } (s0.world t) = counterInit + BitVec.ofNat 32 (4 * (s0.hist.length + j 0 + 1)) := by
        show s0.counter + BitVec.ofNat 32 (4 * j 0) + 4#32 = _
        rw [hj.hist.counter, BitVec.add_assoc counterInit, ← BitVec.ofNat_add, BitVec.add_assoc, show 4#32 = BitVec.ofNat 32 4 from rfl, ← BitVec.ofNat_add]
        congr 2
        omega
      rw [e2, offset_inj] at e
      omega
  have hpw : (Prog.captureAll (within ls (report items f))).WF { cfg with interf := j } false := by rw [wf_interf]; exact hp
  obtain ⟨r, w', e1, e2, e3, e4, e5⟩ := capture_alone hpw hok hsc hne (hid _ hidt) ((passesAll_interf ..).mpr (hpass _ hidt)) (fun _ => hh)
  rw [g2] at e1
  simp only [Option.some.injEq, Prod.mk.injEq] at e1
  obtain ⟨rfl, rfl⟩ := e1
  refine ⟨r, nextId { cfg with interf := j } (s0.world t), rfl, ?_, ?_, ?_, ?_⟩
  · obtain ⟨ns, rfl, _⟩ := e3
    exact makeErrorId_of_tagged hidt
  · unfold Thr.ids
    rw [k1]
    exact List.mem_filterMap.mpr ⟨_, e5, rfl⟩
  · obtain ⟨es, q1, q2⟩ := e4
    exact ⟨es, by rw [← q1, ← k1]; rfl, q2⟩
  · intro he2 h2 hd2 he3 hu h3 hd3
    have hs1 : Reached cfg s1 := by
      refine h0.play (evs := .start t (.captureAll (within ls (report items f))) :: evs1) (fun e hm => ?_) h1
      rcases List.mem_cons.mp hm with rfl | hm
      · exact hp
      · exact he1 e hm
    have hs2 : Reached cfg s2 := hs1.play he2 h2
    obtain ⟨hok2, hsc2, _, _⟩ := C45_between hs2 hd2
    have hp2 : (Prog.handleAll specs (.ret (.err r)) body).WF cfg false := ⟨hall, e2, hbody⟩
    obtain ⟨_, g1', j', o', w2, g2', _, g4', _⟩ := job_run hs2 hd2 hp2 he3 hu
    rw [h3] at g1'
    cases g1'
    obtain ⟨rfl, k1', k2', k3'⟩ := g4' o3 hd3
    obtain ⟨i, vals, o, w3, m1, m2⟩ := receive_captured (cfg := { cfg with interf := j' }) (body := body) (da2 := false) hidt e2 e3 (fun g hg => (hid _ hidt g hg).1) hall
      (fun i args ha => by rw [wf_interf]; exact hbody i args ha) hok2
      (fun _ => (noCapturing_iff _).mpr (by rw [show scopes (s2.world u) = [] from hsc2]; intro f hf; cases hf)) (by rw [show scopes (s2.world u) = [] from hsc2]; exact fun _ _ => stored_nil)
    rw [g2'] at m1
    simp only [Option.some.injEq, Prod.mk.injEq] at m1
    obtain ⟨rfl, rfl⟩ := m1
    refine ⟨j', i, vals, m2.first, ?_⟩
    obtain ⟨hd, w1, wh, wr, n1, n2, n3, n4, n5, n6, n7⟩ := m2.called
    exact ⟨hd, w1, wh, wr, n1, n2, n3, n4, n5, n6, by rw [← n7, ← k1']; rfl⟩

end
/-! ## Examples -/

/-- Thread 0 is idle; the others are about to run `exThread`. -/
def exIdle : Tid → Prog := fun t => if t = 0 then .ret (.val 0) else exThread t

/-- What thread 0 captures. -/
def exCaught : ErrRes := .captured 9#32 [.obj 13 (some (9#32, 4)), .obj 11 (some (9#32, 2)), .obj 10 (some (9#32, 1))]

/-- Thread 1 generates an id; thread 0 is given work, and both run; thread 1, when done, is given what thread 0 captured, and handles it while thread 0
runs something else. -/
def exScript : List Ev × List Ev × List Ev :=
  (List.replicate 5 (.step 1),
   (List.replicate 40 [.step 0, .step 1]).flatten ++ List.replicate 40 (.step 1),
   .start 0 (exThread 3) :: (List.replicate 60 [.step 1, .step 0]).flatten)

def exHandling : Prog := .handleAll [[.req 12], [.req 10, .ptr 13], []] (.ret (.err exCaught)) (fun i _ => .ret (.val i))

/-- The hypotheses of `C45_crosses` (and, with them, of the other theorems) are met, and the handler called is the one with `e_10` and `e_13 *`. -/
example :
    let s0 := (Sys.init exCfg exIdle).play exCfg exScript.1
    let s1 := (s0.map fun s => s.start exCfg 0 (.captureAll (within exLayers (report [.obj 10 1, .obj 11 2] none)))).bind (·.play exCfg exScript.2.1)
    let s3 := (s1.map fun s => s.start exCfg 1 exHandling).bind (·.play exCfg exScript.2.2)
    outcome s0 0 = some (.val 0) ∧ s0.map (fun s => ((s.thr 0).cur, s.hist)) = some (0#32, [(1, 5#32)]) ∧
    outcome s1 0 = some (.err exCaught) ∧ outcome s1 1 = some (.err (.plain 13#32)) ∧
    outcome s3 1 = some (.val 1) ∧ outcome s3 0 = some (.err (.plain 21#32)) ∧
    s3.map (fun s => (s.thr 1).trace.take 1) = some [.handled 9#32 none 1 [.obj 10 1, .ptr 13 (some 4)]] := by
  decide +kernel

end Leaf
