import Verif.HistLemmas

/-!
# Threads that are given work
-/

namespace Leaf
open PtrStore (abs Inv allSlots allDas)

theorem counter_tagged (n : Nat) : (counterInit + BitVec.ofNat 32 (4 * n)).Tagged := add4k_tagged (by decide) n

/-- Every thread runs a well-formed program, as if alone. -/
structure JobsOk (cfg : Cfg) (jobs : Tid → Job) (s : Sys) : Prop where
  ok : ∀ t, (jobs t).Ok cfg
  hist : HistOk s
  rel : SysRel cfg jobs s.hist.length s

/-- Only the program of thread `t` differs. -/
theorem start_eq {cfg : Cfg} {s : Sys} {t : Tid} {p : Prog} {o : Out} (hd : (s.thr t).code = .ret o) :
    s.start cfg t p = { s with thr := upd s.thr t { s.thr t with code := Small.eval cfg p } } := by
  unfold Sys.start; rw [hd]

theorem start_busy {cfg : Cfg} {s : Sys} {t : Tid} {p : Prog} (hd : ∀ o, (s.thr t).code ≠ .ret o) : s.start cfg t p = s := by
  unfold Sys.start
  split
  · exact absurd ‹_› (hd _)
  · rfl

theorem histOk_start {cfg : Cfg} {s : Sys} (h : HistOk s) {t : Tid} {p : Prog} : HistOk (s.start cfg t p) := by
  by_cases hd : ∃ o, (s.thr t).code = .ret o
  · obtain ⟨o, hd⟩ := hd
    rw [start_eq hd]
    refine ⟨h.counter, h.ids, fun u => ?_⟩
    by_cases hu : u = t
    · subst hu; simp only [PtrStore.upd_same]; exact h.thr u
    · simp only [PtrStore.upd_ne _ _ hu]; exact h.thr u
  · rw [start_busy (fun o ho => hd ⟨o, ho⟩)]; exact h

theorem histOk_happen {cfg : Cfg} {s s' : Sys} (h : HistOk s) {e : Ev} (he : s.happen cfg e = some s') : HistOk s' := by
  cases e with
  | step t => exact (histOk_step h he).1
  | start t p => cases he; exact histOk_start h

/-- A thread that is done is between two LEAF calls, outside of any scope. -/
theorem done_ok {cfg : Cfg} {jobs : Tid → Job} {s : Sys} (h : JobsOk cfg jobs s) {t : Tid} {o : Out} (hd : (s.thr t).code = .ret o) :
    ThreadOk (s.world t) ∧ scopes (s.world t) = [] ∧ (s.thr t).handling = [] ∧ o.Ok := by
  have hn := h.rel
  obtain ⟨l, seen, _, _, hsolo⟩ := (hn.thr t).solo
  have e := hsolo _ (extend_spec l)
  rw [hd] at e
  obtain ⟨o', v, e1, e2, e3, e7, e4⟩ := (h.ok t).run (extend l)
  rw [e1] at e
  have e' := Option.some.inj e
  have e5 : o' = o := congrArg Prod.fst e'
  have e6 : v = soloWorld s t seen l.length := congrArg Prod.snd e'
  subst e5 e6
  refine ⟨⟨(hn.thr t).inv, e2.cur, ?_, e2.handling, e2.frames⟩, e3, e7, e4⟩
  show s.counter.Tagged
  rw [hn.counter]
  exact counter_tagged _

theorem jobs_start {cfg : Cfg} {jobs : Tid → Job} {s : Sys} (h : JobsOk cfg jobs s) {t : Tid} {o : Out} (hd : (s.thr t).code = .ret o) {p : Prog}
    (hp : p.WF cfg false) :
    JobsOk cfg (upd jobs t ⟨p, absW (s.world t), s.hist.length⟩) (s.start cfg t p) := by
  obtain ⟨hok, hsc, hh, _⟩ := done_ok h hd
  have hn := h.rel
  have hhist : (s.start cfg t p).hist = s.hist := by rw [start_eq hd]
  have hctx : ∀ u, ((s.start cfg t p).thr u).ctxs = (s.thr u).ctxs := by
    intro u
    rw [start_eq hd]
    by_cases hu : u = t
    · subst hu; simp only [PtrStore.upd_same]
    · simp only [PtrStore.upd_ne _ _ hu]
  have hview : ∀ u, (s.start cfg t p).view u = s.view u := by
    intro u
    rw [start_eq hd]
    by_cases hu : u = t
    · subst hu; simp only [Sys.view, PtrStore.upd_same]
    · simp only [Sys.view, PtrStore.upd_ne _ _ hu]
  refine ⟨fun u => ?_, histOk_start h.hist, by rw [hhist, start_eq hd]; exact hn.counter, fun u => ?_, fun u v huv => ?_⟩
  · by_cases hu : u = t
    · subst hu
      rw [PtrStore.upd_same]
      exact ⟨hp, hok.good, hsc, hh⟩
    · rw [PtrStore.upd_ne _ _ hu]
      exact h.ok u
  · refine ⟨by rw [hview]; exact (hn.thr u).inv, ?_⟩
    rw [hhist]
    by_cases hu : u = t
    · subst hu
      rw [PtrStore.upd_same]
      refine ⟨[], s.hist.length, Nat.le_refl _, rfl, fun i _ => ?_⟩
      rw [← run_eval, eval_interf]
      have hw : soloWorld (s.start cfg u p) u s.hist.length ([] : List Nat).length = absW (s.world u) := by
        simp only [soloWorld, hview]
        rw [start_eq hd, ← hn.counter]
        simp only [PtrStore.upd_same]
        rfl
      rw [hw, start_eq hd]
      simp only [PtrStore.upd_same]
    · rw [PtrStore.upd_ne _ _ hu]
      obtain ⟨l, seen, h1, h2, h3⟩ := (hn.thr u).solo
      refine ⟨l, seen, h1, h2, fun i hi => ?_⟩
      rw [h3 i hi]
      simp only [soloWorld, hview]
      rw [start_eq hd]
      simp only [PtrStore.upd_ne _ _ hu]
  · rw [hctx, hctx]
    have : (s.start cfg t p).dmem = s.dmem := by rw [start_eq hd]
    rw [this]
    exact hn.apart u v huv

def Ev.WF (cfg : Cfg) : Ev → Prop
  | .step _ => True
  | .start _ p => p.WF cfg false

/-- The event does not give thread `t` another program. -/
def Ev.Spares (t : Tid) : Ev → Prop
  | .step _ => True
  | .start u _ => u ≠ t

theorem happen_ok {cfg : Cfg} {jobs : Tid → Job} {s : Sys} (h : JobsOk cfg jobs s) {e : Ev} (he : e.WF cfg) :
    ∃ s' jobs', s.happen cfg e = some s' ∧ JobsOk cfg jobs' s' ∧ ∀ t, e.Spares t → jobs' t = jobs t := by
  cases e with
  | step t =>
    obtain ⟨s', h1, h2, _⟩ := sys_step (fun t => (h.ok t).safe) h.rel t
    obtain ⟨h3, h4⟩ := histOk_step h.hist h1
    exact ⟨s', jobs, h1, ⟨h.ok, h3, by rw [h4]; exact h2⟩, fun _ _ => rfl⟩
  | start t p =>
    by_cases hd : ∃ o, (s.thr t).code = .ret o
    · obtain ⟨o, hd⟩ := hd
      exact ⟨_, _, rfl, jobs_start h hd he, fun u hu => PtrStore.upd_ne _ _ (Ne.symm hu)⟩
    · refine ⟨s, jobs, ?_, h, fun _ _ => rfl⟩
      simp only [Sys.happen]
      rw [start_busy (fun o ho => hd ⟨o, ho⟩)]

theorem play_ok {cfg : Cfg} (evs : List Ev) {jobs : Tid → Job} {s : Sys} (h : JobsOk cfg jobs s) (he : ∀ e ∈ evs, e.WF cfg) :
    ∃ s' jobs', s.play cfg evs = some s' ∧ JobsOk cfg jobs' s' ∧ ∀ t, (∀ e ∈ evs, e.Spares t) → jobs' t = jobs t := by
  induction evs generalizing jobs s with
  | nil => exact ⟨s, jobs, rfl, h, fun _ _ => rfl⟩
  | cons e es ih =>
    obtain ⟨s1, j1, h1, h2, h3⟩ := happen_ok h (he e (by simp))
    obtain ⟨s2, j2, h4, h5, h6⟩ := ih h2 (fun e' h' => he e' (by simp [h']))
    refine ⟨s2, j2, by simp only [Sys.play, h1, Option.bind_some, h4], h5, fun t ht => ?_⟩
    rw [h6 t (fun e' h' => ht e' (by simp [h'])), h3 t (ht e (by simp))]

theorem jobsOk_init {cfg : Cfg} {progs : Tid → Prog} (hp : ∀ t, (progs t).WF cfg false) :
    JobsOk cfg (fun t => .first (progs t)) (Sys.init cfg progs) :=
  ⟨fun t => Job.first_ok (hp t), histOk_init cfg progs, sysRel_init cfg progs⟩

theorem histOk_play {cfg : Cfg} (evs : List Ev) {s s' : Sys} (h : HistOk s) (he : s.play cfg evs = some s') : HistOk s' := by
  induction evs generalizing s with
  | nil => cases he; exact h
  | cons e es ih =>
    simp only [Sys.play, Option.bind_eq_some_iff] at he
    obtain ⟨s1, h1, h2⟩ := he
    exact ih (histOk_happen h h1) h2

end Leaf
