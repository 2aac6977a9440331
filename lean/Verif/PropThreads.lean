import Verif.ThreadLemmas

/-!
# C35: threads do not interfere

Any number of threads run LEAF programs. Slots and dynamic allocators of all threads live in one address space, all threads use one id
counter; each thread has its own thread-local pointers. A schedule chooses which thread executes its next operation.
-/

namespace Leaf
open PtrStore (abs)

/-- The content of the active scopes of thread `t`. -/
def Sys.scopes (s : Sys) (t : Tid) : List Scope := (abs (s.view t)).frames

/-- Thread `t` has finished its program, with outcome `o`. -/
def Sys.Done (s : Sys) (t : Tid) (o : Out) : Prop := (s.thr t).code = .ret o

variable {cfg : Cfg}

/-- **C35**, one operation: in every state reached by any threads under any schedule, the next operation of any thread is defined (never
accesses dead storage) and changes nothing of any other thread: not its current error, its thread-local pointers, its active contexts, the
events it recorded, what it will do next; and not the error objects in its scopes. -/
theorem C35_step {progs : Tid → Prog} (hp : ∀ t, (progs t).WF cfg false) {sched : List Tid} {s : Sys}
    (hr : (Sys.init cfg progs).run cfg sched = some s) (t : Tid) :
    ∃ s', s.step cfg t = some s' ∧ ∀ u, u ≠ t → s'.thr u = s.thr u ∧ s'.scopes u = s.scopes u := by
  obtain ⟨s1, h1, h2⟩ := sys_run (fun t => safeAlone_of_wf (hp t)) sched (sysRel_init cfg progs)
  rw [hr] at h1
  cases h1
  obtain ⟨s', h3, _, h5⟩ := sys_step (fun t => safeAlone_of_wf (hp t)) h2 t
  refine ⟨s', h3, fun u hu => ⟨(h5 u hu).1, ?_⟩⟩
  unfold Sys.scopes
  rw [(h5 u hu).2]

/-- **C35**, whole runs: whatever the other threads do and however the threads are scheduled, no thread runs into undefined behaviour, and
what a thread does is what it does when running alone, with an id counter which it sees advance by some amounts `i` between the ids
it generates itself: what it recorded so far is a part of that run; when it is done, so is that run, with the same outcome, current error
and scopes. -/
theorem C35_as_if_alone {progs : Tid → Prog} (hp : ∀ t, (progs t).WF cfg false) (sched : List Tid) :
    ∃ s, (Sys.init cfg progs).run cfg sched = some s ∧
      ∀ t, ∃ i o w, eval { cfg with interf := i } (progs t) (initThread counterInit) = some (o, w) ∧
        (∃ later, w.trace = later ++ (s.thr t).trace) ∧
        ∀ o', s.Done t o' → o' = o ∧ (s.thr t).trace = w.trace ∧ (s.thr t).cur = w.cur ∧ s.scopes t = scopes w := by
  obtain ⟨s, h1, h2⟩ := sys_run (fun t => safeAlone_of_wf (hp t)) sched (sysRel_init cfg progs)
  refine ⟨s, h1, fun t => ?_⟩
  obtain ⟨l, seen, _, _, hsolo⟩ := (h2.thr t).solo
  simp only [Job.first] at hsolo
  have hs := hsolo _ (extend_spec l)
  have hp' : (progs t).WF { cfg with interf := extend l } false := by rw [wf_interf]; exact hp t
  have hok : ThreadOk (initThread counterInit) := threadOk_init (by decide)
  have hnc : (false : Bool) = false → NoCapturingScope (initThread counterInit) := fun _ => (noCapturing_iff _).mpr (by intro f hf; cases hf)
  obtain ⟨o, w, he⟩ := eval_total hp' hok hnc
  obtain ⟨ha, _⟩ := eval_abs hp' hok hnc he
  rw [absW_init, hs] at ha
  refine ⟨extend l, o, w, he, ?_, fun o' ho => ?_⟩
  · obtain ⟨x, hx⟩ := run_trace _ _ _ _ _ ha
    exact ⟨x, hx⟩
  · unfold Sys.Done at ho
    rw [ho] at ha
    have e : o' = o ∧ soloWorld s t seen l.length = absW w := by
      have := Option.some.inj ha
      exact ⟨congrArg Prod.fst this, congrArg Prod.snd this⟩
    refine ⟨e.1, congrArg World.trace e.2, congrArg World.cur e.2, ?_⟩
    exact congrArg (fun w => w.mem.frames) e.2

/-- **C35**, ids: a thread whose code does not look at the value of ids, run together with any other threads under any schedule, observes the
same as when run together with any different threads under any different schedule, except for a one-to-one renaming of ids. `2^30` ids
can be generated before they repeat. -/
theorem C35_independent {p : Prog} (ha : p.IdAgnostic) {progs progs' : Tid → Prog} (hp : ∀ t, (progs t).WF cfg false) (hp' : ∀ t, (progs' t).WF cfg false)
    {t t' : Tid} (ht : progs t = p) (ht' : progs' t' = p) {sched sched' : List Tid} {s s' : Sys}
    (hs : (Sys.init cfg progs).run cfg sched = some s) (hs' : (Sys.init cfg progs').run cfg sched' = some s')
    (hn : (Sys.init cfg progs).generated cfg sched < 2 ^ 30) (hn' : (Sys.init cfg progs').generated cfg sched' < 2 ^ 30)
    {o o' : Out} (hd : s.Done t o) (hd' : s'.Done t' o') :
    ∃ ρ : Ren, o' = ren ρ o ∧ (s'.thr t').trace = ren ρ (s.thr t).trace ∧ (s'.thr t').cur = ren ρ (s.thr t).cur ∧
      s'.scopes t' = ren ρ (s.scopes t) := by
  obtain ⟨s1, h1, h2⟩ := sys_run (fun t => safeAlone_of_wf (hp t)) sched (sysRel_init cfg progs)
  obtain ⟨s1', h1', h2'⟩ := sys_run (fun t => safeAlone_of_wf (hp' t)) sched' (sysRel_init cfg progs')
  rw [hs] at h1
  rw [hs'] at h1'
  cases h1
  cases h1'
  obtain ⟨l, seen, hle, hsum, hsolo⟩ := (h2.thr t).solo
  obtain ⟨l', seen', hle', hsum', hsolo'⟩ := (h2'.thr t').solo
  simp only [Job.first] at hsolo hsolo' hsum hsum'
  have e := hsolo _ (extend_spec l)
  have e' := hsolo' _ (extend_spec l')
  unfold Sys.Done at hd hd'
  rw [hd] at e
  rw [hd'] at e'
  rw [ht] at e
  rw [ht'] at e'
  have hl : l.sum + l.length < 2 ^ 30 := by omega
  have hl' : l'.sum + l'.length < 2 ^ 30 := by omega
  rcases Nat.le_total l.length l'.length with hc | hc
  · obtain ⟨ρ, c, h⟩ := solo_ren ha hl hl' e rfl hc
    rw [e'] at h
    have h' := Option.some.inj h
    have hw : soloWorld s' t' seen' l'.length = renWorld ρ c (soloWorld s t seen l.length) := congrArg Prod.snd h'
    exact ⟨ρ, congrArg Prod.fst h', congrArg World.trace hw, congrArg World.cur hw, congrArg (fun w => w.mem.frames) hw⟩
  · obtain ⟨ρ, c, h⟩ := solo_ren ha hl' hl e' rfl hc
    rw [e] at h
    have h' := Option.some.inj h
    have hw : soloWorld s t seen l.length = renWorld ρ c (soloWorld s' t' seen' l'.length) := congrArg Prod.snd h'
    have k1 : o = ren ρ o' := congrArg Prod.fst h'
    have k2 : (s.thr t).trace = ren ρ (s'.thr t').trace := congrArg World.trace hw
    have k3 : (s.thr t).cur = ren ρ (s'.thr t').cur := congrArg World.cur hw
    have k4 : s.scopes t = ren ρ (s'.scopes t') := congrArg (fun w => w.mem.frames) hw
    exact ⟨ρ.inv, by rw [k1, inv_ren], by rw [k2, inv_ren], by rw [k3, inv_ren], by rw [k4, inv_ren]⟩

/-! ## Examples -/

/-- Reports an error, through a scope, to a handler that takes the object and the id. -/
def exThread (v : Val) : Prog :=
  .handleSome [[.req 10, .info]]
    (.bind (.handleSome [[.req 11]] (.newError [.obj 10 v] (fun id => .ret (.err (.plain id)))) (fun _ _ => .ret (.val 0)))
      (fun v => .ret (.val v)) (fun r => .ret (.err r)))
    (fun _ _ => .newError [.obj 12 v] (fun id => .ret (.err (.plain id))))

example (v : Val) : (exThread v).WF exCfg false := by
  refine ⟨⟨⟨⟨by simp [Item.Ok], fun _ _ => trivial⟩, fun _ _ _ => trivial⟩, fun _ => trivial, fun r h => h⟩, fun _ _ _ => ⟨by simp [Item.Ok], fun _ _ => trivial⟩⟩

example (v : Val) : (exThread v).IdAgnostic := by
  intro ρ
  have h : ∀ id : Id, ren ρ (ren ρ.inv id) = id := fun id => inv_ren ρ.inv id
  have h2 : ∀ r : ErrRes, ren ρ (ren ρ.inv r) = r := fun r => inv_ren ρ.inv r
  simp [exThread, Prog.rename, h, h2]
  exact ⟨⟨rfl, rfl⟩, rfl⟩

/-- Two threads; the second gets the first id. -/
def exSched : List Tid := [0, 0, 1, 1, 1, 1, 1] ++ List.replicate 60 0 ++ List.replicate 60 1

def outcome (s : Option Sys) (t : Tid) : Option Out := s.bind fun s => match (s.thr t).code with
  | .ret o => some o
  | _ => none

example : outcome ((Sys.init exCfg exThread).run exCfg exSched) 0 = some (.err (.plain 13#32)) ∧
    outcome ((Sys.init exCfg exThread).run exCfg exSched) 1 = some (.err (.plain 17#32)) ∧
    (Sys.init exCfg exThread).generated exCfg exSched = 4 := by decide +kernel

end Leaf
