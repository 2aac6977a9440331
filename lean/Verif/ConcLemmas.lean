import Verif.ConcModel
import Verif.SmallLemmas
import Verif.KeepLemmas

/-!
# Threads: every thread runs as if alone
-/

namespace Leaf
open PtrStore (abs Inv Untouched Keep allSlots allDas)

theorem PtrStore.pop_untouched {m m' : PtrStore} {c : List CtxCell} (hi : Inv m) (e : pop m = some (c, m')) : Untouched m m' := by
  unfold PtrStore.pop at e
  cases h2 : m.ctxs with
  | nil => simp [h2] at e
  | cons f fs =>
    simp only [h2] at e
    cases hd : deactivate f m with
    | none => simp [hd] at e
    | some m1 =>
      simp only [hd] at e
      cases hr : readOut f m1 with
      | none => simp [hr] at e
      | some cells =>
        cases hds : destroy f m1 with
        | none => simp [hr, hds] at e
        | some m2 =>
          simp only [hr, hds, Option.some.injEq, Prod.mk.injEq] at e
          obtain ⟨_, rfl⟩ := e
          have hn := hi.dnodup
          rw [h2, allDas_cons, List.nodup_append] at hn
          obtain ⟨k1, k2, k3, k4⟩ := deactivate_keeps _ _ _ hd
          obtain ⟨j1, j2, j3, j4⟩ := destroy_keeps _ _ _ hds hn.1
          have hdm : ∀ d ∈ allDas fs, m2.dmem d = m.dmem d := by
            intro d hdd
            rw [j2 d (fun hf => hn.2.2 d hf d hdd rfl), k2]
          have hsl : allSlots m2.dmem fs = allSlots m.dmem fs := allSlots_congr_on hdm
          refine ⟨Nat.le_of_eq (by rw [j3, k4]), ?_, ?_, ?_, ?_⟩
          · intro p hp
            rw [h2, allSlots_cons, List.mem_append]
            simp only [hsl] at hp
            exact .inl (.inr hp)
          · intro p hp
            rw [h2, allDas_cons, List.mem_append]
            exact .inl (.inr hp)
          · intro a _ ha
            show m2.mem a = m.mem a
            rw [j4 a, k3]
            intro p hp
            rw [h2, allSlots_cons] at ha
            exact ha p (List.mem_append_left _ (by rw [k2] at hp; exact hp))
          · intro a _ ha
            show m2.dmem a = m.dmem a
            rw [j2 a, k2]
            intro hf
            rw [h2, allDas_cons] at ha
            exact ha (List.mem_append_left _ hf)

theorem sim_untouched {α : Type} {n : Nat} {x : Comp PtrStore α} {y : Comp AbsStore α} (h : Sim 0 n x y) {w : World PtrStore}
    (hi : Inv w.mem) {a : α} {w' : World AbsStore} (hy : y (absW w) = some (a, w')) :
    ∃ w2, x w = some (a, w2) ∧ absW w2 = w' ∧ Inv w2.mem ∧ Untouched w.mem w2.mem := by
  unfold Sim at h
  obtain ⟨w2, h1, h2, h3, h4⟩ := h w.mem w a w' hi (Keep.refl _) hy
  exact ⟨w2, h1, h2, h3, h4.other⟩

/-- One operation other than `gen` does on the pointer-level storage what it does on the abstract storage. -/
theorem op_sim {cfg : Cfg} {o : Op} (ho : o ≠ .gen) {w : World PtrStore} (hi : Inv w.mem) {r : o.Res} {w' : World AbsStore}
    (hy : o.exec cfg (absW w) = some (r, w')) :
    ∃ w2, o.exec cfg w = some (r, w2) ∧ absW w2 = w' ∧ Inv w2.mem ∧ Untouched w.mem w2.mem := by
  cases o with
  | gen => exact absurd rfl ho
  | getCur => exact sim_untouched sim_getCur hi hy
  | setCur id => exact sim_untouched (sim_setCur id) hi hy
  | emit e h => exact sim_untouched (sim_emit e) hi hy
  | pushHandling e => exact sim_untouched (sim_pushHandling e) hi hy
  | popHandling => exact sim_untouched sim_popHandling hi hy
  | currentException => exact sim_untouched sim_currentException hi hy
  | slotGet ty => exact sim_untouched (sim_slotGet ty) hi hy
  | slotSet ty id v => exact sim_untouched (sim_slotSet ty id v) hi hy
  | daKey => exact sim_untouched sim_daKey hi hy
  | daReset id => exact sim_untouched (sim_daReset id) hi hy
  | daAppend ty id v => exact sim_untouched (sim_daAppend ty id v) hi hy
  | pushCtx spec => exact sim_untouched (sim_pushCtx spec) hi hy
  | popCtx =>
    simp only [Op.exec, popCtx] at hy ⊢
    cases hx : Store.pop (abs w.mem) with
    | none => simp [absW, hx] at hy
    | some x =>
      obtain ⟨c, x⟩ := x
      obtain ⟨m', h1, h2, h3⟩ := PtrStore.pop_ok hi hx
      simp only [absW, hx, Option.map_some, Option.some.injEq, Prod.mk.injEq] at hy
      refine ⟨{ w with mem := m' }, ?_, ?_, h3, PtrStore.pop_untouched hi h1⟩
      · simp [Store.pop, h1, hy.1]
      · rw [← hy.2, ← h2]; rfl

/-- Operations other than `gen` do not look at the counter, nor at the number of ids generated. -/
theorem exec_counter {M : Type} [Store M] {cfg cfg' : Cfg} {o : Op} (ho : o ≠ .gen) (w : World M) (c : Id) (k : Nat) :
    o.exec cfg' { w with counter := c, ticks := k } = (o.exec cfg w).map fun r => (r.1, { r.2 with counter := c, ticks := k }) := by
  cases o with
  | gen => exact absurd rfl ho
  | slotGet ty => simp only [Op.exec, slotGet]; cases Store.slotGet ty w.mem <;> rfl
  | slotSet ty id v => simp only [Op.exec, slotSet]; cases Store.slotSet ty id v w.mem <;> rfl
  | daKey => simp only [Op.exec, daKey]; cases Store.daKey w.mem <;> rfl
  | daReset id => simp only [Op.exec, daReset]; cases Store.daReset id w.mem <;> rfl
  | daAppend ty id v => simp only [Op.exec, daAppend]; cases Store.daAppend ty id v w.mem <;> rfl
  | pushCtx spec => simp only [Op.exec, pushCtx]; cases Store.push spec w.mem <;> rfl
  | popCtx => simp only [Op.exec, popCtx]; cases Store.pop w.mem <;> rfl
  | _ => rfl

/-- What the operations still to be executed by `t` are executed on when it runs alone: same thread-local state; the counter is as
after the id this thread generated last (`seen` ids ago since program start). -/
def soloWorld (s : Sys) (t : Tid) (seen k : Nat) : World AbsStore :=
  ⟨(s.thr t).cur, counterInit + BitVec.ofNat 32 (4 * seen), k, (s.thr t).trace, (s.thr t).handling, abs (s.view t)⟩

/-- What a thread has been given to run: the program, the state of the thread at its start, and how many ids had been generated by then. -/
structure Job where
  prog : Prog
  start : World AbsStore
  base : Nat

/-- A program run by a new thread at program start. -/
def Job.first (p : Prog) : Job := ⟨p, ⟨0#32, counterInit, 0, [], [], ⟨[]⟩⟩, 0⟩

/-- Thread `t` is in the midst of the run it would make alone. `n`: ids generated so far by all threads. `l`: how many ids others
generated before each id of this thread. -/
structure ThrRel (cfg : Cfg) (j : Job) (n : Nat) (s : Sys) (t : Tid) : Prop where
  inv : Inv (s.view t)
  solo : ∃ (l : List Nat) (seen : Nat), seen ≤ n ∧ seen = j.base + (l.sum + l.length) ∧ ∀ i : Nat → Nat, (∀ k (h : k < l.length), i k = l[k]) →
    (eval { cfg with interf := i } j.prog : Comp AbsStore Out) j.start =
      Act.run { cfg with interf := i } (s.thr t).code (soloWorld s t seen l.length)

structure SysRel (cfg : Cfg) (jobs : Tid → Job) (n : Nat) (s : Sys) : Prop where
  counter : s.counter = counterInit + BitVec.ofNat 32 (4 * n)
  thr : ∀ t, ThrRel cfg (jobs t) n s t
  apart : ∀ t u, t ≠ u → (∀ p ∈ allSlots s.dmem (s.thr t).ctxs, ∀ q ∈ allSlots s.dmem (s.thr u).ctxs, p.2 ≠ q.2) ∧
    ∀ a ∈ allDas (s.thr t).ctxs, a ∉ allDas (s.thr u).ctxs

theorem sysRel_init (cfg : Cfg) (progs : Tid → Prog) : SysRel cfg (fun t => .first (progs t)) 0 (Sys.init cfg progs) where
  counter := by simp [Sys.init]
  thr t := ⟨PtrStore.inv_empty, [], 0, Nat.le_refl _, rfl, fun i _ => by
    rw [← run_eval, eval_interf]
    simp [Sys.init, soloWorld, Sys.view, abs, PtrStore.absFrames, Job.first]⟩
  apart t u _ := by simp [Sys.init, allSlots, allDas]

/-- Storage of another thread, after a step of this one. -/
theorem view_other {s : Sys} {t u : Tid} {code : Act Out} {w : World PtrStore} (hut : u ≠ t) (hiu : Inv (s.view u))
    (hu : Untouched (s.view t) w.mem)
    (ha1 : ∀ p ∈ allSlots s.dmem (s.thr t).ctxs, ∀ q ∈ allSlots s.dmem (s.thr u).ctxs, p.2 ≠ q.2)
    (ha2 : ∀ a ∈ allDas (s.thr t).ctxs, a ∉ allDas (s.thr u).ctxs) :
    (s.put t code w).thr u = s.thr u ∧ Inv ((s.put t code w).view u) ∧ abs ((s.put t code w).view u) = abs (s.view u) ∧
      allSlots (s.put t code w).dmem (s.thr u).ctxs = allSlots s.dmem (s.thr u).ctxs := by
  have ht : (s.put t code w).thr u = s.thr u := PtrStore.upd_ne _ _ hut
  have hd : ∀ a ∈ allDas (s.thr u).ctxs, w.mem.dmem a = s.dmem a := fun a ha =>
    hu.dmem a (hiu.dlt a ha) (fun h => ha2 a h ha)
  have hm : ∀ p ∈ allSlots s.dmem (s.thr u).ctxs, w.mem.mem p.2 = s.mem p.2 := fun p hp =>
    hu.mem p.2 (hiu.lt p hp) (fun q hq => ha1 q hq p hp)
  have hs : allSlots w.mem.dmem (s.thr u).ctxs = allSlots s.dmem (s.thr u).ctxs := PtrStore.allSlots_congr_on hd
  refine ⟨ht, ?_, ?_, hs⟩
  · have hv : (s.put t code w).view u = ⟨w.mem.mem, w.mem.dmem, w.mem.next, (s.thr u).tls, (s.thr u).tlsDa, (s.thr u).ctxs⟩ := by
      simp only [Sys.view, ht]; rfl
    rw [hv]
    have hiu' := hiu
    obtain ⟨h1, h2, h3, h4, h5, h6, h7⟩ := hiu
    refine ⟨?_, ?_, h3, fun a ha => Nat.lt_of_lt_of_le (h4 a ha) hu.next, ?_, h6, PtrStore.framesOk_congr_on h7 hd hm⟩
    · simp only [hs]; exact h1
    · simp only [hs]; exact fun p hp => Nat.lt_of_lt_of_le (h2 p hp) hu.next
    · simp only [hs]; exact h5
  · simp only [abs, Sys.view, ht]
    congr 1
    exact PtrStore.absFrames_congr_on hd hm

/-- The thread's run alone is defined, whatever ids it gets. -/
def SafeAlone (cfg : Cfg) (j : Job) : Prop :=
  ∀ i : Nat → Nat, (eval { cfg with interf := i } j.prog : Comp AbsStore Out) j.start ≠ none

/-- An interference pattern extending a list. -/
def extend (l : List Nat) : Nat → Nat := fun k => l[k]?.getD 0

theorem extend_spec (l : List Nat) : ∀ k (h : k < l.length), extend l k = l[k] := by
  intro k h; simp [extend, h]

theorem SysRel.putOther {cfg : Cfg} {jobs : Tid → Job} {n : Nat} {s : Sys} (h : SysRel cfg jobs n s) {t : Tid} {code : Act Out}
    {w : World PtrStore} (hu : Untouched (s.view t) w.mem) (hi : Inv w.mem) (ht : ThrRel cfg (jobs t) n (s.put t code w) t) :
    SysRel cfg jobs n (s.put t code w) where
  counter := h.counter
  thr u := by
    by_cases hut : u = t
    · subst hut; exact ht
    · obtain ⟨h1, h2, h3, _⟩ := view_other (code := code) hut (h.thr u).inv hu (h.apart t u (Ne.symm hut)).1 (h.apart t u (Ne.symm hut)).2
      refine ⟨h2, ?_⟩
      obtain ⟨l, seen, hs, hsum, hsolo⟩ := (h.thr u).solo
      refine ⟨l, seen, hs, hsum, fun i hil => ?_⟩
      rw [hsolo i hil, h1]
      congr 1
      simp only [soloWorld, h1, h3]
  apart := by
    have key : ∀ u, u ≠ t → (∀ p ∈ allSlots (s.put t code w).dmem ((s.put t code w).thr t).ctxs, ∀ q ∈ allSlots (s.put t code w).dmem ((s.put t code w).thr u).ctxs, p.2 ≠ q.2) ∧
        ∀ a ∈ allDas ((s.put t code w).thr t).ctxs, a ∉ allDas ((s.put t code w).thr u).ctxs := by
      intro u hut
      obtain ⟨h1, h2, h3, h4⟩ := view_other (code := code) hut (h.thr u).inv hu (h.apart t u (Ne.symm hut)).1 (h.apart t u (Ne.symm hut)).2
      have ha := h.apart t u (Ne.symm hut)
      have htt : ((s.put t code w).thr t).ctxs = w.mem.ctxs := by
        show (upd s.thr t _ t).ctxs = _
        rw [PtrStore.upd_same]
      rw [h1, h4, htt]
      constructor
      · intro p hp q hq
        rcases hu.slots p hp with h5 | h5
        · exact ha.1 p h5 q hq
        · exact fun e => Nat.lt_irrefl _ (Nat.lt_of_lt_of_le ((h.thr u).inv.lt q hq) (e ▸ h5))
      · intro a hp hq
        rcases hu.das a hp with h5 | h5
        · exact ha.2 a h5 hq
        · exact Nat.lt_irrefl _ (Nat.lt_of_lt_of_le ((h.thr u).inv.dlt a hq) h5)
    intro u v huv
    by_cases hu' : u = t
    · subst hu'
      exact key v (Ne.symm huv)
    · by_cases hv : v = t
      · subst hv
        obtain ⟨k1, k2⟩ := key u huv
        exact ⟨fun p hp q hq => Ne.symm (k1 q hq p hp), fun a h1 h2 => k2 a h2 h1⟩
      · obtain ⟨h1, _, _, h4⟩ := view_other (code := code) hu' (h.thr u).inv hu (h.apart t u (Ne.symm hu')).1 (h.apart t u (Ne.symm hu')).2
        obtain ⟨k1, _, _, k4⟩ := view_other (code := code) hv (h.thr v).inv hu (h.apart t v (Ne.symm hv)).1 (h.apart t v (Ne.symm hv)).2
        rw [h1, h4, k1, k4]
        exact h.apart u v huv

theorem sys_step {cfg : Cfg} {jobs : Tid → Job} (hsafe : ∀ t, SafeAlone cfg (jobs t)) {n : Nat} {s : Sys} (h : SysRel cfg jobs n s) (t : Tid) :
    ∃ s', s.step cfg t = some s' ∧ SysRel cfg jobs (n + s.gens t) s' ∧
      ∀ u, u ≠ t → s'.thr u = s.thr u ∧ abs (s'.view u) = abs (s.view u) := by
  obtain ⟨l, seen, hs, hsum, hsolo⟩ := (h.thr t).solo
  have hn := hsafe t (extend l)
  rw [hsolo _ (extend_spec l)] at hn
  unfold Sys.step
  cases hc : (s.thr t).code with
  | ret a =>
    have hg : s.gens t = 0 := by unfold Sys.gens; rw [hc]
    exact ⟨s, rfl, by rw [hg]; exact h, fun _ _ => ⟨rfl, rfl⟩⟩
  | ub => rw [hc] at hn; exact absurd rfl hn
  | op o k =>
    rw [hc] at hn
    by_cases ho : o = .gen
    · subst ho
      clear hn
      have hg : s.gens t = 1 := by unfold Sys.gens; rw [hc]
      rw [hg]
      refine ⟨_, rfl, ?_, fun u hu => ⟨PtrStore.upd_ne _ _ hu, ?_⟩⟩
      · refine ⟨?_, fun u => ?_, ?_⟩
        · simp only [generateNextId, h.counter, BitVec.add_assoc]
          congr 1
          rw [show 4#32 = BitVec.ofNat 32 4 from rfl, ← BitVec.ofNat_add]
          rfl
        · by_cases hu : u = t
          · subst hu
            have hthr : ∀ x : Thr, upd s.thr u x u = x := fun x => PtrStore.upd_same _ _ _
            refine ⟨?_, ?_⟩
            · simp only [Sys.view, hthr]; exact (h.thr u).inv
            · refine ⟨l ++ [n - seen], n + 1, Nat.le_refl _, ?_, fun i hi => ?_⟩
              · simp only [List.sum_append, List.sum_cons, List.sum_nil, List.length_append, List.length_singleton]; omega
              have hi1 : ∀ k (h : k < l.length), i k = l[k] := by
                intro k hk
                rw [hi k (by simp; omega), List.getElem_append_left]
              have hi2 : i l.length = n - seen := by
                rw [hi l.length (by simp)]
                simp
              rw [hsolo i hi1, hc]
              simp only [hthr, run_op, Op.exec, Option.bind_some, soloWorld, hi2, Sys.view, generateNextId]
              have e1 : counterInit + BitVec.ofNat 32 (4 * seen) + BitVec.ofNat 32 (4 * (n - seen)) + 4#32 = s.counter + 4#32 := by
                rw [h.counter, BitVec.add_assoc counterInit, ← BitVec.ofNat_add, ← Nat.mul_add, Nat.add_sub_cancel' hs]
              have e2 : s.counter + 4#32 = counterInit + BitVec.ofNat 32 (4 * (n + 1)) := by
                rw [h.counter, BitVec.add_assoc, show 4#32 = BitVec.ofNat 32 4 from rfl, ← BitVec.ofNat_add]
                rfl
              rw [e1]
              simp only [e2, List.length_append, List.length_singleton]
          · have hthr : ∀ x : Thr, upd s.thr t x u = s.thr u := fun x => PtrStore.upd_ne _ _ hu
            obtain ⟨l', seen', hs', hsum', hsolo'⟩ := (h.thr u).solo
            refine ⟨?_, l', seen', Nat.le_succ_of_le hs', hsum', fun i hi => ?_⟩
            · simp only [Sys.view, hthr]; exact (h.thr u).inv
            · rw [hsolo' i hi]
              simp only [soloWorld, Sys.view, hthr]
        · have hctx : ∀ x u, x.ctxs = (s.thr t).ctxs → (upd s.thr t x u).ctxs = (s.thr u).ctxs := by
            intro x u hx
            by_cases hu : u = t
            · subst hu; rw [PtrStore.upd_same, hx]
            · rw [PtrStore.upd_ne _ _ hu]
          intro u v huv
          have := h.apart u v huv
          have hu' := hctx { s.thr t with code := k (s.counter + 4#32), trace := .gen (s.counter + 4#32) :: (s.thr t).trace } u rfl
          have hv' := hctx { s.thr t with code := k (s.counter + 4#32), trace := .gen (s.counter + 4#32) :: (s.thr t).trace } v rfl
          simp only [generateNextId, hu', hv']
          exact this
      · simp only [Sys.view]
        rw [PtrStore.upd_ne _ _ hu]
    · -- the solo run executes the operation
      rw [run_op] at hn
      have hexec : ∃ r w', (o.exec cfg (absW (s.world t)) : Option (o.Res × World AbsStore)) = some (r, w') := by
        cases hx : (o.exec cfg (absW (s.world t)) : Option (o.Res × World AbsStore)) with
        | some r => exact ⟨r.1, r.2, rfl⟩
        | none =>
          refine absurd ?_ hn
          have := exec_counter (cfg := cfg) (cfg' := { cfg with interf := extend l }) ho (absW (s.world t)) (counterInit + BitVec.ofNat 32 (4 * seen)) l.length
          rw [hx] at this
          rw [show soloWorld s t seen l.length = { absW (s.world t) with counter := counterInit + BitVec.ofNat 32 (4 * seen), ticks := l.length } from rfl, this]
          rfl
      obtain ⟨r, w', hx⟩ := hexec
      obtain ⟨w2, h1, h2, h3, h4⟩ := op_sim ho (w := s.world t) (h.thr t).inv hx
      have hg : s.gens t = 0 := by
        unfold Sys.gens
        rw [hc]
        cases o with
        | gen => exact absurd rfl ho
        | _ => rfl
      rw [hg]
      refine ⟨s.put t (k r) w2, ?_, h.putOther h4 h3 ⟨?_, l, seen, hs, hsum, fun i hi => ?_⟩, fun u hu => ?_⟩
      · cases o with
        | gen => exact absurd rfl ho
        | _ => simp only [h1]
      · have : (s.put t (k r) w2).view t = w2.mem := by
          simp only [Sys.view, Sys.put, PtrStore.upd_same]
        rw [this]; exact h3
      · rw [hsolo i hi, hc, run_op]
        have := exec_counter (cfg := cfg) (cfg' := { cfg with interf := i }) ho (absW (s.world t)) (counterInit + BitVec.ofNat 32 (4 * seen)) l.length
        rw [show soloWorld s t seen l.length = { absW (s.world t) with counter := counterInit + BitVec.ofNat 32 (4 * seen), ticks := l.length } from rfl, this, hx]
        simp only [Option.map_some, Option.bind_some]
        subst h2
        simp only [Sys.put, PtrStore.upd_same, soloWorld, Sys.view, absW]
      · obtain ⟨k1, _, k3, _⟩ := view_other (code := k r) hu (h.thr u).inv h4 (h.apart t u (Ne.symm hu)).1 (h.apart t u (Ne.symm hu)).2
        exact ⟨k1, k3⟩

theorem sys_run {cfg : Cfg} {jobs : Tid → Job} (hsafe : ∀ t, SafeAlone cfg (jobs t)) (sched : List Tid) {n : Nat} {s : Sys} (h : SysRel cfg jobs n s) :
    ∃ s', s.run cfg sched = some s' ∧ SysRel cfg jobs (n + s.generated cfg sched) s' := by
  induction sched generalizing n s with
  | nil => exact ⟨s, rfl, h⟩
  | cons t ts ih =>
    obtain ⟨s1, h1, h2, _⟩ := sys_step hsafe h t
    obtain ⟨s2, h3, h4⟩ := ih h2
    refine ⟨s2, by simp only [Sys.run, h1, Option.bind_some, h3], ?_⟩
    simp only [Sys.generated, h1, Option.map_some, Option.getD_some, ← Nat.add_assoc]
    exact h4

end Leaf
