import Verif.PropExamples
import Verif.PropRemoteMore

/-!
# C62: tasks in other threads
-/

namespace Leaf.Tasks

theorem tick_captureAll {M : Type} [Store M] (cfg : Cfg) {p : Prog} {k : Nat} (h : TickLe k (eval cfg p : Comp M Out)) :
    TickLe k (eval cfg (.captureAll p) : Comp M Out) := by
  unfold eval tryCaptureAll
  have hx : ∀ id cells ex, TickLe 0 (extractCaptured id cells ex : Comp M Out) := fun _ _ _ => by
    unfold extractCaptured
    tick
  split
  · exact .ub
  refine .bind0 (tick_pushCtx _) fun _ => .bind0' h fun o => ?_
  cases o with
  | val v => exact .bind0 tick_popCtx fun _ => .pure _
  | err r => exact .bind0 tick_popCtx fun _ => .bind0 tick_currentException fun _ => hx _ _ _
  | exc e => exact .bind0 tick_popCtx fun _ => .bind0 (tick_unpackId _) fun _ => hx _ _ _

/-- **C62, try_capture_all_result.cpp:** thread `t` runs a task under `try_capture_all`, thread `u` handles the result. Whatever happens before, in between
and meanwhile: if the task fails, the first handler is called in `u`, with the objects of the error. -/
theorem C62_tasks {cfg : Cfg} (hs : cfg.isAbstract tyThread = false ∧ cfg.isAbstract tyInfo1 = false ∧ cfg.isAbstract tyInfo2 = false)
    (hc : cfg.capture = true) {fails : Bool} {thread info1 info2 : Val}
    {s0 s1 s2 s3 : Sys} {t u : Tid} {o0 o1 o2 o3 : Out} {evs1 evs2 evs3 : List Ev}
    -- `t` runs the task
    (h0 : Reached cfg s0) (hd0 : s0.Done t o0) (hcur : s0.CurKnown t) (he1 : ∀ e ∈ evs1, e.WF cfg) (ht : ∀ q, .start t q ∉ evs1)
    (h1 : (s0.start cfg t (.captureAll (task fails thread info1 info2).prog)).play cfg evs1 = some s1) (hd1 : s1.Done t o1)
    -- `u` handles the result
    (he2 : ∀ e ∈ evs2, e.WF cfg) (h2 : s1.play cfg evs2 = some s2) (hd2 : s2.Done u o2) (hcur2 : s2.CurKnown u)
    (he3 : ∀ e ∈ evs3, e.WF cfg) (hu : ∀ q, .start u q ∉ evs3) (h3 : (s2.start cfg u (handle o1)).play cfg evs3 = some s3) (hd3 : s3.Done u o3)
    (hn : s3.hist.length ≤ 2 ^ 30) :
    o3 = .val 0 ∧ ∃ id, callsIn (s3.thr u).trace =
      (if fails then [(id, none, 0, [.obj tyInfo1 info1, .obj tyInfo2 info2, .obj tyThread thread])] else []) ++ callsIn (s2.thr u).trace := by
  have hpart : Part cfg true (task fails thread info1 info2) 1 := by
    unfold task
    split
    · exact .fail (by simp [Item.Ok])
    · exact .ret _
  have hone : ∀ r, o1 = .err r → (s1.thr t).ids.length ≤ (s0.thr t).ids.length + 1 := by
    intro r _
    obtain ⟨i1, w1, r1, r2, r3, r4⟩ := job_done h0 hd0 (p := .captureAll (task fails thread info1 info2).prog) ⟨hc, hpart.wf⟩ he1 ht h1 hd1
    have hi : w1.ticks + (idsIn (s0.thr t).trace).length = 0 + (idsIn w1.trace).length := run_ids _ _ _ _ _ ((congrFun (run_eval _ _) _).trans r1)
    have hk : w1.ticks ≤ 0 + 1 := tick_captureAll _ hpart.bound.ticks _ _ _ r1
    have e1 : (s0.thr t).ids = idsIn (s0.thr t).trace := rfl
    have e2 : (s1.thr t).ids = idsIn w1.trace := by rw [← r3]; rfl
    rw [e1, e2]
    omega
  obtain ⟨i, io, n, lt, lu, a1, ⟨iot, nt, a2⟩, a3, _, _, a5⟩ := C54_remote (specs := handlers) (body := fun _ _ => .ret 0) ⟨hc, hpart.wf⟩ hpart.ok
    ⟨⟨[_], [.diag], rfl, rfl⟩, trivial, fun _ _ _ => ⟨trivial, fun r => nofun⟩⟩ (fun _ _ => trivial) h0 hd0 hcur he1 ht h1 hd1 hone he2 h2 hd2 hcur2 he3 hu h3 hd3 hn
  rw [a5]
  cases fails with
  | false =>
    cases a2
    cases a1 with
    | all_ok h => cases h; exact ⟨a3, 0#32, rfl⟩
    | all_handled h => cases h
  | true =>
    cases a2
    generalize hl : [] ++ lu = l at a1
    cases a1 with
    | all_ok h => cases h
    | @all_handled _ _ _ _ id A ex t1 l1 j vals o t2 l2 h hf hg hb =>
      cases h
      cases hb
      cases hl
      generalize hA : objects { cfg with interf := i } [.obj tyThread thread, .obj tyInfo1 info1, .obj tyInfo2 info2] = A at hf hg
      change FirstSuitableOf _ A none handlers j at hf
      change Gets _ handlers A _ none j vals at hg
      have e1 := fun v => sees_iff (cfg := { cfg with interf := i }) (A := A) hs.1 (noPart_none _) v
      have e2 := fun v => sees_iff (cfg := { cfg with interf := i }) (A := A) hs.2.1 (noPart_none _) v
      have e3 := fun v => sees_iff (cfg := { cfg with interf := i }) (A := A) hs.2.2 (noPart_none _) v
      simp only [show A tyThread = some thread by rw [← hA]; rfl, show A tyInfo1 = some info1 by rw [← hA]; rfl,
        show A tyInfo2 = some info2 by rw [← hA]; rfl] at e1 e2 e3
      have hj : j = 0 := by
        cases j with
        | zero => rfl
        | succ j =>
          refine absurd ?_ (hf.2 0 (by omega) _ rfl)
          intro a ha
          rcases List.mem_cons.mp ha with rfl | ha
          · exact ⟨_, (e2 _).mpr rfl⟩
          rcases List.mem_cons.mp ha with rfl | ha
          · exact ⟨_, (e3 _).mpr rfl⟩
          · cases List.mem_singleton.mp ha
            exact ⟨_, (e1 _).mpr rfl⟩
      subst hj
      obtain ⟨hd, outer, g1, g2, g3⟩ := hg
      cases g1
      match vals, g2 with
      | [x, y, z], _ =>
        have hx : ∀ ty x v, (∀ v', SeesOf { cfg with interf := i } A none ty v' ↔ some v = some v') →
            ReceivesOf { cfg with interf := i } handlers outer A (errorNo { cfg with interf := i } s0.counter 0) none (.req ty) x → x = .obj ty v := by
          intro ty x v hv h
          cases x with
          | obj ty' v' =>
            obtain ⟨rfl, h⟩ := h
            cases (hv v').mp h
            rfl
          | _ => cases h
        rw [hx _ _ _ e2 (g3 0 _ _ rfl rfl), hx _ _ _ e3 (g3 1 _ _ rfl rfl), hx _ _ _ e1 (g3 2 _ _ rfl rfl)]
        exact ⟨a3, _, rfl⟩

/-- **C62, try_capture_all_exceptions.cpp:** the same when the task throws, and `u` calls `value()` in a `try_catch`. -/
theorem C62_tasks_throwing {cfg : Cfg} (hs : cfg.isAbstract tyThread = false ∧ cfg.isAbstract tyInfo1 = false ∧ cfg.isAbstract tyInfo2 = false)
    (hc : cfg.capture = true) {fails : Bool} {thread info1 info2 : Val}
    {s0 s1 s2 s3 : Sys} {t u : Tid} {o0 o1 o2 o3 : Out} {evs1 evs2 evs3 : List Ev}
    -- `t` runs the task
    (h0 : Reached cfg s0) (hd0 : s0.Done t o0) (hcur : s0.CurKnown t) (he1 : ∀ e ∈ evs1, e.WF cfg) (ht : ∀ q, .start t q ∉ evs1)
    (h1 : (s0.start cfg t (.captureAll (taskThrows fails thread info1 info2).prog)).play cfg evs1 = some s1) (hd1 : s1.Done t o1)
    -- `u` handles the result
    (he2 : ∀ e ∈ evs2, e.WF cfg) (h2 : s1.play cfg evs2 = some s2) (hd2 : s2.Done u o2) (hcur2 : s2.CurKnown u)
    (he3 : ∀ e ∈ evs3, e.WF cfg) (hu : ∀ q, .start u q ∉ evs3) (h3 : (s2.start cfg u (handleThrown o1)).play cfg evs3 = some s3) (hd3 : s3.Done u o3)
    (hn : s3.hist.length ≤ 2 ^ 30) :
    o3 = .val 0 ∧ ∃ id ex, callsIn (s3.thr u).trace =
      (if fails then [(id, ex, 0, [.obj tyInfo1 info1, .obj tyInfo2 info2, .obj tyThread thread])] else []) ++ callsIn (s2.thr u).trace := by
  have hpart : Part cfg true (taskThrows fails thread info1 info2) 1 := by
    unfold taskThrows
    split
    · exact .throw_ (by simp [Item.Ok]) fun id h => ⟨h, rfl, Or.inl rfl⟩
    · exact .ret _
  have hone : ∀ r, o1 = .err r → (s1.thr t).ids.length ≤ (s0.thr t).ids.length + 1 := by
    intro r _
    obtain ⟨i1, w1, r1, r2, r3, r4⟩ := job_done h0 hd0 (p := .captureAll (taskThrows fails thread info1 info2).prog) ⟨hc, hpart.wf⟩ he1 ht h1 hd1
    have hi : w1.ticks + (idsIn (s0.thr t).trace).length = 0 + (idsIn w1.trace).length := run_ids _ _ _ _ _ ((congrFun (run_eval _ _) _).trans r1)
    have hk : w1.ticks ≤ 0 + 1 := tick_captureAll _ hpart.bound.ticks _ _ _ r1
    have e1 : (s0.thr t).ids = idsIn (s0.thr t).trace := rfl
    have e2 : (s1.thr t).ids = idsIn w1.trace := by rw [← r3]; rfl
    rw [e1, e2]
    omega
  obtain ⟨i, io, n, lt, lu, a1, ⟨iot, nt, a2⟩, a3, _, _, a5⟩ := C54_remote_catch (tag := 0) (specs := handlers) (body := fun _ _ => .ret 0) ⟨hc, hpart.wf⟩ hpart.ok
    ⟨trivial, fun _ _ _ => trivial⟩ (fun _ _ => trivial) h0 hd0 hcur he1 ht h1 hd1 hone he2 h2 hd2 hcur2 he3 hu h3 hd3 hn
  rw [a5]
  cases fails with
  | false =>
    cases a2
    cases a1 with
    | catch_scope_ok h => cases h with | value_ok h => cases h; exact ⟨a3, 0#32, none, rfl⟩
    | catch_scope_unhandled h => cases h <;> rename_i h <;> cases h
    | catch_scope_handled h => cases h <;> rename_i h <;> cases h
  | true =>
    cases a2
    have key : ∀ {A : Ty → Option Val} {x : Option Exc}, A = objects { cfg with interf := i } [.obj tyThread thread, .obj tyInfo1 info1, .obj tyInfo2 info2] →
        (∀ ty, NoPart x ty) → (∀ v, SeesOf { cfg with interf := i } A x tyInfo1 v ↔ some info1 = some v) ∧
        (∀ v, SeesOf { cfg with interf := i } A x tyInfo2 v ↔ some info2 = some v) ∧ (∀ v, SeesOf { cfg with interf := i } A x tyThread v ↔ some thread = some v) := by
      rintro A x rfl hx
      exact ⟨fun v => sees_iff hs.2.1 (hx _) v, fun v => sees_iff hs.2.2 (hx _) v, fun v => sees_iff hs.1 (hx _) v⟩
    have hsuit : ∀ {A : Ty → Option Val} {x : Option Exc}, A = objects { cfg with interf := i } [.obj tyThread thread, .obj tyInfo1 info1, .obj tyInfo2 info2] →
        (∀ ty, NoPart x ty) → SuitableOf { cfg with interf := i } A x [.req tyInfo1, .req tyInfo2, .req tyThread] := by
      intro A x hA hx a ha
      obtain ⟨e1, e2, e3⟩ := key hA hx
      rcases List.mem_cons.mp ha with rfl | ha
      · exact ⟨_, (e1 _).mpr rfl⟩
      rcases List.mem_cons.mp ha with rfl | ha
      · exact ⟨_, (e2 _).mpr rfl⟩
      · cases List.mem_singleton.mp ha
        exact ⟨_, (e3 _).mpr rfl⟩
    generalize hl : [] ++ lu = l at a1
    cases a1 with
    | catch_scope_ok h => cases h with | value_ok h => cases h
    | catch_scope_unhandled h hno =>
      cases h with
      | value_failed h => cases h
      | value_thrown h =>
        cases h
        exact absurd (hsuit rfl (by intro ty e he; cases he; rfl)) (hno _ List.mem_cons_self)
    | @catch_scope_handled _ _ _ _ id A e t1 l1 j vals o t2 l2 h hf hg hb =>
      cases h with
      | value_failed h => cases h
      | value_thrown h =>
        cases h
        cases hb
        cases hl
        have hx : ∀ ty, NoPart (visible (some (⟨0, true, .base (errorNo { cfg with interf := i } s0.counter 0), [], true⟩ : Exc))) ty := by
          intro ty e he; cases he; rfl
        have hj : j = 0 := by
          cases j with
          | zero => rfl
          | succ j => exact absurd (hsuit rfl hx) (hf.2 0 (by omega) _ rfl)
        subst hj
        obtain ⟨e1, e2, e3⟩ := key rfl hx
        obtain ⟨hd, outer, g1, g2, g3⟩ := hg
        cases g1
        match vals, g2 with
        | [x, y, z], _ =>
          have hr : ∀ {A : Ty → Option Val} {id : Id} {ex : Option Exc} {ty x v}, (∀ v', SeesOf { cfg with interf := i } A ex ty v' ↔ some v = some v') →
              ReceivesOf { cfg with interf := i } handlers outer A id ex (.req ty) x → x = .obj ty v := by
            intro A id ex ty x v hv h
            cases x with
            | obj ty' v' =>
              obtain ⟨rfl, h⟩ := h
              cases (hv v').mp h
              rfl
            | _ => cases h
          rw [hr e1 (g3 0 _ _ rfl rfl), hr e2 (g3 1 _ _ rfl rfl), hr e3 (g3 2 _ _ rfl rfl)]
          exact ⟨a3, _, _, rfl⟩

/-! ## The hypotheses can be met -/

/-- What thread 0 captures. -/
def exTaskResult : ErrRes := .captured 9#32 [.obj tyThread (some (9#32, 6)), .obj tyInfo1 (some (9#32, 7)), .obj tyInfo2 (some (9#32, 8))]

/-- Thread 0 runs the task while thread 1 runs something else. -/
def exTask1 : Option Sys := (exRemote0.map fun s => s.start exCfg 0 (.captureAll (task true 6 7 8).prog)).bind (·.play exCfg exScript.2.1)

/-- Thread 1, done, is given the result. -/
def exTask3 : Option Sys := (exTask1.map fun s => s.start exCfg 1 (handle (.err exTaskResult))).bind (·.play exCfg exScript.2.2)

example : exCfg.capture = true ∧ outcome exRemote0 0 = some (.val 0) ∧ exRemote0.map (fun s => (s.thr 0).cur) = some 0#32 ∧
    outcome exTask1 0 = some (.err exTaskResult) ∧ outcome exTask1 1 = some (.err (.plain 13#32)) ∧ exTask1.map (fun s => (s.thr 1).cur) = some 13#32 ∧
    outcome exTask3 1 = some (.val 0) ∧ exTask3.map (fun s => decide (s.hist.length ≤ 2 ^ 30)) = some true ∧
    exTask3.map (fun s => (callsIn (s.thr 1).trace).take 1) = some [(9#32, none, 0, [.obj tyInfo1 7, .obj tyInfo2 8, .obj tyThread 6])] :=
  ⟨rfl, by decide +kernel, by decide +kernel, by decide +kernel, by decide +kernel, by decide +kernel, by decide +kernel, by decide +kernel,
    by decide +kernel⟩

/-- The same with exceptions. -/
def exThrowResult : ErrRes :=
  .captured 9#32 [.obj tyThread (some (9#32, 6)), .obj tyInfo1 (some (9#32, 7)), .obj tyInfo2 (some (9#32, 8)), .exc ⟨0, true, .base 9#32, [], false⟩]

def exThrow1 : Option Sys := (exRemote0.map fun s => s.start exCfg 0 (.captureAll (taskThrows true 6 7 8).prog)).bind (·.play exCfg exScript.2.1)

def exThrow3 : Option Sys := (exThrow1.map fun s => s.start exCfg 1 (handleThrown (.err exThrowResult))).bind (·.play exCfg exScript.2.2)

example : outcome exThrow1 0 = some (.err exThrowResult) ∧ outcome exThrow1 1 = some (.err (.plain 13#32)) ∧ exThrow1.map (fun s => (s.thr 1).cur) = some 13#32 ∧
    outcome exThrow3 1 = some (.val 0) ∧ exThrow3.map (fun s => decide (s.hist.length ≤ 2 ^ 30)) = some true ∧
    exThrow3.map (fun s => (callsIn (s.thr 1).trace).take 1) =
      some [(9#32, some ⟨0, true, .base 9#32, [], false⟩, 0, [.obj tyInfo1 7, .obj tyInfo2 8, .obj tyThread 6])] :=
  ⟨by decide +kernel, by decide +kernel, by decide +kernel, by decide +kernel, by decide +kernel, by decide +kernel⟩

end Leaf.Tasks
