import Verif.PropRemote

/-!
# C54: results handled with `try_handle_some`, or thrown by `value()` and caught with `try_catch`

As in PropRemote.lean, a function is run in one thread under `try_capture_all`, and its result is handled in another, here with the two functions
that may find no suitable handler.
-/

namespace Leaf

/-! ## Specification -/

/-- What a program returned or threw is what the ideal outcome says. (Differs from `Outcome.Is` in that the result may be one that held captured
objects before; its error id counts.) -/
def Outcome.Returned : Outcome → Out → Prop
  | .ok v, o => o = .val v
  | .failed id _ none, o => ∃ r, o = .err r ∧ r.errId = id
  | .failed _ _ (some e), o => ∃ e', o = .exc e' ∧ e'.examined = e.examined

/-- What becomes of error `id`, with objects `A` and exception `ex`, in a scope with the given handlers: the first suitable one is called, and
does what an ideal run of it does; or there is none, and the error goes on. -/
def Goes (cfg : Cfg) (c : Id) (specs : List (List Arg)) (body : Nat → List ArgVal → Direct) (id : Id) (A : Ty → Option Val) (ex : Option Exc)
    (t : Nat) (io : Outcome) (t' : Nat) (l : List Call) : Prop :=
  (∃ i vals l', FirstSuitableOf cfg A (visible ex) specs i ∧ Gets cfg specs A id (visible ex) i vals ∧ Ideal cfg c (body i vals) t io t' l' ∧
    l = (id, visible ex, i, vals) :: l') ∨
  ((∀ hd ∈ specs, ¬ SuitableOf cfg A (visible ex) hd) ∧ io = .failed id A ex ∧ t' = t ∧ l = [])

/-- The exception `result::value()` throws for an error `id` whose exception is `ex`. -/
def thrownBy (tag : Nat) (id : Id) (ex : Option Exc) : Exc := ex.getD (badResultExc id tag)

/-- `try_catch` around `f.get().value()`, when `o` is in the future `f`. -/
def catchValue (specs : List (List Arg)) (tag : Nat) (o : Out) (body : Nat → List ArgVal → Prog) : Prog :=
  .tryCatch specs (.bind (.ret o) (fun v => .ret (.val v)) (fun r => .value r tag)) body

/-! ## Receiving -/

theorem Outcome.Is.returned {io : Outcome} {o : Out} (h : io.Is o) : io.Returned o := by
  cases io with
  | ok v => exact h
  | failed id A ex =>
    cases ex with
    | none =>
      obtain ⟨k, rfl, hk⟩ := h
      exact ⟨_, rfl, hk⟩
    | some e => exact h

theorem unloadCur_same (id : Id) (s : List CtxCell) : unloadCur id s id = id := by
  induction s with
  | nil => rfl
  | cons x s ih => cases x <;> simp only [unloadCur, ih, ite_self]

section
variable {cfg : Cfg} {c : Id} {n : Nat} {da : Bool} {w w1 wh w' : World PtrStore} {o : Out} {specs : List (List Arg)} {body : Nat → List ArgVal → Direct}
  {s : Scope} {ss : List Scope} {id : Id} {A : Ty → Option Val} {ex : Option Exc} {hnd : List Exc} {i : Nat} {vals : List ArgVal} {hd : List Arg}

theorem visible_ok (hid : id.Tagged) (hex : ∀ e, ex = some e → e.Carries id) : ∀ e, visible ex = some e → e.Ok := by
  intro e he
  cases ex with
  | none => simp [visible] at he
  | some x =>
    simp only [visible, Option.bind_some, shown, Option.ite_none_right_eq_some, Option.some.injEq] at he
    rw [← he.2]
    exact examined_ok ((hex x rfl).ok hid)

/-- A handler that starts where objects `A` were received does what an ideal run of it does. -/
theorem goes_handled {wr : World PtrStore} (hid : id.Tagged) (hex : ∀ e, ex = some e → e.Carries id)
    (hb : ∀ i args, (∀ a ∈ args, ArgVal.Ok a) → (body i args).prog.WF cfg da) (hd' : ∀ i args, (body i args).Ok)
    (hsl : s.map CtxCell.cellTy = deduce cfg specs) (hg : FramesGood [s]) (hA : Attached cfg id A (s :: ss))
    (hcur : w1.cur = id) (hcount : w1.counter = w.counter) (hticks : w1.ticks = w.ticks) (hquiet : NoHandlerCalled w w1)
    (hst : ∀ ty k v, Stored ty k v ss → Stored ty k v (scopes w) ∨ k = id) (hnd' : da = false → NoDa (shape ss))
    (hold : NotAhead cfg c w.ticks n id) (hn : gens cfg.interf n ≤ 2 ^ 30) (hs : Start cfg c n w)
    (hi : FirstSuitable s id (visible ex) specs i) (e2 : specs[i]? = some hd) (e3 : ReceivesAll s id (visible ex) hd vals)
    (e4 : HandlerStarts w1 ss id (visible ex) hnd i vals wh) (e5 : eval cfg (body i vals).prog wh = some (o, wr)) (hf : wr.ticks ≤ n) :
    ∃ io l, Goes cfg c specs body id A ex w.ticks io wr.ticks l ∧ io.Is o ∧ callsIn wr.trace = l.reverse ++ callsIn w.trace ∧
      ¬ ∀ hd ∈ specs, ¬ SuitableOf cfg A (visible ex) hd := by
  have hvals := receivesAll_ok hid (visible_ok hid hex) e3
  have hstart : Start cfg c n wh := by
    refine ⟨?_, ?_, fun ty k v hk => ?_⟩
    · rw [e4.counter, e4.ticks, hcount, hticks]; exact hs.counter
    · rw [e4.cur, e4.ticks, hcur, hticks]; exact hold
    · rw [e4.scopes] at hk
      rw [e4.ticks, hticks]
      rcases hst ty k v hk with hk | rfl
      · exact hs.stored ty k v hk
      · exact hold
  obtain ⟨io, l, i1, i2, i3, _⟩ := C48_ideal (hb i vals hvals) (hd' i vals) e4.ok
    (fun h0 => (noCapturing_iff _).mpr (by rw [e4.scopes]; exact hnd' h0)) hn hstart e5 hf
  rw [e4.ticks, hticks] at i1
  have hfirst := (firstSuitable_of hsl hg hA).mp hi
  obtain ⟨es, q1, q2⟩ := hquiet
  refine ⟨io, _, Or.inl ⟨i, vals, l, hfirst, ⟨hd, ss, e2, e3.1, fun j a x ha hx => ?_⟩, i1, rfl⟩, i2, ?_, fun hno => not_unhandled hfirst hno⟩
  · exact receives_of hsl hg hA (List.mem_of_getElem? e2) (List.mem_of_getElem? ha) (e3.2 j a x ha hx)
  · rw [i3, e4.trace, q1]
    show _ ++ callsIn ([Event.handled id (visible ex) i vals] ++ (es ++ w.trace)) = _
    rw [callsIn_append, callsIn_append, callsIn_quiet q2]
    simp [callsIn]

theorem seen_of_carries (hex : ∀ e, ex = some e → e.Carries id) (e : Exc) (he : ex = some e) (cur : Id) : e.examined.seenId cur = id := by
  rw [seenId_examined _ e.examined cur (examined_twice e)]
  exact (hex e he).seen cur

theorem first_or_none (hsl : s.map CtxCell.cellTy = deduce cfg specs) (hid : id.Tagged) (x : Option Exc) :
    (∃ i, FirstSuitable s id x specs i) ∨ ∀ hd ∈ specs, ¬ Suitable s id x hd := by
  have h := C15_select_some (scopeOk_deduced hsl) hid x specs
  cases hsel : selectSome cfg s id x specs with
  | none => exact Or.inr (h.2.mp hsel)
  | some i => exact Or.inl ⟨i, (h.1 i).mp hsel⟩

theorem goes_on (hsl : s.map CtxCell.cellTy = deduce cfg specs) (hg : FramesGood [s]) (hA : Attached cfg id A (s :: ss)) (t : Nat)
    (hno : ∀ hd ∈ specs, ¬ Suitable s id (visible ex) hd) : Goes cfg c specs body id A ex t (.failed id A ex) t [] :=
  Or.inr ⟨fun hd hm hc => hno hd hm ((suitable_of hsl hg hA hm).mpr hc), rfl, rfl, rfl⟩

theorem available_left (hg : FramesGood [s]) (hA : Attached cfg id A (s :: ss)) (hc : w'.cur = id) (hs : scopes w' = unloadFs cfg id s ss) :
    (Outcome.failed id A ex).Available cfg w' := by
  refine ⟨hc, ?_⟩
  rw [hs]
  exact (attached_leave (hg s (List.mem_singleton.mpr rfl)).2 hA).1

/-- **C54, receiving with `try_handle_some`.** A result carrying error `id` with objects `A` is handled with `try_handle_some`, in any thread, in any
scopes. What happens is what happens to an error with objects `A` in the ideal semantics; if no handler is suitable, the objects are available to the
enclosing scopes. -/
theorem C54_received_some (hid : id.Tagged) {r : ErrRes} (hr : Carries r id A (ex.map Exc.examined))
    (hex : ∀ e, ex = some e → e.Carries id) (hp : (Direct.handleSome specs (.ret 0) (fun _ _ => none) body).prog.WF cfg da) (hrok : r.Ok)
    (hd : ∀ i args, (body i args).Ok)
    (hw : ThreadOk w) (hda : da = false → NoCapturingScope w) (hnew : ∀ ty v, ¬ Stored ty id v (scopes w)) (hold : NotAhead cfg c w.ticks n id)
    (hn : gens cfg.interf n ≤ 2 ^ 30) (hs : Start cfg c n w)
    (h : eval cfg (.handleSome specs (.ret (.err r)) fun i args => (body i args).prog) w = some (o, w')) (hf : w'.ticks ≤ n) :
    ∃ io l, Goes cfg c specs body id A ex w.ticks io w'.ticks l ∧ io.Returned o ∧ callsIn w'.trace = l.reverse ++ callsIn w.trace ∧
      ((∀ hd ∈ specs, ¬ SuitableOf cfg A (visible ex) hd) → io.Available cfg w') := by
  obtain ⟨w1, s, ss, h1, h2, h3, h4, h5, h6, h7, h8, h9, h10, h11⟩ := attempt_received (cfg := cfg) (deduce_nodup cfg specs) hid hr hw hnew
  have hg := scopes_cons_good h6 h2
  have hp' : (Prog.handleSome specs (.ret (.err r)) fun i args => (body i args).prog).WF cfg da := ⟨hrok, hp.2⟩
  obtain ⟨_, _, _, q4, _⟩ := attempt_state hp'.1 hw hda h1 h2
  have hcq : callsIn w1.trace = callsIn w.trace := by
    obtain ⟨es, q1, q2⟩ := h8
    rw [q1, callsIn_append, callsIn_quiet q2, List.nil_append]
  cases ex with
  | none =>
    have hr1 : (ErrRes.captured id []).errId = id := makeErrorId_of_tagged hid
    rcases first_or_none h7 hid none with ⟨i, hi⟩ | hno
    · obtain ⟨hd', vals, wh, o', wr, w'', e2, e3, e4, e5, e6, e7, _, e9⟩ := C15_handle_some_result hp' hw hda h1 h2 (i := i) (by rw [hr1]; exact hi)
      rw [h] at e6
      simp only [Option.some.injEq, Prod.mk.injEq] at e6
      obtain ⟨rfl, rfl⟩ := e6
      rw [hr1] at e3 e4
      obtain ⟨io, l, g1, g2, g3, g4⟩ := goes_handled (ex := none) hid (by simp) hp.2 hd h7 hg h3 h4 h9 h10 h8 h11 q4 hold hn hs hi e2 e3 e4 e5 (by rw [← e9]; exact hf)
      exact ⟨io, l, by rw [e9]; exact g1, g2.returned, by rw [e7]; exact g3, fun hc => absurd hc g4⟩
    · obtain ⟨w'', e1, e2, e3, e4, e5⟩ := leave_result hp' hw hda h1 h2 (by rw [hr1]; exact hno)
      rw [h] at e1
      simp only [Option.some.injEq, Prod.mk.injEq] at e1
      obtain ⟨rfl, rfl⟩ := e1
      rw [hr1] at e2 e3
      rw [h4, unloadCur_same] at e2
      refine ⟨.failed id A none, [], ?_, ⟨_, rfl, hr1⟩, by rw [e4]; exact hcq, fun _ => available_left hg h3 e2 e3⟩
      rw [e5, h10]
      exact goes_on h7 hg h3 _ hno
  | some x =>
    have hseen : x.examined.seenId w1.cur = id := seen_of_carries hex x rfl _
    have hvis : shown x.examined.examined = visible (some x) := by rw [examined_twice]; rfl
    rcases first_or_none h7 hid (visible (some x)) with ⟨i, hi⟩ | hno
    · obtain ⟨hd', vals, wh, o', wr, wd, w'', e2, e3, e4, e5, e6, e7, _, _, e9⟩ := C15_handle_some_exception hp' hw hda h1 h2 (i := i)
        (by rw [hseen, hvis]; exact hi)
      rw [h] at e6
      simp only [Option.some.injEq, Prod.mk.injEq] at e6
      obtain ⟨rfl, rfl⟩ := e6
      rw [hseen, hvis] at e3 e4
      obtain ⟨io, l, g1, g2, g3, g4⟩ := goes_handled (ex := some x) hid hex hp.2 hd h7 hg h3 h4 h9 h10 h8 h11 q4 hold hn hs hi e2 e3 e4 e5 (by rw [← e9]; exact hf)
      exact ⟨io, l, by rw [e9]; exact g1, g2.returned, by rw [e7]; exact g3, fun hc => absurd hc g4⟩
    · obtain ⟨w'', e1, e2, e3, e4, _, e5⟩ := leave_catch (body := fun i args => (body i args).prog) h6 h2 h7 (e := x.examined)
        (examined_ok ((hex x rfl).ok hid)) (by rw [hseen, hvis]; exact hno)
      have e1' := handleSome_exc h1 e1 rfl
      change eval cfg (.handleSome specs (.ret (.err r)) fun i args => (body i args).prog) w = _ at e1'
      rw [h] at e1'
      simp only [Option.some.injEq, Prod.mk.injEq] at e1'
      obtain ⟨rfl, rfl⟩ := e1'
      rw [hseen] at e2 e3
      rw [h4, unloadCur_same] at e2
      refine ⟨.failed id A (some x), [], ?_, ⟨_, rfl, by rw [examined_twice, examined_twice]⟩, by rw [e4]; exact hcq, fun _ => available_left hg h3 e2 e3⟩
      rw [e5, h10]
      exact goes_on h7 hg h3 _ hno

theorem thrownBy_carries (tag : Nat) (hex : ∀ e, ex = some e → e.Carries id) : (thrownBy tag id ex).Carries id := by
  cases ex with
  | none => exact ⟨rfl, Or.inl rfl⟩
  | some e => exact hex e rfl

/-- **C54, receiving with `value()` and `try_catch`.** A result carrying error `id` with objects `A` is converted to a value (so an exception is thrown) in
a `try_catch`, in any thread, in any scopes. What happens is what happens in the ideal semantics to an error with objects `A` and this exception. -/
theorem C54_received_catch (hid : id.Tagged) {r : ErrRes} (hr : Carries r id A (ex.map Exc.examined)) (tag : Nat)
    (hex : ∀ e, ex = some e → e.Carries id) (hp : (Direct.tryCatch specs (.ret 0) body).prog.WF cfg da) (hrok : r.Ok)
    (hd : ∀ i args, (body i args).Ok)
    (hw : ThreadOk w) (hda : da = false → NoCapturingScope w) (hnew : ∀ ty v, ¬ Stored ty id v (scopes w)) (hold : NotAhead cfg c w.ticks n id)
    (hn : gens cfg.interf n ≤ 2 ^ 30) (hs : Start cfg c n w)
    (h : eval cfg (catchValue specs tag (.err r) fun i args => (body i args).prog) w = some (o, w')) (hf : w'.ticks ≤ n) :
    ∃ io l, Goes cfg c specs body id A (some (thrownBy tag id ex)) w.ticks io w'.ticks l ∧ io.Returned o ∧
      callsIn w'.trace = l.reverse ++ callsIn w.trace ∧
      ((∀ hd ∈ specs, ¬ SuitableOf cfg A (visible (some (thrownBy tag id ex))) hd) → io.Available cfg w') := by
  obtain ⟨w1, s, ss, h1, h2, h3, h4, h5, h6, h7, h8, h9, h10, h11⟩ := attempt_received (cfg := cfg) (deduce_nodup cfg specs) hid hr hw hnew
  have hg := scopes_cons_good h6 h2
  obtain ⟨e0, hraw, he0⟩ : ∃ e0, attemptRaw (deduce cfg specs) (eval cfg (.bind (.ret (.err r)) (fun v => .ret (.val v)) (fun r => .value r tag))) w =
      some (.exc e0, w1) ∧ e0.examined = (thrownBy tag id ex).examined := by
    have hre : r.errId = id := by
      obtain ⟨ns, rfl, _⟩ := hr
      exact makeErrorId_of_tagged hid
    refine ⟨(ex.map Exc.examined).getD (badResultExc id tag), ?_, ?_⟩
    · unfold attempt at h1
      unfold attemptRaw
      rw [bind_apply] at h1 ⊢
      cases h0 : pushCtx (deduce cfg specs) w with
      | none => simp [h0] at h1
      | some p =>
        obtain ⟨_, w0⟩ := p
        rw [h0, Option.bind_some, bind_apply] at h1
        change resultUnload cfg r w0 = _ at h1
        rw [Option.bind_some]
        simp only [eval, bind_apply]
        show resultValue cfg r tag w0 = _
        unfold resultValue
        rw [bind_apply, h1, Option.bind_some]
        cases ex with
        | none => simp only [Option.map_none, Option.getD_none, hre]; rfl
        | some x => rfl
    · cases ex with
      | none => rfl
      | some x => exact examined_twice x
  have hcar := thrownBy_carries (id := id) tag hex
  generalize thrownBy tag id ex = x at he0 hcar ⊢
  have hcar0 := hcar.same he0
  have hp' : (Prog.tryCatch specs (.bind (.ret (.err r)) (fun v => .ret (.val v)) (fun r => .value r tag)) fun i args => (body i args).prog).WF cfg da :=
    ⟨⟨hrok, fun _ => trivial, fun _ h => h⟩, hp.2⟩
  obtain ⟨_, _, _, q4, _⟩ := attemptRaw_state hp'.1 hw hda hraw h2
  have hcq : callsIn w1.trace = callsIn w.trace := by
    obtain ⟨es, q1, q2⟩ := h8
    rw [q1, callsIn_append, callsIn_quiet q2, List.nil_append]
  have hseen : e0.seenId w1.cur = id := hcar0.seen _
  have hvis : shown e0.examined = visible (some x) := by rw [he0]; rfl
  have hex' : ∀ e, some x = some e → e.Carries id := by rintro e ⟨⟩; exact hcar
  rcases first_or_none h7 hid (visible (some x)) with ⟨i, hi⟩ | hno
  · obtain ⟨hd', vals, wh, o', wr, w'', e2, e3, e4, e5, e6, e7, _, e9⟩ := C15_try_catch hp' hw hda hraw h2 (i := i) (by rw [hseen, hvis]; exact hi)
    have h' : some (o, w') = some (o', w'') := h.symm.trans e6
    simp only [Option.some.injEq, Prod.mk.injEq] at h'
    obtain ⟨rfl, rfl⟩ := h'
    rw [hseen, hvis] at e3 e4
    obtain ⟨io, l, g1, g2, g3, g4⟩ := goes_handled (ex := some x) hid hex' hp.2 hd h7 hg h3 h4 h9 h10 h8 h11 q4 hold hn hs hi e2 e3 e4 e5 (by rw [← e9]; exact hf)
    exact ⟨io, l, by rw [e9]; exact g1, g2.returned, by rw [e7]; exact g3, fun hc => absurd hc g4⟩
  · obtain ⟨w'', e1, e2, e3, e4, _, e5⟩ := leave_catch (body := fun i args => (body i args).prog) h6 h2 h7 (e := e0)
      (hcar0.ok hid) (by rw [hseen, hvis]; exact hno)
    have e1' := tryCatch_exc hraw e1
    have h' : some (o, w') = some (_, w'') := h.symm.trans e1'
    simp only [Option.some.injEq, Prod.mk.injEq] at h'
    obtain ⟨rfl, rfl⟩ := h'
    rw [hseen] at e2 e3
    rw [h4, unloadCur_same] at e2
    refine ⟨.failed id A (some x), [], ?_, ⟨_, rfl, by rw [examined_twice, he0]⟩, by rw [e4]; exact hcq, fun _ => available_left hg h3 e2 e3⟩
    rw [e5, h10]
    exact goes_on h7 hg h3 _ hno

end

/-! ## From one thread to another -/

section
variable {cfg : Cfg} {p : Direct} {specs : List (List Arg)} {body : Nat → List ArgVal → Direct}

theorem Goes.shift {i j : Nat → Nat} {c c' : Id} {id : Id} {A : Ty → Option Val} {ex : Option Exc} {t t' : Nat} {io : Outcome} {l : List Call} {d : Nat}
    (h : Goes { cfg with interf := i } c specs body id A ex t io t' l)
    (ha : ∀ s, t ≤ s → s < t' → errorNo { cfg with interf := i } c s = errorNo { cfg with interf := j } c' (s + d)) :
    Goes { cfg with interf := j } c' specs body id A ex (t + d) io (t' + d) l := by
  rcases h with ⟨k, vals, l', h1, h2, h3, rfl⟩ | ⟨h1, rfl, rfl, rfl⟩
  · exact Or.inl ⟨k, vals, l', (firstSuitableOf_interf i j ..).mp h1, (gets_interf i j ..).mp h2, ideal_shift h3 ha, rfl⟩
  · exact Or.inr ⟨fun hd hm hc => h1 hd hm ((suitableOf_interf i j ..).mpr hc), rfl, rfl, rfl⟩

/-- A function is run in thread `t` under `try_capture_all`; its result `o1` is received by the program `R o1` in thread `u`. If `R` treats values and
carried errors as stated, the two together are an ideal run. -/
theorem remote_run {R : Out → Prog} {f : Id → Option Exc → Option Exc} {s0 s1 s2 s3 : Sys} {t u : Tid} {o0 o1 o2 o3 : Out} {evs1 evs2 evs3 : List Ev}
    (hp : (Prog.captureAll p.prog).WF cfg false) (hpo : p.Ok)
    (hR : ∀ o, Out.Ok o → (R o).WF cfg false)
    (hval : ∀ (j : Nat → Nat) v w o w', ThreadOk w → scopes w = [] → eval { cfg with interf := j } (R (.val v)) w = some (o, w') →
      o = .val v ∧ callsIn w'.trace = callsIn w.trace)
    (herr : ∀ (j : Nat → Nat) c n id A ex r w o w', id.Tagged → Carries r id A (ex.map Exc.examined) → (∀ e, ex = some e → e.Carries id) → r.Ok →
      ThreadOk w → scopes w = [] → NotAhead { cfg with interf := j } c w.ticks n id → gens j n ≤ 2 ^ 30 → Start { cfg with interf := j } c n w →
      eval { cfg with interf := j } (R (.err r)) w = some (o, w') → w'.ticks ≤ n →
      ∃ io l, Goes { cfg with interf := j } c specs body id A (f id ex) w.ticks io w'.ticks l ∧ io.Returned o ∧
        callsIn w'.trace = l.reverse ++ callsIn w.trace)
    (h0 : Reached cfg s0) (hd0 : s0.Done t o0) (hcur : s0.CurKnown t) (he1 : ∀ e ∈ evs1, e.WF cfg) (ht : ∀ q, .start t q ∉ evs1)
    (h1 : (s0.start cfg t (.captureAll p.prog)).play cfg evs1 = some s1) (hd1 : s1.Done t o1)
    (hone : ∀ r, o1 = .err r → (s1.thr t).ids.length ≤ (s0.thr t).ids.length + 1)
    (he2 : ∀ e ∈ evs2, e.WF cfg) (h2 : s1.play cfg evs2 = some s2) (hd2 : s2.Done u o2) (hcur2 : s2.CurKnown u)
    (he3 : ∀ e ∈ evs3, e.WF cfg) (hu : ∀ q, .start u q ∉ evs3)
    (h3 : (s2.start cfg u (R o1)).play cfg evs3 = some s3) (hd3 : s3.Done u o3)
    (hn : s3.hist.length ≤ 2 ^ 30) :
    ∃ i io' n' lt io n lu, Ideal { cfg with interf := i } s0.counter p 0 io' n' lt ∧
      ((∃ v, io' = .ok v ∧ io = .ok v ∧ n = n' ∧ lu = []) ∨
        ∃ id A ex, io' = .failed id A ex ∧ Goes { cfg with interf := i } s0.counter specs body id A (f id ex) n' io n lu) ∧
      io.Returned o3 ∧ s0.hist.length + gens i n ≤ s3.hist.length ∧
      callsIn (s1.thr t).trace = lt.reverse ++ callsIn (s0.thr t).trace ∧ callsIn (s3.thr u).trace = lu.reverse ++ callsIn (s2.thr u).trace := by
  -- what is known about the states
  have hs1 : Reached cfg s1 := by
    refine h0.play (evs := .start t (.captureAll p.prog) :: evs1) (fun e hm => ?_) h1
    rcases List.mem_cons.mp hm with rfl | hm
    · exact hp
    · exact he1 e hm
  have hs2 : Reached cfg s2 := hs1.play he2 h2
  obtain ⟨jobs0, hj0⟩ := h0.jobs
  obtain ⟨jobs1, hj1⟩ := hs1.jobs
  obtain ⟨jobs2, hj2⟩ := hs2.jobs
  obtain ⟨hok, hsc, hh, _⟩ := C45_between h0 hd0
  obtain ⟨_, _, _, ho1⟩ := C45_between hs1 hd1
  obtain ⟨hok2, hsc2, hh2, _⟩ := C45_between hs2 hd2
  have len1 : s1.hist.length ≤ s2.hist.length := hist_grows cfg evs2 hj1.hist h2
  have len2 : s2.hist.length ≤ s3.hist.length := hist_grows cfg (.start u (R o1) :: evs3) hj2.hist h3
  -- the two runs
  obtain ⟨i1, w1, r1, r2, r3, r4⟩ := job_done h0 hd0 hp he1 ht h1 hd1
  obtain ⟨i2, w2, q1, q2, q3, q4⟩ := job_done hs2 hd2 (hR o1 ho1) he3 hu h3 hd3
  have hw1 : (s0.world t).ticks = 0 := rfl
  have hw2 : (s2.world u).ticks = 0 := rfl
  obtain ⟨io, lt, a1, a2, a3, a4⟩ := C54_captured (cfg := { cfg with interf := i1 }) (c := s0.counter) (n := w1.ticks) (by rw [wf_interf]; exact hp) hpo
    hok hsc hh (show gens i1 _ ≤ _ by omega) (start_done hj0.hist hsc hcur (show _ + gens i1 _ ≤ _ by omega)) r1 (Nat.le_refl _) (fun r hr => by
      have hi : w1.ticks + (idsIn (s0.thr t).trace).length = 0 + (idsIn w1.trace).length := run_ids _ _ _ _ _ ((congrFun (run_eval _ _) _).trans r1)
      have := hone r hr
      have e1 : (s0.thr t).ids = idsIn (s0.thr t).trace := rfl
      have e2 : (s1.thr t).ids = idsIn w1.trace := by rw [← r3]; rfl
      rw [e1, e2] at this
      omega)
  rw [hw1] at a1
  have hst2 : Start { cfg with interf := i2 } s2.counter w2.ticks (s2.world u) := start_done hj2.hist hsc2 hcur2 (show _ + gens i2 _ ≤ _ by omega)
  cases io with
  | ok v =>
    cases a2
    obtain ⟨rfl, b3⟩ := hval i2 v _ _ _ hok2 hsc2 q1
    exact ⟨i1, .ok v, w1.ticks, lt, .ok v, w1.ticks, [], a1, Or.inl ⟨v, rfl, rfl, rfl, rfl⟩, rfl, by omega, by rw [r3]; exact a3, by rw [q3]; exact b3⟩
  | failed id A ex =>
    obtain ⟨r, rfl, hr⟩ := a2
    obtain ⟨⟨k, _, k2, k3⟩, k4⟩ := a4 id A ex rfl
    rw [errorNo_counter hj0.hist] at k3
    have k5 := gens_le i1 (Nat.succ_le_of_lt k2)
    simp only [Nat.succ_eq_add_one] at k5
    have hid : id.Tagged := by rw [k3]; exact counter_tagged _
    have hold : NotAhead { cfg with interf := i2 } s2.counter 0 w2.ticks id := by
      intro m _ hm he
      have := gens_le i2 (Nat.succ_le_of_lt hm)
      simp only [Nat.succ_eq_add_one] at this
      rw [k3, errorNo_counter hj2.hist, offset_inj] at he
      have : 0 < gens i1 (k + 1) := by simp [gens]
      have : 0 < gens i2 (m + 1) := by simp [gens]
      simp only at he
      omega
    obtain ⟨io', lu, b1, b2, b3⟩ := herr i2 s2.counter w2.ticks id A ex r _ _ _ hid hr k4 ho1 hok2 hsc2 hold (by omega) hst2 q1 (Nat.le_refl _)
    rw [hw2] at b1
    have hD : gens i1 w1.ticks ≤ s2.hist.length - s0.hist.length := by omega
    have hleft : Ideal { cfg with interf := splice i1 i2 w1.ticks (s2.hist.length - s0.hist.length) } s0.counter p 0 (.failed id A ex) w1.ticks lt := by
      refine ideal_shift (d := 0) a1 fun m _ hm => ?_
      unfold errorNo
      show _ + BitVec.ofNat 32 (4 * gens i1 (m + 1)) = _ + BitVec.ofNat 32 (4 * gens (splice i1 i2 _ _) (m + 1))
      rw [gens_splice_left i1 i2 hm]
    have hright : Goes { cfg with interf := splice i1 i2 w1.ticks (s2.hist.length - s0.hist.length) } s0.counter specs body id A (f id ex) w1.ticks io'
        (w1.ticks + w2.ticks) lu := by
      have := b1.shift (j := splice i1 i2 w1.ticks (s2.hist.length - s0.hist.length)) (c' := s0.counter) (d := w1.ticks) fun m _ hm => by
        rw [errorNo_counter hj2.hist, errorNo_counter hj0.hist, Nat.add_comm m w1.ticks]
        show _ + BitVec.ofNat 32 (4 * (_ + gens i2 (m + 1))) = _ + BitVec.ofNat 32 (4 * (_ + gens (splice i1 i2 _ _) (w1.ticks + m + 1)))
        rw [gens_splice_right i1 i2 hD]
        congr 3
        omega
      rw [Nat.zero_add, Nat.add_comm w2.ticks] at this
      exact this
    refine ⟨_, _, w1.ticks, lt, io', w1.ticks + w2.ticks, lu, hleft, Or.inr ⟨id, A, ex, rfl, hright⟩, b2, ?_, by rw [r3]; exact a3, by rw [q3]; exact b3⟩
    cases hk : w2.ticks with
    | zero => rw [Nat.add_zero, gens_splice_left i1 i2 (Nat.le_refl _)]; omega
    | succ m => rw [← Nat.add_assoc, gens_splice_right i1 i2 hD, ← hk]; omega

theorem noScopes_noCapturing {w : World PtrStore} (h : scopes w = []) : (false : Bool) = false → NoCapturingScope w :=
  fun _ => (noCapturing_iff _).mpr (by rw [h]; intro f hf; cases hf)

theorem noScopes_stored {w : World PtrStore} (h : scopes w = []) (id : Id) : ∀ ty v, ¬ Stored ty id v (scopes w) := by
  rw [h]; exact fun _ _ => stored_nil

/-- **C54, with `try_handle_some`.** Like `C54_remote`: thread `t` is given a function to run under `try_capture_all`; when it is done, its result is handled
in thread `u` with `try_handle_some`. This is what an ideal run of `try_handle_some` around the function itself does, also if no handler is suitable:
the result `u` gets back has the id of the error, or the same exception is thrown. (No handler returns the error it was called for.) -/
theorem C54_remote_some {s0 s1 s2 s3 : Sys} {t u : Tid} {o0 o1 o2 o3 : Out} {evs1 evs2 evs3 : List Ev}
    (hp : (Prog.captureAll p.prog).WF cfg false) (hpo : p.Ok)
    (hb : (Direct.handleSome specs (.ret 0) (fun _ _ => none) body).prog.WF cfg false) (hbo : ∀ i args, (body i args).Ok)
    -- `t` runs the function
    (h0 : Reached cfg s0) (hd0 : s0.Done t o0) (hcur : s0.CurKnown t) (he1 : ∀ e ∈ evs1, e.WF cfg) (ht : ∀ q, .start t q ∉ evs1)
    (h1 : (s0.start cfg t (.captureAll p.prog)).play cfg evs1 = some s1) (hd1 : s1.Done t o1)
    (hone : ∀ r, o1 = .err r → (s1.thr t).ids.length ≤ (s0.thr t).ids.length + 1)
    -- `u` handles the result
    (he2 : ∀ e ∈ evs2, e.WF cfg) (h2 : s1.play cfg evs2 = some s2) (hd2 : s2.Done u o2) (hcur2 : s2.CurKnown u)
    (he3 : ∀ e ∈ evs3, e.WF cfg) (hu : ∀ q, .start u q ∉ evs3)
    (h3 : (s2.start cfg u (.handleSome specs (.ret o1) fun i args => (body i args).prog)).play cfg evs3 = some s3) (hd3 : s3.Done u o3)
    (hn : s3.hist.length ≤ 2 ^ 30) :
    ∃ i io n lt lu, Ideal { cfg with interf := i } s0.counter (.handleSome specs p (fun _ _ => none) body) 0 io n (lt ++ lu) ∧
      (∃ io' n', Ideal { cfg with interf := i } s0.counter p 0 io' n' lt) ∧ io.Returned o3 ∧ s0.hist.length + gens i n ≤ s3.hist.length ∧
      callsIn (s1.thr t).trace = lt.reverse ++ callsIn (s0.thr t).trace ∧ callsIn (s3.thr u).trace = lu.reverse ++ callsIn (s2.thr u).trace := by
  obtain ⟨i, io', n', lt, io, n, lu, a1, a2, a3, a4, a5, a6⟩ := remote_run (R := fun o => .handleSome specs (.ret o) fun i args => (body i args).prog)
    (f := fun _ ex => ex) (specs := specs) (body := body) hp hpo (fun o ho => ⟨ho, hb.2⟩)
    (fun j v w o w' hw hsc h => by
      obtain ⟨w0, g1, _, _, g4⟩ := push_ptr hw (deduce_nodup { cfg with interf := j } specs)
      obtain ⟨w'', k1, k2, _⟩ := C19_handle_some (cfg := { cfg with interf := j }) (da := false) (block := .ret (.val v))
        (body := fun i args => (body i args).prog) (by rw [wf_interf]; exact ⟨trivial, hb.2⟩) hw (noScopes_noCapturing hsc) (v := v) (w1 := w0)
        (by unfold attempt; rw [bind_apply, g1]; rfl) g4
      have h' : some (o, w') = some (_, w'') := h.symm.trans k1
      simp only [Option.some.injEq, Prod.mk.injEq] at h'
      obtain ⟨rfl, rfl⟩ := h'
      exact ⟨rfl, by rw [k2, pushCtx_trace g1]⟩)
    (fun j c n id A ex r w o w' hid hr hex hrok hw hsc hold hn hs h hf => by
      obtain ⟨io, l, g1, g2, g3, _⟩ := C54_received_some (cfg := { cfg with interf := j }) (da := false) hid hr hex (by rw [wf_interf]; exact hb) hrok hbo hw
        (noScopes_noCapturing hsc) (noScopes_stored hsc id) hold hn hs h hf
      exact ⟨io, l, g1, g2, g3⟩)
    h0 hd0 hcur he1 ht h1 hd1 hone he2 h2 hd2 hcur2 he3 hu h3 hd3 hn
  refine ⟨i, io, n, lt, lu, ?_, ⟨io', n', a1⟩, a3, a4, a5, a6⟩
  rcases a2 with ⟨v, rfl, rfl, rfl, rfl⟩ | ⟨id, A, ex, rfl, ⟨k, vals, l', b1, b2, b3, rfl⟩ | ⟨b1, rfl, rfl, rfl⟩⟩
  · rw [List.append_nil]; exact .some_ok a1
  · exact .some_handled a1 b1 b2 rfl b3
  · rw [List.append_nil]; exact .some_unhandled a1 b1

/-- **C54, with `value()` and `try_catch`.** Like `C54_remote`: thread `t` is given a function to run under `try_capture_all`; when it is done, the value is taken
out of its result in thread `u`, within a `try_catch`. This is what an ideal run of `try_catch` around `f().value()` does. -/
theorem C54_remote_catch {s0 s1 s2 s3 : Sys} {t u : Tid} {o0 o1 o2 o3 : Out} {evs1 evs2 evs3 : List Ev} {tag : Nat}
    (hp : (Prog.captureAll p.prog).WF cfg false) (hpo : p.Ok)
    (hb : (Direct.tryCatch specs (.ret 0) body).prog.WF cfg false) (hbo : ∀ i args, (body i args).Ok)
    -- `t` runs the function
    (h0 : Reached cfg s0) (hd0 : s0.Done t o0) (hcur : s0.CurKnown t) (he1 : ∀ e ∈ evs1, e.WF cfg) (ht : ∀ q, .start t q ∉ evs1)
    (h1 : (s0.start cfg t (.captureAll p.prog)).play cfg evs1 = some s1) (hd1 : s1.Done t o1)
    (hone : ∀ r, o1 = .err r → (s1.thr t).ids.length ≤ (s0.thr t).ids.length + 1)
    -- `u` handles the result
    (he2 : ∀ e ∈ evs2, e.WF cfg) (h2 : s1.play cfg evs2 = some s2) (hd2 : s2.Done u o2) (hcur2 : s2.CurKnown u)
    (he3 : ∀ e ∈ evs3, e.WF cfg) (hu : ∀ q, .start u q ∉ evs3)
    (h3 : (s2.start cfg u (catchValue specs tag o1 fun i args => (body i args).prog)).play cfg evs3 = some s3) (hd3 : s3.Done u o3)
    (hn : s3.hist.length ≤ 2 ^ 30) :
    ∃ i io n lt lu, Ideal { cfg with interf := i } s0.counter (.tryCatch specs (.value tag p) body) 0 io n (lt ++ lu) ∧
      (∃ io' n', Ideal { cfg with interf := i } s0.counter p 0 io' n' lt) ∧ io.Returned o3 ∧ s0.hist.length + gens i n ≤ s3.hist.length ∧
      callsIn (s1.thr t).trace = lt.reverse ++ callsIn (s0.thr t).trace ∧ callsIn (s3.thr u).trace = lu.reverse ++ callsIn (s2.thr u).trace := by
  have hwf : ∀ o, Out.Ok o → (catchValue specs tag o fun i args => (body i args).prog).WF cfg false :=
    fun o ho => ⟨⟨ho, fun _ => trivial, fun _ h => h⟩, hb.2⟩
  obtain ⟨i, io', n', lt, io, n, lu, a1, a2, a3, a4, a5, a6⟩ := remote_run (R := fun o => catchValue specs tag o fun i args => (body i args).prog)
    (f := fun id ex => some (thrownBy tag id ex)) (specs := specs) (body := body) hp hpo hwf
    (fun j v w o w' hw hsc h => by
      obtain ⟨w0, g1, _, _, g4⟩ := push_ptr hw (deduce_nodup { cfg with interf := j } specs)
      obtain ⟨w'', k1, k2, _⟩ := C19_try_catch (cfg := { cfg with interf := j }) (da := false)
        (block := .bind (.ret (.val v)) (fun v => .ret (.val v)) (fun r => .value r tag))
        (body := fun i args => (body i args).prog) (by rw [wf_interf]; exact hwf (.val v) trivial) hw (noScopes_noCapturing hsc) (o := .val v) (w1 := w0)
        (by unfold attemptRaw; rw [bind_apply, g1, Option.bind_some]; simp only [eval, bind_apply]; rfl) g4 (by simp)
      have h' : some (o, w') = some (_, w'') := h.symm.trans k1
      simp only [Option.some.injEq, Prod.mk.injEq] at h'
      obtain ⟨rfl, rfl⟩ := h'
      exact ⟨rfl, by rw [k2, pushCtx_trace g1]⟩)
    (fun j c n id A ex r w o w' hid hr hex hrok hw hsc hold hn hs h hf => by
      obtain ⟨io, l, g1, g2, g3, _⟩ := C54_received_catch (cfg := { cfg with interf := j }) (da := false) hid hr tag hex (by rw [wf_interf]; exact hb) hrok hbo hw
        (noScopes_noCapturing hsc) (noScopes_stored hsc id) hold hn hs h hf
      exact ⟨io, l, g1, g2, g3⟩)
    h0 hd0 hcur he1 ht h1 hd1 hone he2 h2 hd2 hcur2 he3 hu h3 hd3 hn
  refine ⟨i, io, n, lt, lu, ?_, ⟨io', n', a1⟩, a3, a4, a5, a6⟩
  rcases a2 with ⟨v, rfl, rfl, rfl, rfl⟩ | ⟨id, A, ex, rfl, hg⟩
  · rw [List.append_nil]; exact .catch_scope_ok (.value_ok a1)
  · have hv : Ideal { cfg with interf := i } s0.counter (.value tag p) 0 (.failed id A (some (thrownBy tag id ex))) n' lt := by
      cases ex with
      | none => exact .value_failed a1
      | some e => exact .value_thrown a1
    rcases hg with ⟨k, vals, l', b1, b2, b3, rfl⟩ | ⟨b1, rfl, rfl, rfl⟩
    · exact .catch_scope_handled hv b1 b2 b3
    · rw [List.append_nil]; exact .catch_scope_unhandled hv b1

end

/-! ## The hypotheses can be met -/

/-- Thread 1, done, is given the program `R` with what thread 0 captured (see `exRemote1`), while thread 0 runs something else. -/
def exRemoteBy (R : Out → Prog) : Option Sys := (exRemote1.map fun s => s.start exCfg 1 (R (.err exReturned))).bind (·.play exCfg exScript.2.2)

/-- The hypotheses of `C54_remote_some`, with a suitable handler, and without. (For those about `exRemote1` see the example in PropRemote.lean.) -/
example : (Direct.handleSome exRemoteSpecs (.ret 0) (fun _ _ => none) exHandlers).prog.WF exCfg false ∧
    let s3 := exRemoteBy fun o => .handleSome exRemoteSpecs (.ret o) fun i args => (exHandlers i args).prog
    let s4 := exRemoteBy fun o => .handleSome [[.req 12]] (.ret o) fun i args => (exHandlers i args).prog
    outcome s3 1 = some (.val 8) ∧ s3.map (fun s => s.hist.length) = some 6 ∧
    s3.map (fun s => (callsIn (s.thr 1).trace).take 1) = some [(9#32, none, 1, [.obj 10 1, .ptr 13 (some 4)])] ∧
    outcome s4 1 = some (.err (.captured 9#32 [])) ∧ s4.map (fun s => callsIn (s.thr 1).trace) = exRemote1.map (fun s => callsIn (s.thr 1).trace) :=
  ⟨⟨exHandlers_wf.2.1, fun i args ha => (exHandlers_wf.2.2 i args ha).1⟩, by decide +kernel, by decide +kernel, by decide +kernel, by decide +kernel,
    by decide +kernel⟩

/-- The hypotheses of `C54_remote_catch`, with a suitable handler (which takes the exception `value()` throws), and without. -/
example : (Direct.tryCatch [[.req 12], [.req tyBadResult, .req 10, .ptr 13]] (.ret 0) exHandlers).prog.WF exCfg false ∧
    let s3 := exRemoteBy fun o => catchValue [[.req 12], [.req tyBadResult, .req 10, .ptr 13]] 3 o fun i args => (exHandlers i args).prog
    let s4 := exRemoteBy fun o => catchValue [[.req 12]] 3 o fun i args => (exHandlers i args).prog
    outcome s3 1 = some (.val 8) ∧ s3.map (fun s => s.hist.length) = some 6 ∧
    outcome s4 1 = some (.exc (badResultExc 9#32 3).examined) ∧
    s4.map (fun s => callsIn (s.thr 1).trace) = exRemote1.map (fun s => callsIn (s.thr 1).trace) := by
  refine ⟨⟨trivial, fun i args ha => ?_⟩, by decide +kernel, by decide +kernel, by decide +kernel, by decide +kernel⟩
  exact (exHandlers_wf.2.2 i args ha).1

end Leaf
