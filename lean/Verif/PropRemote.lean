import Verif.PropDirectConc
import Verif.PropJobs

/-!
# C54: calling a function in another thread

A function is run in another thread, under `try_capture_all`, and its result is handled in this one. The theorems: this is the same as
calling the function directly, in the sense of C48.
-/

namespace Leaf

/-! ## Specification -/

/-- What `try_capture_all` returns for a function with ideal outcome `io`: its value, or a result carrying the error, its objects, and the exception. -/
def Outcome.Captured : Outcome → Out → Prop
  | .ok v, o => o = .val v
  | .failed id A ex, o => ∃ r, o = .err r ∧ Carries r id A (ex.map Exc.examined)

/-! ## Capturing -/

section
variable {cfg : Cfg} {c : Id} {n : Nat} {p : Direct} {da : Bool} {w w' : World PtrStore} {o : Out}

theorem carried_iff {id key : Id} {ns : List (Ty × Cell)} {A : Ty → Option Val} (hc : cfg.capture = true) (hn : (ns.map Prod.fst).Nodup)
    (h : Attached cfg id A [[.da key ns]]) (ty : Ty) (v : Val) : (ty, some (id, v)) ∈ ns ↔ A ty = some v := by
  have hwant : wanted cfg ty [[.da key ns]] = true := by
    rw [wanted_iff]
    exact Or.inr ⟨hc, _, List.mem_cons_self .., key, ns, by simp⟩
  have hav := h.1 ty hwant
  rw [← hav]
  constructor
  · intro hm
    rw [avail_eq_cells, cellsOf_cons, slotsOf_da]
    cases hl : (ns.filter fun n => n.1 = ty) with
    | nil =>
      rw [List.filter_eq_nil_iff] at hl
      exact absurd (hl _ hm) (by simp)
    | cons x l =>
      have hx : x ∈ ns.filter fun n => n.1 = ty := by rw [hl]; simp
      rw [List.mem_filter] at hx
      obtain ⟨t, c⟩ := x
      simp only [decide_eq_true_eq] at hx
      obtain ⟨hx, rfl⟩ := hx
      rw [nodup_fst_unique hn hx hm]
      simp [Cell.hasValue]
  · intro ha
    rw [avail_eq] at ha
    rcases capture_split ha with h | ⟨_, h⟩
    · exact h
    · simp [available] at h

theorem keyed_fresh {k : Id} (h : Keyed k [[CtxCell.da 0#32 []]]) : k = 0#32 := by
  obtain ⟨f, hf, ns, hm⟩ := h
  simp only [List.mem_singleton] at hf
  subst hf
  simp only [List.mem_singleton, CtxCell.da.injEq] at hm
  exact hm.1

/-- **C54, capturing.** A thread with no scopes, not handling an exception, runs a program of the language of C48 under `try_capture_all`. What the
program does is what an ideal run does; and the result carries the error the ideal run fails with, with the objects it has there.
*Condition*: if it fails, the error is the only one the program reported (see `C27_refuted_abandoned`). -/
theorem C54_captured (hp : (Prog.captureAll p.prog).WF cfg da) (hd : p.Ok) (hw : ThreadOk w) (hsc : scopes w = []) (hh : w.handling = [])
    (hn : gens cfg.interf n ≤ 2 ^ 30) (hs : Start cfg c n w) (h : eval cfg (.captureAll p.prog) w = some (o, w')) (hf : w'.ticks ≤ n)
    (hone : ∀ r, o = .err r → w'.ticks ≤ w.ticks + 1) :
    ∃ io l, Ideal cfg c p w.ticks io w'.ticks l ∧ io.Captured o ∧ callsIn w'.trace = l.reverse ++ callsIn w.trace ∧
      (∀ id A ex, io = .failed id A ex → (∃ t, w.ticks ≤ t ∧ t < w'.ticks ∧ id = errorNo cfg c t) ∧ ∀ e, ex = some e → e.Carries id) := by
  obtain ⟨o1, w1, s, ss, h1, h1', h2, h3, h4, h5, h6⟩ := attemptRaw_ptr (slots := [.da]) (by simp) hp.2 hw (by simp)
  have hss : ss = [] := by rw [hsc] at h6; simpa [shape] using h6
  subst hss
  obtain ⟨key, ns, rfl⟩ : ∃ key ns, s = [.da key ns] := by
    cases s with
    | nil => simp at h5
    | cons x s =>
      cases s with
      | cons y s => simp at h5
      | nil =>
        cases x with
        | obj t c => simp [CtxCell.cellTy] at h5
        | da key ns => exact ⟨key, ns, rfl⟩
  have hgood := scopes_cons_good h2 h4 _ (List.mem_singleton.mpr rfl)
  have hnd : (ns.map Prod.fst).Nodup := by simpa [frameTys, CtxCell.tys] using hgood.2
  obtain ⟨w3, e1, e2, e3⟩ := popCtx_ptr h2 h4
  obtain ⟨f1, f2, f3, f4, f5, f6⟩ := threadOk_of_absW e2
  have f5 : w3.ticks = w1.ticks := f5
  have f1 : w3.trace = w1.trace := f1
  -- the block is an ideal run
  obtain ⟨w0, g1, g2, g3, g4, g5⟩ := start_push hs hw (spec := [.da]) (by simp)
  have g6 : w0.trace = w.trace ∧ w0.cur = w.cur := by
    unfold pushCtx at g1
    cases hx : Store.push [CellTy.da] w.mem with
    | none => simp [hx] at g1
    | some m => simp only [hx, Option.map_some, Option.some.injEq] at g1; rw [← (Prod.mk.inj g1).2]; exact ⟨rfl, rfl⟩
  rw [hsc] at g5
  have hev : eval cfg p.prog w0 = some (o1, w1) := by
    unfold attemptRaw at h1
    rw [bind_apply, g1, Option.bind_some] at h1
    exact h1
  obtain ⟨k1, _, _, _⟩ := eval_abs hp.2 g2 (by simp) hev
  have hinv : IdealInv cfg c (· = 0#32) w.ticks n (absW w0) :=
    ⟨g2.good, g3.counter, g3.cur, g3.stored, hn, rfl, Nat.le_of_eq g4.symm, fun k hk => Or.inl (by
      have : (absW w0).mem.frames = [[.da 0#32 []]] := g5
      rw [this] at hk
      exact keyed_fresh hk)⟩
  have hres : w' = w3 ∧ (∀ v, o1 = .val v → o = .val v) ∧ ∀ id ex, captureFailure o1 w1 = some (id, ex) →
      o = .err (.captured id ((if key = id then ns.map (fun n => CapNode.obj n.1 n.2) else []) ++ (ex.map CapNode.exc).toList)) := by
    change tryCaptureAll cfg (eval cfg p.prog) w = _ at h
    cases o1 with
    | val v =>
      rw [captureAll_val hp.1 h1 e1] at h
      simp only [Option.some.injEq, Prod.mk.injEq] at h
      obtain ⟨rfl, rfl⟩ := h
      exact ⟨rfl, fun v hv => by cases hv; rfl, fun id ex hx => by simp [captureFailure] at hx⟩
    | err r =>
      rw [captureAll_err hp.1 h1 e1, extractCaptured_eq (errId_tagged r), f4] at h
      simp only [Option.some.injEq, Prod.mk.injEq] at h
      obtain ⟨rfl, rfl⟩ := h
      refine ⟨rfl, fun v hv => by simp at hv, fun id ex hx => ?_⟩
      simp only [captureFailure, Option.some.injEq, Prod.mk.injEq] at hx
      obtain ⟨rfl, rfl⟩ := hx
      rfl
    | exc e =>
      have hu := unpackId_eq (M := PtrStore) (e := e) (w := w3) e3.good.1
      rw [f2] at hu
      have hu' : unpackId e w3 = some ((e.seenId w1.cur, e.examined), w3) := hu
      rw [captureAll_exc hp.1 h1 e1 hu', extractCaptured_eq (seenId_tagged (e := e) h3 w1.cur)] at h
      simp only [Option.some.injEq, Prod.mk.injEq] at h
      obtain ⟨rfl, rfl⟩ := h
      refine ⟨rfl, fun v hv => by simp at hv, fun id ex hx => ?_⟩
      simp only [captureFailure, Option.some.injEq, Prod.mk.injEq] at hx
      obtain ⟨rfl, rfl⟩ := hx
      rfl
  obtain ⟨rfl, r1, r2⟩ := hres
  rw [f5] at hf hone
  obtain ⟨io, l, i1, i2⟩ := implements_all (c := c) p true (absW w0) hp.2 hd hinv (by simp) o1 (absW w1) k1 ⟨hf, hn⟩
  have i1 : Ideal cfg c p w0.ticks io w1.ticks l := i1
  rw [g4] at i1
  rw [f5, f1]
  refine ⟨io, l, i1, ?_, by rw [← g6.1]; exact i2.calls, fun id A ex hio => ?_⟩
  · cases io with
    | ok v => exact r1 v i2.is
    | failed id A ex =>
      obtain ⟨a1, ⟨t, a2, a3, a4⟩, a5, a6⟩ := i2.failed id A ex rfl
      have a1 : w1.cur = id := a1
      have a2 : w0.ticks ≤ t := a2
      have a3 : t < w1.ticks := a3
      have a5 : Attached cfg id A (scopes w1) := a5
      rw [h4] at a5
      have hcf : captureFailure o1 w1 = some (id, ex.map Exc.examined) := by
        cases ex with
        | none =>
          obtain ⟨k, rfl, hk⟩ := i2.is
          simp only [captureFailure, attemptRaw_handling h1, hh]
          rw [← hk]
          rfl
        | some e =>
          obtain ⟨e', rfl, he⟩ := i2.is
          simp only [captureFailure, a1, seenId_examined _ e' _ he, (a6 e rfl).seen, he]
          rfl
      have ho := r2 _ _ hcf
      refine ⟨_, ho, ?_⟩
      have h7 := hone _ ho
      have ht : t = w.ticks := by omega
      have hkey : key = 0#32 ∨ key = id := by
        rcases i2.inv.keys key (show Keyed key (scopes w1) by rw [h4]; exact ⟨_, List.mem_cons_self .., ns, by simp⟩) with hk | ⟨t', b1, b2, b3⟩
        · exact Or.inl hk
        · have b2 : t' < w1.ticks := b2
          have : t' = t := by omega
          exact Or.inr (by rw [b3, a4, this])
      have hns : (if key = id then ns.map (fun n => CapNode.obj n.1 n.2) else []) = ns.map (fun n => CapNode.obj n.1 n.2) := by
        rcases hkey with hk | hk
        · rw [hgood.1 _ (List.mem_singleton.mpr rfl) hk]
          simp
        · rw [if_pos hk]
      rw [hns]
      exact ⟨ns, rfl, hnd, carried_iff hp.1 hnd a5⟩
  · subst hio
    obtain ⟨_, ⟨t, a2, a3, a4⟩, _, a6⟩ := i2.failed id A ex rfl
    have a2 : w0.ticks ≤ t := a2
    exact ⟨⟨t, by omega, a3, a4⟩, a6⟩

end

/-! ## Receiving -/

section
variable {cfg : Cfg} {c : Id} {n : Nat} {da : Bool} {w w' : World PtrStore} {o : Out} {specs : List (List Arg)} {body : Nat → List ArgVal → Direct}

theorem receivesAll_ok {s : Scope} {id : Id} (hid : id.Tagged) {ex : Option Exc} (hex : ∀ e, ex = some e → e.Ok) {hd : List Arg} {vals : List ArgVal}
    (h : ReceivesAll s id ex hd vals) : ∀ v ∈ vals, v.Ok := by
  intro v hv
  obtain ⟨j, hj, rfl⟩ := List.getElem_of_mem hv
  have hj' : j < hd.length := h.1 ▸ hj
  have := h.2 j hd[j] vals[j] (List.getElem?_eq_getElem hj') (List.getElem?_eq_getElem hj)
  generalize hd[j] = a at this
  generalize vals[j] = x at this ⊢
  cases x with
  | obj t v => trivial
  | ptr t v => trivial
  | exc e => cases a <;> simp only [Receives] at this; exact hex _ this
  | info id' ex' loc => cases a <;> simp only [Receives] at this; obtain ⟨rfl, rfl, _⟩ := this; exact ⟨hid, hex⟩
  | diag id' ex' loc => cases a <;> simp only [Receives] at this; obtain ⟨rfl, rfl, _⟩ := this; exact ⟨hid, hex⟩
  | details id' ex' loc => cases a <;> simp only [Receives] at this; obtain ⟨rfl, rfl, _⟩ := this; exact ⟨hid, hex⟩

theorem visible_examined (ex : Option Exc) : visible (ex.map Exc.examined) = visible ex := by
  cases ex with
  | none => rfl
  | some e => simp only [visible, Option.map_some, Option.bind_some, examined_twice]

/-- **C54, receiving.** A result carrying error `id` with objects `A` is handled with `try_handle_all`, in any thread, in any scopes. The handler called,
its arguments, and what it does are those of the ideal semantics for an error with objects `A`. -/
theorem C54_received {id : Id} (hid : id.Tagged) {r : ErrRes} {A : Ty → Option Val} {ex : Option Exc} (hr : Carries r id A (ex.map Exc.examined))
    (hex : ∀ e, ex = some e → e.Carries id) (hp : (Direct.handleAll specs (.ret 0) body).prog.WF cfg da) (hrok : r.Ok) (hd : ∀ i args, (body i args).Ok)
    (hw : ThreadOk w) (hda : da = false → NoCapturingScope w) (hnew : ∀ ty v, ¬ Stored ty id v (scopes w)) (hold : NotAhead cfg c w.ticks n id)
    (hn : gens cfg.interf n ≤ 2 ^ 30) (hs : Start cfg c n w)
    (h : eval cfg (.handleAll specs (.ret (.err r)) fun i args => (body i args).prog) w = some (o, w')) (hf : w'.ticks ≤ n) :
    ∃ i vals io l, FirstSuitableOf cfg A (visible ex) specs i ∧ Gets cfg specs A id (visible ex) i vals ∧
      Ideal cfg c (body i vals) w.ticks io w'.ticks l ∧ io.Is o ∧
      callsIn w'.trace = l.reverse ++ (id, visible ex, i, vals) :: callsIn w.trace := by
  obtain ⟨w1, s, ss, h1, h2, h3, h4, h5, h6, h7, ⟨es, h8, h8'⟩, h9, h10, h11⟩ := attempt_received (cfg := cfg) (deduce_nodup cfg specs) hid hr hw hnew
  have hg := scopes_cons_good h6 h2
  have hp' : (Prog.handleAll specs (.ret (.err r)) fun i args => (body i args).prog).WF cfg da := ⟨hp.1, hrok, hp.2.2⟩
  have hfail : ∃ hnd, failure (match ex.map Exc.examined with | some e => .exc e | none => .err (.captured id [])) w1 = some (id, visible ex, hnd) := by
    rw [← visible_examined]
    cases ex with
    | none => exact ⟨w1.handling, by simp only [failure, Option.map_none, ErrRes.errId, makeErrorId_of_tagged hid]; rfl⟩
    | some x =>
      refine ⟨x.examined.examined :: w1.handling, ?_⟩
      have := seenId_again x id ((hex x rfl).seen id)
      simp only [failure, Option.map_some, h4, this]
      rfl
  obtain ⟨hnd, hfail⟩ := hfail
  obtain ⟨i, hd', vals, wh, o', wr, w'', e1, e2, e3, e4, e5, e6, e7, e8, e9⟩ := C15_handle_all hp' hw hda h1 h2 hfail
  rw [h] at e6
  simp only [Option.some.injEq, Prod.mk.injEq] at e6
  obtain ⟨rfl, rfl⟩ := e6
  have hexok : ∀ e, visible ex = some e → e.Ok := by
    intro e he
    cases ex with
    | none => simp [visible] at he
    | some x =>
      simp only [visible, Option.bind_some, shown, Option.ite_none_right_eq_some, Option.some.injEq] at he
      rw [← he.2]
      exact examined_ok ((hex x rfl).ok hid)
  have hvals := receivesAll_ok hid hexok e3
  obtain ⟨_, _, q3, q4, q5⟩ := attempt_state hp'.2.1 hw hda h1 h2
  have hst : Start cfg c n wh := by
    refine ⟨?_, ?_, fun ty k v hk => ?_⟩
    · rw [e4.counter, e4.ticks, h9, h10]; exact hs.counter
    · rw [e4.cur, e4.ticks, h4, h10]; exact hold
    · rw [e4.scopes] at hk
      rw [e4.ticks, h10]
      rcases h11 ty k v hk with hk | rfl
      · exact hs.stored ty k v hk
      · exact hold
  obtain ⟨io, l, i1, i2, i3, _⟩ := C48_ideal (hp.2.2 i vals hvals).1 (hd i vals) e4.ok
    (fun h0 => (noCapturing_iff _).mpr (by rw [e4.scopes]; exact q4 h0)) hn hst e5 (by rw [← e9]; exact hf)
  refine ⟨i, vals, io, l, (firstSuitable_of h7 hg h3).mp e1, ⟨hd', ss, e2, e3.1, fun j a x ha hx => ?_⟩, ?_, i2, ?_⟩
  · exact receives_of h7 hg h3 (List.mem_of_getElem? e2) (List.mem_of_getElem? ha) (e3.2 j a x ha hx)
  · rw [e4.ticks, h10] at i1
    rw [e9]
    exact i1
  · rw [e7, i3, e4.trace, h8]
    show _ ++ callsIn ([Event.handled id (visible ex) i vals] ++ (es ++ w.trace)) = _
    rw [callsIn_append, callsIn_append, callsIn_quiet h8']
    rfl

end

/-! ## Ideal runs in different threads -/

section
variable {cfg : Cfg} (i j : Nat → Nat)

set_option smartUnfolding false in
theorem attach_interf (keep : Bool) (items : List Item) (A : Ty → Option Val) :
    attach { cfg with interf := i } keep items A = attach { cfg with interf := j } keep items A := rfl

set_option smartUnfolding false in
theorem objects_interf (items : List Item) : objects { cfg with interf := i } items = objects { cfg with interf := j } items := rfl

set_option smartUnfolding false in
theorem firstSuitableOf_interf (A : Ty → Option Val) (ex : Option Exc) (specs : List (List Arg)) (k : Nat) :
    FirstSuitableOf { cfg with interf := i } A ex specs k ↔ FirstSuitableOf { cfg with interf := j } A ex specs k := Iff.rfl

set_option smartUnfolding false in
theorem suitableOf_interf (A : Ty → Option Val) (ex : Option Exc) (hd : List Arg) :
    SuitableOf { cfg with interf := i } A ex hd ↔ SuitableOf { cfg with interf := j } A ex hd := Iff.rfl

theorem mentions_interf (specs : List (List Arg)) (ty : Ty) : Mentions { cfg with interf := i } specs ty ↔ Mentions { cfg with interf := j } specs ty := by
  have key : ∀ {i j : Nat → Nat} {a : Arg} {t : CellTy}, Needs { cfg with interf := i } a t → Needs { cfg with interf := j } a t := by
    intro i j a t h
    cases h <;> constructor <;> assumption
  unfold Mentions
  constructor <;> rintro ⟨hd, h1, a, h2, h3⟩ <;> exact ⟨hd, h1, a, h2, key h3⟩

set_option smartUnfolding false in
theorem gets_interf (specs : List (List Arg)) (A : Ty → Option Val) (id : Id) (ex : Option Exc) (k : Nat) (vals : List ArgVal) :
    Gets { cfg with interf := i } specs A id ex k vals ↔ Gets { cfg with interf := j } specs A id ex k vals := by
  have h : ∀ outer a x, ReceivesOf { cfg with interf := i } specs outer A id ex a x ↔ ReceivesOf { cfg with interf := j } specs outer A id ex a x := by
    intro outer a x
    cases a <;> cases x <;> first | exact Iff.rfl | skip
    all_goals simp only [ReceivesOf, LocationOf, ListsMentioned, ListsOthers, mentions_interf i j]
  unfold Gets
  simp only [h]
end

theorem ideal_mono {cfg : Cfg} {c : Id} {p : Direct} {t t' : Nat} {io : Outcome} {l : List Call} (h : Ideal cfg c p t io t' l) : t ≤ t' := by
  induction h <;> omega

/-- Ideal runs depend on the ids of the errors only. -/
theorem ideal_shift {cfg : Cfg} {i j : Nat → Nat} {c c' : Id} {p : Direct} {t t' : Nat} {io : Outcome} {l : List Call} {d : Nat}
    (h : Ideal { cfg with interf := i } c p t io t' l)
    (ha : ∀ s, t ≤ s → s < t' → errorNo { cfg with interf := i } c s = errorNo { cfg with interf := j } c' (s + d)) :
    Ideal { cfg with interf := j } c' p (t + d) io (t' + d) l := by
  induction h with
  | ret => exact .ret
  | @fail items thrown t =>
    rw [ha t (Nat.le_refl _) (Nat.lt_succ_self _), objects_interf i j, Nat.add_right_comm]
    exact .fail
  | @failCode ec v t =>
    rw [ha t (Nat.le_refl _) (Nat.lt_succ_self _), objects_interf i j, Nat.add_right_comm]
    exact .failCode
  | toResult_thrown h1 ih =>
    have := ideal_mono h1
    rw [ha _ this (Nat.lt_succ_self _), objects_interf i j, Nat.add_right_comm]
    exact .toResult_thrown (ih fun s a b => ha s a (Nat.lt_succ_of_lt b))
  | seq_ok h1 h2 ih1 ih2 =>
    have := ideal_mono h1; have := ideal_mono h2
    exact .seq_ok (ih1 fun s a b => ha s a (by omega)) (ih2 fun s a b => ha s (by omega) b)
  | seq_failed _ ih => exact .seq_failed (ih ha)
  | next_ok h1 h2 ih1 ih2 =>
    have := ideal_mono h1; have := ideal_mono h2
    exact .next_ok (ih1 fun s a b => ha s a (by omega)) (ih2 fun s a b => ha s (by omega) b)
  | next_thrown _ ih => exact .next_thrown (ih ha)
  | orElse_ok h1 h2 ih1 ih2 =>
    have := ideal_mono h1; have := ideal_mono h2
    exact .orElse_ok (ih1 fun s a b => ha s a (by omega)) (ih2 fun s a b => ha s (by omega) b)
  | orElse_failed h1 h2 ih1 ih2 =>
    have := ideal_mono h1; have := ideal_mono h2
    exact .orElse_failed (ih1 fun s a b => ha s a (by omega)) (ih2 fun s a b => ha s (by omega) b)
  | orElse_thrown _ ih => exact .orElse_thrown (ih ha)
  | catch_ok _ ih => exact .catch_ok (ih ha)
  | catch_failed _ ih => exact .catch_failed (ih ha)
  | catch_thrown h1 h2 ih1 ih2 =>
    have := ideal_mono h1; have := ideal_mono h2
    exact .catch_thrown (ih1 fun s a b => ha s a (by omega)) (ih2 fun s a b => ha s (by omega) b)
  | guard_ok _ ih => exact .guard_ok (ih ha)
  | guard_failed _ ih => rw [attach_interf i j]; exact .guard_failed (ih ha)
  | load_ok _ ih => exact .load_ok (ih ha)
  | load_failed _ ih => rw [attach_interf i j]; exact .load_failed (ih ha)
  | load_thrown _ ih => exact .load_thrown (ih ha)
  | monitor_ok _ ih => exact .monitor_ok (ih ha)
  | monitor_failed _ ih => rw [attach_interf i j]; exact .monitor_failed (ih ha)
  | monitor_thrown _ ih => exact .monitor_thrown (ih ha)
  | value_ok _ ih => exact .value_ok (ih ha)
  | value_failed _ ih => exact .value_failed (ih ha)
  | value_thrown _ ih => exact .value_thrown (ih ha)
  | toResult_ok _ ih => exact .toResult_ok (ih ha)
  | toResult_failed _ ih => exact .toResult_failed (ih ha)
  | all_ok _ ih => exact .all_ok (ih ha)
  | all_handled h1 hf hg h2 ih1 ih2 =>
    have := ideal_mono h1; have := ideal_mono h2
    exact .all_handled (ih1 fun s a b => ha s a (by omega)) ((firstSuitableOf_interf i j ..).mp hf) ((gets_interf i j ..).mp hg)
      (ih2 fun s a b => ha s (by omega) b)
  | some_ok _ ih => exact .some_ok (ih ha)
  | some_unhandled _ hn ih => exact .some_unhandled (ih ha) fun hd hm h => hn hd hm ((suitableOf_interf i j ..).mpr h)
  | some_handled h1 hf hg ho h2 ih1 ih2 =>
    have := ideal_mono h1; have := ideal_mono h2
    exact .some_handled (ih1 fun s a b => ha s a (by omega)) ((firstSuitableOf_interf i j ..).mp hf) ((gets_interf i j ..).mp hg) ho
      (ih2 fun s a b => ha s (by omega) b)
  | some_again h1 hf hg ho ih => rw [attach_interf i j]; exact .some_again (ih ha) ((firstSuitableOf_interf i j ..).mp hf) ((gets_interf i j ..).mp hg) ho
  | catch_scope_ok _ ih => exact .catch_scope_ok (ih ha)
  | catch_scope_unhandled _ hn ih => exact .catch_scope_unhandled (ih ha) fun hd hm h => hn hd hm ((suitableOf_interf i j ..).mpr h)
  | catch_scope_handled h1 hf hg h2 ih1 ih2 =>
    have := ideal_mono h1; have := ideal_mono h2
    exact .catch_scope_handled (ih1 fun s a b => ha s a (by omega)) ((firstSuitableOf_interf i j ..).mp hf) ((gets_interf i j ..).mp hg)
      (ih2 fun s a b => ha s (by omega) b)

theorem errorNo_counter {s : Sys} (h : HistOk s) (cfg : Cfg) (k : Nat) :
    errorNo cfg s.counter k = counterInit + BitVec.ofNat 32 (4 * (s.hist.length + gens cfg.interf (k + 1))) := by
  unfold errorNo
  rw [h.counter, BitVec.add_assoc, ← BitVec.ofNat_add]
  congr 2
  omega

theorem notAhead_hist {s : Sys} (h : HistOk s) {x : Tid × Id} (hx : x ∈ s.hist) {cfg : Cfg} {n : Nat} (hn : s.hist.length + gens cfg.interf n ≤ 2 ^ 30) :
    NotAhead cfg s.counter 0 n x.2 := by
  obtain ⟨m, m1, m2, m3⟩ := hist_id h hx
  intro k _ hk he
  have := gens_le cfg.interf (Nat.succ_le_of_lt hk)
  simp only [Nat.succ_eq_add_one] at this
  rw [m3, errorNo_counter h, offset_inj] at he
  have : 0 < gens cfg.interf (k + 1) := by simp [gens]
  omega

/-- The current error of the thread is none, or one generated in this process. -/
def Sys.CurKnown (s : Sys) (t : Tid) : Prop := (s.thr t).cur = 0#32 ∨ ∃ x ∈ s.hist, x.2 = (s.thr t).cur

theorem start_done {s : Sys} (h : HistOk s) {t : Tid} (hsc : s.scopes t = []) (hcur : s.CurKnown t) {cfg : Cfg} {n : Nat}
    (hn : s.hist.length + gens cfg.interf n ≤ 2 ^ 30) : Start cfg s.counter n (s.world t) := by
  refine ⟨?_, ?_, fun ty id v hs => ?_⟩
  · show s.counter = s.counter + BitVec.ofNat 32 (4 * 0)
    simp
  · rcases hcur with h0 | ⟨x, hx, he⟩
    · show NotAhead cfg s.counter 0 n (s.thr t).cur
      rw [h0]
      intro k _ _ he
      rw [errorNo_counter h] at he
      exact tagged_ne_zero (counter_tagged _) he.symm
    · show NotAhead cfg s.counter 0 n (s.thr t).cur
      rw [← he]
      exact notAhead_hist h hx hn
  · rw [show scopes (s.world t) = [] from hsc] at hs
    exact absurd hs stored_nil

/-- The run of a job that is done. -/
theorem job_done {cfg : Cfg} {s0 s : Sys} (h : Reached cfg s0) {t : Tid} {o0 o : Out} (hd : s0.Done t o0) {p : Prog} (hp : p.WF cfg false) {evs : List Ev}
    (he : ∀ e ∈ evs, e.WF cfg) (ht : ∀ q, .start t q ∉ evs) (hs : (s0.start cfg t p).play cfg evs = some s) (ho : s.Done t o) :
    ∃ i w, eval { cfg with interf := i } p (s0.world t) = some (o, w) ∧ s0.hist.length + gens i w.ticks ≤ s.hist.length ∧
      (s.thr t).trace = w.trace ∧ (s.thr t).cur = w.cur := by
  obtain ⟨jobs, hj⟩ := h.jobs
  obtain ⟨hok, hsc, hh, _⟩ := done_ok hj hd
  obtain ⟨s', jobs', h1, h2, h3⟩ := play_ok evs (jobs_start hj hd hp) he
  rw [hs] at h1
  cases h1
  have hjob : jobs' t = ⟨p, absW (s0.world t), s0.hist.length⟩ := by
    rw [h3 t, PtrStore.upd_same]
    intro e hm
    cases e with
    | step u => exact trivial
    | start u q => exact fun e => ht q (e ▸ hm)
  obtain ⟨l, seen, hle, hsum, hsolo⟩ := (h2.rel.thr t).solo
  rw [hjob] at hsum hsolo
  have hr := hsolo _ (extend_spec l)
  have hp' : p.WF { cfg with interf := extend l } false := by rw [wf_interf]; exact hp
  have hnc : (false : Bool) = false → NoCapturingScope (s0.world t) := fun _ => (noCapturing_iff _).mpr (by rw [hsc]; intro f hf; cases hf)
  obtain ⟨o', w, he'⟩ := eval_total hp' hok hnc
  obtain ⟨ha, _⟩ := eval_abs hp' hok hnc he'
  rw [hr] at ha
  unfold Sys.Done at ho
  rw [ho] at ha
  have e := Option.some.inj ha
  have e1 : o = o' := congrArg Prod.fst e
  have e2 : soloWorld s t seen l.length = absW w := congrArg Prod.snd e
  subst e1
  refine ⟨extend l, w, he', ?_, congrArg World.trace e2, congrArg World.cur e2⟩
  have e3 : l.length = w.ticks := congrArg World.ticks e2
  rw [← e3, gens_extend]
  simp only at hsum
  omega

/-- The ids recorded. -/
def idsIn (tr : List Event) : List Id := tr.filterMap fun | .gen id => some id | _ => none

theorem run_ids {M : Type} [Store M] {α : Type} (cfg : Cfg) (x : Act α) (w w' : World M) (a : α) (h : x.run cfg w = some (a, w')) :
    w'.ticks + (idsIn w.trace).length = w.ticks + (idsIn w'.trace).length := by
  induction x generalizing w with
  | ret b => cases h; rfl
  | ub => cases h
  | op o k ih =>
    rw [run_op] at h
    cases hx : o.exec cfg w with
    | none => simp [hx] at h
    | some r =>
      simp only [hx, Option.bind_some] at h
      have := ih r.1 r.2 h
      by_cases ho : o = .gen
      · subst ho
        cases hx
        simp only [idsIn, List.filterMap_cons, List.length_cons] at this ⊢
        omega
      · rw [show idsIn r.2.trace = idsIn w.trace from exec_ids ho hx] at this
        have hk := exec_counter (cfg := cfg) (cfg' := cfg) ho w w.counter w.ticks
        change o.exec cfg w = _ at hk
        rw [hx] at hk
        have hk2 : r.2.ticks = w.ticks := by
          have := congrArg (fun x => x.map fun y => y.2.ticks) hk
          simpa using this
        omega

/-! ## From one thread to another -/

/-- Amounts by which other threads advance the counter: first `i` (for `n` ids), then `D` altogether, then `j`. -/
def splice (i j : Nat → Nat) (n D : Nat) : Nat → Nat := fun k => if k < n then i k else if k = n then j 0 + (D - gens i n) else j (k - n)

theorem gens_splice_left (i j : Nat → Nat) {n D k : Nat} (hk : k ≤ n) : gens (splice i j n D) k = gens i k := by
  induction k with
  | zero => rfl
  | succ k ih =>
    rw [gens, gens, ih (by omega)]
    simp only [splice, show k < n from hk, if_true]

theorem gens_splice_right (i j : Nat → Nat) {n D : Nat} (hD : gens i n ≤ D) (k : Nat) : gens (splice i j n D) (n + k + 1) = D + gens j (k + 1) := by
  induction k with
  | zero =>
    show gens (splice i j n D) n + splice i j n D n + 1 = D + (0 + j 0 + 1)
    rw [gens_splice_left i j (Nat.le_refl n)]
    simp only [splice, Nat.lt_irrefl, if_false, if_true]
    omega
  | succ k ih =>
    rw [show n + (k + 1) + 1 = (n + k + 1) + 1 by omega, gens, ih]
    rw [show gens j (k + 1 + 1) = gens j (k + 1) + j (k + 1) + 1 from rfl]
    simp only [splice, show ¬ n + k + 1 < n by omega, show ¬ n + k + 1 = n by omega, if_false, show n + k + 1 - n = k + 1 by omega]
    omega

section
variable {cfg : Cfg} {p : Direct} {specs : List (List Arg)} {body : Nat → List ArgVal → Direct}

/-- **C54.** Thread `t` is given a function to run under `try_capture_all`; when it is done, its result is handled in thread `u` (the same or another
one) with `try_handle_all`. Whatever happens before, in between and meanwhile: this is what an ideal run of `try_handle_all` around the function
itself does (in which other threads took some of the ids): the handler calls made by `t` in the function are those made there by the function, those
made by `u` follow, and `u` returns (or throws) the same.

Conditions: the threads' current errors are none, or generated in this process, in which no more than `2^30` ids are generated; if the function
fails, it reported one error only (see `C54_refuted`). -/
theorem C54_remote {s0 s1 s2 s3 : Sys} {t u : Tid} {o0 o1 o2 o3 : Out} {evs1 evs2 evs3 : List Ev}
    (hp : (Prog.captureAll p.prog).WF cfg false) (hpo : p.Ok)
    (hb : (Direct.handleAll specs (.ret 0) body).prog.WF cfg false) (hbo : ∀ i args, (body i args).Ok)
    -- `t` runs the function
    (h0 : Reached cfg s0) (hd0 : s0.Done t o0) (hcur : s0.CurKnown t) (he1 : ∀ e ∈ evs1, e.WF cfg) (ht : ∀ q, .start t q ∉ evs1)
    (h1 : (s0.start cfg t (.captureAll p.prog)).play cfg evs1 = some s1) (hd1 : s1.Done t o1)
    (hone : ∀ r, o1 = .err r → (s1.thr t).ids.length ≤ (s0.thr t).ids.length + 1)
    -- `u` handles the result
    (he2 : ∀ e ∈ evs2, e.WF cfg) (h2 : s1.play cfg evs2 = some s2) (hd2 : s2.Done u o2) (hcur2 : s2.CurKnown u)
    (he3 : ∀ e ∈ evs3, e.WF cfg) (hu : ∀ q, .start u q ∉ evs3)
    (h3 : (s2.start cfg u (.handleAll specs (.ret o1) fun i args => (body i args).prog)).play cfg evs3 = some s3) (hd3 : s3.Done u o3)
    (hn : s3.hist.length ≤ 2 ^ 30) :
    ∃ i io n lt lu, Ideal { cfg with interf := i } s0.counter (.handleAll specs p body) 0 io n (lt ++ lu) ∧
      (∃ io' n', Ideal { cfg with interf := i } s0.counter p 0 io' n' lt) ∧ io.Is o3 ∧ s0.hist.length + gens i n ≤ s3.hist.length ∧
      callsIn (s1.thr t).trace = lt.reverse ++ callsIn (s0.thr t).trace ∧ callsIn (s3.thr u).trace = lu.reverse ++ callsIn (s2.thr u).trace := by
  -- what is known about the states
  have hs1 : Reached cfg s1 := by
    refine h0.play (evs := .start t (.captureAll p.prog) :: evs1) (fun e hm => ?_) h1
    rcases List.mem_cons.mp hm with rfl | hm
    · exact hp
    · exact he1 e hm
  have hs2 : Reached cfg s2 := hs1.play he2 h2
  obtain ⟨jobs0, hj0⟩ := h0.jobs
  obtain ⟨jobs1, hj1⟩ := hs1.jobs
  obtain ⟨jobs2, hj2⟩ := hs2.jobs
  obtain ⟨hok, hsc, hh, _⟩ := C45_between h0 hd0
  obtain ⟨_, _, _, ho1⟩ := C45_between hs1 hd1
  obtain ⟨hok2, hsc2, hh2, _⟩ := C45_between hs2 hd2
  have len1 : s1.hist.length ≤ s2.hist.length := hist_grows cfg evs2 hj1.hist h2
  have len2 : s2.hist.length ≤ s3.hist.length :=
    hist_grows cfg (.start u (.handleAll specs (.ret o1) fun i args => (body i args).prog) :: evs3) hj2.hist h3
  have hb' : (Prog.handleAll specs (.ret o1) fun i args => (body i args).prog).WF cfg false := ⟨hb.1, ho1, hb.2.2⟩
  -- the two runs
  obtain ⟨i1, w1, r1, r2, r3, r4⟩ := job_done h0 hd0 hp he1 ht h1 hd1
  obtain ⟨i2, w2, q1, q2, q3, q4⟩ := job_done hs2 hd2 hb' he3 hu h3 hd3
  have hw1 : (s0.world t).ticks = 0 := rfl
  have hw2 : (s2.world u).ticks = 0 := rfl
  obtain ⟨io, lt, a1, a2, a3, a4⟩ := C54_captured (cfg := { cfg with interf := i1 }) (c := s0.counter) (n := w1.ticks) (by rw [wf_interf]; exact hp) hpo
    hok hsc hh (show gens i1 _ ≤ _ by omega) (start_done hj0.hist hsc hcur (show _ + gens i1 _ ≤ _ by omega)) r1 (Nat.le_refl _) (fun r hr => by
      have hi : w1.ticks + (idsIn (s0.thr t).trace).length = 0 + (idsIn w1.trace).length := run_ids _ _ _ _ _ ((congrFun (run_eval _ _) _).trans r1)
      have := hone r hr
      have e1 : (s0.thr t).ids = idsIn (s0.thr t).trace := rfl
      have e2 : (s1.thr t).ids = idsIn w1.trace := by rw [← r3]; rfl
      rw [e1, e2] at this
      omega)
  rw [hw1] at a1
  have hst2 : Start { cfg with interf := i2 } s2.counter w2.ticks (s2.world u) := start_done hj2.hist hsc2 hcur2 (show _ + gens i2 _ ≤ _ by omega)
  have hnc2 : (false : Bool) = false → NoCapturingScope (s2.world u) :=
    fun _ => (noCapturing_iff _).mpr (by rw [show scopes (s2.world u) = [] from hsc2]; intro f hf; cases hf)
  cases io with
  | ok v =>
    cases a2
    obtain ⟨io', l', b1, b2, b3, _⟩ := C48_ideal (cfg := { cfg with interf := i2 }) (c := s2.counter) (p := .handleAll specs (.ret v) body)
      (by rw [wf_interf]; exact hb') ⟨trivial, hbo⟩ hok2 hnc2 (show gens i2 _ ≤ _ by omega) hst2 q1 (Nat.le_refl _)
    have : io' = .ok v ∧ l' = [] := by
      have b1 : Ideal _ _ _ 0 io' w2.ticks l' := b1
      generalize w2.ticks = x at b1
      cases b1 with
      | all_ok h => cases h; exact ⟨rfl, rfl⟩
      | all_handled h => cases h
    obtain ⟨rfl, rfl⟩ := this
    exact ⟨i1, .ok v, w1.ticks, lt, [], by rw [List.append_nil]; exact .all_ok a1, ⟨_, _, a1⟩, b2, by omega, by rw [r3]; exact a3, by rw [q3]; exact b3⟩
  | failed id A ex =>
    obtain ⟨r, rfl, hr⟩ := a2
    obtain ⟨⟨k, _, k2, k3⟩, k4⟩ := a4 id A ex rfl
    rw [errorNo_counter hj0.hist] at k3
    have k5 := gens_le i1 (Nat.succ_le_of_lt k2)
    simp only [Nat.succ_eq_add_one] at k5
    have hid : id.Tagged := by rw [k3]; exact counter_tagged _
    have hold : NotAhead { cfg with interf := i2 } s2.counter 0 w2.ticks id := by
      intro m _ hm he
      have := gens_le i2 (Nat.succ_le_of_lt hm)
      simp only [Nat.succ_eq_add_one] at this
      rw [k3, errorNo_counter hj2.hist, offset_inj] at he
      have : 0 < gens i1 (k + 1) := by simp [gens]
      have : 0 < gens i2 (m + 1) := by simp [gens]
      simp only at he
      omega
    obtain ⟨i, vals, io', lu, b1, b2, b3, b4, b5⟩ := C54_received (cfg := { cfg with interf := i2 }) (c := s2.counter) (n := w2.ticks) (da := false) hid hr k4
      (by rw [wf_interf]; exact hb) ho1 hbo hok2 hnc2 (by rw [show scopes (s2.world u) = [] from hsc2]; exact fun _ _ => stored_nil) hold
      (show gens i2 _ ≤ _ by omega) hst2 q1 (Nat.le_refl _)
    rw [hw2] at b3
    have hD : gens i1 w1.ticks ≤ s2.hist.length - s0.hist.length := by omega
    have hleft : Ideal { cfg with interf := splice i1 i2 w1.ticks (s2.hist.length - s0.hist.length) } s0.counter p 0 (.failed id A ex) w1.ticks lt := by
      refine ideal_shift (d := 0) a1 fun m _ hm => ?_
      unfold errorNo
      show _ + BitVec.ofNat 32 (4 * gens i1 (m + 1)) = _ + BitVec.ofNat 32 (4 * gens (splice i1 i2 _ _) (m + 1))
      rw [gens_splice_left i1 i2 hm]
    have hright : Ideal { cfg with interf := splice i1 i2 w1.ticks (s2.hist.length - s0.hist.length) } s0.counter (body i vals) w1.ticks io' (w1.ticks + w2.ticks) lu := by
      have := ideal_shift (j := splice i1 i2 w1.ticks (s2.hist.length - s0.hist.length)) (c' := s0.counter) (d := w1.ticks) b3 fun m _ hm => by
        rw [errorNo_counter hj2.hist, errorNo_counter hj0.hist, Nat.add_comm m w1.ticks]
        show _ + BitVec.ofNat 32 (4 * (_ + gens i2 (m + 1))) = _ + BitVec.ofNat 32 (4 * (_ + gens (splice i1 i2 _ _) (w1.ticks + m + 1)))
        rw [gens_splice_right i1 i2 hD]
        congr 3
        omega
      rw [Nat.zero_add, Nat.add_comm w2.ticks] at this
      exact this
    refine ⟨_, io', w1.ticks + w2.ticks, lt, (id, visible ex, i, vals) :: lu, .all_handled hleft ((firstSuitableOf_interf i2 _ ..).mp b1)
      ((gets_interf i2 _ ..).mp b2) hright, ⟨_, _, hleft⟩, b4, ?_, by rw [r3]; exact a3, ?_⟩
    · cases hk : w2.ticks with
      | zero => rw [Nat.add_zero, gens_splice_left i1 i2 (Nat.le_refl _)]; omega
      | succ m => rw [← Nat.add_assoc, gens_splice_right i1 i2 hD, ← hk]; omega
    · rw [q3, b5]
      simp
      rfl

end

/-! ## The hypotheses can be met -/

/-- The function: reports an error, which passes a guard. -/
def exFunction : Direct := .guard [.item (.obj 13 4)] (.fail [.obj 10 1, .obj 11 2] none)

/-- The handlers; one of them reports another error, and abandons it. -/
def exHandlers (i : Nat) (_ : List ArgVal) : Direct := if i = 1 then .orElse (.fail [.obj 12 7] none) .ret (.ret 8) else .ret i

def exRemoteSpecs : List (List Arg) := [[.req 12], [.req 10, .ptr 13], []]

theorem exFunction_wf : (Prog.captureAll exFunction.prog).WF exCfg false := by
  refine ⟨rfl, ?_, ⟨?_, fun _ _ => trivial⟩⟩ <;> simp [OnItem.Ok, Item.Ok]

theorem exHandlers_wf : (Direct.handleAll exRemoteSpecs (.ret 0) exHandlers).prog.WF exCfg false := by
  refine ⟨⟨[[.req 12], [.req 10, .ptr 13]], [], rfl, rfl⟩, trivial, fun i args _ => ?_⟩
  show ((exHandlers i args).prog).WF _ _ ∧ ((exHandlers i args).prog).NoErr
  unfold exHandlers
  split
  · exact ⟨⟨⟨by simp [Item.Ok], fun _ _ => trivial⟩, fun _ => trivial, fun _ _ => trivial⟩, by simp [Direct.prog, Prog.NoErr]⟩
  · exact ⟨trivial, by simp [Direct.prog, Prog.NoErr]⟩

/-- What thread 0 captures. -/
def exReturned : ErrRes := .captured 9#32 [.obj 10 (some (9#32, 1)), .obj 11 (some (9#32, 2)), .obj 13 (some (9#32, 4))]

/-- Thread 1 generates an id. -/
def exRemote0 : Option Sys := (Sys.init exCfg exIdle).play exCfg exScript.1

/-- Thread 0 is given `exFunction`, and both run. -/
def exRemote1 : Option Sys := (exRemote0.map fun s => s.start exCfg 0 (.captureAll exFunction.prog)).bind (·.play exCfg exScript.2.1)

/-- Thread 1, done, is given what thread 0 captured, and handles it while thread 0 runs something else. -/
def exRemote3 : Option Sys := (exRemote1.map fun s =>
  s.start exCfg 1 (.handleAll exRemoteSpecs (.ret (.err exReturned)) fun i args => (exHandlers i args).prog)).bind (·.play exCfg exScript.2.2)

/-- The hypotheses of `C54_remote` (with no events between the two) and of the theorems it is made of. -/
example : (Prog.captureAll exFunction.prog).WF exCfg false ∧ exFunction.Ok ∧ (Direct.handleAll exRemoteSpecs (.ret 0) exHandlers).prog.WF exCfg false ∧
    (∀ i args, (exHandlers i args).Ok) ∧
    outcome exRemote0 0 = some (.val 0) ∧ exRemote0.map (fun s => ((s.thr 0).cur, s.hist, (s.thr 0).ids)) = some (0#32, [(1, 5#32)], []) ∧
    outcome exRemote1 0 = some (.err exReturned) ∧ outcome exRemote1 1 = some (.err (.plain 13#32)) ∧
    exRemote1.map (fun s => ((s.thr 1).cur, s.hist, (s.thr 0).ids)) = some (13#32, [(1, 13#32), (0, 9#32), (1, 5#32)], [9#32]) ∧
    outcome exRemote3 1 = some (.val 8) ∧ exRemote3.map (fun s => s.hist.length) = some 6 ∧
    exRemote3.map (fun s => (callsIn (s.thr 1).trace).take 1) = some [(9#32, none, 1, [.obj 10 1, .ptr 13 (some 4)])] := by
  refine ⟨exFunction_wf, by simp [exFunction, Direct.Ok], exHandlers_wf, fun i args => ?_, by decide +kernel, by decide +kernel, by decide +kernel,
    by decide +kernel, by decide +kernel, by decide +kernel, by decide +kernel, by decide +kernel⟩
  unfold exHandlers
  split <;> simp [Direct.Ok]

/-! ## Why the function must report only one error -/

/-- A function that reports an error, abandons it, and fails with another one. -/
def exTwice : Direct := .orElse (.fail [.obj 10 1] none) .ret (.fail [.obj 11 2] none)

/-- **If the function abandons an error before it fails, objects are lost:** called directly, the handler that takes `e_11` is called; the result of
`try_capture_all` does not contain the `e_11`, so the other handler is called. -/
theorem C54_refuted :
    runFresh exCfg (Direct.handleAll [[.req 11], []] exTwice fun i _ => .ret i).prog =
      some (.val 0, [], [.handled 9#32 none 0 [.obj 11 2], .offered 9#32 11 2, .gen 9#32, .offered 5#32 10 1, .gen 5#32]) ∧
    runFresh exCfg (.captureAll exTwice.prog) = some (.err (.captured 9#32 []), [], [.offered 9#32 11 2, .gen 9#32, .offered 5#32 10 1, .gen 5#32]) ∧
    runFresh exCfg (.handleAll [[.req 11], []] (.ret (.err (.captured 9#32 []))) fun i _ => .ret (.val i)) = some (.val 1, [], [.handled 9#32 none 1 []]) :=
  ⟨by decide +kernel, by decide +kernel, by decide +kernel⟩

end Leaf
