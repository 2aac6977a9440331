import Verif.CurTrack
import Verif.PropTravel

/-!
# Properties C04, C05, C24, C25: error codes, quiet states, `on_error`, `error_monitor`
-/

namespace Leaf

variable {cfg : Cfg} {da : Bool}

/-! ## Spec -/

/-- The ids generated on the thread so far, last one first. -/
def generated (w : World PtrStore) : List Id := w.trace.filterMap fun | .gen id => some id | _ => none

/-- The last error reported (the last id generated) on this thread between the states `w` and `w'`. -/
def reported (w w' : World PtrStore) : Option Id := (generated w' |>.take ((generated w').length - (generated w).length)).head?

/-- The thread state right after an id was generated in state `w`: apart from the counter, the current id and the record of generated ids,
nothing changes. -/
def Generates (cfg : Cfg) (w w' : World PtrStore) : Prop :=
  w'.cur = nextId cfg w ∧ w'.counter = nextId cfg w ∧ generated w' = nextId cfg w :: generated w ∧ scopes w' = scopes w ∧ calls w' = calls w ∧
    w'.handling = w.handling

/-- The functions among the arguments of `on_error`. -/
def OnItem.tag? : OnItem → Option Nat
  | .item (.obj _ _) => none
  | .item (.deferred _ tag _) => some tag
  | .item (.accum _ tag _) => some tag
  | .action tag => some tag

/-- The functions among them that return no error object. -/
def OnItem.action? : OnItem → Option Nat
  | .action tag => some tag
  | _ => none

/-- The functions called between two states, in the order of the calls, are `tags`. -/
def CalledBetween (w w' : World PtrStore) (tags : List Nat) : Prop := calls w' = tags.reverse ++ calls w

/-- From `w`, the items of an `on_error` guard are attached to error `id`, leading to `w'`: the objects are delivered in the order given; functions
are called in the order given, at most once each; those that return nothing, exactly once each; no other part of the state changes. -/
def Attaches (cfg : Cfg) (id : Id) (items : List OnItem) (w w' : World PtrStore) : Prop :=
  DeliveredAll cfg true id (onItems items) (scopes w) (scopes w') ∧ SameOtherwise w w' ∧ generated w' = generated w ∧
    ∃ tags, CalledBetween w w' tags ∧ tags.Sublist (items.filterMap OnItem.tag?) ∧ (items.filterMap OnItem.action?).Sublist tags

/-! ## Lemmas -/

theorem currentId_eq {w : World PtrStore} (hw : ThreadOk w) : currentId w = some (w.cur, w) := by
  unfold currentId
  have : w.cur = 0#32 ∨ Id.Tagged w.cur := hw.good.1
  simp only [this, if_true]

theorem newId_ptr {w : World PtrStore} (hw : ThreadOk w) : ∃ w', newId cfg w = some (nextId cfg w, w') ∧ ThreadOk w' ∧ Generates cfg w w' := by
  have h : newId cfg (absW w) = some (nextId cfg (absW w), (absW w).gen cfg) := newId_eq cfg _
  obtain ⟨w', h1, h2, h3⟩ := run_abs (sim_newId cfg) hw h (gen_good hw.good)
  have e : nextId cfg (absW w) = nextId cfg w := rfl
  rw [e] at h1
  have ht : w'.trace = .gen (nextId cfg w) :: w.trace := by
    show (absW w').trace = _; rw [h2]; rfl
  refine ⟨w', h1, h3, ?_, ?_, ?_, ?_, ?_, ?_⟩
  · show (absW w').cur = _; rw [h2]; rfl
  · show (absW w').counter = _; rw [h2]; rfl
  · unfold generated; rw [ht]; rfl
  · unfold scopes; rw [h2]; rfl
  · unfold calls; rw [ht]; rfl
  · show (absW w').handling = _; rw [h2]; rfl

theorem calledTags_append (a b : List Event) : calledTags (a ++ b) = calledTags a ++ calledTags b := by simp [calledTags]

theorem called_ite (p : Prop) [Decidable p] (id : Id) (ty : Ty) (v : Val) (tag : Nat) :
    calledTags (if p then [.offered id ty v, .called tag] else []) = [] ∨
      ∃ t, some tag = some t ∧ calledTags (if p then [.offered id ty v, .called tag] else []) = [t] := by
  split
  · exact Or.inr ⟨tag, rfl, rfl⟩
  · exact Or.inl rfl

theorem itemEvents_called (keep : Bool) (id : Id) (i : Item) (fs : List Scope) :
    calledTags (itemEvents cfg keep id i fs) = [] ∨ ∃ t, (OnItem.item i).tag? = some t ∧ calledTags (itemEvents cfg keep id i fs) = [t] := by
  cases i with
  | obj ty v => exact Or.inl rfl
  | deferred ty tag v => exact called_ite _ id ty v tag
  | accum ty tag f => exact called_ite _ id ty _ tag

theorem onEvents_called (id : Id) (items : List OnItem) (fs : List Scope) :
    ∃ tags, calledTags (onEvents cfg id items fs) = tags.reverse ∧ tags.Sublist (items.filterMap OnItem.tag?) ∧
      (items.filterMap OnItem.action?).Sublist tags := by
  induction items generalizing fs with
  | nil => exact ⟨[], rfl, .slnil, .slnil⟩
  | cons i is ih =>
    cases i with
    | item i =>
      obtain ⟨tags, h1, h2, h3⟩ := ih (putItem cfg true id i fs)
      have ha : (OnItem.item i :: is).filterMap OnItem.action? = is.filterMap OnItem.action? := rfl
      simp only [onEvents, calledTags_append, h1, ha]
      rcases itemEvents_called (cfg := cfg) true id i fs with h | ⟨t, ht, h⟩
      · refine ⟨tags, by simp [h], ?_, h3⟩
        rw [List.filterMap_cons]
        split
        · exact h2
        · exact h2.cons _
      · refine ⟨t :: tags, by simp [h], ?_, h3.cons _⟩
        rw [List.filterMap_cons_some ht]
        exact h2.cons_cons t
    | action tag =>
      obtain ⟨tags, h1, h2, h3⟩ := ih fs
      refine ⟨tag :: tags, ?_, ?_, ?_⟩
      · simp only [onEvents, calledTags_append, h1, List.reverse_cons]
        rfl
      · rw [List.filterMap_cons_some (rfl : (OnItem.action tag).tag? = some tag)]
        exact h2.cons_cons tag
      · rw [List.filterMap_cons_some (rfl : (OnItem.action tag).action? = some tag)]
        exact h3.cons_cons tag

theorem itemEvents_gen (keep : Bool) (id : Id) (i : Item) (fs : List Scope) (g : Id) : Event.gen g ∉ itemEvents cfg keep id i fs := by
  cases i <;> simp only [itemEvents]
  · simp
  · split <;> simp
  · split <;> simp

theorem onEvents_gen (id : Id) (items : List OnItem) (fs : List Scope) (g : Id) : Event.gen g ∉ onEvents cfg id items fs := by
  induction items generalizing fs with
  | nil => simp [onEvents]
  | cons i is ih =>
    cases i with
    | item i =>
      simp only [onEvents, List.mem_append, not_or]
      exact ⟨ih _, itemEvents_gen _ _ _ _ _⟩
    | action tag =>
      simp only [onEvents, List.mem_append, not_or]
      exact ⟨ih _, by simp⟩

theorem trigger_ptr {items : List OnItem} (hi : ∀ i ∈ items, i.Ok cfg da) {w : World PtrStore} (hw : ThreadOk w)
    (hda : da = false → NoDa (shape (scopes w))) {id : Id} (hid : id.Tagged) :
    ∃ w', triggerItems cfg id items w = some ((), w') ∧ ThreadOk w' ∧ Attaches cfg id items w w' := by
  have ht := triggerItems_eq cfg hid items (absW w) hw.good.4 (accOk_of_noDa (onItems_ok hi) hda id)
  obtain ⟨w', g1, g2, g3⟩ := run_abs (sim_triggerItems cfg id items) hw ht (put_good hw.good (putItems_good (tagged_ne_zero hid) hw.good.4))
  have htr : w'.trace = onEvents cfg id items (scopes w) ++ w.trace := by
    show (absW w').trace = _; rw [g2]; rfl
  refine ⟨w', g1, g3, ?_, sameOtherwise_put g2, ?_, ?_⟩
  · have : scopes w' = putItems cfg true id (onItems items) (scopes w) := by unfold scopes; rw [g2]; rfl
    rw [this]
    exact putItems_delivered _ _ _ _ _
  · unfold generated
    rw [htr, List.filterMap_append]
    have : (onEvents cfg id items (scopes w)).filterMap (fun | .gen id => some id | _ => none) = ([] : List Id) := by
      rw [List.filterMap_eq_nil_iff]
      intro e he
      cases e with
      | gen g => exact absurd he (onEvents_gen _ _ _ _)
      | _ => rfl
    rw [this]; rfl
  · obtain ⟨tags, h1, h2, h3⟩ := onEvents_called (cfg := cfg) id items (scopes w)
    refine ⟨tags, ?_, h2, h3⟩
    unfold CalledBetween calls
    rw [htr]
    show calledTags _ = _
    rw [calledTags_append, h1]
    rfl

/-! ## C24 -/

section
variable {items : List OnItem} {body : Prog} {w w1 : World PtrStore} {o : Out}

/-- Whether the scope was left by an exception. -/
def Out.throws : Out → Bool
  | .exc _ => true
  | _ => false

theorem onErrorGuard_eq {M : Type} [Store M] (items : List OnItem) (x : Comp M Out) : onErrorGuard cfg items x = (do
    let saved ← currentId
    let o ← x
    let id ← checkId cfg saved o.throws
    if id ≠ 0#32 then do
      assertTagged id
      triggerItems cfg id items
    return o) := rfl

theorem guard_ptr (hp : (Prog.onError items body).WF cfg da) (hw : ThreadOk w) (hda : da = false → NoCapturingScope w)
    (hb : eval cfg body w = some (o, w1)) {id : Id} {w2 : World PtrStore} (hid : id.Tagged) (hw2 : ThreadOk w2)
    (hs : scopes w2 = scopes w1) (hc : checkId cfg w.cur o.throws w1 = some (id, w2)) :
    ∃ w', eval cfg (.onError items body) w = some (o, w') ∧ ThreadOk w' ∧ Attaches cfg id items w2 w' := by
  obtain ⟨_, _, _, e4⟩ := eval_abs hp.2 hw hda hb
  obtain ⟨w', h1, h2, h3⟩ := trigger_ptr hp.1 hw2 (fun h => by rw [hs, e4]; exact noDa_of (hda h)) hid
  refine ⟨w', ?_, h2, h3⟩
  show onErrorGuard cfg items (eval cfg body) w = _
  rw [onErrorGuard_eq]
  rw [bind_apply, currentId_eq hw, Option.bind_some, bind_apply, hb, Option.bind_some, bind_apply]
  rw [hc, Option.bind_some]
  simp only [tagged_ne_zero hid, ne_eq, not_false_eq_true, if_true, bind_apply, assertTagged, hid]
  rw [Option.bind_some, h1]
  rfl

/-- **C24, success.** If the scope is left without exception and with the current error unchanged, the guard does nothing at all: nothing is
loaded, no function is called. -/
theorem C24_success (hp : (Prog.onError items body).WF cfg da) (hw : ThreadOk w) (hda : da = false → NoCapturingScope w)
    (hb : eval cfg body w = some (o, w1)) (hc : w1.cur = w.cur) (ho : o.throws = false) :
    eval cfg (.onError items body) w = some (o, w1) := by
  obtain ⟨_, e3, _, _⟩ := eval_abs hp.2 hw hda hb
  show onErrorGuard cfg items (eval cfg body) w = _
  rw [onErrorGuard_eq]
  rw [bind_apply, currentId_eq hw, Option.bind_some, bind_apply, hb, Option.bind_some, bind_apply]
  rw [ho]
  unfold checkId
  rw [bind_apply, currentId_eq e3, Option.bind_some]
  simp [hc, pure_apply]

/-- **C24, failure (partial).** If the scope is left with a new current error, the items are attached to that error. *Missing*: the case that
the current error was reset to none in the scope (`C24_refuted`). -/
theorem C24_failure_partial (hp : (Prog.onError items body).WF cfg da) (hw : ThreadOk w) (hda : da = false → NoCapturingScope w)
    (hb : eval cfg body w = some (o, w1)) (hc : w1.cur ≠ w.cur) (h0 : w1.cur ≠ 0#32) :
    ∃ w', eval cfg (.onError items body) w = some (o, w') ∧ ThreadOk w' ∧ Attaches cfg w1.cur items w1 w' := by
  obtain ⟨_, e3, _, _⟩ := eval_abs hp.2 hw hda hb
  have ht : w1.cur.Tagged := (show w1.cur = 0#32 ∨ w1.cur.Tagged from e3.good.1).resolve_left h0
  refine guard_ptr hp hw hda hb ht e3 rfl ?_
  unfold checkId
  rw [bind_apply, currentId_eq e3, Option.bind_some]
  simp [hc, pure_apply]

/-- **C24, exception.** If the scope is left by an exception with the current error unchanged, the items are attached to a freshly generated
id. -/
theorem C24_exception (hp : (Prog.onError items body).WF cfg da) (hw : ThreadOk w) (hda : da = false → NoCapturingScope w)
    (hb : eval cfg body w = some (o, w1)) (hc : w1.cur = w.cur) (ho : o.throws = true) :
    ∃ w2 w', Generates cfg w1 w2 ∧ eval cfg (.onError items body) w = some (o, w') ∧ ThreadOk w' ∧ Attaches cfg (nextId cfg w1) items w2 w' := by
  obtain ⟨_, e3, _, _⟩ := eval_abs hp.2 hw hda hb
  obtain ⟨w2, h1, h2, h3⟩ := newId_ptr (cfg := cfg) e3
  have ht : (nextId cfg w1).Tagged := nextId_tagged (w := absW w1) e3.good
  obtain ⟨w', h4, h5, h6⟩ := guard_ptr hp hw hda hb ht h2 h3.2.2.2.1 (by
    unfold checkId
    rw [bind_apply, currentId_eq e3, Option.bind_some]
    simp [hc, ho, h1])
  exact ⟨w2, w', h3, h4, h5, h6⟩

/-- **C24, reset (the defect).** If the scope is left with the current error reset to none, the guard does nothing, even if an exception is in
flight. -/
theorem C24_refuted_reset (hp : (Prog.onError items body).WF cfg da) (hw : ThreadOk w) (hda : da = false → NoCapturingScope w)
    (hb : eval cfg body w = some (o, w1)) (hc : w1.cur ≠ w.cur) (h0 : w1.cur = 0#32) :
    eval cfg (.onError items body) w = some (o, w1) := by
  obtain ⟨_, e3, _, _⟩ := eval_abs hp.2 hw hda hb
  show onErrorGuard cfg items (eval cfg body) w = _
  rw [onErrorGuard_eq]
  rw [bind_apply, currentId_eq hw, Option.bind_some, bind_apply, hb, Option.bind_some, bind_apply]
  unfold checkId
  rw [bind_apply, currentId_eq e3, Option.bind_some]
  simp only [h0] at hc ⊢
  simp [hc, pure_apply]

end

/-- A guard around a scope that fails with a result: the items are attached to the reported error, the action is called. -/
example :
    runInScope exCfg [.obj 10] (.onError [.item (.obj 10 1), .action 77] (.newError [] fun id => .ret (.err (.plain id)))) =
      some (.err (.plain 5#32), [[.obj 10 (some (5#32, 1))]]) := by
  decide +kernel

/-- A `leaf::exception` is thrown and swallowed by user code, then another exception is thrown, all in the scope of an `on_error` guard. -/
def swallowThenThrow : Prog :=
  .onError [.item (.obj 10 1), .action 77]
    (.bind (.cppCatch (.newError [] fun id => .ret (.exc ⟨1, true, .base id, [], true⟩)) (fun _ => .ret (.val 0)))
      (fun _ => .ret (.exc ⟨2, true, .none, [], true⟩)) (fun _ => .ret (.val 0)))

/-- **C24 refuted.** After an earlier error on the thread, a scope that throws and swallows a `leaf::exception` and is then left by another exception:
the items are dropped and the function is not called. -/
theorem C24_refuted :
    ((eval exCfg (.newError [] fun _ => .tryCatch [[.ptr 10]] swallowThenThrow (fun _ _ => .ret (.val 0))) : Comp PtrStore Out) (initThread 1#32)).map
      (fun r => (r.1, calls r.2, r.2.trace.filter fun | .offered _ _ _ => true | .handled _ _ _ _ => true | _ => false)) =
    some (.val 0, [], [.handled 1#32 (some ⟨2, true, .none, [], true⟩) 0 [.ptr 10 none]]) := by
  decide +kernel

/-- Without the earlier error they are attached (to id 9, whose scope handles type 10). -/
example :
    ((eval exCfg (.tryCatch [[.ptr 10]] swallowThenThrow (fun _ _ => .ret (.val 0))) : Comp PtrStore Out) (initThread 1#32)).map
      (fun r => (r.1, calls r.2, r.2.trace.filter fun | .offered _ _ _ => true | .handled _ _ _ _ => true | _ => false)) =
    some (.val 0, [77], [.handled 9#32 (some ⟨2, true, .none, [], true⟩) 0 [.ptr 10 (some 1)], .offered 9#32 10 1]) := by
  decide +kernel

/-! ### The error attached to is the one reported last -/

theorem filterMap_gen_head (es : List Event) : (es.filterMap fun | .gen id => some id | _ => none).head? = lastGen es := by
  induction es with
  | nil => rfl
  | cons e es ih => cases e <;> simp [lastGen, ih]

theorem noDaFs_of {w : World PtrStore} (h : NoCapturingScope w) : NoDaFs (absW w).mem.frames := by
  intro f hf k ns hm
  have := (noCapturing_iff w).mp h (f.map CtxCell.cellTy) (by unfold scopes shape; exact List.mem_map.mpr ⟨f, hf, rfl⟩)
  exact this (List.mem_map.mpr ⟨_, hm, rfl⟩)

/-- **C24, the last error reported.** For a scope that uses neither captured results nor capturing scopes: whenever the current error is not none at
the end, it is the last error reported in the scope, if any, and else the same as before. -/
theorem C24_last_reported {body : Prog} (hp : body.WF cfg da) (hpl : body.Plain cfg) {w w1 : World PtrStore} (hw : ThreadOk w) (hda : NoCapturingScope w)
    {o : Out} (hb : eval cfg body w = some (o, w1)) (h0 : w1.cur ≠ 0#32) : w1.cur = (reported w w1).getD w.cur := by
  obtain ⟨e2, _, _, _⟩ := eval_abs hp hw (fun _ => hda) hb
  have := trO_eval (t0 := w.trace) (c0 := w.cur) cfg body hpl (absW w) ⟨noDaFs_of hda, [], rfl, Or.inl rfl⟩ o (absW w1) e2
  obtain ⟨_, _, es, h2, h3⟩ := this
  have h2 : w1.trace = es ++ w.trace := h2
  have h3 : w1.cur = (lastGen es).getD w.cur ∨ w1.cur = 0#32 := h3
  have h3 := h3.resolve_right h0
  rw [h3]
  congr 1
  unfold reported generated
  rw [h2, List.filterMap_append, List.length_append, Nat.add_sub_cancel, List.take_left, filterMap_gen_head]

/-! ## C25 -/

section
variable {body : Prog} {w w1 : World PtrStore} {o : Out}

/-- **C25 (partial), `assigned_error_id`.** After a scope `body` monitored since state `w` that ends in `w1`: the id of the last error reported in the scope; if there
was none, a fresh id. *Missing*: scopes in which the current error was reset to none, by destroying a `leaf::exception` that no handler inspected
(`C25_refuted`); scopes that transport captured results (`C25_refuted_received`). The ids reported differ from that of the earlier error, by C01. -/
theorem C25_assigned_partial (hp : body.WF cfg da) (hpl : body.Plain cfg) (hw : ThreadOk w) (hda : NoCapturingScope w)
    (hb : eval cfg body w = some (o, w1)) (hr : w1.cur = 0#32 → w.cur = 0#32 ∧ reported w w1 = none) (hu : reported w w1 ≠ some w.cur) :
    match reported w w1 with
    | some id => getId cfg w.cur w1 = some (id, w1)
    | none => ∃ w2, getId cfg w.cur w1 = some (nextId cfg w1, w2) ∧ ThreadOk w2 ∧ Generates cfg w1 w2 := by
  obtain ⟨_, e3, _, _⟩ := eval_abs hp hw (fun _ => hda) hb
  have hcur : w1.cur = (reported w w1).getD w.cur := by
    by_cases h0 : w1.cur = 0#32
    · rw [(hr h0).2, h0, (hr h0).1]; rfl
    · exact C24_last_reported hp hpl hw hda hb h0
  unfold getId
  rw [bind_apply, currentId_eq e3, Option.bind_some]
  cases hrep : reported w w1 with
  | some id =>
    rw [hrep] at hcur hu
    have hcur : w1.cur = id := hcur
    have hne : w1.cur ≠ w.cur := fun h => hu (by rw [← hcur, h])
    simp only [ne_eq, hne, not_false_eq_true, if_true, pure_apply]
    rw [hcur]
  | none =>
    rw [hrep] at hcur
    have hcur : w1.cur = w.cur := hcur
    obtain ⟨w2, h1, h2, h3⟩ := newId_ptr (cfg := cfg) e3
    exact ⟨w2, by simp [hcur, h1], h2, h3⟩

/-- **C25 (partial), `check`.** The id of the last error reported in the scope; if there was none, a fresh id if an exception is in flight, else the
empty id (which `check()` then turns into id 1, see `C05_refuted_check`). *Missing*: as for `assigned_error_id`. -/
theorem C25_check_partial (hp : body.WF cfg da) (hpl : body.Plain cfg) (hw : ThreadOk w) (hda : NoCapturingScope w)
    (hb : eval cfg body w = some (o, w1)) (hr : w1.cur = 0#32 → w.cur = 0#32 ∧ reported w w1 = none) (hu : reported w w1 ≠ some w.cur) :
    match reported w w1 with
    | some id => checkId cfg w.cur o.throws w1 = some (id, w1)
    | none =>
      if o.throws then ∃ w2, checkId cfg w.cur o.throws w1 = some (nextId cfg w1, w2) ∧ ThreadOk w2 ∧ Generates cfg w1 w2
      else checkId cfg w.cur o.throws w1 = some (0#32, w1) := by
  obtain ⟨_, e3, _, _⟩ := eval_abs hp hw (fun _ => hda) hb
  have hcur : w1.cur = (reported w w1).getD w.cur := by
    by_cases h0 : w1.cur = 0#32
    · rw [(hr h0).2, h0, (hr h0).1]; rfl
    · exact C24_last_reported hp hpl hw hda hb h0
  unfold checkId
  rw [bind_apply, currentId_eq e3, Option.bind_some]
  cases hrep : reported w w1 with
  | some id =>
    rw [hrep] at hcur hu
    have hcur : w1.cur = id := hcur
    have hne : w1.cur ≠ w.cur := fun h => hu (by rw [← hcur, h])
    simp only [ne_eq, hne, not_false_eq_true, if_true, pure_apply]
    rw [hcur]
  | none =>
    rw [hrep] at hcur
    have hcur : w1.cur = w.cur := hcur
    obtain ⟨w2, h1, h2, h3⟩ := newId_ptr (cfg := cfg) e3
    cases ho : o.throws with
    | true => simp only [if_true]; exact ⟨w2, by simp [hcur, h1], h2, h3⟩
    | false => simp [hcur, pure_apply]

end

/-- An error monitor watches a scope that throws a `leaf::exception` and swallows it; `use` receives the id the monitor then gives. -/
def monitorSwallowed (ask : Id → (Id → Prog) → Prog) : Prog :=
  .monNew fun m =>
    .bind (.cppCatch (.newError [] fun id => .ret (.exc ⟨1, true, .base id, [], true⟩)) (fun _ => .ret (.val 0)))
      (fun _ => ask m fun id => .ret (.err (.plain id))) (fun _ => .ret (.val 0))

/-- **C25 refuted, `assigned_error_id`.** With an earlier error on the thread (id 5), the monitored scope reports an error (id 9), thrown as an exception that is
swallowed: `assigned_error_id` gives neither id 9 nor a fresh id, but the id 1, which was never generated. -/
theorem C25_refuted :
    ((eval exCfg (.newError [] fun _ => monitorSwallowed .monAssigned) : Comp PtrStore Out) (initThread 1#32)).map (fun r => (r.1, generated r.2)) =
      some (.err (.plain 1#32), [9#32, 5#32]) := by
  decide +kernel

/-- The same for `check`. -/
theorem C25_refuted_check :
    ((eval exCfg (.newError [] fun _ => monitorSwallowed .monCheck) : Comp PtrStore Out) (initThread 1#32)).map (fun r => (r.1, generated r.2)) =
      some (.err (.plain 1#32), [9#32, 5#32]) := by
  decide +kernel

/-- A function called with a captured result `r` of an earlier error: it reports an error, deals with `r`, and then returns the error it reported. -/
def reportThenReceive (r : ErrRes) : Prog :=
  .newError [] fun id =>
    .bind (.handleAll [[]] (.ret (.err r)) (fun _ _ => .ret (.val 0))) (fun _ => .ret (.err (.plain id))) (fun _ => .ret (.err (.plain id)))

/-- An error (id 5) is captured; `use` gets the result. -/
def withCaptured (use : ErrRes → Prog) : Prog :=
  .bind (.captureAll (.newError [] fun id => .ret (.err (.plain id)))) (fun _ => .ret (.val 0)) use

/-- **C24 refuted, captured results.** In the scope of a guard, an error (id 9) is reported, then a captured result of an earlier error (id 5) is handled, and
error 9 is returned. The current error is then the same as before the scope, so the guard does nothing although the scope failed, and the handler for error 9
that needs the guard's object is not called; without the captured result it is. -/
theorem C24_refuted_received :
    ((eval exCfg (withCaptured fun r => .handleAll [[.req 10], []] (.onError [.item (.obj 10 1)] (reportThenReceive r)) (fun i _ => .ret (.val i))) :
      Comp PtrStore Out) (initThread 1#32)).map (fun r => (r.1, r.2.trace)) =
      some (.val 1, [.handled 9#32 none 1 [], .handled 5#32 none 0 [], .gen 9#32, .gen 5#32]) ∧
    ((eval exCfg (withCaptured fun _ => .handleAll [[.req 10], []] (.onError [.item (.obj 10 1)] (.newError [] fun id => .ret (.err (.plain id))))
      (fun i _ => .ret (.val i))) : Comp PtrStore Out) (initThread 1#32)).map (fun r => (r.1, r.2.trace)) =
      some (.val 0, [.handled 9#32 none 0 [.obj 10 1], .offered 9#32 10 1, .gen 9#32, .gen 5#32]) := by
  constructor <;> decide +kernel

/-- `reportThenReceive` in a monitored scope. -/
def receiveMonitored (ask : Id → (Id → Prog) → Prog) (r : ErrRes) : Prog :=
  .monNew fun m => .bind (reportThenReceive r) (fun _ => .ret (.val 0)) (fun _ => ask m fun id => .ret (.err (.plain id)))

/-- **C25 refuted, captured results.** In the monitored scope an error (id 9) is reported, then a captured result of an earlier error (id 5) is handled.
The current error is then the same as before: `assigned_error_id` gives a fresh id (13), and `check` gives 1 (see `C05_refuted_check`), not 9. -/
theorem C25_refuted_received :
    ((eval exCfg (withCaptured (receiveMonitored .monAssigned)) : Comp PtrStore Out) (initThread 1#32)).map (fun r => (r.1, generated r.2)) =
      some (.err (.plain 13#32), [13#32, 9#32, 5#32]) ∧
    ((eval exCfg (withCaptured (receiveMonitored .monCheck)) : Comp PtrStore Out) (initThread 1#32)).map (fun r => (r.1, generated r.2)) =
      some (.err (.plain 1#32), [9#32, 5#32]) := by
  constructor <;> decide +kernel

/-- The theorems apply to a monitored scope that reports two errors, starting from a state with a current error. -/
def twoErrors : Prog := .newError [.obj 10 1] fun _ => .newError [.obj 11 2] fun id => .ret (.err (.plain id))

example : ∃ (w w1 : World PtrStore) (o : Out), ThreadOk w ∧ NoCapturingScope w ∧ twoErrors.WF exCfg false ∧ twoErrors.Plain exCfg ∧
    eval exCfg twoErrors w = some (o, w1) ∧ w.cur = 5#32 ∧ w1.cur ≠ 0#32 ∧ reported w w1 = some 13#32 := by
  obtain ⟨w, h1, h2, h3⟩ := newId_ptr (cfg := exCfg) (threadOk_init (c := 1#32) (by decide))
  have hp : twoErrors.WF exCfg false := by
    refine ⟨by simp [Item.Ok], fun _ _ => ⟨by simp [Item.Ok], fun _ _ => trivial⟩⟩
  have hn : NoCapturingScope w := by
    rw [noCapturing_iff, h3.2.2.2.1]
    intro c hc
    simp [shape, scopes, absW, PtrStore.abs, initThread, PtrStore.empty, PtrStore.absFrames] at hc
  have he : ((newId exCfg >>= fun _ => eval exCfg twoErrors : Comp PtrStore Out) (initThread 1#32)).map (fun r => (r.1, r.2.cur, generated r.2)) =
      some (.err (.plain 13#32), 13#32, [13#32, 9#32, 5#32]) := by decide +kernel
  rw [bind_apply, h1, Option.bind_some] at he
  obtain ⟨o, w1, e1⟩ := eval_total hp h2 (fun _ => hn)
  rw [e1] at he
  simp only [Option.map_some, Option.some.injEq, Prod.mk.injEq] at he
  have hg : generated w = [5#32] := by rw [h3.2.2.1]; rfl
  refine ⟨w, w1, o, h2, hn, hp, fun _ _ => trivial, e1, by rw [h3.1]; rfl, by rw [he.2.1]; decide, ?_⟩
  unfold reported
  rw [he.2.2, hg]
  rfl

/-- The hypotheses of the four cases of C24, in a state with a current error: a guarded scope that succeeds, one that reports an error, one left by a foreign exception, one that swallows a
`leaf::exception`. -/
example : ∃ w : World PtrStore, ThreadOk w ∧ NoCapturingScope w ∧
    ∀ k, k < 4 → ∃ body o w1, (Prog.onError [.item (.obj 10 1), .action 77] body).WF exCfg false ∧ eval exCfg body w = some (o, w1) ∧
      (k = 0 → w1.cur = w.cur ∧ o.throws = false) ∧ (k = 1 → w1.cur ≠ w.cur ∧ w1.cur ≠ 0#32) ∧ (k = 2 → w1.cur = w.cur ∧ o.throws = true) ∧
      (k = 3 → w1.cur ≠ w.cur ∧ w1.cur = 0#32) := by
  obtain ⟨w, h1, h2, h3⟩ := newId_ptr (cfg := exCfg) (threadOk_init (c := 1#32) (by decide))
  have hcur : w.cur = 5#32 := by rw [h3.1]; rfl
  have hn : NoCapturingScope w := by
    rw [noCapturing_iff, h3.2.2.2.1]
    intro c hc
    simp [shape, scopes, absW, PtrStore.abs, initThread, PtrStore.empty, PtrStore.absFrames] at hc
  have run : ∀ {p : Prog} {b : Bool} {c : Id}, p.WF exCfg false →
      ((newId exCfg >>= fun _ => eval exCfg p : Comp PtrStore Out) (initThread 1#32)).map (fun r => (r.1.throws, r.2.cur)) = some (b, c) →
      ∃ o w1, eval exCfg p w = some (o, w1) ∧ o.throws = b ∧ w1.cur = c := by
    intro p b c hp he
    rw [bind_apply, h1, Option.bind_some] at he
    obtain ⟨o, w1, e1⟩ := eval_total hp h2 (fun _ => hn)
    rw [e1] at he
    simp only [Option.map_some, Option.some.injEq, Prod.mk.injEq] at he
    exact ⟨o, w1, e1, he.1, he.2⟩
  have hi : ∀ i ∈ [OnItem.item (.obj 10 1), .action 77], i.Ok exCfg false := by simp [OnItem.Ok, Item.Ok]
  refine ⟨w, h2, hn, fun k hk => ?_⟩
  match k, hk with
  | 0, _ =>
    have hp : (Prog.ret (.val 0)).WF exCfg false := trivial
    obtain ⟨o, w1, e1, e2, e3⟩ := run (b := false) (c := 5#32) hp (by decide +kernel)
    exact ⟨_, o, w1, ⟨hi, hp⟩, e1, by simp [e2, e3, hcur]⟩
  | 1, _ =>
    have hp : twoErrors.WF exCfg false := ⟨by simp [Item.Ok], fun _ _ => ⟨by simp [Item.Ok], fun _ _ => trivial⟩⟩
    obtain ⟨o, w1, e1, e2, e3⟩ := run (b := false) (c := 13#32) hp (by decide +kernel)
    exact ⟨_, o, w1, ⟨hi, hp⟩, e1, by simp [e3, hcur]⟩
  | 2, _ =>
    have hp : (Prog.ret (.exc ⟨2, true, .none, [], true⟩)).WF exCfg false := by simp [Prog.WF, Out.Ok, Exc.Ok]
    obtain ⟨o, w1, e1, e2, e3⟩ := run (b := true) (c := 5#32) hp (by decide +kernel)
    exact ⟨_, o, w1, ⟨hi, hp⟩, e1, by simp [e2, e3, hcur]⟩
  | 3, _ =>
    have hp : (Prog.cppCatch (.newError [] fun id => .ret (.exc ⟨1, true, .base id, [], true⟩)) (fun _ => .ret (.val 0))).WF exCfg false := by
      refine ⟨⟨by simp, fun id h => ?_⟩, fun _ _ => trivial⟩
      simpa [Prog.WF, Out.Ok, Exc.Ok] using h
    obtain ⟨o, w1, e1, e2, e3⟩ := run (b := false) (c := 0#32) hp (by decide +kernel)
    exact ⟨_, o, w1, ⟨hi, hp⟩, e1, by simp [e3, hcur]⟩

/-! ## C05 -/

/-- **C05 refuted, `current_error`.** Whenever the thread has no current error, `current_error()` gives an id that converts to true. -/
theorem C05_refuted_current_error (w : World PtrStore) (h : w.cur = 0#32) : currentError w = some (1#32, w) ∧ Id.truthy 1#32 = true := by
  refine ⟨?_, by decide⟩
  unfold currentError
  rw [bind_apply]
  unfold currentId
  simp only [h, true_or, if_true, Option.bind_some]
  rfl

/-- **C05 refuted, `check`.** When nothing failed, `error_monitor::check()` gives an id that converts to true. -/
theorem C05_refuted_check (cfg : Cfg) (w : World PtrStore) (hw : ThreadOk w) :
    ∃ id, (checkId cfg w.cur false w).map (fun r => makeErrorId r.1) = some id ∧ id.truthy = true := by
  refine ⟨1#32, ?_, by decide⟩
  unfold checkId
  rw [bind_apply, currentId_eq hw, Option.bind_some]
  simp [pure_apply]
  decide

/-- **C05 refuted, `result`.** `result(error_id()).error()` is an id that converts to true. -/
theorem C05_refuted_result : (ErrRes.plain 0#32).errId.truthy = true := by decide

/-- **C05 (partial).** What holds instead: the id internally kept for "no error" is zero, and the id 1 that the API gives in its place is not the id
of any error, of the first 2^30 - 1 errors of the process. *Missing*: it should convert to false. -/
theorem C05_partial (n : Nat) (hn : n < 2 ^ 30) : makeErrorId 0#32 = 1#32 ∧ 1#32 ∉ genIds n counterInit := by
  refine ⟨by decide, ?_⟩
  intro hm
  obtain ⟨k, hk, he⟩ := List.getElem_of_mem hm
  rw [genIds_getElem] at he
  rw [genIds_length] at hk
  have := congrArg BitVec.toNat he
  simp [counterInit, BitVec.toNat_add, BitVec.toNat_ofNat] at this
  omega

example : (5 : Nat) < 2 ^ 30 ∧ genIds 3 counterInit = [5#32, 9#32, 13#32] := by decide

/-! ## C04 -/

/-- **C04, round trip.** Converting a valid `error_id` to `std::error_code` and back gives the same id and changes nothing. -/
theorem C04_round_trip (cfg : Cfg) (id : Id) (hid : id.Tagged) (v : Val) (w : World PtrStore) :
    isErrorId (toErrorCode id) = true ∧ importCode cfg (toErrorCode id) v w = some (id, w) := by
  refine ⟨rfl, ?_⟩
  unfold importCode importErrorCode toErrorCode
  simp only [ne_eq, tagged_ne_zero hid, not_false_eq_true, if_true, hid]
  show some (makeErrorId id, w) = _
  rw [makeErrorId_of_tagged hid]

/-- **C04, zero.** An error code with value zero, of any category, imports as the empty id, and nothing changes. -/
theorem C04_zero (cfg : Cfg) (ec : ErrorCode) (h : ec.value = 0#32) (v : Val) (w : World PtrStore) : importCode cfg ec v w = some (0#32, w) := by
  unfold importCode importErrorCode
  simp [h, pure_apply]

/-- **C04, made-up codes.** A non-zero code of LEAF's own category whose value is not an id fails an assertion; no `error_id` converts to one. -/
theorem C04_not_an_id (cfg : Cfg) (ec : ErrorCode) (h0 : ec.value ≠ 0#32) (h : ec.cat = leafCat) (ht : ¬ Id.Tagged ec.value) (v : Val)
    (w : World PtrStore) : importCode cfg ec v w = none := by
  unfold importCode importErrorCode
  simp [h0, h, ht, ub]

example : (⟨6#32, leafCat⟩ : ErrorCode).value ≠ 0#32 ∧ ¬ Id.Tagged (⟨6#32, leafCat⟩ : ErrorCode).value := by decide

/-- **C04: a foreign code is an error like any other.** Making an `error_id` from a non-zero code of another category does exactly what `new_error`
called with the code does. -/
theorem C04_like_new_error {M : Type} [Store M] (cfg : Cfg) {ec : ErrorCode} (h : ec.value ≠ 0#32) (hc : ec.cat ≠ leafCat) (v : Val) (w : World M)
    (hw : Id.Tagged w.counter) : importCode cfg ec v w = newError cfg [.obj tyErrorCode v] w := by
  obtain ⟨id, w1, h1, ht⟩ : ∃ id w1, newId cfg w = some (id, w1) ∧ id.Tagged := ⟨_, _, rfl, add4_tagged (add4k_tagged hw _)⟩
  unfold importCode importErrorCode newError
  simp only [ne_eq, h, not_false_eq_true, if_true, hc, if_false]
  rw [bind_apply, bind_apply, h1, Option.bind_some, Option.bind_some]
  simp only [errorIdLoad, makeErrorId_of_tagged ht, ne_eq, tagged_ne_zero ht, not_false_eq_true, if_true, loadItems, loadItem]
  rw [bind_apply, bind_apply, bind_apply, bind_apply]
  cases emit (.offered id tyErrorCode v) w1 with
  | none => rfl
  | some x =>
    rw [Option.bind_some, Option.bind_some, bind_apply]
    cases loadSlot cfg false id tyErrorCode v x.2 <;> rfl

/-- **C04, foreign codes.** Importing a non-zero code of another category generates exactly one id, the one returned, and delivers the code, as an
object of type `std::error_code`, under this id to the enclosing scopes; nothing else changes. -/
theorem C04_foreign (cfg : Cfg) (ec : ErrorCode) (h : ec.value ≠ 0#32) (hc : ec.cat ≠ leafCat) (v : Val) (w : World PtrStore) (hw : ThreadOk w) :
    ∃ w', importCode cfg ec v w = some (nextId cfg w, w') ∧ ThreadOk w' ∧ generated w' = nextId cfg w :: generated w ∧
      Delivered cfg (nextId cfg w) tyErrorCode (fun _ => some (nextId cfg w, v)) (scopes w) (scopes w') ∧ w'.cur = nextId cfg w ∧
      calls w' = calls w ∧ w'.handling = w.handling := by
  obtain ⟨w1, h1, h2, h3⟩ := newId_ptr (cfg := cfg) hw
  have ht : (nextId cfg w).Tagged := nextId_tagged (w := absW w) hw.good
  have hl := loadItems_eq cfg false ht [.obj tyErrorCode v] (absW w1) h2.good.4 (by simp [Item.isAccum])
  obtain ⟨w2, g1, g2, g3⟩ := run_abs (sim_loadItems cfg false (nextId cfg w) [.obj tyErrorCode v]) h2 hl
    (put_good h2.good (putItems_good (tagged_ne_zero ht) h2.good.4))
  have htr : w2.trace = .offered (nextId cfg w) tyErrorCode v :: w1.trace := by
    show (absW w2).trace = _; rw [g2]; rfl
  have hso := sameOtherwise_put g2
  refine ⟨w2, ?_, g3, ?_, ?_, ?_, ?_, ?_⟩
  · unfold importCode importErrorCode
    simp only [ne_eq, h, not_false_eq_true, if_true, hc, if_false]
    rw [bind_apply, h1, Option.bind_some]
    have hl1 : loadItems cfg false (nextId cfg w) [.obj tyErrorCode v] = (emit (.offered (nextId cfg w) tyErrorCode v) >>= fun _ =>
        loadSlot cfg false (nextId cfg w) tyErrorCode v : Comp PtrStore Unit) >>= fun _ => pure () := rfl
    rw [hl1, bind_apply, bind_apply] at g1
    rw [bind_apply]
    cases he : emit (.offered (nextId cfg w) tyErrorCode v) w1 with
    | none => simp [he] at g1
    | some x =>
      simp only [he, Option.bind_some] at g1 ⊢
      rw [bind_apply]
      cases hx : loadSlot cfg false (nextId cfg w) tyErrorCode v x.2 with
      | none => simp [hx] at g1
      | some y =>
        simp only [hx, Option.bind_some, pure_apply, Option.some.injEq, Prod.mk.injEq, true_and] at g1 ⊢
        exact ⟨makeErrorId_of_tagged ht, g1⟩
  · rw [← h3.2.2.1]; unfold generated; rw [htr]; rfl
  · have : scopes w2 = putItem cfg false (nextId cfg w) (.obj tyErrorCode v) (scopes w1) := by unfold scopes; rw [g2]; rfl
    rw [this, h3.2.2.2.1]
    have := putItem_delivered cfg false (nextId cfg w) (.obj tyErrorCode v) (scopes w)
    have e : Item.new cfg false (nextId cfg w) (.obj tyErrorCode v) = fun _ => some (nextId cfg w, v) := by
      funext c; simp [Item.new]
    rw [e] at this
    exact this
  · rw [hso.1]; exact h3.1
  · rw [← h3.2.2.2.2.1]; unfold calls; rw [htr]; rfl
  · rw [hso.2.2]; exact h3.2.2.2.2.2

/-- A foreign error code (value 42, category 1) imported inside a scope that handles `std::error_code`. -/
example : runInScope exCfg [.obj tyErrorCode] (.importCode ⟨42#32, 1⟩ 7 fun id => .ret (.err (.plain id))) =
    some (.err (.plain 5#32), [[.obj tyErrorCode (some (5#32, 7))]]) := by
  decide +kernel

/-- **C04, `is_error_id`.** It tells the codes made from ids (the empty one included) from those of other categories; for the other codes of LEAF's own category, which no id converts to, it fails an assertion, as
importing them does. -/
theorem C04_is_error_id (ec : ErrorCode) :
    (isErrorIdAsserted ec = some true ↔ ∃ id : Id, (id = 0#32 ∨ id.Tagged) ∧ ec = toErrorCode id) ∧ (isErrorIdAsserted ec = some false ↔ ec.cat ≠ leafCat) ∧
    (isErrorIdAsserted ec = none ↔ ∀ (cfg : Cfg) (v : Val) (w : World PtrStore), importCode cfg ec v w = none) := by
  obtain ⟨x, c⟩ := ec
  by_cases hc : c = leafCat
  · subst hc
    by_cases h0 : x = 0#32
    · subst h0
      refine ⟨by simp [isErrorIdAsserted, isErrorId, toErrorCode], by simp [isErrorIdAsserted, isErrorId], ?_⟩
      simp only [isErrorIdAsserted, isErrorId, beq_self_eq_true, Bool.not_true, Bool.false_or, Bool.true_or, if_true, reduceCtorEq, false_iff]
      intro h
      have hk := h exCfg 0 (initThread 1#32)
      rw [C04_zero _ _ rfl] at hk
      cases hk
    · by_cases ht : Id.Tagged x
      · have ht' : x &&& 3#32 = 1#32 := ht
        refine ⟨by simp [isErrorIdAsserted, isErrorId, toErrorCode, ht', ht], by simp [isErrorIdAsserted, isErrorId, ht'], ?_⟩
        simp only [isErrorIdAsserted, isErrorId, ht', beq_self_eq_true, Bool.or_true, if_true, reduceCtorEq, false_iff]
        intro h
        have hk := h exCfg 0 (initThread 1#32)
        have e := (C04_round_trip exCfg x ht 0 (initThread 1#32)).2
        rw [show toErrorCode x = (⟨x, leafCat⟩ : ErrorCode) from rfl, hk] at e
        cases e
      · have ht' : ¬ x &&& 3#32 = 1#32 := ht
        refine ⟨by simp [isErrorIdAsserted, isErrorId, toErrorCode, h0, ht', ht], by simp [isErrorIdAsserted, isErrorId, h0, ht'], ?_⟩
        simp only [isErrorIdAsserted, isErrorId, h0, ht', beq_self_eq_true, Bool.not_true, Bool.false_or, beq_iff_eq, Bool.or_eq_true, or_self, if_false, true_iff]
        exact fun cfg v w => C04_not_an_id cfg _ h0 rfl ht v w
  · refine ⟨by simp [isErrorIdAsserted, isErrorId, toErrorCode, hc], by simp [isErrorIdAsserted, isErrorId, hc], ?_⟩
    have e : (isErrorIdAsserted ⟨x, c⟩ = none) = False := by simp [isErrorIdAsserted, isErrorId, hc]
    rw [e, false_iff]
    intro h
    have hk := h exCfg 0 (initThread 1#32)
    by_cases h0 : x = 0#32
    · rw [C04_zero _ _ h0] at hk
      simp at hk
    · obtain ⟨w, e1, _⟩ := C04_foreign exCfg ⟨x, c⟩ h0 hc 0 (initThread 1#32) (threadOk_init (c := 1#32) (by decide))
      rw [hk] at e1
      simp at e1

/-- All three cases occur. -/
example : isErrorIdAsserted ⟨5#32, leafCat⟩ = some true ∧ isErrorIdAsserted ⟨5#32, 1⟩ = some false ∧ isErrorIdAsserted ⟨6#32, leafCat⟩ = none := by decide

end Leaf
