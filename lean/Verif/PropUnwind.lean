import Verif.UnwindFlow
import Verif.PropTravel
import Verif.PropGuards

/-!
# C64: LEAF in destructors, and builds without `std::uncaught_exceptions`

A destructor may run because an exception is on its way to a handler. What LEAF does there must not disturb the error being reported.
-/

namespace Leaf

variable {cfg : Cfg} {old : Bool} {n : Nat} {da : Bool} {w w1 : World PtrStore}

/-! ## No undefined behaviour -/

/-- **C64.** Programs with destructors, in both builds, with any number of exceptions in flight: no undefined behaviour, and every scope entered is left. -/
theorem C64_safe {p : UProg} (hp : p.WF cfg da) (hw : ThreadOk w) (hda : da = false → NoCapturingScope w) :
    ∃ o w', evalU cfg old n p w = some (o, w') ∧ ThreadOk w' ∧ shape (scopes w') = shape (scopes w) ∧ o.Ok := by
  obtain ⟨o, w', h1, _, h2, h3, h4⟩ := evalU_ptr (old := old) (n := n) hp hw (fun h => noDa_of (hda h))
  exact ⟨o, w', h1, h2, h3, h4⟩

/-! ## Which errors the guards see -/

/-- **C64, C++17.** With `std::uncaught_exceptions`, code run by a destructor during unwinding (`n` exceptions in flight) does what it does elsewhere. -/
theorem C64_new_build (p : Prog) (n : Nat) : (evalU cfg false n (p.plain n) : Comp PtrStore Out) = eval cfg p := evalU_plain cfg (Or.inl rfl) p

/-- **C64, C++11.** Without, code that is not run by a destructor during unwinding does what it does in C++17. -/
theorem C64_old_build (p : Prog) : (evalU cfg true 0 (p.plain 0) : Comp PtrStore Out) = eval cfg p := evalU_plain cfg (Or.inr rfl) p

/-- **C64: the two builds do the same, if destructors use neither `on_error` nor `error_monitor::check`.** -/
theorem C64_builds_partial (p : UProg) (hp : p.PlainDestructors) : (evalU cfg true 0 p : Comp PtrStore Out) = evalU cfg false 0 p :=
  evalU_plainDestructors cfg p hp

theorem guardU_ptr {items : List OnItem} {body : UProg} {o : Out} (hp : (UProg.onError items body).WF cfg da) (hw : ThreadOk w) (hda : da = false → NoCapturingScope w)
    (hb : evalU cfg old n body w = some (o, w1)) {id : Id} {w2 : World PtrStore} (hid : id.Tagged) (hw2 : ThreadOk w2)
    (hs : scopes w2 = scopes w1) (hc : checkId cfg w.cur (inFlight old (o.flying n) n) w1 = some (id, w2)) :
    ∃ w', evalU cfg old n (.onError items body) w = some (o, w') ∧ ThreadOk w' ∧ Attaches cfg id items w2 w' := by
  obtain ⟨_, _, k1, _, k3, _⟩ := C64_safe (old := old) (n := n) hp.2 hw hda
  rw [hb] at k1
  simp only [Option.some.injEq, Prod.mk.injEq] at k1
  obtain ⟨rfl, rfl⟩ := k1
  obtain ⟨w', h1, h2, h3⟩ := trigger_ptr hp.1 hw2 (fun h => by rw [hs, k3]; exact noDa_of (hda h)) hid
  refine ⟨w', ?_, h2, h3⟩
  simp only [evalU, onErrorU]
  rw [bind_apply, currentId_eq hw, Option.bind_some, bind_apply, hb, Option.bind_some, bind_apply, hc, Option.bind_some]
  dsimp only
  rw [if_pos (tagged_ne_zero hid), bind_apply]
  simp only [assertTagged, if_pos hid, Option.bind_some]
  rw [bind_apply, h1]
  rfl

/-- **C64: a guard attaches its objects to the last error reported in its scope,** in both builds, in destructors or not. -/
theorem C64_guard {items : List OnItem} {body : UProg} {o : Out} (hp : (UProg.onError items body).WF cfg da) (hw : ThreadOk w)
    (hda : da = false → NoCapturingScope w) (hb : evalU cfg old n body w = some (o, w1)) (hc : w1.cur ≠ w.cur) (h0 : w1.cur ≠ 0#32) :
    ∃ w', evalU cfg old n (.onError items body) w = some (o, w') ∧ Attaches cfg w1.cur items w1 w' := by
  obtain ⟨_, _, k1, k2, _⟩ := C64_safe (old := old) (n := n) hp.2 hw hda
  rw [hb] at k1
  simp only [Option.some.injEq, Prod.mk.injEq] at k1
  obtain ⟨rfl, rfl⟩ := k1
  have ht : Id.Tagged w1.cur := by
    have : w1.cur = 0#32 ∨ Id.Tagged w1.cur := k2.good.1
    exact this.resolve_left h0
  obtain ⟨w', g1, _, g2⟩ := guardU_ptr hp hw hda hb ht k2 rfl (by
    unfold checkId
    rw [bind_apply, currentId_eq k2, Option.bind_some]
    simp only [if_pos hc, pure_apply])
  exact ⟨w', g1, g2⟩

/-- **C64, C++17: a guard in a destructor does nothing if the code it guards succeeds and reports no error,** no matter how many exceptions are in flight. -/
theorem C64_new_guard {items : List OnItem} {body : UProg} {o : Out} (hw : ThreadOk w) (hb : evalU cfg false n body w = some (o, w1)) (ho : ∀ e, o ≠ .exc e)
    (hc : w1.cur = w.cur) : evalU cfg false n (.onError items body) w = some (o, w1) := by
  have h0 : inFlight false (o.flying n) n = false := by
    cases o with
    | exc e => exact absurd rfl (ho e)
    | val v => simp [inFlight, Out.flying]
    | err r => simp [inFlight, Out.flying]
  have h1 : w.cur = 0#32 ∨ Id.Tagged w.cur := hw.good.1
  have h3 : (currentId : Comp PtrStore Id) w1 = some (w.cur, w1) := by unfold currentId; rw [hc, if_pos h1]
  have h4 : (checkId cfg w.cur false : Comp PtrStore Id) w1 = some (0#32, w1) := by
    unfold checkId
    rw [bind_apply, h3, Option.bind_some]
    simp [pure_apply]
  simp only [evalU, onErrorU]
  rw [bind_apply, currentId_eq hw, Option.bind_some]
  dsimp only
  rw [bind_apply, hb, Option.bind_some]
  dsimp only
  rw [h0, bind_apply, h4, Option.bind_some]
  rfl

/-- **C64, C++11: why the builds are not the same in general.** Without `std::uncaught_exceptions`, a guard in a destructor that runs during unwinding takes the
exception in flight for a failure of the code it guards: if that code reports no error, even if it succeeds, the guard generates a new id and attaches its objects to it. -/
theorem C64_old_guard {items : List OnItem} {body : UProg} {o : Out} (hp : (UProg.onError items body).WF cfg da) (hw : ThreadOk w)
    (hda : da = false → NoCapturingScope w) (hn : 0 < n) (hb : evalU cfg true n body w = some (o, w1)) (hc : w1.cur = w.cur) :
    ∃ w2 w', Generates cfg w1 w2 ∧ evalU cfg true n (.onError items body) w = some (o, w') ∧ Attaches cfg (nextId cfg w1) items w2 w' := by
  obtain ⟨_, _, k1, k2, _⟩ := C64_safe (old := true) (n := n) hp.2 hw hda
  rw [hb] at k1
  simp only [Option.some.injEq, Prod.mk.injEq] at k1
  obtain ⟨rfl, rfl⟩ := k1
  have h0 : inFlight true (o.flying n) n = true := by cases o <;> simp [inFlight, Out.flying, hn]
  obtain ⟨w2, e1, e2, e3⟩ := newId_ptr (cfg := cfg) k2
  obtain ⟨w', g1, _, g2⟩ := guardU_ptr hp hw hda hb (id := nextId cfg w1) (nextId_tagged (w := absW w1) k2.good) e2 e3.2.2.2.1 (by
    unfold checkId
    rw [bind_apply, currentId_eq k2, Option.bind_some, h0, hc]
    simpa using e1)
  exact ⟨w2, w', e3, g1, g2⟩

theorem checkId_same {b : Bool} (h1 : ThreadOk w1) (hc : w1.cur = w.cur) :
    checkId cfg w.cur b w1 = if b then newId cfg w1 else some (0#32, w1) := by
  unfold checkId
  rw [bind_apply, currentId_eq h1, Option.bind_some, hc]
  cases b <;> simp [pure_apply]

/-- **C64, C++17: a monitor used in a destructor.** If the code it watches reports no error and does not throw, `check()` finds no error, no matter how many exceptions are
in flight (it returns `make_error_id(0)`, see F1). -/
theorem C64_new_monitor {body : UProg} {k : Id → UProg} {ke : ErrRes → UProg} {v : Val} (hw : ThreadOk w) (hw1 : ThreadOk w1)
    (hb : evalU cfg false n body w = some (.val v, w1)) (hc : w1.cur = w.cur) :
    evalU cfg false n (.monNew fun m => .bind body (fun _ => .monCheck m k) ke) w = evalU cfg false n (k (makeErrorId 0#32)) w1 := by
  simp only [evalU]
  rw [bind_apply, currentId_eq hw, Option.bind_some]
  dsimp only
  rw [bind_apply, hb, Option.bind_some]
  dsimp only
  rw [bind_apply, checkId_same hw1 hc]
  simp [inFlight]

/-- **C64, C++11: it takes the exception in flight for an error,** and generates an id for it. -/
theorem C64_old_monitor {body : UProg} {k : Id → UProg} {ke : ErrRes → UProg} {v : Val} (hw : ThreadOk w) (hw1 : ThreadOk w1) (hn : 0 < n)
    (hb : evalU cfg true n body w = some (.val v, w1)) (hc : w1.cur = w.cur) :
    ∃ w2, Generates cfg w1 w2 ∧
      evalU cfg true n (.monNew fun m => .bind body (fun _ => .monCheck m k) ke) w = evalU cfg true n (k (nextId cfg w1)) w2 := by
  obtain ⟨w2, e1, e2, e3⟩ := newId_ptr (cfg := cfg) hw1
  refine ⟨w2, e3, ?_⟩
  simp only [evalU]
  rw [bind_apply, currentId_eq hw, Option.bind_some]
  dsimp only
  rw [bind_apply, hb, Option.bind_some]
  dsimp only
  rw [bind_apply, checkId_same hw1 hc]
  simp only [inFlight, if_true, decide_eq_true hn, e1, Option.bind_some]
  have ht : Id.Tagged (nextId cfg w1) := nextId_tagged (w := absW w1) hw1.good
  rw [makeErrorId_of_tagged ht]

/-- **C64, both builds: a monitor checked in a destructor, constructed before the exception was thrown,** sees that the code failed: `check()` returns an id, a new one if the
exception is not one of LEAF. -/
theorem C64_monitor_unwinding {p : UProg} {k : Id → UProg} {e : Exc} (hw : ThreadOk w) (hw1 : ThreadOk w1) (hb : evalU cfg old n p w = some (.exc e, w1)) :
    (w1.cur ≠ w.cur → w1.cur ≠ 0#32 →
      evalU cfg old n (.monNew fun m => .cleanup p (.monCheck m k)) w =
        (cppCatch_ (evalU cfg old (n + 1) (k w1.cur)) (fun _ => pure (.val 0)) w1).map fun r => (.exc e, r.2)) ∧
    (w1.cur = w.cur → ∃ w2, Generates cfg w1 w2 ∧
      evalU cfg old n (.monNew fun m => .cleanup p (.monCheck m k)) w =
        (cppCatch_ (evalU cfg old (n + 1) (k (nextId cfg w1))) (fun _ => pure (.val 0)) w2).map fun r => (.exc e, r.2)) := by
  have hm : ∀ {α β : Type} (x : Comp PtrStore α) (f : α → β) (v : World PtrStore), (x >>= fun a => pure (f a)) v = (x v).map fun r => (f r.1, r.2) := by
    intro α β x f v
    rw [bind_apply]
    cases x v <;> rfl
  have h0 : inFlight old (n + 1) n = true := by cases old <;> simp [inFlight]
  constructor
  · intro hc hz
    have ht : Id.Tagged w1.cur := by
      have : w1.cur = 0#32 ∨ Id.Tagged w1.cur := hw1.good.1
      exact this.resolve_left hz
    have hk : checkId cfg w.cur true w1 = some (w1.cur, w1) := by
      unfold checkId
      rw [bind_apply, currentId_eq hw1, Option.bind_some]
      simp only [if_pos hc, pure_apply]
    simp only [evalU]
    rw [bind_apply, currentId_eq hw, Option.bind_some]
    dsimp only
    rw [bind_apply, hb, Option.bind_some]
    simp only [Out.flying, h0]
    rw [hm _ (fun _ => Out.exc e)]
    congr 1
    unfold cppCatch_
    rw [bind_apply, bind_apply, bind_apply, hk, Option.bind_some]
    simp only [makeErrorId_of_tagged ht]
  · intro hc
    obtain ⟨w2, e1, e2, e3⟩ := newId_ptr (cfg := cfg) hw1
    refine ⟨w2, e3, ?_⟩
    simp only [evalU]
    rw [bind_apply, currentId_eq hw, Option.bind_some]
    dsimp only
    rw [bind_apply, hb, Option.bind_some]
    simp only [Out.flying, h0]
    rw [hm _ (fun _ => Out.exc e)]
    congr 1
    unfold cppCatch_
    rw [bind_apply, bind_apply, bind_apply, checkId_same hw1 hc, if_pos rfl, e1, Option.bind_some]
    have ht : Id.Tagged (nextId cfg w1) := nextId_tagged (w := absW w1) hw1.good
    simp only [makeErrorId_of_tagged ht]

/-! ## Destructors that keep their errors to themselves -/

/-- **C64: objects on their way to a handler are not affected by a destructor that keeps its errors to itself,** in both builds: the outcome is the one without the
destructor, and so is the content of all scopes. -/
theorem C64_keeps_partial {p q : UProg} (hp : (UProg.cleanup p q).WF cfg da) (hq : q.Contained cfg []) (hw : ThreadOk w) (hda : da = false → NoCapturingScope w) :
    ∃ o w1 w2, evalU cfg old n p w = some (o, w1) ∧ evalU cfg old n (.cleanup p q) w = some (o, w2) ∧ scopes w2 = scopes w1 := by
  obtain ⟨o, w1, w2, h1, h2, h3, _⟩ := cleanup_keeps (old := old) (n := n) hp hq hw (fun h => noDa_of (hda h))
  exact ⟨o, w1, w2, h1, h2, h3⟩

/-- **C64: C15 for programs with destructors.** -/
theorem C64_handle_all {specs : List (List Arg)} {block : UProg} {body : Nat → List ArgVal → UProg} {s : Scope} {ss : List Scope}
    (hp : (UProg.handleAll specs block body).WF cfg da) (hw : ThreadOk w) (hda : da = false → NoCapturingScope w) {o1 : Out}
    (h : attempt cfg (deduce cfg specs) (evalU cfg old n block) w = some (o1, w1)) (hs : scopes w1 = s :: ss)
    {id : Id} {ex : Option Exc} {hnd : List Exc} (hf : failure o1 w1 = some (id, ex, hnd)) :
    ∃ i hd vals wh o wr w', FirstSuitable s id ex specs i ∧ specs[i]? = some hd ∧ ReceivesAll s id ex hd vals ∧
      HandlerStarts w1 ss id ex hnd i vals wh ∧
      evalU cfg old n (body i vals) wh = some (o, wr) ∧ evalU cfg old n (.handleAll specs block body) w = some (o, w') ∧
      w'.trace = wr.trace ∧ scopes w' = scopes wr ∧ w'.ticks = wr.ticks := by
  obtain ⟨i, hd, vals, wh, o, wr, w', h1, h2, h3, _, h4⟩ := handleAll_ptrU hp hw hda h hs hf
  exact ⟨i, hd, vals, wh, o, wr, w', h1, h2, h3, h4⟩

/-- The failure carries its own id: a failed result, or an exception thrown by LEAF, or by `throw_exception` (not one that gets the id of the last error of the thread). -/
def Out.Carries (id : Id) : Out → Prop
  | .val _ => False
  | .err r => r.errId = id
  | .exc e => ∀ c, e.seenId c = id

/-- The exception the handlers may look at. -/
def Out.visibleExc : Out → Option Exc
  | .exc e => shown e.examined
  | _ => none

/-- **C64: the error is handled as if there was no destructor.** If the block fails, the same handler is called, with the same arguments, with and without a destructor
that keeps its errors to itself; and when it is called, the enclosing scopes are the same. -/
theorem C64_same_handler_partial {specs : List (List Arg)} {p q : UProg} {body : Nat → List ArgVal → UProg}
    (hp : (UProg.handleAll specs (.cleanup p q) body).WF cfg da) (hq : q.Contained cfg []) (hw : ThreadOk w) (hda : da = false → NoCapturingScope w) {o1 : Out}
    (h : attemptRaw (deduce cfg specs) (evalU cfg old n p) w = some (o1, w1)) (hu : o1.Uncaptured) {id : Id} (hid : o1.Carries id) :
    ∃ w2, attemptRaw (deduce cfg specs) (evalU cfg old n (.cleanup p q)) w = some (o1, w2) ∧
      ∃ i vals wh wh' o o' wr wr' w' w'',
        (wh.trace = .handled id o1.visibleExc i vals :: w1.trace ∧ evalU cfg old n (body i vals) wh = some (o, wr) ∧
          evalU cfg old n (.handleAll specs p body) w = some (o, w') ∧ w'.trace = wr.trace) ∧
        (wh'.trace = .handled id o1.visibleExc i vals :: w2.trace ∧ evalU cfg old n (body i vals) wh' = some (o', wr') ∧
          evalU cfg old n (.handleAll specs (.cleanup p q) body) w = some (o', w'') ∧ w''.trace = wr'.trace) ∧
        scopes wh' = scopes wh := by
  have hp1 : (UProg.handleAll specs p body).WF cfg da := ⟨hp.1, hp.2.1.1, hp.2.2⟩
  obtain ⟨w0, _, _, s, ss, e1, e2, e3, _, e4, e5, e6, e7, e8, e9⟩ := attemptRawU_ptr (old := old) (n := n) (deduce_nodup cfg specs) hp1.2.1 hw
    (noDa_push fun h => noDa_of (hda h))
  rw [h] at e4
  simp only [Option.some.injEq, Prod.mk.injEq] at e4
  obtain ⟨rfl, rfl⟩ := e4
  obtain ⟨o, v1, w2, g1, g2, g3, g4, g5, g6⟩ := cleanup_keeps (old := old) (n := n) hp.2.1 hq e2 (by rw [e3]; exact noDa_push fun h => noDa_of (hda h))
  have hr : ∀ x : Comp PtrStore Out, attemptRaw (deduce cfg specs) x w = x w0 := by
    intro x
    unfold attemptRaw; rw [bind_apply, e1, Option.bind_some]
  rw [hr, g1] at h
  simp only [Option.some.injEq, Prod.mk.injEq] at h
  obtain ⟨rfl, rfl⟩ := h
  have hu1 : ∀ v : World PtrStore, unloadOut cfg o v = some (o, v) := by
    intro v
    cases o with
    | val x => rfl
    | exc x => rfl
    | err r =>
      cases r with
      | plain id => rfl
      | captured id ns => exact (hu _ rfl).elim
  have a1 : attempt cfg (deduce cfg specs) (evalU cfg old n p) w = some (o, v1) := by rw [attempt_of_raw (by rw [hr]; exact g1)]; exact hu1 v1
  have a2 : attempt cfg (deduce cfg specs) (evalU cfg old n (.cleanup p q)) w = some (o, w2) := by rw [attempt_of_raw (by rw [hr]; exact g2)]; exact hu1 w2
  have hf : ∀ v : World PtrStore, ∃ hnd, failure o v = some (id, o.visibleExc, hnd) := by
    intro v
    cases o with
    | val x => exact hid.elim
    | err r => exact ⟨_, by simp only [failure, Out.visibleExc]; rw [show r.errId = id from hid]⟩
    | exc e => exact ⟨_, by simp only [failure, Out.visibleExc]; rw [hid v.cur]⟩
  obtain ⟨_, f1⟩ := hf v1
  obtain ⟨_, f2⟩ := hf w2
  obtain ⟨i, hd, vals, wh, o2, wr, w', k1, k2, k3, k4, k5, k6, k7, k8, _⟩ := handleAll_ptrU hp1 hw hda a1 e7 f1
  obtain ⟨i', hd', vals', wh', o2', wr', w'', l1, l2, l3, l4, l5, l6, l7, l8, _⟩ := handleAll_ptrU hp hw hda a2 (g3.trans e7) f2
  have hi : i' = i := by
    rcases Nat.lt_trichotomy i' i with hlt | heq | hlt
    · obtain ⟨⟨x, x1, x2⟩, _⟩ := l1; exact absurd x2 (k1.2 i' hlt x x1)
    · exact heq
    · obtain ⟨⟨x, x1, x2⟩, _⟩ := k1; exact absurd x2 (l1.2 i hlt x x1)
  subst hi
  rw [k2] at l2
  simp only [Option.some.injEq] at l2
  subst l2
  rw [k4] at l4
  simp only [Option.some.injEq] at l4
  subst l4
  exact ⟨w2, by rw [hr]; exact g2, i', vals, wh, wh', o2, o2', wr, wr', w', w'', ⟨k5.trace, k6, k7, k8⟩, ⟨l5.trace, l6, l7, l8⟩, by rw [k5.scopes, l5.scopes]⟩

/-! ## Examples -/

/-- Run in a new thread; the result, and the handlers called. -/
def runFreshU (cfg : Cfg) (old : Bool) (p : UProg) : Option (Out × List Event) :=
  ((evalU cfg old 0 p : Comp PtrStore Out) (initThread 1#32)).map fun r => (r.1, r.2.trace.filter fun | .handled _ _ _ _ => true | _ => false)

/-- Reports an error with an object of type 10, by an exception. -/
def exThrowU : UProg := .newError [.obj 10 1] fun id => .ret (.exc ⟨0, true, .base id, [], true⟩)

/-- A destructor that reports an error and handles it, with a guard; one without guard. -/
def exDestructor : UProg :=
  .handleAll [[.req 11], [.req 10], []] (.onError [.item (.obj 11 8)] (.newError [.obj 10 7] fun id => .ret (.err (.plain id)))) fun _ _ => .ret (.val 0)
def exDestructor' : UProg := .handleAll [[.req 10], []] (.newError [.obj 10 7] fun id => .ret (.err (.plain id))) fun _ _ => .ret (.val 0)

/-- Code with a destructor `q`, and a handler for the error it reports. -/
def exUnwinding (q : UProg) : UProg := .handleAll [[.req 10], []] (.cleanup exThrowU q) fun i _ => .ret (.val i)

theorem exThrowU_wf : exThrowU.WF exCfg false := ⟨by simp [Item.Ok], fun id hid => hid⟩

theorem exDestructor_wf : exDestructor.WF exCfg false :=
  ⟨⟨[[.req 11], [.req 10]], [], rfl, rfl⟩, ⟨by simp [OnItem.Ok, Item.Ok], by simp [Item.Ok], fun _ _ => by simp [UProg.WF, Out.Ok, ErrRes.Ok]⟩, fun _ _ _ => ⟨trivial, by simp [UProg.NoErr]⟩⟩

theorem exUnwinding_wf {q : UProg} (hq : q.WF exCfg false) : (exUnwinding q).WF exCfg false :=
  ⟨⟨[[.req 10]], [], rfl, rfl⟩, ⟨exThrowU_wf, hq⟩, fun _ _ _ => ⟨trivial, by simp [UProg.NoErr]⟩⟩

theorem exDestructor_contained : exDestructor.Contained exCfg [] := by
  refine ⟨⟨[[.req 11], [.req 10]], [], rfl, rfl⟩, ⟨?_, ?_, ?_⟩, ?_⟩
  · intro i hi
    simp only [List.mem_singleton, OnItem.item.injEq] at hi
    subst hi
    exact ⟨_, List.mem_singleton.mpr rfl, by decide⟩
  · intro i hi
    simp only [List.mem_singleton] at hi
    subst hi
    exact ⟨_, List.mem_singleton.mpr rfl, by decide⟩
  · intro id r hr; cases hr; trivial
  · intro i args r hr; cases hr

/-- The hypotheses of `C64_safe`, `C64_keeps_partial`, `C64_handle_all` and `C64_same_handler_partial` are met. -/
example (old : Bool) : ∃ o w1 w2, evalU exCfg old 0 exThrowU (initThread 1#32) = some (o, w1) ∧
    evalU exCfg old 0 (.cleanup exThrowU exDestructor) (initThread 1#32) = some (o, w2) ∧ scopes w2 = scopes w1 :=
  C64_keeps_partial (da := false) ⟨exThrowU_wf, exDestructor_wf⟩ exDestructor_contained (threadOk_init (by decide)) fun _ => (noCapturing_iff _).mpr nofun

example : runFreshU exCfg false (exUnwinding exDestructor) = some (.val 0,
    [.handled 5#32 (some ⟨0, true, .base 5#32, [], false⟩) 0 [.obj 10 1], .handled 9#32 none 0 [.obj 11 8]]) := by decide +kernel
example : runFreshU exCfg true (exUnwinding exDestructor) = runFreshU exCfg false (exUnwinding exDestructor) := by decide +kernel
example : runFreshU exCfg true (exUnwinding (.ret (.val 0))) = some (.val 0, [.handled 5#32 (some ⟨0, true, .base 5#32, [], false⟩) 0 [.obj 10 1]]) := by decide +kernel

example (old : Bool) : (exUnwinding exDestructor).WF exCfg false ∧ ∃ w1, attemptRaw (deduce exCfg [[.req 10], []]) (evalU exCfg old 0 exThrowU) (initThread 1#32) =
    some (.exc ⟨0, true, .base 5#32, [], true⟩, w1) ∧ Out.Uncaptured (.exc ⟨0, true, .base 5#32, [], true⟩) ∧ Out.Carries 5#32 (.exc ⟨0, true, .base 5#32, [], true⟩) :=
  ⟨exUnwinding_wf exDestructor_wf, by cases old <;> exact ⟨_, rfl, nofun, fun _ => rfl⟩⟩

/-- The hypotheses of `C64_old_guard`, `C64_new_guard` and `C64_guard` are met: a guard in a destructor, around code that succeeds, and around code that fails. -/
example : ∃ w2 w', Generates exCfg (initThread 1#32) w2 ∧ evalU exCfg true 1 (.onError [.item (.obj 10 7)] (.ret (.val 0))) (initThread 1#32) = some (.val 0, w') ∧
    Attaches exCfg 5#32 [.item (.obj 10 7)] w2 w' :=
  C64_old_guard (da := false) ⟨by simp [OnItem.Ok, Item.Ok], trivial⟩ (threadOk_init (by decide)) (fun _ => (noCapturing_iff _).mpr nofun) (by decide) rfl rfl

example : evalU exCfg false 1 (.onError [.item (.obj 10 7)] (.ret (.val 0))) (initThread 1#32) = some (.val 0, initThread 1#32) :=
  C64_new_guard (threadOk_init (by decide)) rfl nofun rfl

example : ∃ w1 w', evalU exCfg true 1 exThrowU (initThread 1#32) = some (.exc ⟨0, true, .base 5#32, [], true⟩, w1) ∧
    evalU exCfg true 1 (.onError [.item (.obj 11 7)] exThrowU) (initThread 1#32) = some (.exc ⟨0, true, .base 5#32, [], true⟩, w') ∧
    Attaches exCfg w1.cur [.item (.obj 11 7)] w1 w' := by
  have hp : (UProg.onError [.item (.obj 11 7)] exThrowU).WF exCfg false := ⟨by simp [OnItem.Ok, Item.Ok], exThrowU_wf⟩
  obtain ⟨w1, h1, h2⟩ : ∃ w1, evalU exCfg true 1 exThrowU (initThread 1#32) = some (.exc ⟨0, true, .base 5#32, [], true⟩, w1) ∧ w1.cur = 5#32 := ⟨_, rfl, rfl⟩
  obtain ⟨w', h3, h4⟩ := C64_guard hp (threadOk_init (by decide)) (fun _ => (noCapturing_iff _).mpr nofun) h1 (by rw [h2]; decide) (by rw [h2]; decide)
  exact ⟨w1, w', h1, h3, h4⟩

/-- The hypotheses of `C64_new_monitor`, `C64_old_monitor` and `C64_monitor_unwinding` are met. -/
example (k : Id → UProg) : evalU exCfg false 1 (.monNew fun m => .bind (.ret (.val 3)) (fun _ => .monCheck m k) fun _ => .ret (.val 0)) (initThread 1#32) =
    evalU exCfg false 1 (k 1#32) (initThread 1#32) :=
  C64_new_monitor (threadOk_init (by decide)) (threadOk_init (by decide)) rfl rfl

example (k : Id → UProg) : ∃ w2, Generates exCfg (initThread 1#32) w2 ∧
    evalU exCfg true 1 (.monNew fun m => .bind (.ret (.val 3)) (fun _ => .monCheck m k) fun _ => .ret (.val 0)) (initThread 1#32) = evalU exCfg true 1 (k 5#32) w2 :=
  C64_old_monitor (threadOk_init (by decide)) (threadOk_init (by decide)) (by decide) rfl rfl

/-- A destructor that attaches an object to whatever error leaves the scope of the object: an exception that is not one of LEAF. -/
def exMonitorU : UProg := .handleAll [[.req 10], []] (.monNew fun m => .cleanup (.ret (.exc ⟨0, true, .none, [], false⟩))
  (.monCheck m fun id => .load id [.obj 10 7] (.ret (.val 0)))) fun i _ => .ret (.val i)

example (old : Bool) : runFreshU exCfg old exMonitorU = some (.val 0, [.handled 5#32 (some ⟨0, true, .none, [], false⟩) 0 [.obj 10 7]]) := by
  cases old <;> decide +kernel

/-- The hypotheses of `C64_builds_partial` are met, with a destructor that runs during unwinding. -/
example : (exUnwinding exDestructor').PlainDestructors :=
  ⟨⟨fun _ => trivial, ⟨fun _ => trivial, fun _ _ => trivial⟩⟩, fun _ _ => trivial⟩

/-! ## What does not hold -/

/-- **C64 refuted, builds without `std::uncaught_exceptions`.** A destructor uses a guard for code that succeeds. If it runs during unwinding, the error being reported
loses its object, and another handler is called. -/
theorem C64_refuted_old_build :
    runFreshU exCfg true (exUnwinding (.onError [.item (.obj 10 7)] (.ret (.val 0)))) = some (.val 1, [.handled 5#32 (some ⟨0, true, .base 5#32, [], false⟩) 1 []]) ∧
    runFreshU exCfg false (exUnwinding (.onError [.item (.obj 10 7)] (.ret (.val 0)))) =
      some (.val 0, [.handled 5#32 (some ⟨0, true, .base 5#32, [], false⟩) 0 [.obj 10 1]]) := by
  decide +kernel

/-- **C64 refuted, both builds: objects lost.** The destructor handles all of its errors. But it has no slot for one of the objects it reports: the object replaces that
of the error being reported, so another handler is called. -/
theorem C64_refuted_lost (old : Bool) :
    runFreshU exCfg old (exUnwinding (.handleAll [[]] (.newError [.obj 10 7] fun id => .ret (.err (.plain id))) fun _ _ => .ret (.val 0))) =
      some (.val 1, [.handled 5#32 (some ⟨0, true, .base 5#32, [], false⟩) 1 [], .handled 9#32 none 0 []]) ∧
    runFreshU exCfg old (exUnwinding (.ret (.val 0))) = some (.val 0, [.handled 5#32 (some ⟨0, true, .base 5#32, [], false⟩) 0 [.obj 10 1]]) := by
  cases old <;> decide +kernel

/-- **C64 refuted, both builds: enclosing guards.** The destructor keeps its errors to itself. But it reports one: an enclosing guard then attaches its objects to that
error (handled already), not to the one that leaves its scope. -/
theorem C64_refuted_guard (old : Bool) :
    let run (q : UProg) := runFreshU exCfg old (.handleAll [[.req 10, .req 11], []] (.onError [.item (.obj 11 3)] (.cleanup exThrowU q)) fun i _ => .ret (.val i))
    run exDestructor = some (.val 1, [.handled 5#32 (some ⟨0, true, .base 5#32, [], false⟩) 1 [], .handled 9#32 none 0 [.obj 11 8]]) ∧
    run (.ret (.val 0)) = some (.val 0, [.handled 5#32 (some ⟨0, true, .base 5#32, [], false⟩) 0 [.obj 10 1, .obj 11 3]]) := by
  cases old <;> decide +kernel

end Leaf
