import Verif.PropGuards
import Verif.PropTravel
import Verif.DirectHandle

/-!
# C57: exceptions thrown by code that does not use the library

C22 is about errors reported by `new_error`. An exception thrown by code that knows nothing about the library carries no error id. It travels through
any number of layers of code that do not handle it, some of which attach objects (`on_error`). The theorem: the first enclosing scope with a suitable
handler calls the first suitable handler, with the exception and exactly the objects attached on the way.

The theorems are `_partial`: they require that no objects of the current error of the thread are stored in the active scopes. Otherwise the claim is false
(`C57_refuted_handled`): objects of an error which has been handled are given to the handler of an unrelated exception.
-/

namespace Leaf

/-! ## Specification -/

/-- The exception carries no error id: it is of a type not derived from `std::exception`, or not derived from `error_id`. -/
def Exc.Foreign (e : Exc) : Prop := e.isStd = false ∨ e.idSrc = .none

/-- Some layer is a guard. -/
def guarded : List Layer → Bool
  | [] => false
  | .guard _ :: _ => true
  | _ :: ls => guarded ls

/-- The layer is neither a scope nor a guard. -/
def Layer.isForward : Layer → Bool
  | .forward _ => true
  | _ => false

/-- The innermost layer that is a scope or a guard is a guard: the exception gets an error id of its own before it reaches any scope. -/
def shielded : List Layer → Bool
  | [] => false
  | .guard _ :: ls => shielded ls || ls.all Layer.isForward
  | _ :: ls => shielded ls

/-- The error id the handler sees: a guard on the way generates one; otherwise, the current error of the thread. -/
def foreignId (cfg : Cfg) (w : World PtrStore) (ls : List Layer) : Id := if guarded ls then nextId cfg w else makeErrorId w.cur

/-- The code that knows nothing about the library. -/
def foreign (e : Exc) : Prog := .ret (.exc e)

/-! ## Without guards -/

theorem Exc.Foreign.seen {e : Exc} (h : e.Foreign) (cur : Id) : e.seenId cur = makeErrorId cur := by
  unfold Exc.seenId
  rcases h with h | h
  · simp [h]
  · simp [h]

theorem Exc.Foreign.of_examined {e e' : Exc} (h : e.Foreign) (he : e'.examined = e.examined) (cur : Id) : e'.seenId cur = makeErrorId cur := by
  rw [seenId_examined e e' cur he, h.seen]

/-- The program throws the exception, and leaves the state as it was. -/
def Throws (cfg : Cfg) (da : Bool) (e : Exc) (p : Prog) (q : Bool := true) : Prop :=
  ∀ w : World PtrStore, ThreadOk w → (da = false → NoCapturingScope w) → (q = true → Quiet w) →
    ∃ e' w', eval cfg p w = some (.exc e', w') ∧ e'.examined = e.examined ∧ w'.cur = w.cur ∧ scopes w' = scopes w ∧ nextId cfg w' = nextId cfg w ∧
      w'.trace = w.trace

section
variable {cfg : Cfg} {specs : List (List Arg)} {block : Prog} {body : Nat → List ArgVal → Prog} {da : Bool} {w w1 : World PtrStore} {e : Exc}
  {s : Scope} {ss : List Scope} {i : Nat} {A : Ty → Option Val} {id : Id} {p : Prog}

theorem empty_cellTy (spec : List CellTy) : (spec.map CellTy.empty).map CtxCell.cellTy = spec := by
  induction spec with
  | nil => rfl
  | cons t spec ih => cases t <;> simp [CellTy.empty, CtxCell.cellTy, ih]

theorem throws_attempt (hb : block.WF cfg (da || capturing cfg specs)) (hr : Throws cfg (da || capturing cfg specs) e block)
    (hw : ThreadOk w) (hda : da = false → NoCapturingScope w) (hq : Quiet w) :
    ∃ e' w1, attemptRaw (deduce cfg specs) (eval cfg block) w = some (.exc e', w1) ∧ e'.examined = e.examined ∧ w1.cur = w.cur ∧
      attempt cfg (deduce cfg specs) (eval cfg block) w = some (.exc e', w1) ∧ scopes w1 = (deduce cfg specs).map CellTy.empty :: scopes w ∧
      ThreadOk w1 ∧ e'.Ok ∧ nextId cfg w1 = nextId cfg w ∧ w1.trace = w.trace := by
  obtain ⟨o, w1, s, ss, h1, _, h2, h3, h4, h5, h6⟩ := attemptRaw_ptr (deduce_nodup cfg specs) hb hw (noDa_push fun h => noDa_of (hda h))
  obtain ⟨w0, e1, _, e3, e4⟩ := push_ptr hw (deduce_nodup cfg specs)
  have hda0 : (da || capturing cfg specs) = false → NoCapturingScope w0 := by
    intro h
    rw [noCapturing_iff, e4]
    have : NoDa (deduce cfg specs :: shape (scopes w)) := noDa_push (fun h => noDa_of (hda h)) h
    simp only [shape, List.map_cons, empty_cellTy]
    exact this
  obtain ⟨e', w1', g1, g2, g3, g4, g5, g6⟩ := hr w0 e3 hda0 (fun _ => quiet_push hq e1 e4)
  have h1' := h1
  unfold attemptRaw at h1'
  rw [bind_apply, e1, Option.bind_some, g1] at h1'
  simp only [Option.some.injEq, Prod.mk.injEq] at h1'
  obtain ⟨rfl, rfl⟩ := h1'
  refine ⟨e', w1', h1, g2, by rw [g3, pushCtx_cur e1], ?_, by rw [g4, e4], h2, h3, ?_, by rw [g6, pushCtx_trace e1]⟩
  · rw [attempt_of_raw h1]
    rfl
  · rw [g5]
    unfold pushCtx at e1
    cases hp : Store.push (deduce cfg specs) w.mem with
    | none => simp [hp] at e1
    | some m =>
      simp only [hp, Option.map_some, Option.some.injEq, Prod.mk.injEq, true_and] at e1
      subst e1
      rfl

theorem unloadCur_pushed (id c : Id) (spec : List CellTy) : unloadCur id (spec.map CellTy.empty) c = c := by
  induction spec with
  | nil => rfl
  | cons t spec ih => cases t <;> simpa [CellTy.empty, unloadCur] using ih

theorem attached_none (hq : Quiet w) (spec : List CellTy) : Attached cfg (makeErrorId w.cur) (fun _ => none) (spec.map CellTy.empty :: scopes w) :=
  attached_fresh fun ty v h => hq ty v (stored_pushed.mp h)

/-- The exception leaves a scope without suitable handlers. -/
theorem throws_leave (hf : e.Foreign) (hq : Quiet w) {e' : Exc} (he : e'.examined = e.examined) (hok : e'.Ok) (hw1 : ThreadOk w1)
    (hc : w1.cur = w.cur) (hs : scopes w1 = (deduce cfg specs).map CellTy.empty :: scopes w)
    (hn : ∀ hd ∈ specs, ¬ SuitableOf cfg (fun _ => none) (visible (some e)) hd) :
    ∃ w', catchPath cfg specs (fun i args => eval cfg (body i args)) e' w1 = some ((.exc e'.examined, (deduce cfg specs).map CellTy.empty), w') ∧
      w'.cur = w.cur ∧ scopes w' = scopes w ∧ w'.trace = w1.trace ∧ nextId cfg w' = nextId cfg w1 := by
  have hk : e'.seenId w1.cur = makeErrorId w.cur := by rw [hf.of_examined he, hc]
  obtain ⟨w', e1, e2, e3, e4, e5, _⟩ := leave_catch (body := body) hw1 hs (empty_cellTy _) hok (fun hd hm => by
    rw [hk, suitable_of (empty_cellTy _) (scopes_cons_good hw1 hs) (attached_none hq _) hm, he]; exact hn hd hm)
  rw [hk] at e3
  refine ⟨w', e1, by rw [e2, unloadCur_pushed, hc], ?_, e4, e5⟩
  rw [e3, unloadFs_none (fun ty v => stored_empty)]

theorem throws_handle (hf : e.Foreign) (hp : (Prog.handleSome specs block body).WF cfg da) (hr : Throws cfg (da || capturing cfg specs) e block)
    (hn : ∀ hd ∈ specs, ¬ SuitableOf cfg (fun _ => none) (visible (some e)) hd) : Throws cfg da e (.handleSome specs block body) := by
  intro w hw hda hq
  obtain ⟨e', w1, h1, h2, h3, h4, h5, h6, h7, h8, h9⟩ := throws_attempt hp.1 hr hw hda (hq rfl)
  obtain ⟨w', e1, e2, e3, e4, e5⟩ := throws_leave (body := body) hf (hq rfl) h2 h7 h6 h3 h5 hn
  exact ⟨_, w', handleSome_exc h4 e1 rfl, by rw [examined_twice, h2], e2, e3, by rw [e5, h8], by rw [e4, h9]⟩

theorem throws_catch (hf : e.Foreign) (hp : (Prog.tryCatch specs block body).WF cfg da) (hr : Throws cfg (da || capturing cfg specs) e block)
    (hn : ∀ hd ∈ specs, ¬ SuitableOf cfg (fun _ => none) (visible (some e)) hd) : Throws cfg da e (.tryCatch specs block body) := by
  intro w hw hda hq
  obtain ⟨e', w1, h1, h2, h3, h4, h5, h6, h7, h8, h9⟩ := throws_attempt hp.1 hr hw hda (hq rfl)
  obtain ⟨w', e1, e2, e3, e4, e5⟩ := throws_leave (body := body) hf (hq rfl) h2 h7 h6 h3 h5 hn
  exact ⟨_, w', tryCatch_exc h1 e1, by rw [examined_twice, h2], e2, e3, by rw [e5, h8], by rw [e4, h9]⟩

theorem throws_forward {k : Val → Prog} {q : Bool} (hr : Throws cfg da e p q) :
    Throws cfg da e (.bind p k (fun r => .ret (.err r.forward))) q := by
  intro w hw hda hq
  obtain ⟨e', w1, h1, h⟩ := hr w hw hda hq
  refine ⟨e', w1, ?_, h⟩
  simp only [eval, bind_apply, h1, Option.bind_some]; rfl

/-! ## The first guard -/

theorem newId_trace {w w' : World PtrStore} {i : Id} (h : newId cfg w = some (i, w')) : w'.trace = .gen (nextId cfg w) :: w.trace := by
  have : newId cfg w = some (nextId cfg w, { w with counter := nextId cfg w, cur := nextId cfg w, ticks := w.ticks + 1, trace := .gen (nextId cfg w) :: w.trace }) := rfl
  rw [this] at h
  simp only [Option.some.injEq, Prod.mk.injEq] at h
  rw [← h.2]

theorem throws_guard {items : List OnItem} {q : Bool} (hp : (Prog.onError items p).WF cfg da) (hr : Throws cfg da e p q) :
    Reports cfg da id (fun ty => (onItems items).foldl (Item.step cfg true ty) none) (some e) (.onError items p) q := by
  intro w hw hda hfr hnx hq
  have hidt : id.Tagged := by rw [← hnx]; exact nextId_tagged (w := absW w) hw.good
  obtain ⟨e', w1, h1, h2, h3, h4, h5, h6⟩ := hr w hw hda hq
  obtain ⟨o', w1', e1, _, e3, e4, e5⟩ := tot_ptr (sim_eval (n := 0) cfg p) (tot_eval cfg p hp.2 _ (fun h => noDa_of (hda h))) hw rfl
  rw [h1] at e1
  simp only [Option.some.injEq, Prod.mk.injEq] at e1
  obtain ⟨rfl, rfl⟩ := e1
  obtain ⟨w2, n1, n2, n3⟩ := newId_ptr (cfg := cfg) e3
  rw [h5, hnx] at n1
  have n4 : w2.cur = id := by rw [n3.1, h5, hnx]
  have n5 : scopes w2 = scopes w := by rw [n3.2.2.2.1, h4]
  have n6 : w2.trace = .gen id :: w.trace := by
    rw [newId_trace n1, h5, hnx, h6]
  have hda1 : da = false → NoDa (shape (scopes w2)) := fun h => by rw [n5]; exact noDa_of (hda h)
  have ht := triggerItems_eq cfg hidt items (absW w2) n2.good.4 (accOk_of_noDa (onItems_ok hp.1) hda1 id)
  obtain ⟨w3, g1, g2, g3⟩ := run_abs (sim_triggerItems cfg id items) n2 ht (put_good n2.good (putItems_good (tagged_ne_zero hidt) n2.good.4))
  obtain ⟨k1, k2, k3, k4, k5, k6⟩ := threadOk_of_absW g2
  have k6' : scopes w3 = putItems cfg true id (onItems items) (scopes w) := by
    rw [k6]
    show putItems cfg true id (onItems items) (scopes w2) = _
    rw [n5]
  have k1' : w3.trace = onEvents cfg id items (scopes w2) ++ .gen id :: w.trace := by
    rw [k1, ← n6]; rfl
  refine ⟨.exc e', w3, ?_, ⟨e', rfl, h2⟩, ?_, ?_, ?_, ⟨onEvents cfg id items (scopes w2) ++ [.gen id], by rw [k1', List.append_assoc]; rfl, ?_⟩, ?_⟩
  · show onErrorGuard cfg items (eval cfg p) w = _
    unfold onErrorGuard
    rw [bind_apply, currentId_eq hw, Option.bind_some, bind_apply, h1, Option.bind_some, bind_apply]
    have hck : checkId cfg w.cur true w1 = some (id, w2) := by
      unfold checkId
      rw [bind_apply, currentId_eq e3, Option.bind_some]
      simp only [h3, ne_eq, not_true_eq_false, if_false, if_true, n1]
    simp only [hck, Option.bind_some]
    simp only [tagged_ne_zero hidt, ne_eq, not_false_eq_true, if_true, bind_apply, assertTagged, hidt]
    rw [Option.bind_some, g1]
    rfl
  · rw [k2]; exact n4
  · rw [k6']
    exact attached_putItems (attached_fresh (by rw [← hnx]; exact hfr.stored))
  · rw [k6']
    exact keyStep_putItems _ _ _ _ _
  · intro id' ex k args h
    rcases List.mem_append.mp h with h | h
    · exact onEvents_quiet _ _ _ _ _ _ _ _ h
    · simp at h
  · rw [k1']; simp

end

/-! ## All layers -/

theorem attached_unguarded {cfg : Cfg} {ls : List Layer} (h : guarded ls = false) : attached cfg [] ls = fun _ => none := by
  induction ls with
  | nil => rfl
  | cons l ls ih =>
    show l.attach cfg (attached cfg [] ls) = _
    cases l with
    | guard is => simp [guarded] at h
    | _ => exact ih h

theorem throws_within {cfg : Cfg} {e : Exc} (hf : e.Foreign) (ls : List Layer) {da : Bool} (hp : (within ls (foreign e)).WF cfg da)
    (hpass : PassesAll cfg [] (visible (some e)) true ls) (hg : guarded ls = false) : Throws cfg da e (within ls (foreign e)) := by
  induction ls generalizing da with
  | nil => exact fun w _ _ _ => ⟨e, w, rfl, rfl, rfl, rfl, rfl, rfl⟩
  | cons l ls ih =>
    cases l with
    | handle specs body =>
      have := hpass.2
      rw [attached_unguarded (ls := ls) hg] at this
      exact throws_handle hf hp (ih hp.1 hpass.1 hg) this
    | catch_ specs body =>
      have := hpass.2
      rw [attached_unguarded (ls := ls) hg] at this
      exact throws_catch hf hp (ih hp.1 hpass.1 hg) this.2
    | guard is => simp [guarded] at hg
    | forward k => exact throws_forward (ih hp.1 hpass.1 hg)

theorem throws_forwards {cfg : Cfg} {e : Exc} (ls : List Layer) {da : Bool} (h : ls.all Layer.isForward = true) :
    Throws cfg da e (within ls (foreign e)) false := by
  induction ls generalizing da with
  | nil => exact fun w _ _ _ => ⟨e, w, rfl, rfl, rfl, rfl, rfl, rfl⟩
  | cons l ls ih =>
    simp only [List.all_cons, Bool.and_eq_true] at h
    cases l with
    | forward k => exact throws_forward (ih h.2)
    | _ => simp [Layer.isForward] at h

theorem unguarded_of_forwards {ls : List Layer} (h : ls.all Layer.isForward = true) : guarded ls = false ∧ shielded ls = false := by
  induction ls with
  | nil => exact ⟨rfl, rfl⟩
  | cons l ls ih =>
    simp only [List.all_cons, Bool.and_eq_true] at h
    cases l with
    | forward k => exact ih h.2
    | _ => simp [Layer.isForward] at h

theorem unshielded_of_unguarded {ls : List Layer} (h : guarded ls = false) : shielded ls = false := by
  induction ls with
  | nil => rfl
  | cons l ls ih =>
    cases l with
    | guard is => simp [guarded] at h
    | _ => exact ih h

theorem foreign_within {cfg : Cfg} {e : Exc} {id : Id} (hid : id.Tagged) (hf : e.Foreign) (ls : List Layer) {da : Bool}
    (hp : (within ls (foreign e)).WF cfg da) (hpass : PassesAll cfg [] (visible (some e)) true ls) (hg : guarded ls = true) :
    Reports cfg da id (attached cfg [] ls) (some e) (within ls (foreign e)) (!shielded ls) := by
  have hseen : e.seenId id = id := by rw [hf.seen, makeErrorId_of_tagged hid]
  induction ls generalizing da with
  | nil => simp [guarded] at hg
  | cons l ls ih =>
    cases l with
    | handle specs body =>
      exact reports_handle hp (ih hp.1 hpass.1 hg) (by rintro _ h; simp only [Option.some.injEq] at h; subst h; exact hseen) hpass.2
    | catch_ specs body => exact reports_catch hp (ih hp.1 hpass.1 hg) hseen hpass.2.2
    | guard is =>
      cases hgl : guarded ls with
      | true =>
        have hfw : ls.all Layer.isForward = false := by
          cases h : ls.all Layer.isForward with
          | false => rfl
          | true => rw [(unguarded_of_forwards h).1] at hgl; simp at hgl
        simp only [shielded, hfw, Bool.or_false]
        exact reports_guard hp (ih hp.2 hpass.1 hgl)
      | false =>
        show Reports cfg da id (fun ty => (onItems is).foldl (Item.step cfg true ty) (attached cfg [] ls ty)) _ _ _
        simp only [attached_unguarded hgl, shielded, unshielded_of_unguarded hgl, Bool.false_or]
        cases hfw : ls.all Layer.isForward with
        | true => exact throws_guard hp (throws_forwards ls hfw)
        | false => exact throws_guard hp (throws_within hf ls hp.2 hpass.1 hgl)
    | forward k => exact reports_forward (ih hp.1 hpass.1 hg)

section
variable {cfg : Cfg} {specs : List (List Arg)} {ls : List Layer} {e : Exc} {body : Nat → List ArgVal → Prog} {da : Bool} {w : World PtrStore}

theorem foreign_attempt (hf : e.Foreign) (hb : (within ls (foreign e)).WF cfg (da || capturing cfg specs)) (hw : ThreadOk w)
    (hda : da = false → NoCapturingScope w) (hfr : FreshId cfg w) (hq : shielded ls = false → Quiet w) (hpass : PassesAll cfg [] (visible (some e)) true ls) :
    ∃ e' w1 s ss, attemptRaw (deduce cfg specs) (eval cfg (within ls (foreign e))) w = some (.exc e', w1) ∧
      attempt cfg (deduce cfg specs) (eval cfg (within ls (foreign e))) w = some (.exc e', w1) ∧ e'.examined = e.examined ∧
      e'.seenId w1.cur = foreignId cfg w ls ∧ scopes w1 = s :: ss ∧ Attached cfg (foreignId cfg w ls) (attached cfg [] ls) (s :: ss) ∧
      ThreadOk w1 ∧ s.map CtxCell.cellTy = deduce cfg specs ∧ NoHandlerCalled w w1 := by
  unfold foreignId
  cases hg : guarded ls with
  | true =>
    have hidt : Id.Tagged (nextId cfg w) := nextId_tagged (w := absW w) hw.good
    obtain ⟨o, w1, s, ss, h1, h2, h3, h4, h5, h6, h7, h8, h9, h10, h11, h12⟩ :=
      reports_attempt hb (foreign_within hidt hf ls hb hpass hg) hw hda hfr rfl (fun h => hq (by simpa using h))
    obtain ⟨e', rfl, he⟩ := h2
    exact ⟨e', w1, s, ss, h1, h4, he, by rw [hf.of_examined he, h3, makeErrorId_of_tagged hidt]; rfl, h5, h6, h7, h9, h11⟩
  | false =>
    have hq := hq (unshielded_of_unguarded hg)
    obtain ⟨e', w1, h1, h2, h3, h4, h5, h6, h7, h8, h9⟩ := throws_attempt hb (throws_within hf ls hb hpass hg) hw hda hq
    refine ⟨e', w1, _, _, h1, h4, h2, by rw [hf.of_examined h2, h3]; rfl, h5, ?_, h6, empty_cellTy _, noHandler_eq h9⟩
    rw [attached_unguarded hg]
    exact attached_none hq _

/-! ## The theorems -/

/-- **C57 (partial): `try_handle_all`.** -/
theorem C57_handle_all_partial (hf : e.Foreign) (hp : (Prog.handleAll specs (within ls (foreign e)) body).WF cfg da) (hw : ThreadOk w)
    (hda : da = false → NoCapturingScope w) (hfr : FreshId cfg w) (hq : shielded ls = false → Quiet w) (hpass : PassesAll cfg [] (visible (some e)) true ls) :
    ∃ i vals o w', eval cfg (.handleAll specs (within ls (foreign e)) body) w = some (o, w') ∧
      Handled cfg w (attached cfg [] ls) (foreignId cfg w ls) (visible (some e)) specs body i vals o w' := by
  obtain ⟨e', w1, s, ss, h1, h2, h3, h4, h5, h6, h7, h8, h9⟩ := foreign_attempt hf hp.2.1 hw hda hfr hq hpass
  have hg := scopes_cons_good h7 h5
  have hfail : failure (.exc e') w1 = some (foreignId cfg w ls, visible (some e), e'.examined :: w1.handling) := by
    simp only [failure, h4, h3]
    rfl
  obtain ⟨i, hd, vals, wh, o, wr, w', e1, e2, e3, e4, e5, e6, e7, e8⟩ := C15_handle_all hp hw hda h2 h5 hfail
  refine ⟨i, vals, o, w', e6, (firstSuitable_of h8 hg h6).mp e1, hd, w1, wh, wr, e2, e3.1, fun j a x ha hx => ?_, h9, e4.trace, e5, e7⟩
  rw [e4.scopes]
  exact receives_of h8 hg h6 (List.mem_of_getElem? e2) (List.mem_of_getElem? ha) (e3.2 j a x ha hx)

/-- **C57 (partial): `try_handle_some`.** -/
theorem C57_handle_some_partial (hf : e.Foreign) (hp : (Prog.handleSome specs (within ls (foreign e)) body).WF cfg da) (hw : ThreadOk w)
    (hda : da = false → NoCapturingScope w) (hfr : FreshId cfg w) (hq : shielded ls = false → Quiet w) (hpass : PassesAll cfg [] (visible (some e)) true ls) {i : Nat}
    (hi : FirstSuitableOf cfg (attached cfg [] ls) (visible (some e)) specs i) :
    ∃ vals o w', eval cfg (.handleSome specs (within ls (foreign e)) body) w = some (o, w') ∧
      Handled cfg w (attached cfg [] ls) (foreignId cfg w ls) (visible (some e)) specs body i vals o w' := by
  obtain ⟨e', w1, s, ss, h1, h2, h3, h4, h5, h6, h7, h8, h9⟩ := foreign_attempt hf hp.1 hw hda hfr hq hpass
  have hg := scopes_cons_good h7 h5
  obtain ⟨hd, vals, wh, o, wr, wd, w', e1, e2, e3, e4, e5, e6, _⟩ := C15_handle_some_exception hp hw hda h2 h5 (i := i)
    (by rw [h4, h3]; exact (firstSuitable_of h8 hg h6).mpr hi)
  rw [h4, h3] at e2 e3
  refine ⟨vals, o, w', e5, hi, hd, w1, wh, wr, e1, e2.1, fun j a x ha hx => ?_, h9, e3.trace, e4, e6⟩
  rw [e3.scopes]
  exact receives_of h8 hg h6 (List.mem_of_getElem? e1) (List.mem_of_getElem? ha) (e2.2 j a x ha hx)

/-- **C57 (partial): `try_catch`.** -/
theorem C57_try_catch_partial (hf : e.Foreign) (hp : (Prog.tryCatch specs (within ls (foreign e)) body).WF cfg da) (hw : ThreadOk w)
    (hda : da = false → NoCapturingScope w) (hfr : FreshId cfg w) (hq : shielded ls = false → Quiet w) (hpass : PassesAll cfg [] (visible (some e)) true ls) {i : Nat}
    (hi : FirstSuitableOf cfg (attached cfg [] ls) (visible (some e)) specs i) :
    ∃ vals o w', eval cfg (.tryCatch specs (within ls (foreign e)) body) w = some (o, w') ∧
      Handled cfg w (attached cfg [] ls) (foreignId cfg w ls) (visible (some e)) specs body i vals o w' := by
  obtain ⟨e', w1, s, ss, h1, h2, h3, h4, h5, h6, h7, h8, h9⟩ := foreign_attempt hf hp.1 hw hda hfr hq hpass
  have hg := scopes_cons_good h7 h5
  obtain ⟨hd, vals, wh, o, wr, w', e1, e2, e3, e4, e5, e6, _⟩ := C15_try_catch hp hw hda h1 h5 (i := i)
    (by rw [h4, h3]; exact (firstSuitable_of h8 hg h6).mpr hi)
  rw [h4, h3] at e2 e3
  refine ⟨vals, o, w', e5, hi, hd, w1, wh, wr, e1, e2.1, fun j a x ha hx => ?_, h9, e3.trace, e4, e6⟩
  rw [e3.scopes]
  exact receives_of h8 hg h6 (List.mem_of_getElem? e1) (List.mem_of_getElem? ha) (e2.2 j a x ha hx)

end

/-- No objects of any error are stored if no scope is active. -/
theorem quiet_of_noScopes {w : World PtrStore} (h : scopes w = []) : Quiet w := by
  intro ty v hs
  rw [h] at hs
  simp [stored_nil] at hs

/-! ## A refuting witness -/

/-- A `std::exception` thrown by code that does not use the library. -/
def exForeign : Exc := ⟨7, true, .none, [(20, 3)], false⟩

/-- Calls a function that reports an error with an object of type 10, and handles this error. Then calls code that does not use the library. -/
def exHandledThenForeign : Prog :=
  .bind (.handleAll [[]] (report [.obj 10 1] none) (fun _ _ => .ret (.val 0))) (fun _ => foreign exForeign) (fun r => .ret (.err r))

/-- **C57, as stated, is false if objects of the current error of the thread are stored in an active scope.** The first error has been handled by the
inner `try_handle_all`, but its object remains in the outer scope, and the id of the error remains the current one of the thread (`error_id` of the
handler is that of the error handled before). The handler called for the exception is the one that takes the object, and gets the object.
If a guard is put around the call, the right handler is called. -/
theorem C57_refuted_handled :
    runFresh exCfg (.handleAll [[.req 10, .info], [.info]] exHandledThenForeign (fun i _ => .ret (.val i))) =
      some (.val 0, [], [.handled 5#32 (some exForeign) 0 [.obj 10 1, .info 5#32 (some exForeign) none], .handled 5#32 none 0 [], .offered 5#32 10 1, .gen 5#32]) ∧
    runFresh exCfg (.handleAll [[.req 10, .info], [.info]] (foreign exForeign) (fun i _ => .ret (.val i))) =
      some (.val 1, [], [.handled 1#32 (some exForeign) 1 [.info 1#32 (some exForeign) none]]) ∧
    runFresh exCfg (.handleAll [[.req 10, .info], [.info]] (.onError [] exHandledThenForeign) (fun i _ => .ret (.val i))) =
      some (.val 0, [], [.handled 5#32 (some exForeign) 0 [.obj 10 1, .info 5#32 (some exForeign) none], .handled 5#32 none 0 [], .offered 5#32 10 1, .gen 5#32]) ∧
    runFresh exCfg (.handleAll [[.req 10, .info], [.info]] (.bind (.handleAll [[]] (report [.obj 10 1] none) (fun _ _ => .ret (.val 0)))
        (fun _ => .onError [] (foreign exForeign)) (fun r => .ret (.err r))) (fun i _ => .ret (.val i))) =
      some (.val 1, [], [.handled 9#32 (some exForeign) 1 [.info 9#32 (some exForeign) none], .gen 9#32, .handled 5#32 none 0 [], .offered 5#32 10 1, .gen 5#32]) := by
  refine ⟨?_, ?_, ?_, ?_⟩ <;> decide +kernel

/-! ## The hypotheses can be met -/

/-- Outermost first: a scope with an unsuitable handler, a guard adding two objects, a `try_catch` and a `try_handle_some` with unsuitable handlers. -/
def exForeignLayers : List Layer :=
  [.handle [[.req 12]] exBody, .guard [.item (.obj 10 5), .item (.obj 11 6)], .catch_ [[.req 10]] exBody, .handle [[.req 11]] exBody]

theorem exForeignLayers_wf (da : Bool) : (within exForeignLayers (foreign exForeign)).WF exCfg da :=
  ⟨⟨by simp [OnItem.Ok, Item.Ok], ⟨trivial, fun i args _ => exBody_wf _ i args⟩, fun i args _ => exBody_wf _ i args⟩, fun i args _ => exBody_wf _ i args⟩

theorem exForeignLayers_passes : PassesAll exCfg [] (visible (some exForeign)) true exForeignLayers := by
  simp only [exForeignLayers, PassesAll, Layer.Passes, true_and, and_true, List.mem_singleton]
  refine ⟨⟨?_, ?_⟩, ?_⟩ <;> rintro hd rfl h
  · obtain ⟨v, h | ⟨_, e, h, h'⟩⟩ := h (.req 11) (by simp)
    · simp [attached, objects] at h
    · simp only [visible, Option.bind_some, shown, exForeign, Exc.examined, if_true, Option.some.injEq] at h
      subst h
      simp [Exc.cast] at h'
  · obtain ⟨v, h | ⟨_, e, h, h'⟩⟩ := h (.req 10) (by simp)
    · simp [attached, objects, Layer.attach] at h
    · simp only [visible, Option.bind_some, shown, exForeign, Exc.examined, if_true, Option.some.injEq] at h
      subst h
      simp [Exc.cast] at h'
  · obtain ⟨v, h | ⟨_, e, h, h'⟩⟩ := h (.req 12) (by simp)
    · simp [attached, objects, Layer.attach, onItems, Item.step, Item.ty] at h
    · simp only [visible, Option.bind_some, shown, exForeign, Exc.examined, if_true, Option.some.injEq] at h
      subst h
      simp [Exc.cast] at h'

example : exForeign.Foreign ∧ (Prog.handleAll [[.req 12], [.req 10, .req 20], []] (within exForeignLayers (foreign exForeign)) (fun i _ => .ret (.val i))).WF exCfg false ∧
    ThreadOk (initThread 1#32) ∧ FreshId exCfg (initThread 1#32) ∧ Quiet (initThread 1#32) ∧
    PassesAll exCfg [] (visible (some exForeign)) true exForeignLayers ∧ shielded exForeignLayers = false ∧ guarded exForeignLayers = true :=
  ⟨Or.inr rfl, ⟨⟨[[.req 12], [.req 10, .req 20]], [], rfl, rfl⟩, exForeignLayers_wf _, fun _ _ _ => ⟨trivial, by intro r; simp⟩⟩, threadOk_init (by decide),
    exLayers_fresh, quiet_of_noScopes rfl, exForeignLayers_passes, rfl, rfl⟩

/-- What happens. -/
example : runFresh exCfg (.handleAll [[.req 12], [.req 10, .req 20], []] (within exForeignLayers (foreign exForeign)) (fun i _ => .ret (.val i))) =
    some (.val 1, [], [.handled 5#32 (some exForeign) 1 [.obj 10 5, .obj 20 3], .offered 5#32 11 6, .offered 5#32 10 5, .gen 5#32]) := by decide +kernel

end Leaf
