import Verif.FlowLemmas

/-!
# C15 (which handler runs), C18 - C21, C23: what the error handling functions do with the outcome of the try block

All statements are about well-formed programs run on pointer-level storage. `attempt cfg slots block` is the part of every error handling
function before any handling: the scope is entered, the block runs, and if it returned a result with captured objects, these are unloaded.
-/

namespace Leaf

/-- Handler number `i` starts running with arguments `vals`, to handle error `id` (exception `ex`, if visible); `w1` is the state when the
block was left; the scope has been left (`ss` are the enclosing ones); `hnd` are the exceptions being handled. -/
structure HandlerStarts (w1 : World PtrStore) (ss : List Scope) (id : Id) (ex : Option Exc) (hnd : List Exc) (i : Nat) (vals : List ArgVal)
    (wh : World PtrStore) : Prop where
  ok : ThreadOk wh
  scopes : Leaf.scopes wh = ss
  trace : wh.trace = .handled id ex i vals :: w1.trace
  cur : wh.cur = w1.cur
  counter : wh.counter = w1.counter
  handling : wh.handling = hnd
  ticks : wh.ticks = w1.ticks

/-- The objects of error `id` stored in the scope with content `s` propagated to the enclosing scopes, which had content `ss` and now
have `ss'`. -/
structure Propagated (cfg : Cfg) (id : Id) (s : Scope) (ss ss' : List Scope) : Prop where
  /-- an object of a type wanted by the enclosing scopes is available there, unless they had one for this error already -/
  arrives : ∀ ty, Wanted cfg ty ss → available ty id ss' = (available ty id ss).or (available ty id [s])
  /-- nothing but objects of this error leaves the scope -/
  only : ∀ ty k v, Stored ty k v ss' → Stored ty k v ss ∨ (k = id ∧ Stored ty id v [s])
  /-- nothing is lost, except objects of other errors replaced by arriving ones -/
  kept : ∀ ty k v, Stored ty k v ss → Stored ty k v ss' ∨ (k ≠ id ∧ available ty k ss = some v ∧ ∃ x, Stored ty id x [s])
  /-- types of which the scope has no object for this error are not affected -/
  others : ∀ ty, (∀ v, ¬ Stored ty id v [s]) → ∀ k, available ty k ss' = available ty k ss
  same : shape ss' = shape ss

theorem propagated_unloadFs (cfg : Cfg) (id : Id) {s : Scope} (hs : FramesGood [s]) (ss : List Scope) : Propagated cfg id s ss (unloadFs cfg id s ss) where
  arrives ty hw := by
    rw [← avail_eq, avail_unloadFs cfg id s (hs s (by simp)).2 ((wanted_iff _ _ _).mpr hw), avail_eq, ← avail_eq ty id [s]]
    congr 1
    unfold scopeVal avail boundCell
    cases frameCell ty s <;> rfl
  only ty k v h := stored_unloadFs h
  kept ty k v h := by
    rcases kept_unloadFs (cfg := cfg) (id := id) (cs := s) h with h | ⟨h1, h2, h3⟩
    · exact Or.inl h
    · exact Or.inr ⟨h1, by rw [← avail_eq]; exact h2, h3⟩
  others ty h k := by
    rw [← avail_eq, ← avail_eq]
    unfold avail
    rw [boundCell_unloadFs_none]
    intro x hx
    exact h x ⟨s, by simp, hx⟩
  same := unloadFs_shape cfg id s ss

theorem FirstSuitable.get {cfg : Cfg} {specs : List (List Arg)} {s : Scope} (hs : s.map CtxCell.cellTy = deduce cfg specs) (hg : FramesGood [s])
    {id : Id} (hid : id.Tagged) {ex : Option Exc} (hex : ∀ e, ex = some e → e.Ok) {loc : Option Val}
    (hloc : loc = (findCell tySrcLoc s).bind (Cell.hasValue · id)) {i : Nat} (hi : FirstSuitable s id ex specs i) :
    ∃ hd vals, specs[i]? = some hd ∧ getArgs cfg s id ex loc hd = some vals ∧ ReceivesAll s id ex hd vals ∧ ∀ v ∈ vals, v.Ok := by
  obtain ⟨⟨hd, h1, h2⟩, _⟩ := hi
  have hso := scopeOk_deduced hs
  obtain ⟨vals, h3⟩ := getArgs_some cfg s id ex loc (Or.inr ((checkArgs_iff hso hid ex hd).mpr h2))
  exact ⟨hd, vals, h1, h3, getArgs_receives hso hg hid hloc h3, getArgs_ok hid hex h3⟩

theorem threadOk_of_absW {w : World PtrStore} {v : World AbsStore} (h : absW w = v) : w.trace = v.trace ∧ w.cur = v.cur ∧ w.counter = v.counter ∧
    w.handling = v.handling ∧ w.ticks = v.ticks ∧ scopes w = v.mem.frames := by
  subst h
  exact ⟨rfl, rfl, rfl, rfl, rfl, rfl⟩

/-- The outcome of a handler: objects stored in the scope for the error it returns propagate. -/
def AfterHandler (cfg : Cfg) (s : Scope) (o : Out) (wr w' : World PtrStore) : Prop :=
  match o with
  | .err r => Propagated cfg r.errId s (scopes wr) (scopes w')
  | _ => scopes w' = scopes wr

theorem afterHandler_ptr (cfg : Cfg) {s : Scope} (hs : FramesGood [s]) (o : Out) {w : World PtrStore} (hw : ThreadOk w) :
    ∃ w', (match o with | .err r2 => unloadCells cfg r2.errId s | _ => pure ()) w = some ((), w') ∧ ThreadOk w' ∧ w'.trace = w.trace ∧
      AfterHandler cfg s o w w' ∧ w'.ticks = w.ticks := by
  cases o with
  | val v => exact ⟨w, rfl, hw, rfl, rfl, rfl⟩
  | exc v => exact ⟨w, rfl, hw, rfl, rfl, rfl⟩
  | err r =>
    obtain ⟨w', h1, h2, h3⟩ := unload_ptr cfg (errId_tagged r) hs hw
    obtain ⟨e1, e2, e3, e4, e5, e6⟩ := threadOk_of_absW h3
    refine ⟨w', h1, h2, e1, ?_, e5⟩
    show Propagated _ _ _ _ _
    rw [e6]
    exact propagated_unloadFs cfg r.errId hs (scopes w)

/-- The scope is left and the first suitable handler runs. -/
theorem enter_handler {cfg : Cfg} {specs : List (List Arg)} {body : Nat → List ArgVal → Prog} {da : Bool}
    (hb : ∀ i args, (∀ a ∈ args, ArgVal.Ok a) → (body i args).WF cfg da)
    {w1 : World PtrStore} (hw : ThreadOk w1) {s : Scope} {ss : List Scope} (hs : scopes w1 = s :: ss) (hsl : s.map CtxCell.cellTy = deduce cfg specs)
    (hda : da = false → NoDa (shape ss)) {id : Id} (hid : id.Tagged) {ex : Option Exc} (hex : ∀ e, ex = some e → e.Ok) 
    {hnd : List Exc} (hh : ∀ e ∈ hnd, Exc.Ok e) {loc : Option Val}
    (hloc : loc = (findCell tySrcLoc s).bind (Cell.hasValue · id)) {i : Nat} (hi : FirstSuitable s id ex specs i) :
    ∃ w3 hd vals wh o wr, popCtx w1 = some (s, w3) ∧ ThreadOk w3 ∧ w3.cur = w1.cur ∧ w3.handling = w1.handling ∧
      specs[i]? = some hd ∧ getArgs cfg s id ex loc hd = some vals ∧ ReceivesAll s id ex hd vals ∧
      wh = { w3 with handling := hnd, trace := .handled id ex i vals :: w3.trace } ∧ HandlerStarts w1 ss id ex hnd i vals wh ∧
      eval cfg (body i vals) wh = some (o, wr) ∧ o.Ok ∧ ThreadOk wr ∧ shape (scopes wr) = shape ss := by
  obtain ⟨w3, h1, h2, h3⟩ := popCtx_ptr hw hs
  obtain ⟨e1, e2, e3, e4, e5, e6⟩ := threadOk_of_absW h2
  obtain ⟨hd, vals, g1, g2, g3, g4⟩ := hi.get hsl (scopes_cons_good hw hs) hid hex hloc
  have hok : ThreadOk { w3 with handling := hnd, trace := .handled id ex i vals :: w3.trace } := threadOk_with h3 _ _ hh
  have hsc : scopes { w3 with handling := hnd, trace := .handled id ex i vals :: w3.trace } = ss := e6
  obtain ⟨o, wr, f1, f2, f3, f4, f5⟩ := tot_ptr (sim_eval (n := 0) cfg (body i vals)) (tot_eval cfg (body i vals) (hb i vals g4) _
    (by rw [hsc]; exact hda)) hok rfl
  refine ⟨w3, hd, vals, _, o, wr, h1, h3, e2, e4, g1, g2, g3, rfl, ⟨hok, hsc, ?_, e2, e3, rfl, e5⟩, f1, f5, f3, ?_⟩
  · show _ :: w3.trace = _
    rw [e1]; rfl
  · rw [f4, hsc]

theorem noDa_of_shape {w : World PtrStore} {ss : List Scope} {da : Bool} (hda : da = false → NoCapturingScope w) (h : shape ss = shape (scopes w)) :
    da = false → NoDa (shape ss) := fun h0 => h ▸ (noCapturing_iff w).mp (hda h0)

/-- The shape of the state after `attempt`. -/
theorem attempt_state {cfg : Cfg} {specs : List (List Arg)} {block : Prog} {da : Bool} (hb : block.WF cfg (da || capturing cfg specs))
    {w w1 : World PtrStore} (hw : ThreadOk w) (hda : da = false → NoCapturingScope w) {o : Out}
    (h : attempt cfg (deduce cfg specs) (eval cfg block) w = some (o, w1)) {s : Scope} {ss : List Scope} (hs : scopes w1 = s :: ss) :
    ThreadOk w1 ∧ o.Ok ∧ s.map CtxCell.cellTy = deduce cfg specs ∧ (da = false → NoDa (shape ss)) ∧ shape ss = shape (scopes w) := by
  obtain ⟨o', w1', s', ss', h1, _, h2, h3, h4, h5, h6⟩ := attempt_ptr (deduce_nodup cfg specs) hb hw (noDa_push fun h => noDa_of (hda h))
  rw [h] at h1
  simp only [Option.some.injEq, Prod.mk.injEq] at h1
  obtain ⟨rfl, rfl⟩ := h1
  rw [hs] at h4
  simp only [List.cons.injEq] at h4
  obtain ⟨rfl, rfl⟩ := h4
  exact ⟨h2, h3, h5, noDa_of_shape hda h6, h6⟩

/-! ## `try_handle_some` -/

section
variable {cfg : Cfg} {specs : List (List Arg)} {block : Prog} {body : Nat → List ArgVal → Prog} {da : Bool} {w w1 : World PtrStore} {r : ErrRes} {e : Exc}
  {s : Scope} {ss : List Scope} {i : Nat}

/-- **C15, C23: `try_handle_some`, the block failed with a result.** The first suitable handler is called, exactly once, and its outcome is the
outcome of `try_handle_some`; if it returns an error, the objects stored in this scope for *that* error propagate, and nothing else. -/
theorem C15_handle_some_result (hp : (Prog.handleSome specs block body).WF cfg da) (hw : ThreadOk w) (hda : da = false → NoCapturingScope w)
    (h : attempt cfg (deduce cfg specs) (eval cfg block) w = some (.err r, w1)) (hs : scopes w1 = s :: ss)
    (hi : FirstSuitable s r.errId none specs i) :
    ∃ hd vals wh o wr w', specs[i]? = some hd ∧ ReceivesAll s r.errId none hd vals ∧ HandlerStarts w1 ss r.errId none w1.handling i vals wh ∧
      eval cfg (body i vals) wh = some (o, wr) ∧ eval cfg (.handleSome specs block body) w = some (o, w') ∧
      w'.trace = wr.trace ∧ AfterHandler cfg s o wr w' ∧ w'.ticks = wr.ticks := by
  obtain ⟨h1, h2, h3, h4, h5⟩ := attempt_state hp.1 hw hda h hs
  have hid := errId_tagged r
  obtain ⟨w3, hd, vals, wh, o, wr, e1, e2, e3, e4, e5, e6, e7, rfl, e8, e9, e10, e11, e12⟩ :=
    enter_handler hp.2 h1 hs h3 h4 hid (by simp) h1.good.3 rfl hi
  obtain ⟨w', f1, f2, f3, f4, f5⟩ := afterHandler_ptr cfg (scopes_cons_good h1 hs) o e11
  have hh : (absW w1).handling = w3.handling := by rw [e4]; rfl
  have hsel := ((C15_select_some (scopeOk_deduced h3) hid none specs).1 i).mpr hi
  refine ⟨hd, vals, _, o, wr, w', e5, e7, e8, e9, ?_, f3, f4, f5⟩
  rw [hh] at e9
  exact handleSome_err_some (body := fun i args => eval cfg (body i args)) h e1 (ctxLoc_eq hid s w3) hsel e5 e6 e9 f1

/-- **C20: `try_handle_some`, no suitable handler.** The result is returned with the same error id, no handler is called, and the objects stored
in this scope for this error propagate. -/
theorem C20_unhandled_result (hp : (Prog.handleSome specs block body).WF cfg da) (hw : ThreadOk w) (hda : da = false → NoCapturingScope w)
    (h : attempt cfg (deduce cfg specs) (eval cfg block) w = some (.err r, w1)) (hs : scopes w1 = s :: ss)
    (hn : ∀ hd ∈ specs, ¬ Suitable s r.errId none hd) :
    ∃ w', eval cfg (.handleSome specs block body) w = some (.err r, w') ∧ Propagated cfg r.errId s ss (scopes w') ∧ w'.trace = w1.trace ∧
      ThreadOk w' := by
  obtain ⟨h1, h2, h3, h4, h5⟩ := attempt_state hp.1 hw hda h hs
  have hid := errId_tagged r
  obtain ⟨w3, e1, e2, e3⟩ := popCtx_ptr h1 hs
  obtain ⟨f1, f2, f3, f4, f5, f6⟩ := threadOk_of_absW e2
  obtain ⟨w', g1, g2, g3⟩ := unload_ptr cfg hid (scopes_cons_good h1 hs) e3
  obtain ⟨k1, k2, k3, k4, k5, k6⟩ := threadOk_of_absW g3
  have hsel := ((C15_select_some (scopeOk_deduced h3) hid none specs).2).mpr hn
  refine ⟨w', handleSome_err_none (body := fun i args => eval cfg (body i args)) h e1 (ctxLoc_eq hid s w3) hsel g1, ?_, ?_, g2⟩
  · rw [k6]
    have : scopes w3 = ss := f6
    show Propagated cfg r.errId s ss (unloadFs cfg r.errId s (scopes w3))
    rw [this]
    exact propagated_unloadFs cfg r.errId (scopes_cons_good h1 hs) ss
  · rw [k1]; show w3.trace = _; rw [f1]; rfl

/-- **C23.** If the handler returns a different error, the objects of the handled error stored in this scope do not propagate (what the enclosing
scopes hold for the handled error afterwards, they held when the handler returned), while those stored in this scope for the new error do. -/
theorem C23_new_error_replaces (hp : (Prog.handleSome specs block body).WF cfg da) (hw : ThreadOk w) (hda : da = false → NoCapturingScope w)
    (h : attempt cfg (deduce cfg specs) (eval cfg block) w = some (.err r, w1)) (hs : scopes w1 = s :: ss)
    (hi : FirstSuitable s r.errId none specs i) :
    ∃ vals wh o wr w', HandlerStarts w1 ss r.errId none w1.handling i vals wh ∧ eval cfg (body i vals) wh = some (o, wr) ∧
      eval cfg (.handleSome specs block body) w = some (o, w') ∧
      ∀ r2, o = .err r2 → r2.errId ≠ r.errId →
        (∀ ty v, Stored ty r.errId v (scopes w') → Stored ty r.errId v (scopes wr)) ∧
        (∀ ty, Wanted cfg ty (scopes wr) → available ty r2.errId (scopes w') =
          (available ty r2.errId (scopes wr)).or (available ty r2.errId [s])) := by
  obtain ⟨hd, vals, wh, o, wr, w', h1, h2, h3, h4, h5, h6, h7, _⟩ := C15_handle_some_result hp hw hda h hs hi
  refine ⟨vals, wh, o, wr, w', h3, h4, h5, ?_⟩
  rintro r2 rfl hne
  have h7 : Propagated cfg r2.errId s (scopes wr) (scopes w') := h7
  refine ⟨fun ty v hv => ?_, h7.arrives⟩
  rcases h7.only ty _ v hv with h | ⟨h, _⟩
  · exact h
  · exact absurd h.symm hne

/-! ## Exceptions -/

/-- The catch clauses, when a handler is suitable. -/
theorem catch_some_ptr (hb : ∀ i args, (∀ a ∈ args, ArgVal.Ok a) → (body i args).WF cfg da) (hw : ThreadOk w1) (hs : scopes w1 = s :: ss)
    (hsl : s.map CtxCell.cellTy = deduce cfg specs) (hda : da = false → NoDa (shape ss)) (he : e.Ok)
    (hi : FirstSuitable s (e.seenId w1.cur) (shown e.examined) specs i) :
    ∃ hd vals wh o wr wd, specs[i]? = some hd ∧ ReceivesAll s (e.seenId w1.cur) (shown e.examined) hd vals ∧
      HandlerStarts w1 ss (e.seenId w1.cur) (shown e.examined) (e.examined :: w1.handling) i vals wh ∧
      eval cfg (body i vals) wh = some (o, wr) ∧ catchPath cfg specs (fun i args => eval cfg (body i args)) e w1 = some ((o, s), wd) ∧
      wd.trace = wr.trace ∧ scopes wd = scopes wr ∧ ThreadOk wd ∧
      wd.cur = (if e.examined.clear = true ∧ e.examined.idSrc = .base wr.cur then 0#32 else wr.cur) ∧ wd.ticks = wr.ticks := by
  have hid := seenId_tagged he w1.cur
  have hex : ∀ x, shown e.examined = some x → x.Ok := by
    intro x hx
    unfold shown at hx
    split at hx
    · simp only [Option.some.injEq] at hx; subst hx; exact examined_ok he
    · simp at hx
  have hh : ∀ x ∈ e.examined :: w1.handling, Exc.Ok x := by
    intro x hx
    simp only [List.mem_cons] at hx
    rcases hx with rfl | hx
    · exact examined_ok he
    · exact hw.good.3 x hx
  obtain ⟨w3, hd, vals, wh, o, wr, e1, e2, e3, e4, e5, e6, e7, e8', e8, e9, e10, e11, e12⟩ :=
    enter_handler hb hw hs hsl hda hid hex hh rfl hi
  have hu := unpackId_eq (M := PtrStore) (e := e) (w := w3) e2.good.1
  rw [e3] at hu
  have hsel := ((C15_select_some (scopeOk_deduced hsl) hid (shown e.examined) specs).1 i).mpr hi
  have e9' := e9
  rw [e8', ← e4] at e9'
  have hcp := catchPath_some (body := fun i args => eval cfg (body i args)) (w2 := w1) (o := o) (w4 := wr) e1 hu (ctxLoc_eq hid s _) hsel e5 e6 e9'
    (destroyExc_eq e.examined _)
  refine ⟨hd, vals, wh, o, wr, _, e5, e7, e8, e9, hcp, rfl, rfl, ⟨e11.inv, ?_, e11.good.2, ?_, e11.good.4⟩, rfl, rfl⟩
  · show Id.Ok (if e.examined.clear = true ∧ e.examined.idSrc = .base wr.cur then 0#32 else wr.cur)
    split
    · exact Or.inl rfl
    · exact e11.good.1
  · exact fun x hx => e11.good.3 x (List.mem_of_mem_tail hx)

/-- The catch clauses, when no handler is suitable. -/
theorem catch_none_ptr (hw : ThreadOk w1) (hs : scopes w1 = s :: ss)
    (hsl : s.map CtxCell.cellTy = deduce cfg specs) (he : e.Ok)
    (hn : ∀ hd ∈ specs, ¬ Suitable s (e.seenId w1.cur) (shown e.examined) hd) :
    ∃ w', catchPath cfg specs (fun i args => eval cfg (body i args)) e w1 = some ((.exc e.examined, s), w') ∧
      Propagated cfg (e.seenId w1.cur) s ss (scopes w') ∧ w'.trace = w1.trace ∧ w'.handling = w1.handling ∧ ThreadOk w' := by
  have hid := seenId_tagged he w1.cur
  obtain ⟨w3, e1, e2, e3⟩ := popCtx_ptr hw hs
  obtain ⟨f1, f2, f3, f4, f5, f6⟩ := threadOk_of_absW e2
  have hu := unpackId_eq (M := PtrStore) (e := e) (w := w3) e3.good.1
  rw [f2] at hu
  have hh : ∀ x ∈ e.examined :: w3.handling, Exc.Ok x := by
    intro x hx
    simp only [List.mem_cons] at hx
    rcases hx with rfl | hx
    · exact examined_ok he
    · exact e3.good.3 x hx
  have hok : ThreadOk { w3 with handling := e.examined :: w3.handling } := threadOk_with e3 _ _ hh
  obtain ⟨w', g1, g2, g3⟩ := unload_ptr cfg hid (scopes_cons_good hw hs) hok
  obtain ⟨k1, k2, k3, k4, k5, k6⟩ := threadOk_of_absW g3
  have hsel := ((C15_select_some (scopeOk_deduced hsl) hid (shown e.examined) specs).2).mpr hn
  refine ⟨_, catchPath_none (body := fun i args => eval cfg (body i args)) (w2 := w1) e1 hu (ctxLoc_eq hid s _) hsel g1, ?_, ?_, ?_, ?_⟩
  · show Propagated _ _ _ _ (scopes w')
    rw [k6]
    have : scopes w3 = ss := f6
    show Propagated cfg _ s ss (unloadFs cfg _ s (scopes w3))
    rw [this]
    exact propagated_unloadFs cfg _ (scopes_cons_good hw hs) ss
  · show w'.trace = _; rw [k1]; show w3.trace = _; rw [f1]; rfl
  · show w'.handling.tail = _; rw [k4]; show w3.handling = _; rw [f4]; rfl
  · exact ⟨g2.inv, g2.good.1, g2.good.2, fun x hx => g2.good.3 x (List.mem_of_mem_tail hx), g2.good.4⟩

/-- **C15, C23: `try_handle_some`, the block threw.** -/
theorem C15_handle_some_exception (hp : (Prog.handleSome specs block body).WF cfg da) (hw : ThreadOk w) (hda : da = false → NoCapturingScope w)
    (h : attempt cfg (deduce cfg specs) (eval cfg block) w = some (.exc e, w1)) (hs : scopes w1 = s :: ss)
    (hi : FirstSuitable s (e.seenId w1.cur) (shown e.examined) specs i) :
    ∃ hd vals wh o wr wd w', specs[i]? = some hd ∧ ReceivesAll s (e.seenId w1.cur) (shown e.examined) hd vals ∧
      HandlerStarts w1 ss (e.seenId w1.cur) (shown e.examined) (e.examined :: w1.handling) i vals wh ∧
      eval cfg (body i vals) wh = some (o, wr) ∧ eval cfg (.handleSome specs block body) w = some (o, w') ∧
      w'.trace = wr.trace ∧ scopes wd = scopes wr ∧ AfterHandler cfg s o wd w' ∧ w'.ticks = wr.ticks := by
  obtain ⟨h1, h2, h3, h4, h5⟩ := attempt_state hp.1 hw hda h hs
  obtain ⟨hd, vals, wh, o, wr, wd, e1, e2, e3, e4, e5, e6, e7, e8, _, e9⟩ := catch_some_ptr hp.2 h1 hs h3 h4 h2 hi
  obtain ⟨w', f1, f2, f3, f4, f5⟩ := afterHandler_ptr cfg (scopes_cons_good h1 hs) o e8
  exact ⟨hd, vals, wh, o, wr, wd, w', e1, e2, e3, e4, handleSome_exc h e5 f1, by rw [f3, e6], e7, f4, by rw [f5, e9]⟩

/-- **C21: `try_handle_some`, no suitable handler for an exception.** The same exception propagates (having been examined), no handler is called,
and the objects stored in this scope for its error id propagate. -/
theorem C21_unhandled_exception_some (hp : (Prog.handleSome specs block body).WF cfg da) (hw : ThreadOk w) (hda : da = false → NoCapturingScope w)
    (h : attempt cfg (deduce cfg specs) (eval cfg block) w = some (.exc e, w1)) (hs : scopes w1 = s :: ss)
    (hn : ∀ hd ∈ specs, ¬ Suitable s (e.seenId w1.cur) (shown e.examined) hd) :
    ∃ w', eval cfg (.handleSome specs block body) w = some (.exc e.examined, w') ∧ Propagated cfg (e.seenId w1.cur) s ss (scopes w') ∧
      w'.trace = w1.trace ∧ ThreadOk w' := by
  obtain ⟨h1, h2, h3, h4, h5⟩ := attempt_state hp.1 hw hda h hs
  obtain ⟨w', e1, e2, e3, _, e4⟩ := catch_none_ptr (body := body) h1 hs h3 h2 hn
  exact ⟨w', handleSome_exc h e1 rfl, e2, e3, e4⟩

theorem attemptRaw_state (hb : block.WF cfg (da || capturing cfg specs))
    (hw : ThreadOk w) (hda : da = false → NoCapturingScope w) {o : Out}
    (h : attemptRaw (deduce cfg specs) (eval cfg block) w = some (o, w1)) (hs : scopes w1 = s :: ss) :
    ThreadOk w1 ∧ o.Ok ∧ s.map CtxCell.cellTy = deduce cfg specs ∧ (da = false → NoDa (shape ss)) ∧ shape ss = shape (scopes w) := by
  obtain ⟨o', w1', s', ss', h1, _, h2, h3, h4, h5, h6⟩ := attemptRaw_ptr (deduce_nodup cfg specs) hb hw (noDa_push fun h => noDa_of (hda h))
  rw [h] at h1
  simp only [Option.some.injEq, Prod.mk.injEq] at h1
  obtain ⟨rfl, rfl⟩ := h1
  rw [hs] at h4
  simp only [List.cons.injEq] at h4
  obtain ⟨rfl, rfl⟩ := h4
  exact ⟨h2, h3, h5, noDa_of_shape hda h6, h6⟩

/-- **C15: `try_catch`.** -/
theorem C15_try_catch (hp : (Prog.tryCatch specs block body).WF cfg da) (hw : ThreadOk w) (hda : da = false → NoCapturingScope w)
    (h : attemptRaw (deduce cfg specs) (eval cfg block) w = some (.exc e, w1)) (hs : scopes w1 = s :: ss)
    (hi : FirstSuitable s (e.seenId w1.cur) (shown e.examined) specs i) :
    ∃ hd vals wh o wr w', specs[i]? = some hd ∧ ReceivesAll s (e.seenId w1.cur) (shown e.examined) hd vals ∧
      HandlerStarts w1 ss (e.seenId w1.cur) (shown e.examined) (e.examined :: w1.handling) i vals wh ∧
      eval cfg (body i vals) wh = some (o, wr) ∧ eval cfg (.tryCatch specs block body) w = some (o, w') ∧
      w'.trace = wr.trace ∧ scopes w' = scopes wr ∧ w'.ticks = wr.ticks := by
  obtain ⟨h1, h2, h3, h4, h5⟩ := attemptRaw_state hp.1 hw hda h hs
  obtain ⟨hd, vals, wh, o, wr, wd, e1, e2, e3, e4, e5, e6, e7, e8, _, e9⟩ := catch_some_ptr hp.2 h1 hs h3 h4 h2 hi
  exact ⟨hd, vals, wh, o, wr, wd, e1, e2, e3, e4, tryCatch_exc h e5, e6, e7, e9⟩

/-- **C21: `try_catch`, no suitable handler.** -/
theorem C21_unhandled_exception_try_catch (hp : (Prog.tryCatch specs block body).WF cfg da) (hw : ThreadOk w) (hda : da = false → NoCapturingScope w)
    (h : attemptRaw (deduce cfg specs) (eval cfg block) w = some (.exc e, w1)) (hs : scopes w1 = s :: ss)
    (hn : ∀ hd ∈ specs, ¬ Suitable s (e.seenId w1.cur) (shown e.examined) hd) :
    ∃ w', eval cfg (.tryCatch specs block body) w = some (.exc e.examined, w') ∧ Propagated cfg (e.seenId w1.cur) s ss (scopes w') ∧
      w'.trace = w1.trace ∧ ThreadOk w' := by
  obtain ⟨h1, h2, h3, h4, h5⟩ := attemptRaw_state hp.1 hw hda h hs
  obtain ⟨w', e1, e2, e3, _, e4⟩ := catch_none_ptr (body := body) h1 hs h3 h2 hn
  exact ⟨w', tryCatch_exc h e1, e2, e3, e4⟩

/-- An exception is not changed by being examined, except that it will not reset the current error. -/
theorem C21_same_exception (e : Exc) : e.examined.tag = e.tag ∧ e.examined.casts = e.casts ∧ e.examined.idSrc = e.idSrc ∧ e.examined.isStd = e.isStd ∧
    (e.examined = e ∨ e.examined = { e with clear := false }) := by
  unfold Exc.examined
  split
  · split <;> simp
  · simp

/-! ## `try_handle_all` -/

/-- How the block failed: the error id, the exception handlers can see, and the exceptions being handled while a handler runs. -/
def failure (o : Out) (w1 : World PtrStore) : Option (Id × Option Exc × List Exc) :=
  match o with
  | .val _ => none
  | .err r => some (r.errId, none, w1.handling)
  | .exc e => some (e.seenId w1.cur, shown e.examined, e.examined :: w1.handling)

theorem suitable_of_matchesAny {cfg : Cfg} {s : Scope} (hs : ScopeOk cfg s) {id : Id} (hid : id.Tagged) {ex : Option Exc} {hd : List Arg}
    (h : matchesAny hd = true) : Suitable s id ex hd := by
  rw [← checkArgs_iff hs hid]
  unfold matchesAny at h
  unfold checkArgs
  rw [List.all_eq_true] at h ⊢
  intro a ha
  have := h a ha
  cases a <;> simp_all [Arg.always, Arg.check]

/-- **C15: `try_handle_all`.** If the block fails, in whatever way, the first suitable handler (there is one) is called, exactly once, and its
outcome is the outcome of `try_handle_all`. -/
theorem C15_handle_all (hp : (Prog.handleAll specs block body).WF cfg da) (hw : ThreadOk w) (hda : da = false → NoCapturingScope w) {o1 : Out}
    (h : attempt cfg (deduce cfg specs) (eval cfg block) w = some (o1, w1)) (hs : scopes w1 = s :: ss)
    {id : Id} {ex : Option Exc} {hnd : List Exc} (hf : failure o1 w1 = some (id, ex, hnd)) :
    ∃ i hd vals wh o wr w', FirstSuitable s id ex specs i ∧ specs[i]? = some hd ∧ ReceivesAll s id ex hd vals ∧
      HandlerStarts w1 ss id ex hnd i vals wh ∧
      eval cfg (body i vals) wh = some (o, wr) ∧ eval cfg (.handleAll specs block body) w = some (o, w') ∧
      w'.trace = wr.trace ∧ scopes w' = scopes wr ∧ w'.ticks = wr.ticks := by
  obtain ⟨h1, h2, h3, h4, h5⟩ := attempt_state hp.2.1 hw hda h hs
  have hb : ∀ i args, (∀ a ∈ args, ArgVal.Ok a) → (body i args).WF cfg da := fun i args ha => (hp.2.2 i args ha).1
  have hso := scopeOk_deduced h3
  cases o1 with
  | val v => simp [failure] at hf
  | err r =>
    simp only [failure, Option.some.injEq, Prod.mk.injEq] at hf
    obtain ⟨rfl, rfl, rfl⟩ := hf
    have hid := errId_tagged r
    obtain ⟨i, hsel⟩ := (C15_select_all hso hid none hp.1).2
    have hi := ((C15_select_all hso hid none hp.1).1 i).mp hsel
    obtain ⟨w3, hd, vals, wh, o, wr, e1, e2, e3, e4, e5, e6, e7, rfl, e8, e9, e10, e11, e12⟩ :=
      enter_handler hb h1 hs h3 h4 hid (by simp) h1.good.3 rfl hi
    have hh : (absW w1).handling = w3.handling := by rw [e4]; rfl
    have hv := (getArgs_ok hid (by simp) e6)
    refine ⟨i, hd, vals, _, o, wr, wr, hi, e5, e7, e8, e9, ?_, rfl, rfl, rfl⟩
    rw [hh] at e9
    exact handleAll_err (body := fun i args => eval cfg (body i args)) h e1 (ctxLoc_eq hid s w3) hsel e5 e6 e9
      (eval_noErr cfg _ (hp.2.2 i vals hv).2 _ _ _ e9)
  | exc e =>
    simp only [failure, Option.some.injEq, Prod.mk.injEq] at hf
    obtain ⟨rfl, rfl, rfl⟩ := hf
    have hid := seenId_tagged h2 w1.cur
    obtain ⟨i, hsel⟩ := (C15_select_all hso hid (shown e.examined) hp.1).2
    have hi := ((C15_select_all hso hid (shown e.examined) hp.1).1 i).mp hsel
    have hex : ∀ x, shown e.examined = some x → x.Ok := by
      intro x hx
      unfold shown at hx
      split at hx
      · simp only [Option.some.injEq] at hx; subst hx; exact examined_ok h2
      · simp at hx
    obtain ⟨hd, vals, wh, o, wr, wd, e1, e2, e3, e4, e5, e6, e7, e8, _, e9⟩ := catch_some_ptr hb h1 hs h3 h4 h2 hi
    have hv : ∀ v ∈ vals, v.Ok := by
      obtain ⟨hd', vals', g1, g2, g3, g4⟩ := hi.get h3 (scopes_cons_good h1 hs) hid hex rfl
      rw [e1] at g1
      simp only [Option.some.injEq] at g1
      subst g1
      intro v hv
      obtain ⟨j, hj, rfl⟩ := List.getElem_of_mem hv
      have hlt : j < hd.length := by rw [← e2.1]; exact hj
      have hr := e2.2 j hd[j] vals[j] (by simp) (by simp)
      revert hr
      generalize vals[j] = x
      generalize hd[j] = a
      intro hr
      cases a <;> cases x <;> simp only [Receives] at hr <;> try exact hr.elim
      all_goals first | trivial | exact hex _ hr | (obtain ⟨rfl, rfl, _⟩ := hr; exact ⟨hid, hex⟩)
    exact ⟨i, hd, vals, wh, o, wr, wd, hi, e1, e2, e3, e4, handleAll_exc h e5 (eval_noErr cfg _ (hp.2.2 i vals hv).2 _ _ _ e4), e6, e7, e9⟩

/-! ## C19 -/

/-- **C19: `try_handle_some`.** -/
theorem C19_handle_some (hp : (Prog.handleSome specs block body).WF cfg da) (hw : ThreadOk w) (hda : da = false → NoCapturingScope w) {v : Val}
    (h : attempt cfg (deduce cfg specs) (eval cfg block) w = some (.val v, w1)) (hs : scopes w1 = s :: ss) :
    ∃ w', eval cfg (.handleSome specs block body) w = some (.val v, w') ∧ w'.trace = w1.trace ∧ scopes w' = ss ∧ w'.cur = w1.cur ∧ ThreadOk w' := by
  obtain ⟨h1, h2, h3, h4, h5⟩ := attempt_state hp.1 hw hda h hs
  obtain ⟨w3, e1, e2, e3⟩ := popCtx_ptr h1 hs
  obtain ⟨f1, f2, f3, f4, f5, f6⟩ := threadOk_of_absW e2
  exact ⟨w3, handleSome_val h e1, f1, f6, f2, e3⟩

/-- **C19: `try_handle_all`.** -/
theorem C19_handle_all (hp : (Prog.handleAll specs block body).WF cfg da) (hw : ThreadOk w) (hda : da = false → NoCapturingScope w) {v : Val}
    (h : attempt cfg (deduce cfg specs) (eval cfg block) w = some (.val v, w1)) (hs : scopes w1 = s :: ss) :
    ∃ w', eval cfg (.handleAll specs block body) w = some (.val v, w') ∧ w'.trace = w1.trace ∧ scopes w' = ss ∧ w'.cur = w1.cur ∧ ThreadOk w' := by
  obtain ⟨h1, h2, h3, h4, h5⟩ := attempt_state hp.2.1 hw hda h hs
  obtain ⟨w3, e1, e2, e3⟩ := popCtx_ptr h1 hs
  obtain ⟨f1, f2, f3, f4, f5, f6⟩ := threadOk_of_absW e2
  exact ⟨w3, handleAll_val h e1, f1, f6, f2, e3⟩

/-- **C19: `try_catch`.** Whatever the block returns (`try_catch` does not know about results) is returned. -/
theorem C19_try_catch (hp : (Prog.tryCatch specs block body).WF cfg da) (hw : ThreadOk w) (hda : da = false → NoCapturingScope w) {o : Out}
    (h : attemptRaw (deduce cfg specs) (eval cfg block) w = some (o, w1)) (hs : scopes w1 = s :: ss) (ho : ∀ e, o ≠ .exc e) :
    ∃ w', eval cfg (.tryCatch specs block body) w = some (o, w') ∧ w'.trace = w1.trace ∧ scopes w' = ss ∧ w'.cur = w1.cur ∧ ThreadOk w' := by
  obtain ⟨h1, h2, h3, h4, h5⟩ := attemptRaw_state hp.1 hw hda h hs
  obtain ⟨w3, e1, e2, e3⟩ := popCtx_ptr h1 hs
  obtain ⟨f1, f2, f3, f4, f5, f6⟩ := threadOk_of_absW e2
  exact ⟨w3, tryCatch_val h ho e1, f1, f6, f2, e3⟩

/-- **C19: `try_capture_all`.** -/
theorem C19_capture_all (hp : (Prog.captureAll block).WF cfg da) (hw : ThreadOk w) {v : Val}
    (h : attemptRaw [.da] (eval cfg block) w = some (.val v, w1)) (hs : scopes w1 = s :: ss) :
    ∃ w', eval cfg (.captureAll block) w = some (.val v, w') ∧ w'.trace = w1.trace ∧ scopes w' = ss ∧ w'.cur = w1.cur ∧ ThreadOk w' := by
  obtain ⟨o', w1', s', ss', h1, _, h2, h3, h4, h5, h6⟩ := attemptRaw_ptr (slots := [.da]) (by simp) hp.2 hw (by simp)
  rw [h] at h1
  simp only [Option.some.injEq, Prod.mk.injEq] at h1
  obtain ⟨rfl, rfl⟩ := h1
  obtain ⟨w3, e1, e2, e3⟩ := popCtx_ptr h2 hs
  obtain ⟨f1, f2, f3, f4, f5, f6⟩ := threadOk_of_absW e2
  exact ⟨w3, captureAll_val hp.1 h e1, f1, f6, f2, e3⟩

/-- If the block returns a value, so does `attempt`: the hypotheses above describe exactly the successful blocks. -/
theorem attempt_val {v : Val} (h : attemptRaw (deduce cfg specs) (eval cfg block) w = some (.val v, w1)) :
    attempt cfg (deduce cfg specs) (eval cfg block) w = some (.val v, w1) := attempt_of_raw h

/-! ## C18 -/

/-- **C18.** `try_handle_all` has an outcome which is not a failed result: the value returned by the block, in which case no handler is called;
or, if the block failed, the outcome of the one handler called, the first suitable one. -/
theorem C18_always_handled (hp : (Prog.handleAll specs block body).WF cfg da) (hw : ThreadOk w) (hda : da = false → NoCapturingScope w) :
    ∃ o w' o1 w1 s ss, eval cfg (.handleAll specs block body) w = some (o, w') ∧ (∀ r, o ≠ .err r) ∧
      attempt cfg (deduce cfg specs) (eval cfg block) w = some (o1, w1) ∧ scopes w1 = s :: ss ∧
      match failure o1 w1 with
      | none => o = o1 ∧ w'.trace = w1.trace
      | some (id, ex, hnd) => ∃ i hd vals wh wr, FirstSuitable s id ex specs i ∧ specs[i]? = some hd ∧ ReceivesAll s id ex hd vals ∧
          HandlerStarts w1 ss id ex hnd i vals wh ∧ eval cfg (body i vals) wh = some (o, wr) ∧ w'.trace = wr.trace := by
  obtain ⟨o1, w1, s, ss, h1, _, h2, h3, h4, h5, h6⟩ := attempt_ptr (deduce_nodup cfg specs) hp.2.1 hw (noDa_push fun h => noDa_of (hda h))
  cases hf : failure o1 w1 with
  | none =>
    cases o1 with
    | val v =>
      obtain ⟨w', e1, e2, _⟩ := C19_handle_all hp hw hda h1 h4
      exact ⟨.val v, w', .val v, w1, s, ss, e1, by simp, h1, h4, by rw [hf]; exact ⟨rfl, e2⟩⟩
    | err r => simp [failure] at hf
    | exc e => simp [failure] at hf
  | some p =>
    obtain ⟨id, ex, hnd⟩ := p
    obtain ⟨i, hd, vals, wh, o, wr, w', e1, e2, e3, e4, e5, e6, e7, e8⟩ := C15_handle_all hp hw hda h1 h4 hf
    refine ⟨o, w', o1, w1, s, ss, e6, ?_, h1, h4, ?_⟩
    · exact eval_noErr cfg (.handleAll specs block body) trivial w o w' e6
    · rw [hf]; exact ⟨i, hd, vals, wh, wr, e1, e2, e3, e4, e5, e7⟩

end

/-! ## The hypotheses can be met -/

theorem exists_of_map {α β : Type} {x : Option (α × World PtrStore)} {a : α} {f : World PtrStore → β} {b : β}
    (h : x.map (fun p => (p.1, f p.2)) = some (a, b)) : ∃ w1, x = some (a, w1) ∧ f w1 = b := by
  cases x with
  | none => simp at h
  | some p =>
    simp only [Option.map_some, Option.some.injEq, Prod.mk.injEq] at h
    exact ⟨p.2, by rw [← h.1], h.2⟩

/-- Reports an error with two objects. -/
def exFail : Prog := .newError [.obj 10 1, .obj 11 2] (fun id => .ret (.err (.plain id)))
/-- Throws, with two objects. -/
def exThrow : Prog := .newError [.obj 10 1, .obj 11 2] (fun id => .ret (.exc ⟨0, true, .base id, [(20, 7)], true⟩))
/-- The second handler matches. -/
def exSpecs : List (List Arg) := [[.req 12], [.pred 10 (· == 1), .ptr 11], []]
/-- No handler matches. -/
def exSpecs' : List (List Arg) := [[.req 12], [.pred 10 (· == 3), .ptr 11]]
/-- Handlers return a new error, with an object. -/
def exBody : Nat → List ArgVal → Prog := fun _ _ => .newError [.obj 11 5] (fun id => .ret (.err (.plain id)))

theorem exFail_wf (da : Bool) : exFail.WF exCfg da := ⟨by simp [Item.Ok], fun _ _ => trivial⟩
theorem exThrow_wf (da : Bool) : exThrow.WF exCfg da := ⟨by simp [Item.Ok], fun _ h => h⟩
theorem exBody_wf (da : Bool) (i : Nat) (args : List ArgVal) : (exBody i args).WF exCfg da := ⟨by simp [Item.Ok], fun _ _ => trivial⟩

/-- Hypotheses of `C15_handle_some_result`. -/
example : (Prog.handleSome exSpecs exFail exBody).WF exCfg false ∧ ThreadOk (initThread 1#32) ∧ NoCapturingScope (initThread 1#32) ∧
    ∃ w1, attempt exCfg (deduce exCfg exSpecs) (eval exCfg exFail) (initThread 1#32) = some (.err (.plain 5#32), w1) ∧
      scopes w1 = [[.obj 12 none, .obj 10 (some (5#32, 1)), .obj 11 (some (5#32, 2))]] ∧
      FirstSuitable [.obj 12 none, .obj 10 (some (5#32, 1)), .obj 11 (some (5#32, 2))] 5#32 none exSpecs 1 := by
  refine ⟨⟨exFail_wf _, fun i args _ => exBody_wf _ i args⟩, threadOk_init (by decide), by intro c hc; simp [initThread, PtrStore.empty] at hc, ?_⟩
  obtain ⟨w1, h1, h2⟩ := exists_of_map (f := scopes) (x := attempt exCfg (deduce exCfg exSpecs) (eval exCfg exFail) (initThread 1#32))
    (a := .err (.plain 5#32)) (b := [[.obj 12 none, .obj 10 (some (5#32, 1)), .obj 11 (some (5#32, 2))]]) (by decide +kernel)
  refine ⟨w1, h1, h2, ?_⟩
  exact (findIdx_iff (cfg := exCfg) ⟨by decide, by intro ty _; rfl⟩ (by decide) none exSpecs 1).mp (by decide)

/-- Hypotheses of `C20_unhandled_result`, with an enclosing scope. -/
example : ∃ w w1, ThreadOk w ∧ (Prog.handleSome exSpecs' exFail exBody).WF exCfg true ∧ 
    attempt exCfg (deduce exCfg exSpecs') (eval exCfg exFail) w = some (.err (.plain 5#32), w1) ∧
      scopes w1 = [[.obj 12 none, .obj 10 (some (5#32, 1)), .obj 11 (some (5#32, 2))], [.obj 10 none]] ∧
      ∀ hd ∈ exSpecs', ¬ Suitable [.obj 12 none, .obj 10 (some (5#32, 1)), .obj 11 (some (5#32, 2))] 5#32 none hd := by
  obtain ⟨w, hp, h2, h3⟩ := threadOk_push (threadOk_init (c := 1#32) (by decide)) (spec := [.obj 10]) (by decide)
  obtain ⟨w1, h4, h5⟩ := exists_of_map (f := scopes)
    (x := (pushCtx [.obj 10] >>= fun _ => attempt exCfg (deduce exCfg exSpecs') (eval exCfg exFail)) (initThread 1#32))
    (a := .err (.plain 5#32)) (b := [[.obj 12 none, .obj 10 (some (5#32, 1)), .obj 11 (some (5#32, 2))], [.obj 10 none]]) (by decide +kernel)
  rw [bind_apply, hp, Option.bind_some] at h4
  refine ⟨w, w1, h2, ⟨exFail_wf _, fun i args _ => exBody_wf _ i args⟩, h4, h5, ?_⟩
  exact (findIdx_none_iff (cfg := exCfg) ⟨by decide, by intro ty _; rfl⟩ (by decide) none exSpecs').mp (by decide)

/-- Hypotheses of `C15_try_catch` and, with an exception, of `C15_handle_all`. -/
example : ∃ w1, (Prog.tryCatch exSpecs exThrow exBody).WF exCfg false ∧ 
    attemptRaw (deduce exCfg exSpecs) (eval exCfg exThrow) (initThread 1#32) = some (.exc ⟨0, true, .base 5#32, [(20, 7)], true⟩, w1) ∧
      scopes w1 = [[.obj 12 none, .obj 10 (some (5#32, 1)), .obj 11 (some (5#32, 2))]] ∧
      FirstSuitable [.obj 12 none, .obj 10 (some (5#32, 1)), .obj 11 (some (5#32, 2))] 5#32 (some ⟨0, true, .base 5#32, [(20, 7)], false⟩) exSpecs 1 := by
  obtain ⟨w1, h1, h2⟩ := exists_of_map (f := scopes) (x := attemptRaw (deduce exCfg exSpecs) (eval exCfg exThrow) (initThread 1#32))
    (a := .exc ⟨0, true, .base 5#32, [(20, 7)], true⟩) (b := [[.obj 12 none, .obj 10 (some (5#32, 1)), .obj 11 (some (5#32, 2))]]) (by decide +kernel)
  refine ⟨w1, ⟨exThrow_wf _, fun i args _ => exBody_wf _ i args⟩, h1, h2, ?_⟩
  exact (findIdx_iff (cfg := exCfg) ⟨by decide, by intro ty _; rfl⟩ (by decide) _ exSpecs 1).mp (by decide)

/-- Hypotheses of `C18_always_handled`. -/
example : (Prog.handleAll exSpecs exThrow (fun i _ => .ret (.val i))).WF exCfg false :=
  ⟨⟨[[.req 12], [.pred 10 (· == 1), .ptr 11]], [], rfl, rfl⟩, exThrow_wf _, fun _ _ _ => ⟨trivial, by intro r; simp⟩⟩

/-- The outcome, the scopes left and the trace of a program run in a fresh thread. -/
def runFresh (cfg : Cfg) (p : Prog) : Option (Out × List Scope × List Event) :=
  ((eval cfg p : Comp PtrStore Out) (initThread 1#32)).map fun r => (r.1, scopes r.2, r.2.trace)

/-- An error not handled by the inner scope, handled by the outer one. -/
example : runFresh exCfg (.handleAll [[.req 11, .ptr 12], []] (.handleSome exSpecs' exFail exBody) (fun i _ => .ret (.val i))) =
    some (.val 0, [], [.handled 5#32 none 0 [.obj 11 2, .ptr 12 none], .offered 5#32 11 2, .offered 5#32 10 1, .gen 5#32]) := by
  decide +kernel

/-- The inner scope's handler replaces the error: the object of type 10 of the first error is not seen by the outer one. -/
example : runFresh exCfg (.handleAll [[.req 11, .ptr 10], []] (.handleSome exSpecs exFail exBody) (fun i _ => .ret (.val i))) =
    some (.val 0, [], [.handled 9#32 none 0 [.obj 11 5, .ptr 10 none], .offered 9#32 11 5, .gen 9#32,
      .handled 5#32 none 1 [.obj 10 1, .ptr 11 (some 2)], .offered 5#32 11 2, .offered 5#32 10 1, .gen 5#32]) := by
  decide +kernel

end Leaf
