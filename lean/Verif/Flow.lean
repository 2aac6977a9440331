import Verif.PropHandlers

/-!
# Error handling scopes step by step

Equations for `tryHandleAll`, `tryHandleSome`, `tryCatch`, `tryCaptureAll` on any storage, and the effect of the primitive steps on
pointer-level storage.
-/

namespace Leaf

section
variable {M : Type} [Store M]

/-- Enter a scope with the given slots, run the block, and unload the result it returns (this does nothing unless the result was captured).
The scope is still active. -/
def attempt (cfg : Cfg) (slots : List CellTy) (block : Comp M Out) : Comp M Out := do
  pushCtx slots
  unloadOut cfg (← block)

/-- The same without unloading (`try_catch`, `try_capture_all`). -/
def attemptRaw (slots : List CellTy) (block : Comp M Out) : Comp M Out := do
  pushCtx slots
  block

theorem attempt_of_raw {cfg : Cfg} {slots : List CellTy} {block : Comp M Out} {w w1 : World M} {o : Out} (h : attemptRaw slots block w = some (o, w1)) :
    attempt cfg slots block w = unloadOut cfg o w1 := by
  unfold attemptRaw at h
  unfold attempt
  rw [bind_apply] at h ⊢
  cases h0 : pushCtx slots w with
  | none => simp [h0] at h
  | some p =>
    simp only [h0, Option.bind_some] at h ⊢
    rw [bind_apply, h]
    rfl

variable {cfg : Cfg} {specs : List (List Arg)} {block : Comp M Out} {body : Nat → List ArgVal → Comp M Out}
  {w w0 w1 w2 w3 w4 w5 w6 : World M} {cells : List CtxCell} {v : Val} {r r' : ErrRes} {e e' : Exc} {o : Out}

/-! ### Unloading keeps the current id -/

theorem slotGet_world {ty : Ty} {x : Option Cell} (h : slotGet ty w = some (x, w1)) : w1 = w := by
  unfold slotGet at h
  cases hs : Store.slotGet ty w.mem with
  | none => simp [hs] at h
  | some y => simp [hs] at h; exact h.2.symm

theorem slotSet_cur {ty : Ty} {id : Id} (h : slotSet ty id v w = some ((), w1)) : w1.cur = w.cur := by
  unfold slotSet at h
  cases hs : Store.slotSet ty id v w.mem with
  | none => simp [hs] at h
  | some y => simp [hs] at h; rw [← h]

theorem daReset_cur {id : Id} (h : daReset id w = some ((), w1)) : w1.cur = w.cur := by
  unfold daReset at h
  cases hs : Store.daReset id w.mem with
  | none => simp [hs] at h
  | some y => simp [hs] at h; rw [← h]

theorem daAppend_cur {ty : Ty} {id : Id} (h : daAppend ty id v w = some ((), w1)) : w1.cur = w.cur := by
  unfold daAppend at h
  cases hs : Store.daAppend ty id v w.mem with
  | none => simp [hs] at h
  | some y => simp [hs] at h; rw [← h]

theorem dynamicLoad_cur {ty : Ty} {id : Id} (h : dynamicLoad id ty v w = some ((), w1)) : w1.cur = w.cur := by
  unfold dynamicLoad daKey at h
  rw [bind_apply] at h
  cases hs : Store.daKey w.mem with
  | none => simp [hs] at h
  | some y =>
    rw [hs, Option.map_some, Option.bind_some] at h
    cases y with
    | none => simp [pure_apply] at h; rw [← h]
    | some k =>
      simp only at h
      split at h
      · exact daAppend_cur h
      · rw [bind_apply] at h
        cases hr : daReset id w with
        | none => simp [hr] at h
        | some p =>
          rw [hr, Option.bind_some] at h
          rw [daAppend_cur h, daReset_cur hr]

theorem slotUnload_cur {ty : Ty} {id : Id} {c : Cell} (h : slotUnload cfg id ty c w = some ((), w1)) : w1.cur = w.cur := by
  unfold slotUnload at h
  split at h
  · rw [bind_apply, ub_apply] at h; simp at h
  · cases hc : c.hasValue id with
    | none => simp only [hc, pure_apply, Option.some.injEq, Prod.mk.injEq, true_and] at h; rw [← h]
    | some v =>
      simp only [hc] at h
      rw [bind_apply] at h
      cases hg : slotGet ty w with
      | none => simp [hg] at h
      | some p =>
        obtain ⟨x, w'⟩ := p
        have := slotGet_world hg
        subst this
        rw [hg, Option.bind_some] at h
        cases x with
        | none =>
          simp only at h
          split at h
          · exact dynamicLoad_cur h
          · simp only [pure_apply, Option.some.injEq, Prod.mk.injEq, true_and] at h; rw [← h]
        | some q =>
          simp only at h
          split at h
          · exact slotSet_cur h
          · simp only [pure_apply, Option.some.injEq, Prod.mk.injEq, true_and] at h; rw [← h]

theorem unloadNodes_cur {id : Id} {ns : List CapNode} {x : Option Exc} (h : unloadNodes cfg id ns w = some (x, w1)) : w1.cur = w.cur := by
  induction ns generalizing w with
  | nil => simp only [unloadNodes, pure_apply, Option.some.injEq, Prod.mk.injEq] at h; rw [← h.2]
  | cons n ns ih =>
    cases n with
    | exc e => simp only [unloadNodes, pure_apply, Option.some.injEq, Prod.mk.injEq] at h; rw [← h.2]
    | obj ty c =>
      simp only [unloadNodes] at h
      have key : ∀ w0 : World M, w0.cur = w.cur → (slotUnload cfg id ty c >>= fun _ => unloadNodes cfg id ns) w0 = some (x, w1) → w1.cur = w.cur := by
        intro w0 h0 h
        rw [bind_apply] at h
        cases hs : slotUnload cfg id ty c w0 with
        | none => simp [hs] at h
        | some p =>
          rw [hs, Option.bind_some] at h
          rw [ih h, slotUnload_cur hs, h0]
      cases hc : c.hasValue id with
      | none => simp only [hc] at h; exact key w rfl h
      | some v => simp only [hc] at h; exact key { w with trace := .transported id ty v :: w.trace } rfl h

/-- Unloading a result that is already unloaded changes nothing. -/
theorem resultUnload_again (h : resultUnload cfg r w = some (.err r', w1)) : resultUnload cfg r' w1 = some (.err r', w1) ∧ r'.errId = r.errId := by
  cases r with
  | plain id =>
    simp only [resultUnload, pure_apply, Option.some.injEq, Prod.mk.injEq, Out.err.injEq] at h
    obtain ⟨rfl, rfl⟩ := h
    exact ⟨rfl, rfl⟩
  | captured id ns =>
    simp only [resultUnload, bind_apply, setCur, Option.bind_some] at h
    cases hn : unloadNodes cfg (ErrRes.captured id ns).errId ns { w with cur := (ErrRes.captured id ns).errId } with
    | none => simp [hn] at h
    | some p =>
      obtain ⟨x, w'⟩ := p
      rw [hn, Option.bind_some] at h
      cases x with
      | some e => simp [pure_apply] at h
      | none =>
        simp only [pure_apply, Option.some.injEq, Prod.mk.injEq, Out.err.injEq] at h
        obtain ⟨rfl, rfl⟩ := h
        have hcur := unloadNodes_cur hn
        refine ⟨?_, rfl⟩
        show some (Out.err (.captured id []), { w' with cur := _ }) = _
        congr 2
        have : w'.cur = (ErrRes.captured id []).errId := hcur
        rw [← this]

theorem attempt_err (h : attempt cfg (deduce cfg specs) block w = some (.err r, w1)) : resultUnload cfg r w1 = some (.err r, w1) := by
  unfold attempt at h
  rw [bind_apply] at h
  cases h0 : pushCtx (deduce cfg specs) w with
  | none => simp [h0] at h
  | some p =>
    rw [h0, Option.bind_some, bind_apply] at h
    cases h1 : block p.2 with
    | none => simp [h1] at h
    | some q =>
      rw [h1, Option.bind_some] at h
      obtain ⟨o, w'⟩ := q
      cases o with
      | val v => simp [unloadOut, pure_apply] at h
      | exc v => simp [unloadOut, pure_apply] at h
      | err r0 =>
        have := resultUnload_again (r := r0) (w := w') (r' := r) (w1 := w1) h
        exact this.1

/-! ### The scopes -/

/-- `try_handle_all` is `attempt` followed by this. -/
def afterAll (cfg : Cfg) (specs : List (List Arg)) (body : Nat → List ArgVal → Comp M Out) (o : Out) : Comp M Out :=
  match o with
  | .val v => do
    let _ ← popCtx
    return .val v
  | .err r => do
    let _ ← resultUnload cfg r
    let cells ← popCtx
    let loc ← ctxLoc r.errId cells
    match selectAll cfg cells r.errId none specs with
    | some i => noErr (← callHandler cfg specs body cells r.errId none loc i)
    | none => ub
  | .exc e => do
    let (o, _) ← catchPath cfg specs body e
    noErr o

def afterSome (cfg : Cfg) (specs : List (List Arg)) (body : Nat → List ArgVal → Comp M Out) (o : Out) : Comp M Out :=
  match o with
  | .val v => do
    let _ ← popCtx
    return .val v
  | .err r => do
    let _ ← resultUnload cfg r
    let cells ← popCtx
    let loc ← ctxLoc r.errId cells
    let rr ← match selectSome cfg cells r.errId none specs with
      | some i => callHandler cfg specs body cells r.errId none loc i
      | none => pure (.err r)
    match rr with
    | .err r' => unloadCells cfg r'.errId cells
    | _ => pure ()
    return rr
  | .exc e => do
    let (o, cells) ← catchPath cfg specs body e
    match o with
    | .err r' => unloadCells cfg r'.errId cells
    | _ => pure ()
    return o

theorem tryHandleAll_eq (h : attempt cfg (deduce cfg specs) block w = some (o, w1)) :
    tryHandleAll cfg specs block body w = afterAll cfg specs body o w1 := by
  have : tryHandleAll cfg specs block body w = (attempt cfg (deduce cfg specs) block >>= afterAll cfg specs body) w := by
    unfold tryHandleAll attempt
    simp only [bind_apply]
    cases pushCtx (deduce cfg specs) w with
    | none => rfl
    | some p =>
      simp only [Option.bind_some]
      cases block p.2 with
      | none => rfl
      | some q => rfl
  rw [this, bind_apply, h]
  rfl

theorem tryHandleSome_eq (h : attempt cfg (deduce cfg specs) block w = some (o, w1)) :
    tryHandleSome cfg specs block body w = afterSome cfg specs body o w1 := by
  have : tryHandleSome cfg specs block body w = (attempt cfg (deduce cfg specs) block >>= afterSome cfg specs body) w := by
    unfold tryHandleSome attempt
    simp only [bind_apply]
    cases pushCtx (deduce cfg specs) w with
    | none => rfl
    | some p =>
      simp only [Option.bind_some]
      cases block p.2 with
      | none => rfl
      | some q => rfl
  rw [this, bind_apply, h]
  rfl

theorem handleSome_val (h : attempt cfg (deduce cfg specs) block w = some (.val v, w1)) (h2 : popCtx w1 = some (cells, w2)) :
    tryHandleSome cfg specs block body w = some (.val v, w2) := by
  rw [tryHandleSome_eq h]
  simp only [afterSome, bind_apply, h2]
  rfl

theorem handleAll_val (h : attempt cfg (deduce cfg specs) block w = some (.val v, w1)) (h2 : popCtx w1 = some (cells, w2)) :
    tryHandleAll cfg specs block body w = some (.val v, w2) := by
  rw [tryHandleAll_eq h]
  simp only [afterAll, bind_apply, h2]
  rfl

theorem tryCatch_val (h : attemptRaw (deduce cfg specs) block w = some (o, w1)) (ho : ∀ e, o ≠ .exc e)
    (h2 : popCtx w1 = some (cells, w2)) : tryCatch cfg specs block body w = some (o, w2) := by
  unfold attemptRaw at h
  unfold tryCatch
  rw [bind_apply] at h ⊢
  cases h0 : pushCtx (deduce cfg specs) w with
  | none => simp [h0] at h
  | some p =>
    simp only [h0, Option.bind_some] at h ⊢
    rw [bind_apply, h, Option.bind_some]
    cases o with
    | val v => simp only [bind_apply, h2]; rfl
    | err r => simp only [bind_apply, h2]; rfl
    | exc e => exact absurd rfl (ho e)

theorem captureAll_val (hc : cfg.capture = true) (h : attemptRaw [.da] block w = some (.val v, w1))
    (h2 : popCtx w1 = some (cells, w2)) : tryCaptureAll cfg block w = some (.val v, w2) := by
  unfold attemptRaw at h
  unfold tryCaptureAll
  simp only [hc, Bool.not_true]
  show (pushCtx [.da] >>= _) w = _
  rw [bind_apply] at h ⊢
  cases h0 : pushCtx [.da] w with
  | none => simp [h0] at h
  | some p =>
    simp only [h0, Option.bind_some] at h ⊢
    rw [bind_apply, h, Option.bind_some]
    simp only [bind_apply, h2]
    rfl

theorem handleSome_err_none (h : attempt cfg (deduce cfg specs) block w = some (.err r, w1))
    (h3 : popCtx w1 = some (cells, w3))
    {loc : Option Val} (hl : ctxLoc r.errId cells w3 = some (loc, w3))
    (hs : selectSome cfg cells r.errId none specs = none) (h4 : unloadCells cfg r.errId cells w3 = some ((), w4)) :
    tryHandleSome cfg specs block body w = some (.err r, w4) := by
  rw [tryHandleSome_eq h]
  simp only [afterSome]
  rw [bind_apply, attempt_err h, Option.bind_some, bind_apply, h3, Option.bind_some, bind_apply]
  simp only [hl, Option.bind_some]
  rw [hs]
  simp only [bind_apply, pure_apply, Option.bind_some, h4]

omit [Store M] in
theorem callHandler_eq {args : List Arg} {id : Id} {ex : Option Exc} {loc : Option Val} {i : Nat} {vals : List ArgVal} (hi : specs[i]? = some args)
    (hg : getArgs cfg cells id ex loc args = some vals) :
    callHandler cfg specs body cells id ex loc i w = body i vals { w with trace := .handled id ex i vals :: w.trace } := by
  unfold callHandler
  simp only [hi, hg]
  rfl

theorem handleSome_err_some (h : attempt cfg (deduce cfg specs) block w = some (.err r, w1))
    (h3 : popCtx w1 = some (cells, w3))
    {loc : Option Val} (hl : ctxLoc r.errId cells w3 = some (loc, w3)) {i : Nat}
    (hs : selectSome cfg cells r.errId none specs = some i) {args : List Arg} {vals : List ArgVal} (hi : specs[i]? = some args)
    (hg : getArgs cfg cells r.errId none loc args = some vals)
    (h4 : body i vals { w3 with trace := .handled r.errId none i vals :: w3.trace } = some (o, w4))
    (h5 : (match o with | .err r2 => unloadCells cfg r2.errId cells | _ => pure ()) w4 = some ((), w5)) :
    tryHandleSome cfg specs block body w = some (o, w5) := by
  rw [tryHandleSome_eq h]
  simp only [afterSome]
  rw [bind_apply, attempt_err h, Option.bind_some, bind_apply, h3, Option.bind_some, bind_apply]
  simp only [hl, Option.bind_some]
  rw [hs]
  simp only [bind_apply]
  rw [callHandler_eq hi hg, h4, Option.bind_some]
  cases o with
  | val v => simp only [pure_apply, Option.some.injEq, Prod.mk.injEq, true_and] at h5; subst h5; rfl
  | exc v => simp only [pure_apply, Option.some.injEq, Prod.mk.injEq, true_and] at h5; subst h5; rfl
  | err r2 => simp only at h5; simp only [bind_apply, h5]; rfl

theorem handleAll_err (h : attempt cfg (deduce cfg specs) block w = some (.err r, w1))
    (h3 : popCtx w1 = some (cells, w3))
    {loc : Option Val} (hl : ctxLoc r.errId cells w3 = some (loc, w3)) {i : Nat}
    (hs : selectAll cfg cells r.errId none specs = some i) {args : List Arg} {vals : List ArgVal} (hi : specs[i]? = some args)
    (hg : getArgs cfg cells r.errId none loc args = some vals)
    (h4 : body i vals { w3 with trace := .handled r.errId none i vals :: w3.trace } = some (o, w4)) (ho : ∀ r, o ≠ .err r) :
    tryHandleAll cfg specs block body w = some (o, w4) := by
  rw [tryHandleAll_eq h]
  simp only [afterAll]
  rw [bind_apply, attempt_err h, Option.bind_some, bind_apply, h3, Option.bind_some, bind_apply]
  simp only [hl, Option.bind_some]
  rw [hs]
  simp only [bind_apply]
  rw [callHandler_eq hi hg, h4, Option.bind_some]
  cases o with
  | val v => rfl
  | exc v => rfl
  | err r2 => exact absurd rfl (ho r2)

/-- The exception passed to handlers as `error_info::exception()`. -/
def shown (e : Exc) : Option Exc := if e.isStd then some e else none

theorem catchPath_none {id : Id} (h3 : popCtx w2 = some (cells, w3)) (hu : unpackId e w3 = some ((id, e'), w3))
    {loc : Option Val} (hl : ctxLoc id cells { w3 with handling := e' :: w3.handling } = some (loc, { w3 with handling := e' :: w3.handling }))
    (hs : selectSome cfg cells id (shown e') specs = none)
    (h4 : unloadCells cfg id cells { w3 with handling := e' :: w3.handling } = some ((), w4)) :
    catchPath cfg specs body e w2 = some ((.exc e', cells), { w4 with handling := w4.handling.tail }) := by
  unfold shown at hs
  unfold catchPath
  rw [bind_apply, h3, Option.bind_some, bind_apply, hu, Option.bind_some]
  simp only [bind_apply, pushHandling, Option.bind_some, hl, hs, h4, popHandling]
  rfl

theorem catchPath_some {id : Id} (h3 : popCtx w2 = some (cells, w3)) (hu : unpackId e w3 = some ((id, e'), w3))
    {loc : Option Val} (hl : ctxLoc id cells { w3 with handling := e' :: w3.handling } = some (loc, { w3 with handling := e' :: w3.handling })) {i : Nat}
    (hs : selectSome cfg cells id (shown e') specs = some i) {args : List Arg} {vals : List ArgVal} (hi : specs[i]? = some args)
    (hg : getArgs cfg cells id (shown e') loc args = some vals)
    (h4 : body i vals { w3 with handling := e' :: w3.handling, trace := .handled id (shown e') i vals :: w3.trace } = some (o, w4))
    (h5 : destroyExc e' { w4 with handling := w4.handling.tail } = some ((), w5)) :
    catchPath cfg specs body e w2 = some ((o, cells), w5) := by
  unfold catchPath
  rw [bind_apply, h3, Option.bind_some, bind_apply, hu, Option.bind_some]
  simp only [bind_apply, pushHandling, Option.bind_some, hl]
  unfold shown at hs hg h4
  rw [hs]
  simp only [bind_apply]
  rw [callHandler_eq hi hg, h4, Option.bind_some]
  simp only [popHandling, Option.bind_some, h5]
  rfl

theorem handleSome_exc (h : attempt cfg (deduce cfg specs) block w = some (.exc e, w1))
    (h3 : catchPath cfg specs body e w1 = some ((o, cells), w3))
    (h5 : (match o with | .err r2 => unloadCells cfg r2.errId cells | _ => pure ()) w3 = some ((), w4)) :
    tryHandleSome cfg specs block body w = some (o, w4) := by
  rw [tryHandleSome_eq h]
  simp only [afterSome]
  rw [bind_apply, h3, Option.bind_some]
  cases o with
  | val v => simp only [pure_apply, Option.some.injEq, Prod.mk.injEq, true_and] at h5; subst h5; rfl
  | exc v => simp only [pure_apply, Option.some.injEq, Prod.mk.injEq, true_and] at h5; subst h5; rfl
  | err r2 => simp only at h5; simp only [bind_apply, h5]; rfl

theorem handleAll_exc (h : attempt cfg (deduce cfg specs) block w = some (.exc e, w1))
    (h3 : catchPath cfg specs body e w1 = some ((o, cells), w3)) (ho : ∀ r, o ≠ .err r) :
    tryHandleAll cfg specs block body w = some (o, w3) := by
  rw [tryHandleAll_eq h]
  simp only [afterAll]
  rw [bind_apply, h3, Option.bind_some]
  cases o with
  | val v => rfl
  | exc v => rfl
  | err r2 => exact absurd rfl (ho r2)

theorem tryCatch_exc (h : attemptRaw (deduce cfg specs) block w = some (.exc e, w1))
    (h3 : catchPath cfg specs body e w1 = some ((o, cells), w3)) :
    tryCatch cfg specs block body w = some (o, w3) := by
  unfold attemptRaw at h
  unfold tryCatch
  rw [bind_apply] at h ⊢
  cases h0 : pushCtx (deduce cfg specs) w with
  | none => simp [h0] at h
  | some p =>
    simp only [h0, Option.bind_some] at h ⊢
    rw [bind_apply, h, Option.bind_some]
    simp only [bind_apply, h3]
    rfl

end

/-! ## Steps on pointer-level storage -/

theorem popCtx_ptr {w : World PtrStore} (hw : ThreadOk w) {s : Scope} {ss : List Scope} (hs : scopes w = s :: ss) :
    ∃ w', popCtx w = some (s, w') ∧ absW w' = setMem (absW w) ss ∧ ThreadOk w' := by
  have hx : Store.pop (PtrStore.abs w.mem) = some (s, ⟨ss⟩) := by
    have : (PtrStore.abs w.mem).frames = s :: ss := hs
    simp [Store.pop, this]
  obtain ⟨m', h1, h2, h3⟩ := PtrStore.pop_ok hw.inv hx
  have ha : absW { w with mem := m' } = setMem (absW w) ss := by simp [absW, setMem, h2]
  refine ⟨{ w with mem := m' }, ?_, ha, ⟨h3, ?_⟩⟩
  · unfold popCtx
    show Option.map _ (PtrStore.pop w.mem) = _
    rw [h1]; rfl
  · rw [ha]
    refine ⟨hw.good.1, hw.good.2, hw.good.3, fun f hf => hw.good.4 f ?_⟩
    have : (absW w).mem.frames = s :: ss := hs
    rw [this]
    exact List.mem_cons_of_mem _ hf

/-- A computation that is defined on the abstract storage, run on pointers. -/
theorem tot_ptr {α : Type} {x : Comp PtrStore α} {y : Comp AbsStore α} (h : Sim 0 0 x y) {s : List (List CellTy)} {Q : α → Prop} (ht : Tot s s y Q)
    {w : World PtrStore} (hw : ThreadOk w) (hs : shape (scopes w) = s) :
    ∃ a w', x w = some (a, w') ∧ y (absW w) = some (a, absW w') ∧ ThreadOk w' ∧ shape (scopes w') = s ∧ Q a := by
  obtain ⟨a, v, h1, h2, h3, h4⟩ := ht (absW w) hw.good hs
  obtain ⟨w', e1, e2, e3⟩ := run_abs h hw h1 h2
  exact ⟨a, w', e1, e2 ▸ h1, e3, by unfold scopes; rw [e2]; exact h3, h4⟩

/-- What running a well-formed program does on pointers, it does on the abstract storage. -/
theorem eval_abs {cfg : Cfg} {p : Prog} {da : Bool} (hp : p.WF cfg da) {w : World PtrStore} (hw : ThreadOk w)
    (hda : da = false → NoCapturingScope w) {o : Out} {w' : World PtrStore} (h : eval cfg p w = some (o, w')) :
    eval cfg p (absW w) = some (o, absW w') ∧ ThreadOk w' ∧ o.Ok ∧ shape (scopes w') = shape (scopes w) := by
  obtain ⟨o2, w2, e1, e2, e3, e4, e5⟩ := tot_ptr (sim_eval (n := 0) cfg p) (tot_eval cfg p hp _ (fun h => noDa_of (hda h))) hw rfl
  rw [h] at e1
  simp only [Option.some.injEq, Prod.mk.injEq] at e1
  obtain ⟨rfl, rfl⟩ := e1
  exact ⟨e2, e3, e5, e4⟩

/-- A well-formed program runs without undefined behaviour. -/
theorem eval_total {cfg : Cfg} {p : Prog} {da : Bool} (hp : p.WF cfg da) {w : World PtrStore} (hw : ThreadOk w)
    (hda : da = false → NoCapturingScope w) : ∃ o w', eval cfg p w = some (o, w') := by
  obtain ⟨o2, w2, e1, _⟩ := tot_ptr (sim_eval (n := 0) cfg p) (tot_eval cfg p hp _ (fun h => noDa_of (hda h))) hw rfl
  exact ⟨o2, w2, e1⟩

/-- In terms of scopes. -/
theorem noCapturing_iff (w : World PtrStore) : NoCapturingScope w ↔ NoDa (shape (scopes w)) := by
  constructor
  · exact noDa_of
  · intro h c hc d hd
    refine h (c.map fun x => (PtrStore.absCell w.mem.mem w.mem.dmem x).cellTy) ?_ ?_
    · simp only [scopes, absW, PtrStore.abs, PtrStore.absFrames, shape, List.map_map, List.mem_map, Function.comp]
      refine ⟨c, hc, ?_⟩
      simp [PtrStore.absFrame, List.map_map, Function.comp_def]
    · simp only [List.mem_map]
      exact ⟨PCell.da d, hd, rfl⟩

end Leaf
