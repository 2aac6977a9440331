import Verif.RenameLemmas

/-!
# Every program does the same with renamed ids
-/

namespace Leaf
namespace Small

section
variable {ρ : Ren}

theorem eqv_ub {α : Type} [HasRen α] : Eqv ρ (ub : Act α) ub := .ub
theorem eqv_emit {e e' : Event} {he : e.isGen = false} {he' : e'.isGen = false} (h : ren ρ e = e') : Eqv ρ (emit e he) (emit e' he') := by
  subst h; exact .op (.emit e he) _ _ (fun r => .ret r)
theorem eqv_getCur : Eqv ρ getCur getCur := .op .getCur _ _ (fun r => Eqv.ret (α := Id) r)
theorem eqv_setCur (id : Id) : Eqv ρ (setCur id) (setCur (ren ρ id)) := .op (.setCur id) _ _ (fun r => .ret r)
theorem eqv_pushHandling (e : Exc) : Eqv ρ (pushHandling e) (pushHandling (ren ρ e)) := .op (.pushHandling e) _ _ (fun r => .ret r)
theorem eqv_popHandling : Eqv ρ popHandling popHandling := .op .popHandling _ _ (fun r => .ret r)
theorem eqv_currentException : Eqv ρ currentException currentException := .op .currentException _ _ (fun r => Eqv.ret (α := Option Exc) r)
theorem eqv_slotGet (ty : Ty) : Eqv ρ (slotGet ty) (slotGet ty) := .op (.slotGet ty) _ _ (fun r => Eqv.ret (α := Option Cell) r)
theorem eqv_slotSet (ty : Ty) (id : Id) (v : Val) : Eqv ρ (slotSet ty id v) (slotSet ty (ren ρ id) v) := .op (.slotSet ty id v) _ _ (fun r => .ret r)
theorem eqv_daKey : Eqv ρ daKey daKey := .op .daKey _ _ (fun r => Eqv.ret (α := Option Id) r)
theorem eqv_daReset (id : Id) : Eqv ρ (daReset id) (daReset (ren ρ id)) := .op (.daReset id) _ _ (fun r => .ret r)
theorem eqv_daAppend (ty : Ty) (id : Id) (v : Val) : Eqv ρ (daAppend ty id v) (daAppend ty (ren ρ id) v) := .op (.daAppend ty id v) _ _ (fun r => .ret r)
theorem eqv_pushCtx (spec : List CellTy) : Eqv ρ (pushCtx spec) (pushCtx spec) := .op (.pushCtx spec) _ _ (fun r => .ret r)
theorem eqv_popCtx : Eqv ρ popCtx popCtx := .op .popCtx _ _ (fun r => Eqv.ret (α := List CtxCell) r)
theorem eqv_pure {α : Type} [HasRen α] (a : α) : Eqv ρ (pure a) (pure (ren ρ a)) := .ret a

theorem eqv_newId (cfg : Cfg) : Eqv ρ (newId cfg) (newId cfg) := by
  unfold newId
  refine .bind (.op .gen _ _ (fun r => Eqv.ret (α := Id) r)) (fun id => ?_)
  refine .bind (eqv_setCur id) (fun _ => ?_)
  exact eqv_pure id

theorem eqv_currentId : Eqv ρ currentId currentId := by
  unfold currentId
  exact .bind eqv_getCur (fun id => .ite (by simp) (eqv_pure id) eqv_ub)

theorem eqv_assertTagged (id : Id) : Eqv ρ (assertTagged id) (assertTagged (ren ρ id)) := by
  unfold assertTagged
  exact .ite (by simp) (eqv_pure ()) eqv_ub

theorem eqv_currentError : Eqv ρ currentError currentError := by
  unfold currentError
  exact .bind eqv_currentId (fun id => .pure' (by simp))

theorem eqv_dynamicLoad (id : Id) (ty : Ty) (v : Val) : Eqv ρ (dynamicLoad id ty v) (dynamicLoad (ren ρ id) ty v) := by
  unfold dynamicLoad
  refine .bind eqv_daKey (fun k => ?_)
  cases k with
  | none => exact eqv_pure ()
  | some k =>
    refine .ite (by simp) (eqv_daAppend ty id v) ?_
    exact .bind (eqv_daReset id) (fun _ => eqv_daAppend ty id v)

theorem eqv_dynamicAccumulate (cfg : Cfg) (id : Id) (ty : Ty) (tag : Nat) (f : Val → Val) :
    Eqv ρ (dynamicAccumulate cfg id ty tag f) (dynamicAccumulate cfg (ren ρ id) ty tag f) := by
  unfold dynamicAccumulate
  refine .bind eqv_daKey (fun k => ?_)
  cases k with
  | none => exact eqv_pure ()
  | some k =>
    have h : Eqv ρ (do emit (.called tag); emit (.offered id ty (f (cfg.dflt ty))))
        (do emit (.called tag); emit (.offered (ren ρ id) ty (f (cfg.dflt ty)))) :=
      .bind (eqv_emit rfl) (fun _ => eqv_emit rfl)
    refine .ite (by simp) (.bind (eqv_daAppend ty id _) (fun _ => h)) ?_
    exact .bind (eqv_daReset id) (fun _ => .bind (eqv_daAppend ty id _) (fun _ => h))

theorem eqv_slotUnload (cfg : Cfg) (id : Id) (ty : Ty) (c : Cell) : Eqv ρ (slotUnload cfg id ty c) (slotUnload cfg (ren ρ id) ty (ren ρ c)) := by
  unfold slotUnload
  refine .ite (by simp) (.bind eqv_ub (fun _ => ?_)) ?_
  all_goals
    rw [ren_hasValue]
    cases c.hasValue id with
    | none => exact eqv_pure ()
    | some v =>
      refine .bind (eqv_slotGet ty) (fun p => ?_)
      cases p with
      | none => exact .ite Iff.rfl (eqv_dynamicLoad id ty v) (eqv_pure ())
      | some p => exact .ite (by rw [ren_hasValue]) (eqv_slotSet ty id v) (eqv_pure ())

theorem eqv_loadSlot (cfg : Cfg) (b : Bool) (id : Id) (ty : Ty) (v : Val) : Eqv ρ (loadSlot cfg b id ty v) (loadSlot cfg b (ren ρ id) ty v) := by
  unfold loadSlot
  refine .bind (eqv_assertTagged id) (fun _ => .bind (eqv_slotGet ty) (fun p => ?_))
  cases p with
  | none => exact .ite Iff.rfl (eqv_dynamicLoad id ty v) (eqv_pure ())
  | some p => exact .ite (by rw [ren_hasValue]) (eqv_slotSet ty id v) (eqv_pure ())

theorem eqv_loadSlotDeferred (cfg : Cfg) (b : Bool) (id : Id) (ty : Ty) (tag : Nat) (v : Val) :
    Eqv ρ (loadSlotDeferred cfg b id ty tag v) (loadSlotDeferred cfg b (ren ρ id) ty tag v) := by
  unfold loadSlotDeferred
  refine .bind (eqv_assertTagged id) (fun _ => .bind (eqv_slotGet ty) (fun p => ?_))
  cases p with
  | none => exact .ite Iff.rfl (.bind (eqv_emit rfl) (fun _ => .bind (eqv_emit rfl) (fun _ => eqv_dynamicLoad id ty v))) (eqv_pure ())
  | some p => exact .ite (by rw [ren_hasValue]) (.bind (eqv_emit rfl) (fun _ => .bind (eqv_emit rfl) (fun _ => eqv_slotSet ty id v))) (eqv_pure ())

theorem eqv_loadSlotAccumulate (cfg : Cfg) (id : Id) (ty : Ty) (tag : Nat) (f : Val → Val) :
    Eqv ρ (loadSlotAccumulate cfg id ty tag f) (loadSlotAccumulate cfg (ren ρ id) ty tag f) := by
  unfold loadSlotAccumulate
  refine .bind (eqv_assertTagged id) (fun _ => .bind (eqv_slotGet ty) (fun p => ?_))
  cases p with
  | none => exact .ite Iff.rfl (eqv_dynamicAccumulate cfg id ty tag f) (eqv_pure ())
  | some p =>
    simp only [ren_some, ren_hasValue]
    exact .bind (eqv_slotSet ty id _) (fun _ => .bind (eqv_emit rfl) (fun _ => eqv_emit rfl))

theorem eqv_loadItem (cfg : Cfg) (b : Bool) (id : Id) (i : Item) : Eqv ρ (loadItem cfg b id i) (loadItem cfg b (ren ρ id) i) := by
  cases i with
  | obj ty v => exact .bind (eqv_emit rfl) (fun _ => eqv_loadSlot cfg b id ty v)
  | deferred ty tag v => exact eqv_loadSlotDeferred cfg b id ty tag v
  | accum ty tag f => exact eqv_loadSlotAccumulate cfg id ty tag f

theorem eqv_loadItems (cfg : Cfg) (b : Bool) (id : Id) (is : List Item) : Eqv ρ (loadItems cfg b id is) (loadItems cfg b (ren ρ id) is) := by
  induction is with
  | nil => exact eqv_pure ()
  | cons i is ih => exact .bind (eqv_loadItem cfg b id i) (fun _ => ih)

theorem eqv_errorIdLoad (cfg : Cfg) (id : Id) (is : List Item) : Eqv ρ (errorIdLoad cfg id is) (errorIdLoad cfg (ren ρ id) is) := by
  unfold errorIdLoad
  exact .ite (by simp) (eqv_loadItems cfg false id is) (eqv_pure ())

theorem eqv_newError (cfg : Cfg) (is : List Item) : Eqv ρ (newError cfg is) (newError cfg is) := by
  unfold newError
  refine .bind (eqv_newId cfg) (fun id => ?_)
  simp only [ren_make]
  exact .bind (eqv_errorIdLoad cfg _ is) (fun _ => eqv_pure _)

theorem eqv_triggerItems (cfg : Cfg) (id : Id) (is : List OnItem) : Eqv ρ (triggerItems cfg id is) (triggerItems cfg (ren ρ id) is) := by
  induction is with
  | nil => exact eqv_pure ()
  | cons i is ih => cases i with
    | item i => exact .bind (eqv_loadItem cfg true id i) (fun _ => ih)
    | action tag => exact .bind (eqv_emit rfl) (fun _ => ih)

theorem ren_import (ec : ErrorCode) : importErrorCode (ren ρ ec) = match importErrorCode ec with
    | .done id => .done (ren ρ id)
    | .fresh => .fresh
    | .bad => .bad := by
  obtain ⟨v, cat⟩ := ec
  by_cases hc : cat = leafCat
  · have : ren ρ (ErrorCode.mk v cat) = ⟨ren ρ v, cat⟩ := by
      show (if cat = leafCat then _ else _) = _
      rw [if_pos hc]
    rw [this]
    simp only [importErrorCode, hc]
    by_cases hv : v = 0#32
    · simp [hv]
    · simp only [ne_eq, ren_eq_zero, hv, not_false_eq_true, if_true]
      have := ren_make ρ v
      unfold makeErrorId at this
      by_cases ht : Id.Tagged v
      · simp only [ht, ren_tagged, if_true]
        rw [this]
      · simp only [ht, ren_tagged, if_false]
  · have : ren ρ (ErrorCode.mk v cat) = ⟨v, cat⟩ := by
      show (if cat = leafCat then _ else _) = _
      rw [if_neg hc]
    rw [this]
    simp only [importErrorCode, hc, if_false]
    by_cases hv : v = 0#32 <;> simp [hv]

theorem eqv_importCode (cfg : Cfg) (ec : ErrorCode) (v : Val) : Eqv ρ (importCode cfg ec v) (importCode cfg (ren ρ ec) v) := by
  unfold importCode
  rw [ren_import]
  cases importErrorCode ec with
  | done id => exact eqv_pure id
  | fresh =>
    refine .bind (eqv_newId cfg) (fun id => .bind (eqv_emit rfl) (fun _ => .bind (eqv_loadSlot cfg false id tyErrorCode v) (fun _ => ?_)))
    exact .pure' (by simp)
  | bad => exact eqv_ub

theorem eqv_checkId (cfg : Cfg) (saved : Id) (b : Bool) : Eqv ρ (checkId cfg saved b) (checkId cfg (ren ρ saved) b) := by
  unfold checkId
  refine .bind eqv_currentId (fun cur => .ite (by simp) (eqv_pure cur) (.ite Iff.rfl (eqv_newId cfg) (.pure' (by simp))))

theorem eqv_getId (cfg : Cfg) (saved : Id) : Eqv ρ (getId cfg saved) (getId cfg (ren ρ saved)) := by
  unfold getId
  exact .bind eqv_currentId (fun cur => .ite (by simp) (eqv_pure cur) (eqv_newId cfg))

theorem eqv_unloadNodes (cfg : Cfg) (id : Id) (ns : List CapNode) : Eqv ρ (unloadNodes cfg id ns) (unloadNodes cfg (ren ρ id) (ren ρ ns)) := by
  induction ns with
  | nil => exact .pure' rfl
  | cons n ns ih => cases n with
    | exc e => exact .pure' rfl
    | obj ty c =>
      simp only [ren_cons, ren_nobj, unloadNodes, ren_hasValue]
      have h : Eqv ρ (do slotUnload cfg id ty c; unloadNodes cfg id ns)
          (do slotUnload cfg (ren ρ id) ty (ren ρ c); unloadNodes cfg (ren ρ id) (ren ρ ns)) :=
        .bind (eqv_slotUnload cfg id ty c) (fun _ => ih)
      cases c.hasValue id with
      | none => exact h
      | some v => exact .bind (eqv_emit rfl) (fun _ => h)

theorem eqv_resultUnload (cfg : Cfg) (r : ErrRes) : Eqv ρ (resultUnload cfg r) (resultUnload cfg (ren ρ r)) := by
  cases r with
  | plain id => exact .pure' rfl
  | captured id ns =>
    have he : ErrRes.errId (.captured (ren ρ id) (ren ρ ns)) = ren ρ (ErrRes.errId (.captured id ns)) := ren_errId ρ (.captured id ns)
    simp only [ren_rcap, resultUnload, he]
    refine .bind (eqv_setCur _) (fun _ => .bind (eqv_unloadNodes cfg _ ns) (fun e => ?_))
    cases e with
    | none => exact .pure' rfl
    | some e => exact .pure' rfl

theorem eqv_unloadDaNodes (cfg : Cfg) (id : Id) (ns : List (Ty × Cell)) : Eqv ρ (unloadDaNodes cfg id ns) (unloadDaNodes cfg (ren ρ id) (ren ρ ns)) := by
  induction ns with
  | nil => exact eqv_pure ()
  | cons n ns ih => exact .bind (eqv_slotUnload cfg id n.1 n.2) (fun _ => ih)

theorem eqv_unloadCell (cfg : Cfg) (id : Id) (c : CtxCell) : Eqv ρ (unloadCell cfg id c) (unloadCell cfg (ren ρ id) (ren ρ c)) := by
  cases c with
  | obj ty c => exact eqv_slotUnload cfg id ty c
  | da k ns =>
    have h : Eqv ρ (if k ≠ 0#32 then do setCur id; unloadDaNodes cfg id ns else pure PUnit.unit)
        (if ren ρ k ≠ 0#32 then do setCur (ren ρ id); unloadDaNodes cfg (ren ρ id) (ren ρ ns) else pure PUnit.unit) :=
      .ite (by simp) (.bind (eqv_setCur id) (fun _ => eqv_unloadDaNodes cfg id ns)) (eqv_pure ())
    exact .ite (by simp) (.bind eqv_ub (fun _ => h)) h

theorem eqv_unloadCells (cfg : Cfg) (id : Id) (cs : List CtxCell) : Eqv ρ (unloadCells cfg id cs) (unloadCells cfg (ren ρ id) (ren ρ cs)) := by
  induction cs with
  | nil => exact eqv_pure ()
  | cons c cs ih => exact .bind ih (fun _ => eqv_unloadCell cfg id c)

theorem eqv_unpackId (e : Exc) : Eqv ρ (unpackId e) (unpackId (ren ρ e)) := by
  obtain ⟨a, b, c, d, x⟩ := e
  have h : Eqv ρ (do return (← currentError, (⟨a, b, c, d, x⟩ : Exc))) (do return (← currentError, (ren ρ ⟨a, b, c, d, x⟩ : Exc))) :=
    .bind eqv_currentError (fun id => .pure' rfl)
  cases b with
  | false => exact h
  | true => cases c with
    | base id => exact .pure' rfl
    | plain id => exact .pure' rfl
    | none => exact h

theorem eqv_destroyExc (e : Exc) : Eqv ρ (destroyExc e) (destroyExc (ren ρ e)) := by
  obtain ⟨a, b, c, d, x⟩ := e
  cases c with
  | base id =>
    refine .bind eqv_getCur (fun cur => .ite (by simp) ?_ (eqv_pure ()))
    have := eqv_setCur (ρ := ρ) (0#32)
    rw [ren_zero] at this
    exact this
  | plain id => exact eqv_pure ()
  | none => exact eqv_pure ()

theorem eqv_ctxLoc (id : Id) (cs : List CtxCell) : Eqv ρ (ctxLoc id cs) (ctxLoc (ren ρ id) (ren ρ cs)) := by
  unfold ctxLoc
  rw [ren_findCell]
  cases findCell tySrcLoc cs with
  | none => exact .pure' rfl
  | some c =>
    refine .ite (by simp) eqv_ub ?_
    rw [ren_hasValue]
    exact .pure' (by cases c.hasValue id <;> rfl)

theorem eqv_unloadOut (cfg : Cfg) (o : Out) : Eqv ρ (unloadOut cfg o) (unloadOut cfg (ren ρ o)) := by
  cases o with
  | val v => exact .pure' rfl
  | err r => exact eqv_resultUnload cfg r
  | exc e => exact .pure' rfl

theorem eqv_noErr (o : Out) : Eqv ρ (noErr o) (noErr (ren ρ o)) := by
  cases o with
  | val v => exact .pure' rfl
  | err r => exact eqv_ub
  | exc e => exact .pure' rfl

theorem ren_locOpt (loc : Option Val) : ren ρ loc = loc := by cases loc <;> rfl

theorem eqv_callHandler (cfg : Cfg) (specs : List (List Arg)) {b1 b2 : Nat → List ArgVal → Act Out}
    (hb : ∀ i a, Eqv ρ (b1 i a) (b2 i (ren ρ a))) (cells : List CtxCell) (id : Id) (ex : Option Exc) (loc : Option Val) (i : Nat) :
    Eqv ρ (callHandler cfg specs b1 cells id ex loc i) (callHandler cfg (ren ρ specs) b2 (ren ρ cells) (ren ρ id) (ren ρ ex) loc i) := by
  unfold callHandler
  rw [ren_getElem?]
  cases specs[i]? with
  | none => exact eqv_ub
  | some args =>
    simp only [ren_some, ren_getArgs]
    cases getArgs cfg cells id ex loc args with
    | none => exact eqv_ub
    | some vals => exact .bind (eqv_emit rfl) (fun _ => hb i vals)

theorem ren_exOpt (e : Exc) : (if (ren ρ e).isStd then some (ren ρ e) else none) = ren ρ (if e.isStd then some e else none) := by
  show (if e.isStd then some (ren ρ e) else none) = _
  cases e.isStd <;> rfl

theorem eqv_catchPath (cfg : Cfg) (specs : List (List Arg)) {b1 b2 : Nat → List ArgVal → Act Out}
    (hb : ∀ i a, Eqv ρ (b1 i a) (b2 i (ren ρ a))) (e : Exc) :
    Eqv ρ (catchPath cfg specs b1 e) (catchPath cfg (ren ρ specs) b2 (ren ρ e)) := by
  unfold catchPath
  refine .bind eqv_popCtx (fun cells => .bind (eqv_unpackId e) (fun p => ?_))
  obtain ⟨id, e⟩ := p
  simp only [ren_prod, ren_exOpt]
  refine .bind (eqv_pushHandling e) (fun _ => .bind (eqv_ctxLoc id cells) (fun loc => ?_))
  rw [ren_selectSome, ren_locOpt]
  cases selectSome cfg cells id (if e.isStd then some e else none) specs with
  | some i =>
    refine .bind (eqv_callHandler cfg specs hb cells id _ loc i) (fun o => .bind eqv_popHandling (fun _ => .bind (eqv_destroyExc e) (fun _ => ?_)))
    exact .pure' rfl
  | none => exact .bind (eqv_unloadCells cfg id cells) (fun _ => .bind eqv_popHandling (fun _ => .pure' rfl))

theorem eqv_tryHandleAll (cfg : Cfg) (specs : List (List Arg)) {x y : Act Out} {b1 b2 : Nat → List ArgVal → Act Out} (hx : Eqv ρ x y)
    (hb : ∀ i a, Eqv ρ (b1 i a) (b2 i (ren ρ a))) : Eqv ρ (tryHandleAll cfg specs x b1) (tryHandleAll cfg (ren ρ specs) y b2) := by
  unfold tryHandleAll
  rw [ren_deduce]
  refine .bind (eqv_pushCtx _) (fun _ => .bind hx (fun o => .bind (eqv_unloadOut cfg o) (fun o => ?_)))
  cases o with
  | val v => exact .bind eqv_popCtx (fun _ => .pure' rfl)
  | err r =>
    simp only [ren_oerr, ren_errId]
    refine .bind (eqv_resultUnload cfg r) (fun _ => .bind eqv_popCtx (fun cells => .bind (eqv_ctxLoc r.errId cells) (fun loc => ?_)))
    have := ren_selectAll ρ cfg cells r.errId none specs
    rw [ren_none] at this
    rw [this, ren_locOpt]
    cases selectAll cfg cells r.errId none specs with
    | none => exact eqv_ub
    | some i => exact .bind (eqv_callHandler cfg specs hb cells r.errId none loc i) (fun o => eqv_noErr o)
  | exc e => exact .bind (eqv_catchPath cfg specs hb e) (fun p => eqv_noErr p.1)

theorem eqv_tryHandleSome (cfg : Cfg) (specs : List (List Arg)) {x y : Act Out} {b1 b2 : Nat → List ArgVal → Act Out} (hx : Eqv ρ x y)
    (hb : ∀ i a, Eqv ρ (b1 i a) (b2 i (ren ρ a))) : Eqv ρ (tryHandleSome cfg specs x b1) (tryHandleSome cfg (ren ρ specs) y b2) := by
  unfold tryHandleSome
  rw [ren_deduce]
  refine .bind (eqv_pushCtx _) (fun _ => .bind hx (fun o => .bind (eqv_unloadOut cfg o) (fun o => ?_)))
  cases o with
  | val v => exact .bind eqv_popCtx (fun _ => .pure' rfl)
  | err r =>
    simp only [ren_oerr, ren_errId]
    refine .bind (eqv_resultUnload cfg r) (fun _ => .bind eqv_popCtx (fun cells => .bind (eqv_ctxLoc r.errId cells) (fun loc => ?_)))
    have := ren_selectSome ρ cfg cells r.errId none specs
    rw [ren_none] at this
    rw [this, ren_locOpt]
    have hk : ∀ rr : Out, Eqv ρ (do (match rr with | .err r' => unloadCells cfg r'.errId cells | _ => pure ()); return rr)
        (do (match ren ρ rr with | .err r' => unloadCells cfg r'.errId (ren ρ cells) | _ => pure ()); return ren ρ rr) := by
      intro rr
      cases rr with
      | val v => exact .bind (eqv_pure ()) (fun _ => .pure' rfl)
      | err r' =>
        simp only [ren_oerr, ren_errId]
        exact .bind (eqv_unloadCells cfg r'.errId cells) (fun _ => .pure' rfl)
      | exc e => exact .bind (eqv_pure ()) (fun _ => .pure' rfl)
    cases selectSome cfg cells r.errId none specs with
    | none => exact hk (.err r)
    | some i =>
      refine .bind (eqv_callHandler cfg specs hb cells r.errId none loc i) (fun rr => ?_)
      have := hk rr
      cases rr <;> exact this
  | exc e =>
    refine .bind (eqv_catchPath cfg specs hb e) (fun p => ?_)
    obtain ⟨o, cells⟩ := p
    cases o with
    | val v => exact .pure' rfl
    | err r' =>
      simp only [ren_prod, ren_oerr, ren_errId]
      exact .bind (eqv_unloadCells cfg r'.errId cells) (fun _ => .pure' rfl)
    | exc e => exact .pure' rfl

theorem eqv_tryCatch (cfg : Cfg) (specs : List (List Arg)) {x y : Act Out} {b1 b2 : Nat → List ArgVal → Act Out} (hx : Eqv ρ x y)
    (hb : ∀ i a, Eqv ρ (b1 i a) (b2 i (ren ρ a))) : Eqv ρ (tryCatch cfg specs x b1) (tryCatch cfg (ren ρ specs) y b2) := by
  unfold tryCatch
  rw [ren_deduce]
  refine .bind (eqv_pushCtx _) (fun _ => .bind hx (fun o => ?_))
  cases o with
  | val v => exact .bind eqv_popCtx (fun _ => .pure' rfl)
  | err r => exact .bind eqv_popCtx (fun _ => .pure' rfl)
  | exc e => exact .bind (eqv_catchPath cfg specs hb e) (fun p => .pure' rfl)

theorem ren_mapObj (ns : List (Ty × Cell)) : (ren ρ ns).map (fun n : Ty × Cell => CapNode.obj n.1 n.2) = ren ρ (ns.map (fun n => CapNode.obj n.1 n.2)) := by
  induction ns with
  | nil => rfl
  | cons n ns ih => simp only [ren_cons, List.map_cons, ih]; rfl

theorem eqv_extractCaptured (id : Id) (cells : List CtxCell) (ex : Option Exc) :
    Eqv ρ (extractCaptured id cells ex) (extractCaptured (ren ρ id) (ren ρ cells) (ren ρ ex)) := by
  have h1 : (match ren ρ cells with
      | [.da key nodes] => if key = ren ρ id then nodes.map (fun n : Ty × Cell => CapNode.obj n.1 n.2) else []
      | _ => ([] : List CapNode)) = ren ρ (match cells with
      | [.da key nodes] => if key = id then nodes.map (fun n : Ty × Cell => CapNode.obj n.1 n.2) else []
      | _ => ([] : List CapNode)) := by
    rcases cells with _ | ⟨c, _ | ⟨c', cs⟩⟩
    · rfl
    · cases c with
      | obj ty c => rfl
      | da k ns =>
        simp only [ren_cons, ren_nil, ren_cda, ren_eq_ren, ren_mapObj]
        by_cases h : k = id <;> simp [h]
    · cases c <;> rfl
  have h2 : (match ren ρ ex with
      | some e => [CapNode.exc e]
      | none => []) = ren ρ (match ex with
      | some e => [CapNode.exc e]
      | none => []) := by cases ex <;> rfl
  unfold extractCaptured
  refine .bind (eqv_assertTagged id) (fun _ => .pure' ?_)
  rw [ren_oerr, ren_rcap, ren_append]
  have hk : ∀ a a' b b' : List CapNode, a = a' → b = b' → Out.err (.captured (ren ρ id) (a ++ b)) = Out.err (.captured (ren ρ id) (a' ++ b')) := by
    intro a a' b b' h h'
    rw [h, h']
  exact hk _ _ _ _ h1.symm h2.symm

theorem eqv_catchHelper (cfg : Cfg) (e : Exc) (tys : List Ty) : Eqv ρ (catchHelper cfg e tys) (catchHelper cfg (ren ρ e) tys) := by
  induction tys with
  | nil => exact eqv_newError cfg _
  | cons ty tys ih =>
    refine .bind ih (fun id => ?_)
    rw [ren_cast]
    cases e.cast ty with
    | none => exact .pure' rfl
    | some v => exact .bind (eqv_errorIdLoad cfg id _) (fun _ => .pure' rfl)

theorem eqv_resultValue (cfg : Cfg) (r : ErrRes) (tag : Nat) : Eqv ρ (resultValue cfg r tag) (resultValue cfg (ren ρ r) tag) := by
  unfold resultValue
  refine .bind (eqv_resultUnload cfg r) (fun o => ?_)
  rw [ren_errId]
  cases o <;> exact .pure' rfl

/-- Renaming the ids in a program renames the ids in what it does. -/
theorem eqv_eval (cfg : Cfg) (p : Prog) : Eqv ρ (eval cfg p) (eval cfg (p.rename ρ)) := by
  induction p with
  | ret o => exact .pure' rfl
  | newError items k ih => exact .bind (eqv_newError cfg items) (fun id => by simpa using ih id)
  | load id items k ih => exact .bind (eqv_errorIdLoad cfg id items) (fun _ => ih)
  | importCode ec v k ih => exact .bind (eqv_importCode cfg ec v) (fun id => by simpa using ih id)
  | currentError k ih => exact .bind eqv_currentError (fun id => by simpa using ih id)
  | bind p k ke ih1 ih2 ih3 =>
    unfold eval Prog.rename
    refine .bind ih1 (fun o => ?_)
    cases o with
    | val v => exact ih2 v
    | err r => simpa using ih3 r
    | exc e => exact .pure' rfl
  | onError items body ih =>
    refine .bind eqv_currentId (fun saved => .bind ih (fun o => ?_))
    have hk : ∀ b, Eqv ρ (do
          let id ← checkId cfg saved b
          if id ≠ 0#32 then do
            assertTagged id
            triggerItems cfg id items
          return o) (do
          let id ← checkId cfg (ren ρ saved) b
          if id ≠ 0#32 then do
            assertTagged id
            triggerItems cfg id items
          return ren ρ o) := by
      intro b
      refine .bind (eqv_checkId cfg saved b) (fun id => .ite (by simp) ?_ (.pure' rfl))
      exact .bind (eqv_assertTagged id) (fun _ => .bind (eqv_triggerItems cfg id items) (fun _ => .pure' rfl))
    cases o with
    | val v => exact hk false
    | err r => exact hk false
    | exc e => exact hk true
  | monNew k ih => exact .bind eqv_currentId (fun id => by simpa using ih id)
  | monCheck m k ih => exact .bind (eqv_checkId cfg m false) (fun id => by simpa using ih _)
  | monAssigned m k ih => exact .bind (eqv_getId cfg m) (fun id => by simpa using ih _)
  | handleAll specs block body ih1 ih2 => exact eqv_tryHandleAll cfg specs ih1 (fun i a => by simpa using ih2 i a)
  | handleSome specs block body ih1 ih2 => exact eqv_tryHandleSome cfg specs ih1 (fun i a => by simpa using ih2 i a)
  | tryCatch specs block body ih1 ih2 => exact eqv_tryCatch cfg specs ih1 (fun i a => by simpa using ih2 i a)
  | captureAll block ih =>
    have h : ∀ {a b : Act Out}, Eqv ρ a b → Eqv ρ (if !cfg.capture then do ub; a else a) (if !cfg.capture then do ub; b else b) :=
      fun h => .ite Iff.rfl (.bind (α := Unit) eqv_ub (fun _ => h)) h
    refine h (.bind (eqv_pushCtx _) (fun _ => .bind ih (fun o => ?_)))
    cases o with
    | val v => exact .bind eqv_popCtx (fun _ => .pure' rfl)
    | err r =>
      simp only [ren_oerr, ren_errId]
      exact .bind eqv_popCtx (fun cells => .bind eqv_currentException (fun ex => eqv_extractCaptured _ cells ex))
    | exc e => exact .bind eqv_popCtx (fun cells => .bind (eqv_unpackId e) (fun p => eqv_extractCaptured p.1 cells (some p.2)))
  | captureAllVoid block ih =>
    have h : ∀ {a b : Act Out}, Eqv ρ a b → Eqv ρ (if !cfg.capture then do ub; a else a) (if !cfg.capture then do ub; b else b) :=
      fun h => .ite Iff.rfl (.bind (α := Unit) eqv_ub (fun _ => h)) h
    refine h (.bind (eqv_pushCtx _) (fun _ => .bind ih (fun o => ?_)))
    cases o with
    | val v => exact eqv_ub
    | err r => exact eqv_ub
    | exc e => exact .bind eqv_popCtx (fun cells => .bind (eqv_unpackId e) (fun p => eqv_extractCaptured p.1 cells (some p.2)))
  | excToResult tys block ih =>
    refine .bind ih (fun o => ?_)
    cases o with
    | val v => exact .pure' rfl
    | err r => exact .pure' rfl
    | exc e => exact .bind (eqv_catchHelper cfg e _) (fun id => .pure' rfl)
  | cppCatch block h ih1 ih2 =>
    refine .bind ih1 (fun o => ?_)
    cases o with
    | val v => exact .pure' rfl
    | err r => exact .pure' rfl
    | exc e =>
      refine .bind (eqv_pushHandling e) (fun _ => .bind (y := eval cfg ((h (ren ρ.inv (ren ρ e))).rename ρ)) (by simpa using ih2 e) (fun o => ?_))
      exact .bind eqv_popHandling (fun _ => .bind (eqv_destroyExc e) (fun _ => .pure' rfl))
  | cppRethrow block h ih1 ih2 =>
    refine .bind ih1 (fun o => ?_)
    cases o with
    | val v => exact .pure' rfl
    | err r => exact .pure' rfl
    | exc e =>
      refine .bind (eqv_pushHandling e) (fun _ => .bind (y := eval cfg ((h (ren ρ.inv (ren ρ e))).rename ρ)) (by simpa using ih2 e) (fun o => ?_))
      refine .bind eqv_popHandling (fun _ => ?_)
      cases o with
      | val v => exact .pure' rfl
      | err r => exact .pure' rfl
      | exc e' => exact .bind (eqv_destroyExc e) (fun _ => .pure' rfl)
  | unload r => exact eqv_resultUnload cfg r
  | value r tag => exact eqv_resultValue cfg r tag

end
end Small
end Leaf
