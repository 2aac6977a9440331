import Verif.AllocTotal

/-!
# Programs that have enough memory, or need none
-/

set_option linter.unusedSectionVars false

namespace Leaf

section
variable {M : Type}

/-- `x`, which may allocate memory, does what `y` does, with the result turned into `g`; `I` holds before and after; `keep`: nothing is allocated. -/
def EqT (I : World M → Prop) (keep : Prop) {α β : Type} (g : β → α) (x : CompT M α) (y : Comp M β) : Prop :=
  ∀ n w, I w →
    match y w with
    | none => x n w = none
    | some (b, w') => I w' ∧ ∃ n', (keep → n' = n) ∧ x n w = some (some (g b, n'), w')

/-- The computation keeps `I`. -/
def Pres (I : World M → Prop) {α : Type} (x : Comp M α) : Prop := ∀ w a w', I w → x w = some (a, w') → I w'

variable {I : World M → Prop} {keep : Prop}

theorem EqT.pure {α β : Type} {g : β → α} (b : β) : EqT I keep g (Pure.pure (g b)) (Pure.pure b) :=
  fun n _ h => ⟨h, n, fun _ => rfl, rfl⟩

theorem EqT.lift {α : Type} {x : Comp M α} (h : Pres I x) : EqT I keep id (Leaf.lift x) x := by
  intro n w hi
  rw [lift_apply]
  cases hx : x w with
  | none => rfl
  | some p => exact ⟨h w p.1 p.2 hi hx, n, fun _ => rfl, rfl⟩

theorem EqT.ub {α β : Type} {g : β → α} : EqT I keep g (Leaf.lift Leaf.ub) Leaf.ub := fun _ _ _ => rfl

theorem EqT.bindg {α β γ δ : Type} {g : β → α} {g' : δ → γ} {x : CompT M α} {y : Comp M β} {f : α → CompT M γ} {f' : β → Comp M δ}
    (h : EqT I keep g x y) (hf : ∀ b, EqT I keep g' (f (g b)) (f' b)) : EqT I keep g' (x >>= f) (y >>= f') := by
  intro n w hi
  have h := h n w hi
  rw [bindT_apply, bind_apply]
  cases hy : y w with
  | none => simp only [hy] at h; rw [h]; rfl
  | some p =>
    obtain ⟨b, w1⟩ := p
    simp only [hy] at h
    obtain ⟨i1, n1, k1, e1⟩ := h
    rw [e1]
    have h2 := hf b n1 w1 i1
    simp only [Option.bind_some]
    cases hz : f' b w1 with
    | none => simp only [hz] at h2; exact h2
    | some q =>
      obtain ⟨c, w2⟩ := q
      simp only [hz] at h2
      obtain ⟨i2, n2, k2, e2⟩ := h2
      exact ⟨i2, n2, fun hk => (k2 hk).trans (k1 hk), e2⟩

theorem EqT.bind {α γ δ : Type} {g' : δ → γ} {x : CompT M α} {y : Comp M α} {f : α → CompT M γ} {f' : α → Comp M δ}
    (h : EqT I keep id x y) (hf : ∀ b, EqT I keep g' (f b) (f' b)) : EqT I keep g' (x >>= f) (y >>= f') := EqT.bindg h hf

/-- A result that tells success. -/
abbrev ok {β : Type} : β → Bool := fun _ => true

theorem EqT.bindB {β γ δ : Type} {g' : δ → γ} {x : CompT M Bool} {y : Comp M β} {f : Bool → CompT M γ} {f' : β → Comp M δ}
    (h : EqT I keep ok x y) (hf : ∀ b, EqT I keep g' (f true) (f' b)) : EqT I keep g' (x >>= f) (y >>= f') := EqT.bindg h hf

theorem EqT.map {α β γ : Type} {g : β → α} {g' : β → γ} {x : CompT M α} {y : Comp M β} {f : α → CompT M γ}
    (h : EqT I keep g x y) (hf : ∀ b, f (g b) = Pure.pure (g' b)) : EqT I keep g' (x >>= f) y := by
  intro n w hi
  have h := h n w hi
  rw [bindT_apply]
  cases hy : y w with
  | none => simp only [hy] at h; rw [h]; rfl
  | some p =>
    obtain ⟨b, w1⟩ := p
    simp only [hy] at h
    obtain ⟨i1, n1, k1, e1⟩ := h
    refine ⟨i1, n1, k1, ?_⟩
    rw [e1, Option.bind_some]
    simp only [hf, pureT_apply]

/-- `return true` after something. -/
theorem EqT.ret {x : Comp M Unit} (h : Pres I x) : EqT I keep ok (Leaf.lift x >>= fun _ => Pure.pure true) x :=
  EqT.map (EqT.lift h) (fun _ => rfl)

theorem eqT_noexcept {x : CompT M Bool} {y : Comp M Unit} (h : EqT I keep ok x y) : EqT I keep id (noexcept x) y :=
  EqT.map h (fun _ => rfl)

theorem eqT_dynamicT {x : CompT M Bool} {y : Comp M Unit} (b : Bool) (h : EqT I keep ok x y) : EqT I keep ok (dynamicT b x) y := by
  cases b
  · exact h
  · exact EqT.map (g := id) (EqT.map h (fun _ => rfl)) (fun _ => rfl)

theorem EqT.mono_keep {α β : Type} {g : β → α} {x : CompT M α} {y : Comp M β} (h : EqT I True g x y) : EqT I keep g x y := by
  intro n w hi
  have h := h n w hi
  cases hy : y w with
  | none => simpa only [hy] using h
  | some p =>
    simp only [hy] at h ⊢
    obtain ⟨i1, n1, k1, e1⟩ := h
    exact ⟨i1, n1, fun _ => k1 trivial, e1⟩

/-! ## What keeps `I` -/

theorem Pres.pure {α : Type} (a : α) : Pres I (Pure.pure a) := by
  intro w b w' h e
  rw [pure_apply] at e
  cases e
  exact h

theorem Pres.bind {α β : Type} {x : Comp M α} {f : α → Comp M β} (hx : Pres I x) (hf : ∀ a, Pres I (f a)) : Pres I (x >>= f) := by
  intro w b w' h e
  rw [bind_apply] at e
  cases hx2 : x w with
  | none => simp [hx2] at e
  | some p =>
    simp only [hx2, Option.bind_some] at e
    exact hf p.1 p.2 b w' (hx w p.1 p.2 h hx2) e

theorem Pres.ub {α : Type} : Pres I (Leaf.ub : Comp M α) := by
  intro w b w' h e
  simp [ub_apply] at e

variable [Store M]

/-- What the proof below needs of `I` and `keep`, for programs that may use capturing scopes (`any`) or do not. -/
structure Supply (mem : Nat → Bool) (I : World M → Prop) (keep any : Prop) : Prop where
  same : ∀ w w' : World M, w'.mem = w.mem → I w → I w'
  slotSet : ∀ ty id v, Pres I (Leaf.slotSet ty id v)
  push : ∀ spec, any ∨ CellTy.da ∉ spec → Pres I (pushCtx spec)
  pop : Pres I popCtx
  dyn : ∀ id ty v, EqT I keep ok (dynamicLoadT mem id ty v) (dynamicLoad id ty v)
  acc : ∀ cfg id ty tag f, EqT I keep ok (dynamicAccumulateT mem cfg id ty tag f) (dynamicAccumulate cfg id ty tag f)
  all : any → (∀ n, mem n = true) ∧ ¬ keep

variable {mem : Nat → Bool} {any : Prop}

/-- The program makes no capturing scope: no `try_capture_all`, no handler takes `diagnostic_details` (or capturing is disabled). -/
def Prog.NoCapture (cfg : Cfg) : Prog → Prop
  | .ret _ => True
  | .newError _ k => ∀ id, (k id).NoCapture cfg
  | .load _ _ k => k.NoCapture cfg
  | .importCode _ _ k => ∀ id, (k id).NoCapture cfg
  | .currentError k => ∀ id, (k id).NoCapture cfg
  | .bind p k ke => p.NoCapture cfg ∧ (∀ v, (k v).NoCapture cfg) ∧ ∀ r, (ke r).NoCapture cfg
  | .onError _ body => body.NoCapture cfg
  | .monNew k => ∀ id, (k id).NoCapture cfg
  | .monCheck _ k => ∀ id, (k id).NoCapture cfg
  | .monAssigned _ k => ∀ id, (k id).NoCapture cfg
  | .handleAll specs block body => capturing cfg specs = false ∧ block.NoCapture cfg ∧ ∀ i args, (body i args).NoCapture cfg
  | .handleSome specs block body => capturing cfg specs = false ∧ block.NoCapture cfg ∧ ∀ i args, (body i args).NoCapture cfg
  | .tryCatch specs block body => capturing cfg specs = false ∧ block.NoCapture cfg ∧ ∀ i args, (body i args).NoCapture cfg
  | .captureAll _ => cfg.capture = false
  | .captureAllVoid _ => cfg.capture = false
  | .excToResult _ block => block.NoCapture cfg
  | .cppCatch block h => block.NoCapture cfg ∧ ∀ e, (h e).NoCapture cfg
  | .cppRethrow block h => block.NoCapture cfg ∧ ∀ e, (h e).NoCapture cfg
  | .unload _ => True
  | .value _ _ => True

namespace Supply
variable (hI : Supply mem I keep any)
include hI

/-- Code that does not touch storage. -/
theorem quiet {α : Type} {x : Comp M α} (h : ∀ w a w', x w = some (a, w') → w'.mem = w.mem) : Pres I x :=
  fun w a w' hi e => hI.same w w' (h w a w' e) hi

theorem emit (e : Event) : Pres I (Leaf.emit e) := hI.quiet (by intro w a w' h; cases h; rfl)
theorem getCur : Pres I Leaf.getCur := hI.quiet (by intro w a w' h; cases h; rfl)
theorem setCur (id : Id) : Pres I (Leaf.setCur id) := hI.quiet (by intro w a w' h; cases h; rfl)
theorem newId (cfg : Cfg) : Pres I (Leaf.newId cfg) := hI.quiet (by intro w a w' h; cases h; rfl)
theorem pushHandling (e : Exc) : Pres I (Leaf.pushHandling e) := hI.quiet (by intro w a w' h; cases h; rfl)
theorem popHandling : Pres I Leaf.popHandling := hI.quiet (by intro w a w' h; cases h; rfl)
theorem currentException : Pres I Leaf.currentException := hI.quiet (by intro w a w' h; cases h; rfl)
theorem currentId : Pres I Leaf.currentId := hI.quiet (by
  intro w a w' h
  simp only [Leaf.currentId] at h
  split at h <;> simp at h
  rw [← h.2])
theorem assertTagged (id : Id) : Pres I (Leaf.assertTagged id) := hI.quiet (by
  intro w a w' h
  simp only [Leaf.assertTagged] at h
  split at h <;> simp at h
  rw [← h])
theorem slotGet (ty : Ty) : Pres I (Leaf.slotGet ty) := hI.quiet (by
  intro w a w' h
  simp only [Leaf.slotGet, Option.map_eq_some_iff, Prod.mk.injEq] at h
  obtain ⟨_, _, _, rfl⟩ := h
  rfl)
theorem currentError : Pres I Leaf.currentError := Pres.bind hI.currentId (fun _ => Pres.pure _)
theorem checkId (cfg : Cfg) (saved : Id) (b : Bool) : Pres I (Leaf.checkId cfg saved b) := by
  refine Pres.bind hI.currentId (fun c => ?_)
  split
  · exact Pres.pure _
  · split
    · exact hI.newId _
    · exact Pres.pure _
theorem getId (cfg : Cfg) (saved : Id) : Pres I (Leaf.getId cfg saved) := by
  refine Pres.bind hI.currentId (fun c => ?_)
  split
  · exact Pres.pure _
  · exact hI.newId _
theorem unpackId (e : Exc) : Pres I (Leaf.unpackId e) := by
  unfold Leaf.unpackId
  split
  · split
    · exact Pres.pure _
    · exact Pres.pure _
    · exact Pres.bind hI.currentError (fun _ => Pres.pure _)
  · exact Pres.bind hI.currentError (fun _ => Pres.pure _)
theorem destroyExc (e : Exc) : Pres I (Leaf.destroyExc e) := by
  unfold Leaf.destroyExc
  split
  · refine Pres.bind hI.getCur (fun c => ?_)
    split
    · exact hI.setCur _
    · exact Pres.pure _
  · exact Pres.pure _
theorem ctxLoc (id : Id) (cells : List CtxCell) : Pres I (Leaf.ctxLoc id cells) := by
  unfold Leaf.ctxLoc
  split
  · exact Pres.pure _
  · split
    · exact Pres.ub
    · exact Pres.pure _
theorem noErr (o : Out) : Pres I (Leaf.noErr o) := by
  cases o
  · exact Pres.pure _
  · exact Pres.ub
  · exact Pres.pure _
theorem extractCaptured (id : Id) (cells : List CtxCell) (ex : Option Exc) : Pres I (Leaf.extractCaptured id cells ex) :=
  Pres.bind (hI.assertTagged id) (fun _ => Pres.pure _)

theorem slotUnloadT (cfg : Cfg) (id : Id) (ty : Ty) (c : Cell) : EqT I keep ok (Leaf.slotUnloadT mem cfg id ty c) (slotUnload cfg id ty c) := by
  unfold Leaf.slotUnloadT slotUnload
  by_cases hid : id = 0#32
  · simp only [hid, if_true]
    exact fun _ _ _ => rfl
  · simp only [hid, if_false]
    cases c.hasValue id with
    | none => exact EqT.pure ()
    | some v =>
      refine EqT.bind (EqT.lift (hI.slotGet ty)) (fun p => ?_)
      cases p with
      | none =>
        dsimp only
        split
        · exact eqT_dynamicT false (hI.dyn id ty v)
        · exact EqT.pure ()
      | some p =>
        dsimp only
        split
        · exact EqT.ret (hI.slotSet ty id v)
        · exact EqT.pure ()

theorem loadSlotT (cfg : Cfg) (b : Bool) (id : Id) (ty : Ty) (v : Val) : EqT I keep ok (Leaf.loadSlotT mem cfg b id ty v) (loadSlot cfg b id ty v) := by
  unfold Leaf.loadSlotT loadSlot
  refine EqT.bind (EqT.lift (hI.assertTagged id)) (fun _ => ?_)
  refine EqT.bind (EqT.lift (hI.slotGet ty)) (fun p => ?_)
  cases p with
  | none =>
    dsimp only
    split
    · exact eqT_dynamicT b (hI.dyn id ty v)
    · exact EqT.pure ()
  | some p =>
    dsimp only
    split
    · exact EqT.ret (hI.slotSet ty id v)
    · exact EqT.pure ()

theorem loadItemT (cfg : Cfg) (b : Bool) (id : Id) (i : Item) : EqT I keep ok (Leaf.loadItemT mem cfg b id i) (loadItem cfg b id i) := by
  cases i with
  | obj ty v => exact EqT.bind (EqT.lift (hI.emit _)) (fun _ => hI.loadSlotT cfg b id ty v)
  | deferred ty tag v =>
    unfold Leaf.loadItemT loadItem loadSlotDeferredT loadSlotDeferred
    refine EqT.bind (EqT.lift (hI.assertTagged id)) (fun _ => ?_)
    refine EqT.bind (EqT.lift (hI.slotGet ty)) (fun p => ?_)
    cases p with
    | none =>
      dsimp only
      split
      · exact EqT.bind (EqT.lift (hI.emit _)) (fun _ => EqT.bind (EqT.lift (hI.emit _)) (fun _ => eqT_dynamicT b (hI.dyn id ty v)))
      · exact EqT.pure ()
    | some p =>
      dsimp only
      split
      · exact EqT.bind (EqT.lift (hI.emit _)) (fun _ => EqT.bind (EqT.lift (hI.emit _)) (fun _ => EqT.ret (hI.slotSet ty id v)))
      · exact EqT.pure ()
  | accum ty tag f =>
    unfold Leaf.loadItemT loadItem loadSlotAccumulateT loadSlotAccumulate
    refine EqT.bind (EqT.lift (hI.assertTagged id)) (fun _ => ?_)
    refine EqT.bind (EqT.lift (hI.slotGet ty)) (fun p => ?_)
    cases p with
    | none =>
      dsimp only
      split
      · exact eqT_dynamicT b (hI.acc cfg id ty tag f)
      · exact EqT.pure ()
    | some p =>
      exact EqT.bind (EqT.lift (hI.slotSet ty id _)) (fun _ => EqT.bind (EqT.lift (hI.emit _)) (fun _ => EqT.ret (hI.emit _)))

theorem loadItemsT (cfg : Cfg) (id : Id) (is : List Item) : EqT I keep ok (Leaf.loadItemsT mem cfg id is) (loadItems cfg false id is) := by
  induction is with
  | nil => exact EqT.pure ()
  | cons i is ih => exact EqT.bindB (hI.loadItemT cfg false id i) (fun _ => ih)

theorem errorIdLoadT (cfg : Cfg) (id : Id) (is : List Item) : EqT I keep _root_.id (Leaf.errorIdLoadT mem cfg id is) (errorIdLoad cfg id is) := by
  unfold Leaf.errorIdLoadT errorIdLoad
  split
  · exact eqT_noexcept (hI.loadItemsT cfg id is)
  · exact EqT.pure (g := _root_.id) ()

theorem newErrorT (cfg : Cfg) (is : List Item) : EqT I keep id (Leaf.newErrorT mem cfg is) (newError cfg is) := by
  refine EqT.bind (EqT.lift (hI.newId cfg)) (fun c => ?_)
  exact EqT.bind (hI.errorIdLoadT cfg _ is) (fun _ => EqT.pure (g := id) _)

theorem triggerItemsT (cfg : Cfg) (id : Id) (is : List OnItem) : EqT I keep _root_.id (Leaf.triggerItemsT mem cfg id is) (triggerItems cfg id is) := by
  induction is with
  | nil => exact EqT.pure (g := _root_.id) ()
  | cons i is ih =>
    cases i with
    | item i => exact EqT.bind (eqT_noexcept (hI.loadItemT cfg true id i)) (fun _ => ih)
    | action t => exact EqT.bind (EqT.lift (hI.emit _)) (fun _ => ih)

theorem importCodeT (cfg : Cfg) (ec : ErrorCode) (v : Val) : EqT I keep id (Leaf.importCodeT mem cfg ec v) (importCode cfg ec v) := by
  unfold Leaf.importCodeT importCode
  cases importErrorCode ec with
  | done i => exact EqT.pure (g := id) i
  | fresh =>
    refine EqT.bind (EqT.lift (hI.newId cfg)) (fun c => EqT.bind (EqT.lift (hI.emit _)) (fun _ => ?_))
    exact EqT.bind (eqT_noexcept (hI.loadSlotT cfg false c _ v)) (fun _ => EqT.pure (g := id) _)
  | bad => exact EqT.ub

theorem unloadNodesT (cfg : Cfg) (id : Id) (ns : List CapNode) : EqT I keep _root_.id (Leaf.unloadNodesT mem cfg id ns) (unloadNodes cfg id ns) := by
  induction ns with
  | nil => exact EqT.pure (g := _root_.id) none
  | cons x ns ih =>
    cases x with
    | obj ty c =>
      unfold Leaf.unloadNodesT unloadNodes
      cases c.hasValue id with
      | none => exact EqT.bindB (hI.slotUnloadT cfg id ty c) (fun _ => ih)
      | some v => exact EqT.bind (EqT.lift (hI.emit _)) (fun _ => EqT.bindB (hI.slotUnloadT cfg id ty c) (fun _ => ih))
    | exc e => exact EqT.pure (g := _root_.id) (some e)

theorem resultUnloadT (cfg : Cfg) (r : ErrRes) : EqT I keep id (Leaf.resultUnloadT mem cfg r) (resultUnload cfg r) := by
  cases r with
  | plain i => exact EqT.pure (g := id) _
  | captured i ns =>
    refine EqT.bind (EqT.lift (hI.setCur _)) (fun _ => EqT.bind (hI.unloadNodesT cfg _ ns) (fun o => ?_))
    cases o with
    | none => exact EqT.pure (g := id) _
    | some e => exact EqT.pure (g := id) _

theorem unloadDaNodesT (cfg : Cfg) (id : Id) (ns : List (Ty × Cell)) : EqT I keep ok (Leaf.unloadDaNodesT mem cfg id ns) (unloadDaNodes cfg id ns) := by
  induction ns with
  | nil => exact EqT.pure ()
  | cons x ns ih => exact EqT.bindB (hI.slotUnloadT cfg id x.1 x.2) (fun _ => ih)

theorem unloadCellT (cfg : Cfg) (id : Id) (c : CtxCell) : EqT I keep ok (Leaf.unloadCellT mem cfg id c) (unloadCell cfg id c) := by
  cases c with
  | obj ty c => exact hI.slotUnloadT cfg id ty c
  | da k ns =>
    unfold Leaf.unloadCellT unloadCell
    by_cases hid : id = 0#32
    · simp only [hid, if_true]
      exact fun _ _ _ => rfl
    · simp only [hid, if_false]
      split
      · exact EqT.bind (EqT.lift (hI.setCur id)) (fun _ => hI.unloadDaNodesT cfg id ns)
      · exact EqT.pure ()

theorem unloadCellsT (cfg : Cfg) (id : Id) (cs : List CtxCell) : EqT I keep _root_.id (Leaf.unloadCellsT mem cfg id cs) (unloadCells cfg id cs) := by
  induction cs with
  | nil => exact EqT.pure (g := _root_.id) ()
  | cons c cs ih => exact EqT.bind ih (fun _ => eqT_noexcept (hI.unloadCellT cfg id c))

theorem unloadOutT (cfg : Cfg) (o : Out) : EqT I keep id (Leaf.unloadOutT mem cfg o) (unloadOut cfg o) := by
  cases o with
  | val v => exact EqT.pure (g := id) _
  | err r => exact hI.resultUnloadT cfg r
  | exc e => exact EqT.pure (g := id) _

/-- The second `unload_result`. -/
theorem resultUnload_nil {cfg : Cfg} {r : ErrRes} (h : ∀ i ns, r = .captured i ns → ns = []) : Pres I (resultUnload cfg r) := by
  cases r with
  | plain i => exact Pres.pure _
  | captured i ns =>
    rw [h i ns rfl]
    exact Pres.bind (hI.setCur _) (fun _ => Pres.bind (Pres.pure _) (fun o => by cases o <;> exact Pres.pure _))

theorem catchHelperT (cfg : Cfg) (e : Exc) (tys : List Ty) : EqT I keep id (Leaf.catchHelperT mem cfg e tys) (catchHelper cfg e tys) := by
  induction tys with
  | nil => exact hI.newErrorT cfg _
  | cons t ts ih =>
    unfold Leaf.catchHelperT catchHelper
    refine EqT.bind ih (fun i => ?_)
    cases e.cast t with
    | none => exact EqT.pure (g := id) i
    | some v => exact EqT.bind (hI.errorIdLoadT cfg i _) (fun _ => EqT.pure (g := id) i)

theorem callHandlerT (cfg : Cfg) (specs : List (List Arg)) {b1 : Nat → List ArgVal → CompT M Out} {b2 : Nat → List ArgVal → Comp M Out}
    (hb : ∀ i a, EqT I keep id (b1 i a) (b2 i a)) (cells : List CtxCell) (i : Id) (ex : Option Exc) (loc : Option Val) (k : Nat) :
    EqT I keep id (Leaf.callHandlerT cfg specs b1 cells i ex loc k) (callHandler cfg specs b2 cells i ex loc k) := by
  unfold Leaf.callHandlerT callHandler
  cases specs[k]? with
  | none => exact EqT.ub
  | some args =>
    dsimp only
    cases getArgs cfg cells i ex loc args with
    | none => exact EqT.ub
    | some vs => exact EqT.bind (EqT.lift (hI.emit _)) (fun _ => hb _ _)

theorem catchPathT (cfg : Cfg) (specs : List (List Arg)) {b1 : Nat → List ArgVal → CompT M Out} {b2 : Nat → List ArgVal → Comp M Out}
    (hb : ∀ i a, EqT I keep id (b1 i a) (b2 i a)) (e : Exc) :
    EqT I keep id (Leaf.catchPathT mem cfg specs b1 e) (catchPath cfg specs b2 e) := by
  unfold Leaf.catchPathT catchPath
  refine EqT.bind (EqT.lift hI.pop) (fun cells => EqT.bind (EqT.lift (hI.unpackId e)) (fun p => ?_))
  obtain ⟨i, e'⟩ := p
  refine EqT.bind (EqT.lift (hI.pushHandling e')) (fun _ => EqT.bind (EqT.lift (hI.ctxLoc i cells)) (fun loc => ?_))
  cases selectSome cfg cells i (if e'.isStd = true then some e' else none) specs with
  | some j =>
    refine EqT.bind (hI.callHandlerT cfg specs hb cells i _ loc _) (fun o => ?_)
    exact EqT.bind (EqT.lift hI.popHandling) (fun _ => EqT.bind (EqT.lift (hI.destroyExc e')) (fun _ => EqT.pure (g := id) _))
  | none =>
    exact EqT.bind (hI.unloadCellsT cfg i cells) (fun _ => EqT.bind (EqT.lift hI.popHandling) (fun _ => EqT.pure (g := id) _))

theorem extractCapturedT (ha : any) (i : Id) (cells : List CtxCell) (ex : Option Exc) :
    EqT I keep id (Leaf.extractCapturedT mem i cells ex) (Leaf.extractCaptured i cells ex) := by
  obtain ⟨hm, hk⟩ := hI.all ha
  unfold Leaf.extractCapturedT
  cases ex with
  | none => exact EqT.lift (hI.extractCaptured i cells none)
  | some e =>
    intro n w hi
    have h := EqT.lift (keep := keep) (hI.extractCaptured i cells (some e)) (n + 1) w hi
    simp only [noexcept, bindT_apply, allocate_apply, hm, Option.bind_some, if_true, pureT_apply]
    cases hy : Leaf.extractCaptured i cells (some e) w with
    | none => simp only [hy] at h; exact h
    | some p =>
      simp only [hy] at h ⊢
      obtain ⟨i1, n1, _, e1⟩ := h
      exact ⟨i1, n1, fun k => absurd k hk, e1⟩

theorem extractErrT (ha : any) (i : Id) (cells : List CtxCell) (ex : Option Exc) :
    EqT I keep id (Leaf.extractErrT mem i cells ex) (Leaf.extractCaptured i cells ex) := by
  obtain ⟨hm, hk⟩ := hI.all ha
  unfold Leaf.extractErrT
  cases ex with
  | none => exact EqT.lift (hI.extractCaptured i cells none)
  | some e =>
    intro n w hi
    have h := EqT.lift (keep := keep) (hI.extractCaptured i cells (some e)) (n + 1) w hi
    simp only [bindT_apply, allocate_apply, hm, Option.bind_some, if_true]
    cases hy : Leaf.extractCaptured i cells (some e) w with
    | none => simp only [hy] at h; exact h
    | some p =>
      simp only [hy] at h ⊢
      obtain ⟨i1, n1, _, e1⟩ := h
      exact ⟨i1, n1, fun k => absurd k hk, e1⟩

theorem push_ok {cfg : Cfg} {specs : List (List Arg)} (h : any ∨ capturing cfg specs = false) : Pres I (pushCtx (deduce cfg specs)) := by
  refine hI.push _ (h.imp_right (fun h hd => ?_))
  rw [da_mem_deduce hd] at h
  cases h

/-- The result of `unload_result` has an empty list. -/
theorem bind_unloadOut {cfg : Cfg} {o : Out} {γ : Type} {f : Out → CompT M γ} {f' : Out → Comp M γ}
    (hf : ∀ b, (∀ r i ns, b = .err r → r = .captured i ns → ns = []) → EqT I keep id (f b) (f' b)) :
    EqT I keep id (Leaf.unloadOutT mem cfg o >>= f) (unloadOut cfg o >>= f') := by
  intro n w hi
  have h := hI.unloadOutT cfg o n w hi
  rw [bindT_apply, bind_apply]
  cases hy : unloadOut cfg o w with
  | none => simp only [hy] at h; rw [h]; rfl
  | some p =>
    obtain ⟨b, w1⟩ := p
    simp only [hy, id_eq] at h
    obtain ⟨i1, n1, k1, e1⟩ := h
    rw [e1]
    have hb : ∀ r i ns, b = .err r → r = .captured i ns → ns = [] := by
      intro r i ns h1 h2
      subst h1; subst h2
      cases o with
      | val v => simp [unloadOut, pure_apply] at hy
      | exc e => simp [unloadOut, pure_apply] at hy
      | err r =>
        cases r with
        | plain i => simp [unloadOut, resultUnload, pure_apply] at hy
        | captured i ns' =>
          simp only [unloadOut, resultUnload, bind_apply, Leaf.setCur, Option.bind_some] at hy
          cases hu : unloadNodes cfg (ErrRes.captured i ns').errId ns' { w with cur := (ErrRes.captured i ns').errId } with
          | none => simp [hu] at hy
          | some q =>
            obtain ⟨q, w2⟩ := q
            rw [hu] at hy
            cases q with
            | none =>
              simp only [Option.bind_some, pure_apply, Option.some.injEq, Prod.mk.injEq, Out.err.injEq, ErrRes.captured.injEq] at hy
              exact hy.1.2.symm
            | some e => simp [pure_apply] at hy
    have h2 := hf b hb n1 w1 i1
    simp only [Option.bind_some]
    cases hz : f' b w1 with
    | none => simp only [hz] at h2; exact h2
    | some q =>
      obtain ⟨c, w2⟩ := q
      simp only [hz] at h2
      obtain ⟨i2, n2, k2, e2⟩ := h2
      exact ⟨i2, n2, fun hk => (k2 hk).trans (k1 hk), e2⟩

theorem evalT (cfg : Cfg) (p : Prog) (hp : any ∨ p.NoCapture cfg) : EqT I keep id (Leaf.evalT mem cfg p) (eval cfg p) := by
  induction p with
  | ret o => exact EqT.pure (g := id) o
  | newError items k ih => exact EqT.bind (hI.newErrorT cfg items) (fun i => ih i (hp.imp_right (· i)))
  | load i items k ih => exact EqT.bind (hI.errorIdLoadT cfg i items) (fun _ => ih hp)
  | importCode ec v k ih => exact EqT.bind (hI.importCodeT cfg ec v) (fun i => ih i (hp.imp_right (· i)))
  | currentError k ih => exact EqT.bind (EqT.lift hI.currentError) (fun i => ih i (hp.imp_right (· i)))
  | bind p k ke ih1 ih2 ih3 =>
    unfold Leaf.evalT eval
    refine EqT.bind (ih1 (hp.imp_right (·.1))) (fun o => ?_)
    cases o with
    | val v => exact ih2 v (hp.imp_right (·.2.1 v))
    | err r => exact ih3 r (hp.imp_right (·.2.2 r))
    | exc e => exact EqT.pure (g := id) _
  | onError items body ih =>
    unfold Leaf.evalT eval onErrorGuardT onErrorGuard
    refine EqT.bind (EqT.lift hI.currentId) (fun saved => EqT.bind (ih hp) (fun o => EqT.bind (EqT.lift (hI.checkId cfg saved _)) (fun i => ?_)))
    dsimp only
    split
    · exact EqT.bind (EqT.lift (hI.assertTagged i)) (fun _ => EqT.bind (hI.triggerItemsT cfg i items) (fun _ => EqT.pure (g := id) o))
    · exact EqT.pure (g := id) o
  | monNew k ih => exact EqT.bind (EqT.lift hI.currentId) (fun i => ih i (hp.imp_right (· i)))
  | monCheck m k ih => exact EqT.bind (EqT.lift (hI.checkId cfg m false)) (fun i => ih _ (hp.imp_right (· _)))
  | monAssigned m k ih => exact EqT.bind (EqT.lift (hI.getId cfg m)) (fun i => ih _ (hp.imp_right (· _)))
  | handleAll specs block body ih1 ih2 =>
    unfold Leaf.evalT eval tryHandleAllT tryHandleAll
    have hb : ∀ i a, EqT I keep id (Leaf.evalT mem cfg (body i a)) (eval cfg (body i a)) := fun i a => ih2 i a (hp.imp_right (·.2.2 i a))
    refine EqT.bind (EqT.lift (hI.push_ok (hp.imp_right (·.1)))) (fun _ => EqT.bind (ih1 (hp.imp_right (·.2.1))) (fun o => hI.bind_unloadOut (fun o2 ho => ?_)))
    cases o2 with
    | val v => exact EqT.bind (EqT.lift hI.pop) (fun _ => EqT.pure (g := id) _)
    | err r =>
      refine EqT.bind (EqT.lift (hI.resultUnload_nil (fun i ns => ho r i ns rfl))) (fun _ => EqT.bind (EqT.lift hI.pop) (fun cells => ?_))
      refine EqT.bind (EqT.lift (hI.ctxLoc _ cells)) (fun loc => ?_)
      cases selectAll cfg cells r.errId none specs with
      | some j => exact EqT.bind (hI.callHandlerT cfg specs hb cells _ none loc _) (fun o => EqT.lift (hI.noErr o))
      | none => exact EqT.ub
    | exc e => exact EqT.bind (hI.catchPathT cfg specs hb e) (fun p => EqT.lift (hI.noErr p.1))
  | handleSome specs block body ih1 ih2 =>
    unfold Leaf.evalT eval tryHandleSomeT tryHandleSome
    have hb : ∀ i a, EqT I keep id (Leaf.evalT mem cfg (body i a)) (eval cfg (body i a)) := fun i a => ih2 i a (hp.imp_right (·.2.2 i a))
    refine EqT.bind (EqT.lift (hI.push_ok (hp.imp_right (·.1)))) (fun _ => EqT.bind (ih1 (hp.imp_right (·.2.1))) (fun o => hI.bind_unloadOut (fun o2 ho => ?_)))
    cases o2 with
    | val v => exact EqT.bind (EqT.lift hI.pop) (fun _ => EqT.pure (g := id) _)
    | err r =>
      refine EqT.bind (EqT.lift (hI.resultUnload_nil (fun i ns => ho r i ns rfl))) (fun _ => EqT.bind (EqT.lift hI.pop) (fun cells => ?_))
      refine EqT.bind (EqT.lift (hI.ctxLoc _ cells)) (fun loc => ?_)
      dsimp only
      cases selectSome cfg cells r.errId none specs with
      | some j =>
        refine EqT.bind (hI.callHandlerT cfg specs hb cells _ none loc _) (fun o => ?_)
        cases o with
        | val v => exact EqT.pure (g := id) _
        | err r' => exact EqT.bind (hI.unloadCellsT cfg _ cells) (fun _ => EqT.pure (g := id) _)
        | exc e => exact EqT.pure (g := id) _
      | none =>
        simp only [pure_bind]
        exact EqT.bind (hI.unloadCellsT cfg _ cells) (fun _ => EqT.pure (g := id) _)
    | exc e =>
      refine EqT.bind (hI.catchPathT cfg specs hb e) (fun p => ?_)
      obtain ⟨o, cells⟩ := p
      cases o with
      | val v => exact EqT.pure (g := id) _
      | err r' => exact EqT.bind (hI.unloadCellsT cfg _ cells) (fun _ => EqT.pure (g := id) _)
      | exc e => exact EqT.pure (g := id) _
  | tryCatch specs block body ih1 ih2 =>
    unfold Leaf.evalT eval tryCatchT tryCatch
    have hb : ∀ i a, EqT I keep id (Leaf.evalT mem cfg (body i a)) (eval cfg (body i a)) := fun i a => ih2 i a (hp.imp_right (·.2.2 i a))
    refine EqT.bind (EqT.lift (hI.push_ok (hp.imp_right (·.1)))) (fun _ => EqT.bind (ih1 (hp.imp_right (·.2.1))) (fun o => ?_))
    cases o with
    | val v => exact EqT.bind (EqT.lift hI.pop) (fun _ => EqT.pure (g := id) _)
    | err r => exact EqT.bind (EqT.lift hI.pop) (fun _ => EqT.pure (g := id) _)
    | exc e => exact EqT.bind (hI.catchPathT cfg specs hb e) (fun p => EqT.pure (g := id) _)
  | captureAll block ih =>
    unfold Leaf.evalT eval tryCaptureAllT tryCaptureAll
    by_cases hc : cfg.capture = true
    · have ha : any := hp.resolve_right (by simp [Prog.NoCapture, hc])
      simp only [hc, Bool.not_true, Bool.false_eq_true, if_false]
      refine EqT.bind (EqT.lift (hI.push _ (Or.inl ha))) (fun _ => EqT.bind (ih (Or.inl ha)) (fun o => ?_))
      cases o with
      | val v => exact EqT.bind (EqT.lift hI.pop) (fun _ => EqT.pure (g := id) _)
      | err r =>
        exact EqT.bind (EqT.lift hI.pop) (fun cells => EqT.bind (EqT.lift hI.currentException) (fun ex => hI.extractErrT ha _ cells ex))
      | exc e =>
        exact EqT.bind (EqT.lift hI.pop) (fun cells => EqT.bind (EqT.lift (hI.unpackId e)) (fun p => hI.extractCapturedT ha _ cells _))
    · simp only [hc]
      exact fun _ _ _ => rfl
  | captureAllVoid block ih =>
    unfold Leaf.evalT eval tryCaptureAllVoidT tryCaptureAllVoid
    by_cases hc : cfg.capture = true
    · have ha : any := hp.resolve_right (by simp [Prog.NoCapture, hc])
      simp only [hc, Bool.not_true, Bool.false_eq_true, if_false]
      refine EqT.bind (EqT.lift (hI.push _ (Or.inl ha))) (fun _ => EqT.bind (ih (Or.inl ha)) (fun o => ?_))
      cases o with
      | val v => exact EqT.ub
      | err r => exact EqT.ub
      | exc e =>
        exact EqT.bind (EqT.lift hI.pop) (fun cells => EqT.bind (EqT.lift (hI.unpackId e)) (fun p => hI.extractCapturedT ha _ cells _))
    · simp only [hc]
      exact fun _ _ _ => rfl
  | excToResult tys block ih =>
    unfold Leaf.evalT eval exceptionToResultT exceptionToResult
    refine EqT.bind (ih hp) (fun o => ?_)
    cases o with
    | val v => exact EqT.pure (g := id) _
    | err r => exact EqT.pure (g := id) _
    | exc e => exact EqT.bind (hI.catchHelperT cfg e _) (fun _ => EqT.pure (g := id) _)
  | cppCatch block h ih1 ih2 =>
    unfold Leaf.evalT eval cppCatchT cppCatch_
    refine EqT.bind (ih1 (hp.imp_right (·.1))) (fun o => ?_)
    cases o with
    | val v => exact EqT.pure (g := id) _
    | err r => exact EqT.pure (g := id) _
    | exc e =>
      refine EqT.bind (EqT.lift (hI.pushHandling e)) (fun _ => EqT.bind (ih2 e (hp.imp_right (·.2 e))) (fun o2 => ?_))
      exact EqT.bind (EqT.lift hI.popHandling) (fun _ => EqT.bind (EqT.lift (hI.destroyExc e)) (fun _ => EqT.pure (g := id) _))
  | cppRethrow block h ih1 ih2 =>
    unfold Leaf.evalT eval cppRethrowT cppRethrow_
    refine EqT.bind (ih1 (hp.imp_right (·.1))) (fun o => ?_)
    cases o with
    | val v => exact EqT.pure (g := id) _
    | err r => exact EqT.pure (g := id) _
    | exc e =>
      refine EqT.bind (EqT.lift (hI.pushHandling e)) (fun _ => EqT.bind (ih2 e (hp.imp_right (·.2 e))) (fun o2 => ?_))
      refine EqT.bind (EqT.lift hI.popHandling) (fun _ => ?_)
      cases o2 with
      | val v => exact EqT.pure (g := id) _
      | err r => exact EqT.pure (g := id) _
      | exc e' => exact EqT.bind (EqT.lift (hI.destroyExc e)) (fun _ => EqT.pure (g := id) _)
  | unload r => exact hI.resultUnloadT cfg r
  | value r tag =>
    unfold Leaf.evalT eval resultValueT resultValue
    refine EqT.bind (hI.resultUnloadT cfg r) (fun o => ?_)
    cases o <;> exact EqT.pure (g := id) _

end Supply

/-! ## The two instances -/

/-- There is always memory. -/
theorem supply_all [Store M] {mem : Nat → Bool} (hm : ∀ n, mem n = true) : Supply (M := M) mem (fun _ => True) False True where
  same := fun _ _ _ _ => trivial
  slotSet := fun _ _ _ _ _ _ _ _ => trivial
  push := fun _ _ _ _ _ _ _ => trivial
  pop := fun _ _ _ _ _ => trivial
  all := fun _ => ⟨hm, fun h => h⟩
  dyn := by
    intro id ty v
    have hd : EqT (M := M) (fun _ => True) False ok (daAppendT mem ty id v) (daAppend ty id v) := by
      intro n w _
      simp only [daAppendT, bindT_apply, allocate_apply, hm, Option.bind_some, if_true, lift_apply]
      cases daAppend ty id v w with
      | none => rfl
      | some p => exact ⟨trivial, n + 1, fun h => h.elim, rfl⟩
    refine EqT.bind (EqT.lift (fun _ _ _ _ _ => trivial)) (fun k => ?_)
    cases k with
    | none => exact EqT.pure ()
    | some k =>
      dsimp only
      split
      · exact hd
      · exact EqT.bind (EqT.lift (fun _ _ _ _ _ => trivial)) (fun _ => hd)
  acc := by
    intro cfg id ty tag f
    have hd : EqT (M := M) (fun _ => True) False ok (daAppendT mem ty id (f (cfg.dflt ty))) (daAppend ty id (f (cfg.dflt ty))) := by
      intro n w _
      simp only [daAppendT, bindT_apply, allocate_apply, hm, Option.bind_some, if_true, lift_apply]
      cases daAppend ty id (f (cfg.dflt ty)) w with
      | none => rfl
      | some p => exact ⟨trivial, n + 1, fun h => h.elim, rfl⟩
    have he : ∀ e, EqT (M := M) (fun _ => True) False _root_.id (lift (emit e)) (emit e) := fun e => EqT.lift (fun _ _ _ _ _ => trivial)
    refine EqT.bind (EqT.lift (fun _ _ _ _ _ => trivial)) (fun k => ?_)
    cases k with
    | none => exact EqT.pure ()
    | some k =>
      dsimp only
      split
      · exact EqT.bindB hd (fun _ => EqT.bind (he _) (fun _ => EqT.ret (fun _ _ _ _ _ => trivial)))
      · refine EqT.bind (EqT.lift (fun _ _ _ _ _ => trivial)) (fun _ => ?_)
        exact EqT.bindB hd (fun _ => EqT.bind (he _) (fun _ => EqT.ret (fun _ _ _ _ _ => trivial)))

end

/-! No capturing scope is active, and none is made. -/

/-- No capturing scope in the contexts, and none bound. -/
def DaFree (m : PtrStore) : Prop := m.tlsDa = none ∧ ∀ ctx ∈ m.ctxs, ∀ d, PCell.da d ∉ ctx

theorem activate_daFree {spec : List CellTy} (h : CellTy.da ∉ spec) (m : PtrStore) :
    (PtrStore.activate spec m).2.tlsDa = m.tlsDa ∧ (PtrStore.activate spec m).2.ctxs = m.ctxs ∧ ∀ d, PCell.da d ∉ (PtrStore.activate spec m).1 := by
  induction spec generalizing m with
  | nil => exact ⟨rfl, rfl, fun d => by simp [PtrStore.activate]⟩
  | cons c cs ih =>
    cases c with
    | da => simp at h
    | obj ty =>
      have h' : CellTy.da ∉ cs := fun hc => h (by simp [hc])
      obtain ⟨h1, h2, h3⟩ := ih h' { m with
        mem := upd m.mem m.next (some ⟨none, m.tls ty⟩)
        tls := upd m.tls ty (some m.next)
        next := m.next + 1 }
      exact ⟨h1, h2, fun d => by simp only [PtrStore.activate, List.mem_cons, reduceCtorEq, false_or]; exact h3 d⟩

theorem deactivate_daFree {f : List PCell} (h : ∀ d, PCell.da d ∉ f) {m m' : PtrStore} (e : PtrStore.deactivate f m = some m') : m'.tlsDa = m.tlsDa := by
  induction f generalizing m' with
  | nil => cases e; rfl
  | cons c cs ih =>
    cases c with
    | da d => exact absurd (by simp) (h d)
    | obj ty a =>
      simp only [PtrStore.deactivate, Option.bind_eq_some_iff] at e
      obtain ⟨m1, e1, e2⟩ := e
      have := ih (fun d hd => h d (by simp [hd])) e1
      unfold PtrStore.deactSlot at e2
      split at e2
      · cases e2
      · cases e2
        exact this

theorem destroy_daFree {f : List PCell} (h : ∀ d, PCell.da d ∉ f) {m m' : PtrStore} (e : PtrStore.destroy f m = some m') : m'.tlsDa = m.tlsDa := by
  induction f generalizing m with
  | nil => cases e; rfl
  | cons c cs ih =>
    cases c with
    | da d => exact absurd (by simp) (h d)
    | obj ty a =>
      simp only [PtrStore.destroy, Option.bind_eq_some_iff] at e
      obtain ⟨m1, e1, e2⟩ := e
      have := ih (fun d hd => h d (by simp [hd])) e2
      rw [this]
      unfold PtrStore.freeSlot at e1
      split at e1
      · cases e1
      · split at e1 <;> cases e1
        rfl

theorem supply_none (mem : Nat → Bool) : Supply (M := PtrStore) mem (fun w => DaFree w.mem) True False where
  same := fun w w' h hi => by rw [h]; exact hi
  slotSet := by
    intro ty id v w a w' hi h
    simp only [slotSet, Store.slotSet, PtrStore.slotSet, Option.map_eq_some_iff, Prod.mk.injEq] at h
    obtain ⟨m, h, _, rfl⟩ := h
    split at h
    · cases h
    · split at h <;> cases h
      exact hi
  push := by
    intro spec hs w a w' hi h
    simp only [pushCtx, Store.push, PtrStore.push, Option.map_eq_some_iff, Prod.mk.injEq] at h
    obtain ⟨m, h, _, rfl⟩ := h
    split at h <;> cases h
    obtain ⟨h1, h2, h3⟩ := activate_daFree (hs.resolve_left (fun h => h)) w.mem
    refine ⟨h1.trans hi.1, ?_⟩
    intro ctx hc d
    simp only [List.mem_cons, h2] at hc
    rcases hc with rfl | hc
    · exact h3 d
    · exact hi.2 ctx hc d
  pop := by
    intro w a w' hi h
    simp only [popCtx, Store.pop, PtrStore.pop, Option.map_eq_some_iff] at h
    obtain ⟨⟨cells, m⟩, h, h'⟩ := h
    cases h'
    cases hf : w.mem.ctxs with
    | nil => simp [hf] at h
    | cons f fs =>
      rw [hf] at h
      have hd : ∀ d, PCell.da d ∉ f := hi.2 f (by simp [hf])
      dsimp only at h
      cases h1 : PtrStore.deactivate f w.mem with
      | none => simp [h1] at h
      | some m1 =>
        rw [h1] at h
        dsimp only at h
        cases h2 : PtrStore.readOut f m1 with
        | none => simp [h2] at h
        | some cs =>
          cases h3 : PtrStore.destroy f m1 with
          | none => simp [h2, h3] at h
          | some m2 =>
            rw [h2, h3] at h
            cases h
            refine ⟨?_, ?_⟩
            · exact (destroy_daFree hd h3).trans ((deactivate_daFree hd h1).trans hi.1)
            · intro ctx hc d
              exact hi.2 ctx (by rw [hf]; exact List.mem_cons_of_mem _ hc) d
  all := fun h => h.elim
  dyn := by
    intro id ty v n w hi
    simp only [dynamicLoadT, dynamicLoad, bindT_apply, bind_apply, lift_apply, daKey, Store.daKey, PtrStore.daKey, hi.1,
      Option.map_some, Option.bind_some, pure_apply, pureT_apply]
    exact ⟨hi, n, fun _ => rfl, rfl⟩
  acc := by
    intro cfg id ty tag f n w hi
    simp only [dynamicAccumulateT, dynamicAccumulate, bindT_apply, bind_apply, lift_apply, daKey, Store.daKey, PtrStore.daKey, hi.1,
      Option.map_some, Option.bind_some, pure_apply, pureT_apply]
    exact ⟨hi, n, fun _ => rfl, rfl⟩

end Leaf
