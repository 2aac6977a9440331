import Verif.Small
import Verif.Sim

/-!
# Running the operations of a program without interruption is `eval`
-/

namespace Leaf

section
variable {M : Type} [Store M]

/-- `x` is `y` cut into operations. -/
def Den (M : Type) [Store M] {α : Type} (cfg : Cfg) (x : Act α) (y : Comp M α) : Prop := x.run cfg = y

theorem Act.run_bind {α β : Type} (cfg : Cfg) (x : Act α) (f : α → Act β) :
    (Act.run cfg (x >>= f) : Comp M β) = Act.run cfg x >>= fun a => Act.run cfg (f a) := by
  show (Act.run cfg (Act.bind x f) : Comp M β) = _
  funext w
  rw [bind_apply]
  induction x generalizing w with
  | ret a => rfl
  | ub => rfl
  | op o k ih =>
    simp only [Act.bind, Act.run]
    cases o.exec cfg w with
    | none => rfl
    | some r => exact ih r.1 r.2

theorem Den.pure {α : Type} {cfg : Cfg} (a : α) : Den M cfg (Pure.pure a) (Pure.pure a) := rfl
theorem Den.ub {α : Type} {cfg : Cfg} : Den M cfg (Small.ub : Act α) Leaf.ub := rfl
theorem Den.bind {α β : Type} {cfg : Cfg} {x : Act α} {y : Comp M α} {f : α → Act β} {g : α → Comp M β} (h : Den M cfg x y)
    (hf : ∀ a, Den M cfg (f a) (g a)) : Den M cfg (x >>= f) (y >>= g) := by
  unfold Den at *
  rw [Act.run_bind, h]
  congr 1
  exact funext hf

theorem Den.ite {α : Type} {cfg : Cfg} {c : Prop} [Decidable c] {x1 x2 : Act α} {y1 y2 : Comp M α} (h1 : Den M cfg x1 y1)
    (h2 : Den M cfg x2 y2) : Den M cfg (if c then x1 else x2) (if c then y1 else y2) := by
  split <;> assumption

theorem run_op {α : Type} (cfg : Cfg) (o : Op) (f : o.Res → Act α) (w : World M) : Act.run cfg (.op o f) w = (o.exec cfg w).bind fun r => (f r.1).run cfg r.2 := rfl

theorem den_op {cfg : Cfg} (o : Op) : Den M cfg (.op o .ret) (o.exec cfg) := by
  unfold Den
  funext w
  rw [run_op]
  cases o.exec cfg w <;> rfl

theorem den_emit {cfg : Cfg} (e : Event) (h : e.isGen = false) : Den M cfg (Small.emit e h) (emit e) := den_op (.emit e h)
theorem den_getCur {cfg : Cfg} : Den M cfg Small.getCur getCur := den_op .getCur
theorem den_setCur {cfg : Cfg} (id : Id) : Den M cfg (Small.setCur id) (setCur id) := den_op (.setCur id)
theorem den_pushHandling {cfg : Cfg} (e : Exc) : Den M cfg (Small.pushHandling e) (pushHandling e) := den_op (.pushHandling e)
theorem den_popHandling {cfg : Cfg} : Den M cfg Small.popHandling popHandling := den_op .popHandling
theorem den_currentException {cfg : Cfg} : Den M cfg Small.currentException currentException := den_op .currentException
theorem den_slotGet {cfg : Cfg} (ty : Ty) : Den M cfg (Small.slotGet ty) (slotGet ty) := den_op (.slotGet ty)
theorem den_slotSet {cfg : Cfg} (ty : Ty) (id : Id) (v : Val) : Den M cfg (Small.slotSet ty id v) (slotSet ty id v) := den_op (.slotSet ty id v)
theorem den_daKey {cfg : Cfg} : Den M cfg Small.daKey daKey := den_op .daKey
theorem den_daReset {cfg : Cfg} (id : Id) : Den M cfg (Small.daReset id) (daReset id) := den_op (.daReset id)
theorem den_daAppend {cfg : Cfg} (ty : Ty) (id : Id) (v : Val) : Den M cfg (Small.daAppend ty id v) (daAppend ty id v) := den_op (.daAppend ty id v)
theorem den_pushCtx {cfg : Cfg} (spec : List CellTy) : Den M cfg (Small.pushCtx spec) (pushCtx spec) := den_op (.pushCtx spec)
theorem den_popCtx {cfg : Cfg} : Den M cfg Small.popCtx popCtx := den_op .popCtx
theorem den_newId (cfg : Cfg) : Den M cfg (Small.newId cfg) (newId cfg) := rfl
theorem den_currentId {cfg : Cfg} : Den M cfg Small.currentId currentId := by
  unfold Den
  funext w
  unfold Small.currentId currentId
  rw [Act.run_bind, bind_apply, show Act.run cfg Small.getCur = getCur from den_getCur]
  simp only [getCur, Option.bind_some]
  by_cases h : w.cur = 0#32 ∨ Id.Tagged w.cur
  · simp only [h, if_true]; rfl
  · simp only [h, if_false]; rfl
theorem den_assertTagged {cfg : Cfg} (id : Id) : Den M cfg (Small.assertTagged id) (assertTagged id) := by
  unfold Den
  funext w
  unfold Small.assertTagged assertTagged
  by_cases h : Id.Tagged id
  · simp only [h, if_true]; rfl
  · simp only [h, if_false]; rfl

attribute [irreducible] Den

/-- Decompose a goal `Den x y` where `x` and `y` have the same text. -/
syntax "denstep" : tactic
macro_rules | `(tactic| denstep) => `(tactic| fail)
macro "denstep1" : tactic => `(tactic|
  (first
    | with_reducible assumption
    | denstep
    | with_reducible first
      | exact Den.pure _
      | exact Den.ub
      | exact den_emit _ (by with_unfolding_all rfl) | exact den_getCur | exact den_setCur _ | exact den_newId _
      | exact den_pushHandling _ | exact den_popHandling | exact den_currentException | exact den_currentId
      | exact den_assertTagged _
      | exact den_slotGet _ | exact den_daKey | exact den_slotSet _ _ _ | exact den_daReset _ | exact den_daAppend _ _ _
      | exact den_pushCtx _ | exact den_popCtx
      | apply Den.bind
      | apply Den.ite
    | intro _
    | dsimp only
    | simp only [*]
    | split))
macro "den" : tactic => `(tactic| repeat denstep1)

theorem den_currentError {cfg : Cfg} : Den M cfg Small.currentError currentError := by unfold Small.currentError currentError; den
theorem den_dynamicLoad {cfg : Cfg} (id : Id) (ty : Ty) (v : Val) : Den M cfg (Small.dynamicLoad id ty v) (dynamicLoad id ty v) := by
  unfold Small.dynamicLoad dynamicLoad; den
theorem den_dynamicAccumulate (cfg : Cfg) (id : Id) (ty : Ty) (tag : Nat) (f : Val → Val) :
    Den M cfg (Small.dynamicAccumulate cfg id ty tag f) (dynamicAccumulate cfg id ty tag f) := by
  unfold Small.dynamicAccumulate dynamicAccumulate; den
macro_rules
  | `(tactic| denstep) =>
    `(tactic| with_reducible first | exact den_currentError | exact den_dynamicLoad _ _ _ | exact den_dynamicAccumulate _ _ _ _ _)

theorem den_slotUnload (cfg : Cfg) (id : Id) (ty : Ty) (c : Cell) : Den M cfg (Small.slotUnload cfg id ty c) (slotUnload cfg id ty c) := by
  unfold Small.slotUnload slotUnload; den
macro_rules | `(tactic| denstep) => `(tactic| with_reducible exact den_slotUnload _ _ _ _)

theorem den_loadSlot (cfg : Cfg) (b : Bool) (id : Id) (ty : Ty) (v : Val) : Den M cfg (Small.loadSlot cfg b id ty v) (loadSlot cfg b id ty v) := by
  unfold Small.loadSlot loadSlot; den
macro_rules | `(tactic| denstep) => `(tactic| with_reducible exact den_loadSlot _ _ _ _ _)

theorem den_loadSlotDeferred (cfg : Cfg) (b : Bool) (id : Id) (ty : Ty) (tag : Nat) (v : Val) : Den M cfg (Small.loadSlotDeferred cfg b id ty tag v) (loadSlotDeferred cfg b id ty tag v) := by
  unfold Small.loadSlotDeferred loadSlotDeferred; den
macro_rules | `(tactic| denstep) => `(tactic| with_reducible exact den_loadSlotDeferred _ _ _ _ _ _)

theorem den_loadSlotAccumulate (cfg : Cfg) (id : Id) (ty : Ty) (tag : Nat) (f : Val → Val) : Den M cfg (Small.loadSlotAccumulate cfg id ty tag f) (loadSlotAccumulate cfg id ty tag f) := by
  unfold Small.loadSlotAccumulate loadSlotAccumulate; den
macro_rules | `(tactic| denstep) => `(tactic| with_reducible exact den_loadSlotAccumulate _ _ _ _ _)

theorem den_loadItem (cfg : Cfg) (b : Bool) (id : Id) (i : Item) : Den M cfg (Small.loadItem cfg b id i) (loadItem cfg b id i) := by
  unfold Small.loadItem loadItem; den
macro_rules | `(tactic| denstep) => `(tactic| with_reducible exact den_loadItem _ _ _ _)

theorem den_loadItems (cfg : Cfg) (b : Bool) (id : Id) (is : List Item) : Den M cfg (Small.loadItems cfg b id is) (loadItems cfg b id is) := by
  induction is with
  | nil => unfold Small.loadItems loadItems; den
  | cons x is ih => unfold Small.loadItems loadItems; den
macro_rules | `(tactic| denstep) => `(tactic| with_reducible exact den_loadItems _ _ _ _)

theorem den_errorIdLoad (cfg : Cfg) (id : Id) (is : List Item) : Den M cfg (Small.errorIdLoad cfg id is) (errorIdLoad cfg id is) := by
  unfold Small.errorIdLoad errorIdLoad; den
macro_rules | `(tactic| denstep) => `(tactic| with_reducible exact den_errorIdLoad _ _ _)

theorem den_newError (cfg : Cfg) (is : List Item) : Den M cfg (Small.newError cfg is) (newError cfg is) := by
  unfold Small.newError newError; den
macro_rules | `(tactic| denstep) => `(tactic| with_reducible exact den_newError _ _)

theorem den_triggerItems (cfg : Cfg) (id : Id) (is : List OnItem) : Den M cfg (Small.triggerItems cfg id is) (triggerItems cfg id is) := by
  induction is with
  | nil => unfold Small.triggerItems triggerItems; den
  | cons x is ih => cases x <;> (unfold Small.triggerItems triggerItems; den)
macro_rules | `(tactic| denstep) => `(tactic| with_reducible exact den_triggerItems _ _ _)

theorem den_importCode (cfg : Cfg) (ec : ErrorCode) (v : Val) : Den M cfg (Small.importCode cfg ec v) (importCode cfg ec v) := by
  unfold Small.importCode importCode; den
macro_rules | `(tactic| denstep) => `(tactic| with_reducible exact den_importCode _ _ _)

theorem den_checkId (cfg : Cfg) (saved : Id) (b : Bool) : Den M cfg (Small.checkId cfg saved b) (checkId cfg saved b) := by
  unfold Small.checkId checkId; den
macro_rules | `(tactic| denstep) => `(tactic| with_reducible exact den_checkId _ _ _)

theorem den_getId (cfg : Cfg) (saved : Id) : Den M cfg (Small.getId cfg saved) (getId cfg saved) := by
  unfold Small.getId getId; den
macro_rules | `(tactic| denstep) => `(tactic| with_reducible exact den_getId _ _)

theorem den_unloadNodes (cfg : Cfg) (id : Id) (ns : List CapNode) : Den M cfg (Small.unloadNodes cfg id ns) (unloadNodes cfg id ns) := by
  induction ns with
  | nil => unfold Small.unloadNodes unloadNodes; den
  | cons x ns ih => cases x <;> (unfold Small.unloadNodes unloadNodes; den)
macro_rules | `(tactic| denstep) => `(tactic| with_reducible exact den_unloadNodes _ _ _)

theorem den_resultUnload (cfg : Cfg) (r : ErrRes) : Den M cfg (Small.resultUnload cfg r) (resultUnload cfg r) := by
  unfold Small.resultUnload resultUnload; den
macro_rules | `(tactic| denstep) => `(tactic| with_reducible exact den_resultUnload _ _)

theorem den_unloadDaNodes (cfg : Cfg) (id : Id) (ns : List (Ty × Cell)) : Den M cfg (Small.unloadDaNodes cfg id ns) (unloadDaNodes cfg id ns) := by
  induction ns with
  | nil => unfold Small.unloadDaNodes unloadDaNodes; den
  | cons x ns ih => unfold Small.unloadDaNodes unloadDaNodes; den
macro_rules | `(tactic| denstep) => `(tactic| with_reducible exact den_unloadDaNodes _ _ _)

theorem den_unloadCell (cfg : Cfg) (id : Id) (c : CtxCell) : Den M cfg (Small.unloadCell cfg id c) (unloadCell cfg id c) := by
  unfold Small.unloadCell unloadCell; den
macro_rules | `(tactic| denstep) => `(tactic| with_reducible exact den_unloadCell _ _ _)

theorem den_unloadCells (cfg : Cfg) (id : Id) (cs : List CtxCell) : Den M cfg (Small.unloadCells cfg id cs) (unloadCells cfg id cs) := by
  induction cs with
  | nil => unfold Small.unloadCells unloadCells; den
  | cons x cs ih => unfold Small.unloadCells unloadCells; den
macro_rules | `(tactic| denstep) => `(tactic| with_reducible exact den_unloadCells _ _ _)

theorem den_unpackId {cfg : Cfg} (e : Exc) : Den M cfg (Small.unpackId e) (unpackId e) := by
  unfold Small.unpackId unpackId; den
macro_rules | `(tactic| denstep) => `(tactic| with_reducible exact den_unpackId _)

theorem den_destroyExc {cfg : Cfg} (e : Exc) : Den M cfg (Small.destroyExc e) (destroyExc e) := by
  unfold Small.destroyExc destroyExc; den
macro_rules | `(tactic| denstep) => `(tactic| with_reducible exact den_destroyExc _)

theorem den_ctxLoc {cfg : Cfg} (id : Id) (cs : List CtxCell) : Den M cfg (Small.ctxLoc id cs) (ctxLoc id cs) := by
  unfold Small.ctxLoc ctxLoc; den
macro_rules | `(tactic| denstep) => `(tactic| with_reducible exact den_ctxLoc _ _)

theorem den_unloadOut (cfg : Cfg) (o : Out) : Den M cfg (Small.unloadOut cfg o) (unloadOut cfg o) := by
  unfold Small.unloadOut unloadOut; den
macro_rules | `(tactic| denstep) => `(tactic| with_reducible exact den_unloadOut _ _)

theorem den_noErr {cfg : Cfg} (o : Out) : Den M cfg (Small.noErr o) (noErr o) := by
  unfold Small.noErr noErr; den
macro_rules | `(tactic| denstep) => `(tactic| with_reducible exact den_noErr _)

theorem den_extractCaptured {cfg : Cfg} (id : Id) (cs : List CtxCell) (ex : Option Exc) : Den M cfg (Small.extractCaptured id cs ex) (extractCaptured id cs ex) := by
  unfold Small.extractCaptured extractCaptured; den
macro_rules | `(tactic| denstep) => `(tactic| with_reducible exact den_extractCaptured _ _ _)

theorem den_catchHelper (cfg : Cfg) (e : Exc) (tys : List Ty) : Den M cfg (Small.catchHelper cfg e tys) (catchHelper cfg e tys) := by
  induction tys with
  | nil => unfold Small.catchHelper catchHelper; den
  | cons x tys ih => unfold Small.catchHelper catchHelper; den
macro_rules | `(tactic| denstep) => `(tactic| with_reducible exact den_catchHelper _ _ _)

theorem den_resultValue (cfg : Cfg) (r : ErrRes) (tag : Nat) : Den M cfg (Small.resultValue cfg r tag) (resultValue cfg r tag) := by
  unfold Small.resultValue resultValue; den
macro_rules | `(tactic| denstep) => `(tactic| with_reducible exact den_resultValue _ _ _)

theorem den_callHandler (cfg : Cfg) (specs : List (List Arg)) {b1 : Nat → List ArgVal → Act Out}
    {b2 : Nat → List ArgVal → Comp M Out} (hb : ∀ i a, Den M cfg (b1 i a) (b2 i a)) (cells : List CtxCell) (id : Id)
    (ex : Option Exc) (loc : Option Val) (i : Nat) :
    Den M cfg (Small.callHandler cfg specs b1 cells id ex loc i) (callHandler cfg specs b2 cells id ex loc i) := by
  unfold Small.callHandler callHandler
  repeat (first | with_reducible exact hb _ _ | denstep1)

theorem den_catchPath (cfg : Cfg) (specs : List (List Arg)) {b1 : Nat → List ArgVal → Act Out}
    {b2 : Nat → List ArgVal → Comp M Out} (hb : ∀ i a, Den M cfg (b1 i a) (b2 i a)) (e : Exc) :
    Den M cfg (Small.catchPath cfg specs b1 e) (catchPath cfg specs b2 e) := by
  unfold Small.catchPath catchPath
  repeat (first | with_reducible exact den_callHandler cfg specs hb _ _ _ _ _ | denstep1)

theorem den_tryHandleAll (cfg : Cfg) (specs : List (List Arg)) {x : Act Out} {y : Comp M Out}
    {b1 : Nat → List ArgVal → Act Out}
    {b2 : Nat → List ArgVal → Comp M Out} (hx : Den M cfg x y) (hb : ∀ i a, Den M cfg (b1 i a) (b2 i a)) :
    Den M cfg (Small.tryHandleAll cfg specs x b1) (tryHandleAll cfg specs y b2) := by
  unfold Small.tryHandleAll tryHandleAll
  repeat (first | with_reducible exact den_callHandler cfg specs hb _ _ _ _ _ | with_reducible exact den_catchPath cfg specs hb _ | denstep1)

theorem den_tryHandleSome (cfg : Cfg) (specs : List (List Arg)) {x : Act Out} {y : Comp M Out}
    {b1 : Nat → List ArgVal → Act Out}
    {b2 : Nat → List ArgVal → Comp M Out} (hx : Den M cfg x y) (hb : ∀ i a, Den M cfg (b1 i a) (b2 i a)) :
    Den M cfg (Small.tryHandleSome cfg specs x b1) (tryHandleSome cfg specs y b2) := by
  unfold Small.tryHandleSome tryHandleSome
  repeat (first | with_reducible exact den_callHandler cfg specs hb _ _ _ _ _ | with_reducible exact den_catchPath cfg specs hb _ | denstep1)

theorem den_tryCatch (cfg : Cfg) (specs : List (List Arg)) {x : Act Out} {y : Comp M Out}
    {b1 : Nat → List ArgVal → Act Out}
    {b2 : Nat → List ArgVal → Comp M Out} (hx : Den M cfg x y) (hb : ∀ i a, Den M cfg (b1 i a) (b2 i a)) :
    Den M cfg (Small.tryCatch cfg specs x b1) (tryCatch cfg specs y b2) := by
  unfold Small.tryCatch tryCatch
  repeat (first | with_reducible exact den_callHandler cfg specs hb _ _ _ _ _ | with_reducible exact den_catchPath cfg specs hb _ | denstep1)

/-- Every program does on the pointer-level storage what it does on the abstract storage. -/
theorem den_eval (cfg : Cfg) (p : Prog) : Den M cfg (Small.eval cfg p) (eval cfg p) := by
  induction p with
  | ret o => unfold Small.eval eval; den
  | newError items k ih => unfold Small.eval eval; exact Den.bind (den_newError _ _) (fun _ => ih _)
  | load id items k ih => unfold Small.eval eval; exact Den.bind (den_errorIdLoad _ _ _) (fun _ => ih)
  | importCode ec v k ih => unfold Small.eval eval; exact Den.bind (den_importCode _ _ _) (fun _ => ih _)
  | currentError k ih => unfold Small.eval eval; exact Den.bind den_currentError (fun _ => ih _)
  | bind p k ke ih1 ih2 ih3 =>
    unfold Small.eval eval
    refine Den.bind ih1 (fun o => ?_)
    cases o with
    | val v => exact ih2 v
    | err r => exact ih3 r
    | exc e => exact Den.pure _
  | onError items body ih => unfold Small.eval eval Small.onErrorGuard onErrorGuard; repeat (first | with_reducible exact ih | denstep1)
  | monNew k ih => unfold Small.eval eval; exact Den.bind den_currentId (fun _ => ih _)
  | monCheck m k ih => unfold Small.eval eval; exact Den.bind (den_checkId _ _ _) (fun _ => ih _)
  | monAssigned m k ih => unfold Small.eval eval; exact Den.bind (den_getId _ _) (fun _ => ih _)
  | handleAll specs block body ih1 ih2 => unfold Small.eval eval; exact den_tryHandleAll cfg specs ih1 (fun i a => ih2 i a)
  | handleSome specs block body ih1 ih2 => unfold Small.eval eval; exact den_tryHandleSome cfg specs ih1 (fun i a => ih2 i a)
  | tryCatch specs block body ih1 ih2 => unfold Small.eval eval; exact den_tryCatch cfg specs ih1 (fun i a => ih2 i a)
  | captureAll block ih => unfold Small.eval eval Small.tryCaptureAll tryCaptureAll; repeat (first | with_reducible exact ih | denstep1)
  | captureAllVoid block ih => unfold Small.eval eval Small.tryCaptureAllVoid tryCaptureAllVoid; repeat (first | with_reducible exact ih | denstep1)
  | excToResult tys block ih => unfold Small.eval eval Small.exceptionToResult exceptionToResult; repeat (first | with_reducible exact ih | denstep1)
  | cppCatch block h ih1 ih2 =>
    unfold Small.eval eval Small.cppCatch_ cppCatch_
    repeat (first | with_reducible exact ih1 | with_reducible exact ih2 _ | denstep1)
  | cppRethrow block h ih1 ih2 =>
    unfold Small.eval eval Small.cppRethrow_ cppRethrow_
    repeat (first | with_reducible exact ih1 | with_reducible exact ih2 _ | denstep1)
  | unload r => unfold Small.eval eval; den
  | value r tag => unfold Small.eval eval; den

/-- Running the operations of a program one after the other is `eval`. -/
theorem run_eval (cfg : Cfg) (p : Prog) : Act.run cfg (Small.eval cfg p) = (eval cfg p : Comp M Out) := by
  have := den_eval (M := M) cfg p
  unfold Den at this
  exact this

set_option smartUnfolding false in
/-- The operations do not depend on what other threads do. -/
theorem eval_interf (cfg : Cfg) (i : Nat → Nat) (p : Prog) : Small.eval { cfg with interf := i } p = Small.eval cfg p := rfl

end
/-- Executing operations adds to the trace. -/
theorem run_trace {M : Type} [Store M] {α : Type} (cfg : Cfg) (x : Act α) (w w' : World M) (a : α) (h : x.run cfg w = some (a, w')) :
    ∃ l, w'.trace = l ++ w.trace := by
  induction x generalizing w with
  | ret b => cases h; exact ⟨[], rfl⟩
  | ub => cases h
  | op o k ih =>
    rw [run_op] at h
    cases hx : o.exec cfg w with
    | none => simp [hx] at h
    | some r =>
      simp only [hx, Option.bind_some] at h
      obtain ⟨l, hl⟩ := ih r.1 r.2 h
      have : ∃ l', r.2.trace = l' ++ w.trace := by
        cases o with
        | gen => cases hx; exact ⟨[_], rfl⟩
        | getCur => cases hx; exact ⟨[], rfl⟩
        | setCur id => cases hx; exact ⟨[], rfl⟩
        | emit e h => cases hx; exact ⟨[e], rfl⟩
        | pushHandling e => cases hx; exact ⟨[], rfl⟩
        | popHandling => cases hx; exact ⟨[], rfl⟩
        | currentException => cases hx; exact ⟨[], rfl⟩
        | slotGet ty => simp only [Op.exec, slotGet, Option.map_eq_some_iff] at hx; obtain ⟨y, _, rfl⟩ := hx; exact ⟨[], rfl⟩
        | slotSet ty id v => simp only [Op.exec, slotSet, Option.map_eq_some_iff] at hx; obtain ⟨y, _, rfl⟩ := hx; exact ⟨[], rfl⟩
        | daKey => simp only [Op.exec, daKey, Option.map_eq_some_iff] at hx; obtain ⟨y, _, rfl⟩ := hx; exact ⟨[], rfl⟩
        | daReset id => simp only [Op.exec, daReset, Option.map_eq_some_iff] at hx; obtain ⟨y, _, rfl⟩ := hx; exact ⟨[], rfl⟩
        | daAppend ty id v => simp only [Op.exec, daAppend, Option.map_eq_some_iff] at hx; obtain ⟨y, _, rfl⟩ := hx; exact ⟨[], rfl⟩
        | pushCtx spec => simp only [Op.exec, pushCtx, Option.map_eq_some_iff] at hx; obtain ⟨y, _, rfl⟩ := hx; exact ⟨[], rfl⟩
        | popCtx => simp only [Op.exec, popCtx, Option.map_eq_some_iff] at hx; obtain ⟨y, _, rfl⟩ := hx; exact ⟨[], rfl⟩
      obtain ⟨l', hl'⟩ := this
      exact ⟨l ++ l', by rw [hl, hl', List.append_assoc]⟩

/-- Running a program adds to the trace. -/
theorem eval_trace {M : Type} [Store M] {cfg : Cfg} {p : Prog} {w w' : World M} {o : Out} (h : eval cfg p w = some (o, w')) :
    ∃ l, w'.trace = l ++ w.trace := by
  rw [← run_eval] at h
  exact run_trace _ _ _ _ _ h

end Leaf
