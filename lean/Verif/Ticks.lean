import Verif.Hoare

/-!
# How many ids a program may generate
-/

namespace Leaf

variable {M : Type} {α β : Type}

/-- The computation generates at most `k` ids. -/
def TickLe (k : Nat) (x : Comp M α) : Prop := ∀ w a w', x w = some (a, w') → w'.ticks ≤ w.ticks + k

theorem TickLe.mono {k k' : Nat} {x : Comp M α} (h : TickLe k x) (hk : k ≤ k') : TickLe k' x := fun w a w' e => by
  have := h w a w' e
  omega

theorem TickLe.pure {k : Nat} (a : α) : TickLe k (pure a : Comp M α) := by
  intro w b w' h
  have h : some (a, w) = some (b, w') := h
  simp only [Option.some.injEq, Prod.mk.injEq] at h
  obtain ⟨_, rfl⟩ := h
  exact Nat.le_add_right _ _

theorem TickLe.ub {k : Nat} : TickLe k (ub : Comp M α) := by
  intro w b w' h
  simp [Leaf.ub] at h

theorem TickLe.bind {k j : Nat} {x : Comp M α} {f : α → Comp M β} (hx : TickLe k x) (hf : ∀ a, TickLe j (f a)) : TickLe (k + j) (x >>= f) := by
  intro w b w' h
  have h : (x w).bind (fun p => f p.1 p.2) = some (b, w') := h
  cases hxw : x w with
  | none => simp [hxw] at h
  | some p =>
    rw [hxw, Option.bind_some] at h
    have h1 := hx w p.1 p.2 hxw
    have h2 := hf p.1 p.2 b w' h
    omega

theorem TickLe.bind0 {k : Nat} {x : Comp M α} {f : α → Comp M β} (hx : TickLe 0 x) (hf : ∀ a, TickLe k (f a)) : TickLe k (x >>= f) := by
  have := hx.bind hf
  rwa [Nat.zero_add] at this

theorem TickLe.bind0' {k : Nat} {x : Comp M α} {f : α → Comp M β} (hx : TickLe k x) (hf : ∀ a, TickLe 0 (f a)) : TickLe k (x >>= f) := hx.bind hf

theorem TickLe.map {k : Nat} {g : World M → Option γ} {f : World M → γ → α × World M} (h : ∀ w c, (f w c).2.ticks = w.ticks) :
    TickLe k (fun w => (g w).map (f w) : Comp M α) := by
  intro w a w' e
  simp only [Option.map_eq_some_iff] at e
  obtain ⟨c, _, e⟩ := e
  have := h w c
  rw [e] at this
  simp only at this
  omega

/-! ## The primitives -/

theorem tick_emit (e : Event) : TickLe 0 (emit e : Comp M Unit) := fun w a w' h => by cases h; exact Nat.le_refl _
theorem tick_getCur : TickLe 0 (getCur : Comp M Id) := fun w a w' h => by cases h; exact Nat.le_refl _
theorem tick_currentId : TickLe 0 (currentId : Comp M Id) := by
  intro w a w' h
  unfold currentId at h
  split at h
  · cases h; exact Nat.le_refl _
  · cases h
theorem tick_setCur (id : Id) : TickLe 0 (setCur id : Comp M Unit) := fun w a w' h => by cases h; exact Nat.le_refl _
theorem tick_assertTagged (id : Id) : TickLe 0 (assertTagged id : Comp M Unit) := by
  intro w a w' h
  unfold assertTagged at h
  split at h
  · cases h; exact Nat.le_refl _
  · cases h
theorem tick_newId (cfg : Cfg) : TickLe 1 (newId cfg : Comp M Id) := fun w a w' h => by cases h; exact Nat.le_refl _
theorem tick_pushHandling (e : Exc) : TickLe 0 (pushHandling e : Comp M Unit) := fun w a w' h => by cases h; exact Nat.le_refl _
theorem tick_popHandling : TickLe 0 (popHandling : Comp M Unit) := fun w a w' h => by cases h; exact Nat.le_refl _
theorem tick_currentException : TickLe 0 (currentException : Comp M (Option Exc)) := fun w a w' h => by cases h; exact Nat.le_refl _

set_option linter.unusedSectionVars false

section
variable [Store M]

theorem tick_slotGet (ty : Ty) : TickLe 0 (slotGet ty : Comp M (Option Cell)) := .map fun _ _ => rfl
theorem tick_slotSet (ty : Ty) (id : Id) (v : Val) : TickLe 0 (slotSet ty id v : Comp M Unit) := .map fun _ _ => rfl
theorem tick_daKey : TickLe 0 (daKey : Comp M (Option Id)) := .map fun _ _ => rfl
theorem tick_daReset (id : Id) : TickLe 0 (daReset id : Comp M Unit) := .map fun _ _ => rfl
theorem tick_daAppend (ty : Ty) (id : Id) (v : Val) : TickLe 0 (daAppend ty id v : Comp M Unit) := .map fun _ _ => rfl
theorem tick_pushCtx (spec : List CellTy) : TickLe 0 (pushCtx spec : Comp M Unit) := .map fun _ _ => rfl
theorem tick_popCtx : TickLe 0 (popCtx : Comp M (List CtxCell)) := .map fun _ _ => rfl

/-- Goals `TickLe 0 x`. -/
macro "tick" : tactic => `(tactic| repeat' first
  | exact .pure _ | exact .ub | exact tick_emit _ | exact tick_getCur | exact tick_currentId | exact tick_setCur _ | exact tick_assertTagged _
  | exact tick_pushHandling _ | exact tick_popHandling | exact tick_currentException
  | exact tick_slotGet _ | exact tick_slotSet _ _ _ | exact tick_daKey | exact tick_daReset _ | exact tick_daAppend _ _ _
  | exact tick_pushCtx _ | exact tick_popCtx | assumption
  | refine TickLe.bind0 ?_ fun _ => ?_ | split)

theorem tick_dynamicLoad (id : Id) (ty : Ty) (v : Val) : TickLe 0 (dynamicLoad id ty v : Comp M Unit) := by
  unfold dynamicLoad; tick
theorem tick_dynamicAccumulate (cfg : Cfg) (id : Id) (ty : Ty) (tag : Nat) (f : Val → Val) :
    TickLe 0 (dynamicAccumulate cfg id ty tag f : Comp M Unit) := by
  unfold dynamicAccumulate; tick
theorem tick_slotUnload (cfg : Cfg) (id : Id) (ty : Ty) (c : Cell) : TickLe 0 (slotUnload cfg id ty c : Comp M Unit) := by
  have := tick_dynamicLoad (M := M)
  unfold slotUnload; tick
theorem tick_loadSlot (cfg : Cfg) (b : Bool) (id : Id) (ty : Ty) (v : Val) : TickLe 0 (loadSlot cfg b id ty v : Comp M Unit) := by
  have := tick_dynamicLoad (M := M)
  unfold loadSlot; tick
theorem tick_loadItem (cfg : Cfg) (b : Bool) (id : Id) (i : Item) : TickLe 0 (loadItem cfg b id i : Comp M Unit) := by
  have := tick_dynamicLoad (M := M)
  have h2 := tick_dynamicAccumulate (M := M)
  unfold loadItem
  split
  · unfold loadSlot; tick
  · unfold loadSlotDeferred; tick
  · unfold loadSlotAccumulate; tick
theorem tick_loadItems (cfg : Cfg) (b : Bool) (id : Id) (is : List Item) : TickLe 0 (loadItems cfg b id is : Comp M Unit) := by
  induction is with
  | nil => exact .pure _
  | cons i is ih => exact .bind0 (tick_loadItem cfg b id i) fun _ => ih
theorem tick_triggerItems (cfg : Cfg) (id : Id) (is : List OnItem) : TickLe 0 (triggerItems cfg id is : Comp M Unit) := by
  induction is with
  | nil => exact .pure _
  | cons i is ih =>
    cases i with
    | item i => exact .bind0 (tick_loadItem cfg true id i) fun _ => ih
    | action t => exact .bind0 (tick_emit _) fun _ => ih
theorem tick_errorIdLoad (cfg : Cfg) (id : Id) (is : List Item) : TickLe 0 (errorIdLoad cfg id is : Comp M Unit) := by
  unfold errorIdLoad
  split
  · exact tick_loadItems cfg false id is
  · exact .pure _
theorem tick_newError (cfg : Cfg) (is : List Item) : TickLe 1 (newError cfg is : Comp M Id) :=
  .bind0' (tick_newId cfg) fun _ => .bind0 (tick_errorIdLoad cfg _ is) fun _ => .pure _
theorem tick_importCode (cfg : Cfg) (ec : ErrorCode) (v : Val) : TickLe 1 (importCode cfg ec v : Comp M Id) := by
  unfold importCode
  split
  · exact .pure _
  · exact .bind0' (tick_newId cfg) fun _ => .bind0 (tick_emit _) fun _ => .bind0 (tick_loadSlot cfg false _ _ v) fun _ => .pure _
  · exact .ub
theorem tick_checkId (cfg : Cfg) (m : Id) (b : Bool) : TickLe 1 (checkId cfg m b : Comp M Id) := by
  unfold checkId
  refine .bind0 tick_currentId fun _ => ?_
  split
  · exact .pure _
  · split
    · exact tick_newId cfg
    · exact .pure _
theorem tick_getId (cfg : Cfg) (m : Id) : TickLe 1 (getId cfg m : Comp M Id) := by
  unfold getId
  refine .bind0 tick_currentId fun _ => ?_
  split
  · exact .pure _
  · exact tick_newId cfg
theorem tick_unloadNodes (cfg : Cfg) (id : Id) (ns : List CapNode) : TickLe 0 (unloadNodes cfg id ns : Comp M (Option Exc)) := by
  induction ns with
  | nil => exact .pure _
  | cons n ns ih =>
    cases n with
    | obj ty c =>
      unfold unloadNodes
      split
      · exact .bind0 (tick_emit _) fun _ => .bind0 (tick_slotUnload _ _ _ _) fun _ => ih
      · exact .bind0 (tick_slotUnload _ _ _ _) fun _ => ih
    | exc e => exact .pure _
theorem tick_resultUnload (cfg : Cfg) (r : ErrRes) : TickLe 0 (resultUnload cfg r : Comp M Out) := by
  unfold resultUnload
  split
  · exact .pure _
  · refine .bind0 (tick_setCur _) fun _ => .bind0 (tick_unloadNodes _ _ _) fun _ => ?_
    tick
theorem tick_unloadDaNodes (cfg : Cfg) (id : Id) (ns : List (Ty × Cell)) : TickLe 0 (unloadDaNodes cfg id ns : Comp M Unit) := by
  induction ns with
  | nil => exact .pure _
  | cons n ns ih => exact .bind0 (tick_slotUnload _ _ _ _) fun _ => ih
theorem tick_unloadCell (cfg : Cfg) (id : Id) (c : CtxCell) : TickLe 0 (unloadCell cfg id c : Comp M Unit) := by
  cases c with
  | obj ty c => exact tick_slotUnload _ _ _ _
  | da key ns =>
    have := tick_unloadDaNodes (M := M) cfg id ns
    show TickLe 0 (if id = 0#32 then _ else _)
    tick
theorem tick_unloadCells (cfg : Cfg) (id : Id) (cs : List CtxCell) : TickLe 0 (unloadCells cfg id cs : Comp M Unit) := by
  induction cs with
  | nil => exact .pure _
  | cons c cs ih => exact .bind0 ih fun _ => tick_unloadCell cfg id c

/-! ## Scopes -/

theorem tick_currentError : TickLe 0 (currentError : Comp M Id) := by unfold currentError; tick
theorem tick_unpackId (e : Exc) : TickLe 0 (unpackId e : Comp M (Id × Exc)) := by
  have := tick_currentError (M := M)
  unfold unpackId; tick
theorem tick_destroyExc (e : Exc) : TickLe 0 (destroyExc e : Comp M Unit) := by unfold destroyExc; tick
theorem tick_ctxLoc (id : Id) (cs : List CtxCell) : TickLe 0 (ctxLoc id cs : Comp M (Option Val)) := by unfold ctxLoc; tick
theorem tick_callHandler (cfg : Cfg) (specs : List (List Arg)) {body : Nat → List ArgVal → Comp M Out} {k : Nat} (hb : ∀ i args, TickLe k (body i args))
    (cells : List CtxCell) (id : Id) (ex : Option Exc) (loc : Option Val) (i : Nat) : TickLe k (callHandler cfg specs body cells id ex loc i) := by
  unfold callHandler
  split
  · exact .ub
  · split
    · exact .ub
    · exact .bind0 (tick_emit _) fun _ => hb _ _
theorem tick_catchPath (cfg : Cfg) (specs : List (List Arg)) {body : Nat → List ArgVal → Comp M Out} {k : Nat} (hb : ∀ i args, TickLe k (body i args))
    (e : Exc) : TickLe k (catchPath cfg specs body e) := by
  unfold catchPath
  refine .bind0 tick_popCtx fun _ => .bind0 (tick_unpackId e) fun _ => .bind0 (tick_pushHandling _) fun _ => .bind0 (tick_ctxLoc _ _) fun _ => ?_
  split
  · exact .bind0' (tick_callHandler _ _ hb _ _ _ _ _) fun _ => .bind0 tick_popHandling fun _ => .bind0 (tick_destroyExc _) fun _ => .pure _
  · exact .bind0 (tick_unloadCells _ _ _) fun _ => .bind0 tick_popHandling fun _ => .pure _
theorem tick_noErr {k : Nat} (o : Out) : TickLe k (noErr o : Comp M Out) := by
  unfold noErr; split
  · exact .ub
  · exact .pure _
theorem tick_unloadOut (cfg : Cfg) (o : Out) : TickLe 0 (unloadOut cfg o : Comp M Out) := by
  unfold unloadOut; split
  · exact tick_resultUnload _ _
  · exact .pure _
theorem tick_tryHandleAll (cfg : Cfg) (specs : List (List Arg)) {block : Comp M Out} {body : Nat → List ArgVal → Comp M Out} {j k : Nat}
    (hp : TickLe j block) (hb : ∀ i args, TickLe k (body i args)) : TickLe (j + k) (tryHandleAll cfg specs block body) := by
  unfold tryHandleAll
  refine .bind0 (tick_pushCtx _) fun _ => .bind hp fun _ => .bind0 (tick_unloadOut _ _) fun _ => ?_
  split
  · exact .bind0 tick_popCtx fun _ => .pure _
  · refine .bind0 (tick_resultUnload _ _) fun _ => .bind0 tick_popCtx fun _ => .bind0 (tick_ctxLoc _ _) fun _ => ?_
    split
    · exact .bind0' (tick_callHandler _ _ hb _ _ _ _ _) fun _ => tick_noErr _
    · exact .ub
  · exact .bind0' (tick_catchPath _ _ hb _) fun _ => tick_noErr _
theorem tick_tryHandleSome (cfg : Cfg) (specs : List (List Arg)) {block : Comp M Out} {body : Nat → List ArgVal → Comp M Out} {j k : Nat}
    (hp : TickLe j block) (hb : ∀ i args, TickLe k (body i args)) : TickLe (j + k) (tryHandleSome cfg specs block body) := by
  unfold tryHandleSome
  refine .bind0 (tick_pushCtx _) fun _ => .bind hp fun _ => .bind0 (tick_unloadOut _ _) fun _ => ?_
  split
  · exact .bind0 tick_popCtx fun _ => .pure _
  · refine .bind0 (tick_resultUnload _ _) fun _ => .bind0 tick_popCtx fun _ => .bind0 (tick_ctxLoc _ _) fun _ => ?_
    have := tick_unloadCells (M := M) cfg
    dsimp only
    split
    · refine .bind0' (tick_callHandler _ _ hb _ _ _ _ _) fun _ => ?_
      tick
      exact this _ _
    · refine .bind0 (.pure _) fun _ => ?_
      split
      · exact .bind0 (tick_unloadCells _ _ _) fun _ => .pure _
      · exact .pure _
  · refine .bind0' (tick_catchPath _ _ hb _) fun _ => ?_
    have := tick_unloadCells (M := M) cfg
    dsimp only
    split
    · exact .bind0 (tick_unloadCells _ _ _) fun _ => .pure _
    · exact .pure _
theorem tick_tryCatch (cfg : Cfg) (specs : List (List Arg)) {block : Comp M Out} {body : Nat → List ArgVal → Comp M Out} {j k : Nat}
    (hp : TickLe j block) (hb : ∀ i args, TickLe k (body i args)) : TickLe (j + k) (tryCatch cfg specs block body) := by
  unfold tryCatch
  refine .bind0 (tick_pushCtx _) fun _ => .bind hp fun _ => ?_
  split
  · exact .bind0' (tick_catchPath _ _ hb _) fun _ => .pure _
  · exact .bind0 tick_popCtx fun _ => .pure _
theorem tick_catchHelper (cfg : Cfg) (e : Exc) (tys : List Ty) : TickLe 1 (catchHelper cfg e tys : Comp M Id) := by
  induction tys with
  | nil => exact tick_newError _ _
  | cons ty tys ih =>
    unfold catchHelper
    refine .bind0' ih fun _ => ?_
    dsimp only
    split
    · exact .bind0 (tick_errorIdLoad _ _ _) fun _ => .pure _
    · exact .pure _
theorem tick_exceptionToResult (cfg : Cfg) (tys : List Ty) {block : Comp M Out} {k : Nat} (hp : TickLe k block) :
    TickLe (k + 1) (exceptionToResult cfg tys block) := by
  unfold exceptionToResult
  refine .bind hp fun _ => ?_
  split
  · exact .bind0' (tick_catchHelper _ _ _) fun _ => .pure _
  · exact .pure _
theorem tick_onErrorGuard (cfg : Cfg) (items : List OnItem) {block : Comp M Out} {k : Nat} (hp : TickLe k block) :
    TickLe (k + 1) (onErrorGuard cfg items block) := by
  unfold onErrorGuard
  refine .bind0 tick_currentId fun _ => .bind hp fun _ => .bind0' (tick_checkId _ _ _) fun _ => ?_
  have := tick_triggerItems (M := M) cfg
  tick
  exact this _ _
theorem tick_resultValue (cfg : Cfg) (r : ErrRes) (tag : Nat) : TickLe 0 (resultValue cfg r tag : Comp M Out) := by
  unfold resultValue
  refine .bind0 (tick_resultUnload _ _) fun _ => ?_
  split <;> exact .pure _
theorem tick_cppCatch {block : Comp M Out} {h : Exc → Comp M Out} {j k : Nat} (hp : TickLe j block) (hh : ∀ e, TickLe k (h e)) :
    TickLe (j + k) (cppCatch_ block h) := by
  unfold cppCatch_
  refine .bind hp fun _ => ?_
  split
  · exact .bind0 (tick_pushHandling _) fun _ => .bind0' (hh _) fun _ => .bind0 tick_popHandling fun _ => .bind0 (tick_destroyExc _) fun _ => .pure _
  · exact .pure _

end
end Leaf
