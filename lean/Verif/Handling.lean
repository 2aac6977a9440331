import Verif.Sim

/-!
# Every program leaves the stack of exceptions being handled as it found it
-/

namespace Leaf

section
variable {M : Type}

/-- Run with `h` on the stack of exceptions being handled, `x` leaves it as `h'`. -/
def Hd {α : Type} (h h' : List Exc) (x : Comp M α) : Prop := ∀ w a w', w.handling = h → x w = some (a, w') → w'.handling = h'

variable {h h' h'' : List Exc}

theorem Hd.pure {α : Type} (a : α) : Hd h h (Pure.pure a : Comp M α) := by
  intro w b w' hw he
  rw [pure_apply] at he
  cases he
  exact hw

theorem Hd.bind {α β : Type} {x : Comp M α} {f : α → Comp M β} (hx : Hd h h' x) (hf : ∀ a, Hd h' h'' (f a)) : Hd h h'' (x >>= f) := by
  intro w b w' hw he
  rw [bind_apply] at he
  cases hy : x w with
  | none => simp [hy] at he
  | some p =>
    obtain ⟨a, v⟩ := p
    simp only [hy, Option.bind_some] at he
    exact hf a v b w' (hx w a v hw hy) he

theorem Hd.ub {α : Type} : Hd h h' (Leaf.ub : Comp M α) := by
  intro w b w' _ he
  simp [ub_apply] at he

theorem Hd.ub_bind {α β : Type} {f : α → Comp M β} : Hd h h' (Leaf.ub >>= f) := by
  intro w b w' _ he
  simp [bind_apply, ub_apply] at he

theorem hd_emit (e : Event) : Hd h h (emit e : Comp M _) := by intro w a w' hw he; cases he; exact hw
theorem hd_getCur  : Hd h h (getCur  : Comp M _) := by intro w a w' hw he; cases he; exact hw
theorem hd_setCur (id : Id) : Hd h h (setCur id : Comp M _) := by intro w a w' hw he; cases he; exact hw
theorem hd_newId (cfg : Cfg) : Hd h h (newId cfg : Comp M _) := by intro w a w' hw he; cases he; exact hw
theorem hd_currentException  : Hd h h (currentException  : Comp M _) := by intro w a w' hw he; cases he; exact hw
theorem hd_pushHandling (e : Exc) : Hd h (e :: h) (pushHandling e : Comp M _) := by intro w a w' hw he; cases he; exact congrArg _ hw
theorem hd_popHandling {e : Exc} : Hd (e :: h) h (popHandling : Comp M _) := by intro w a w' hw he; cases he; exact congrArg List.tail hw
theorem hd_currentId : Hd h h (currentId : Comp M Id) := by
  intro w a w' hw he
  unfold currentId at he
  split at he <;> cases he
  exact hw
theorem hd_assertTagged (id : Id) : Hd h h (assertTagged id : Comp M Unit) := by
  intro w a w' hw he
  unfold assertTagged at he
  split at he <;> cases he
  exact hw

variable [Store M]

theorem hd_slotGet (ty : Ty) : Hd h h (slotGet ty : Comp M _) := by
  intro w a w' hw he
  unfold slotGet at he
  cases hx : Store.slotGet ty w.mem with
  | none => simp [hx] at he
  | some x => simp only [hx, Option.map_some, Option.some.injEq, Prod.mk.injEq] at he; rw [← he.2]; exact hw
theorem hd_daKey  : Hd h h (daKey  : Comp M _) := by
  intro w a w' hw he
  unfold daKey at he
  cases hx : Store.daKey w.mem with
  | none => simp [hx] at he
  | some x => simp only [hx, Option.map_some, Option.some.injEq, Prod.mk.injEq] at he; rw [← he.2]; exact hw
theorem hd_slotSet (ty : Ty) (id : Id) (v : Val) : Hd h h (slotSet ty id v : Comp M _) := by
  intro w a w' hw he
  unfold slotSet at he
  cases hx : Store.slotSet ty id v w.mem with
  | none => simp [hx] at he
  | some x => simp only [hx, Option.map_some, Option.some.injEq, Prod.mk.injEq] at he; rw [← he.2]; exact hw
theorem hd_daReset (id : Id) : Hd h h (daReset id : Comp M _) := by
  intro w a w' hw he
  unfold daReset at he
  cases hx : Store.daReset id w.mem with
  | none => simp [hx] at he
  | some x => simp only [hx, Option.map_some, Option.some.injEq, Prod.mk.injEq] at he; rw [← he.2]; exact hw
theorem hd_daAppend (ty : Ty) (id : Id) (v : Val) : Hd h h (daAppend ty id v : Comp M _) := by
  intro w a w' hw he
  unfold daAppend at he
  cases hx : Store.daAppend ty id v w.mem with
  | none => simp [hx] at he
  | some x => simp only [hx, Option.map_some, Option.some.injEq, Prod.mk.injEq] at he; rw [← he.2]; exact hw
theorem hd_pushCtx (spec : List CellTy) : Hd h h (pushCtx spec : Comp M _) := by
  intro w a w' hw he
  unfold pushCtx at he
  cases hx : Store.push spec w.mem with
  | none => simp [hx] at he
  | some x => simp only [hx, Option.map_some, Option.some.injEq, Prod.mk.injEq] at he; rw [← he.2]; exact hw
theorem hd_popCtx  : Hd h h (popCtx  : Comp M _) := by
  intro w a w' hw he
  unfold popCtx at he
  cases hx : Store.pop w.mem with
  | none => simp [hx] at he
  | some x => simp only [hx, Option.map_some, Option.some.injEq, Prod.mk.injEq] at he; rw [← he.2]; exact hw

attribute [irreducible] Hd

syntax "hdstep" : tactic
macro_rules | `(tactic| hdstep) => `(tactic| fail)
macro "hdstep1" : tactic => `(tactic|
  (first
    | with_reducible assumption
    | hdstep
    | with_reducible first
      | exact Hd.pure _
      | exact Hd.ub_bind
      | exact Hd.ub
      | exact hd_emit _ | exact hd_getCur | exact hd_setCur _ | exact hd_newId _
      | exact hd_pushHandling _ | exact hd_popHandling | exact hd_currentException | exact hd_currentId
      | exact hd_assertTagged _
      | exact hd_slotGet _ | exact hd_daKey | exact hd_slotSet _ _ _ | exact hd_daReset _ | exact hd_daAppend _ _ _
      | exact hd_pushCtx _ | exact hd_popCtx
      | apply Hd.bind
    | split
    | intro _
    | dsimp only))
macro "hd" : tactic => `(tactic| repeat hdstep1)

omit [Store M] in
theorem hd_currentError  : Hd h h (currentError  : Comp M _) := by
  unfold currentError; hd
macro_rules | `(tactic| hdstep) => `(tactic| with_reducible exact hd_currentError )

theorem hd_dynamicLoad (id : Id) (ty : Ty) (v : Val) : Hd h h (dynamicLoad id ty v : Comp M _) := by
  unfold dynamicLoad; hd
macro_rules | `(tactic| hdstep) => `(tactic| with_reducible exact hd_dynamicLoad _ _ _)

theorem hd_dynamicAccumulate (cfg : Cfg) (id : Id) (ty : Ty) (tag : Nat) (f : Val → Val) : Hd h h (dynamicAccumulate cfg id ty tag f : Comp M _) := by
  unfold dynamicAccumulate; hd
macro_rules | `(tactic| hdstep) => `(tactic| with_reducible exact hd_dynamicAccumulate _ _ _ _ _)

theorem hd_slotUnload (cfg : Cfg) (id : Id) (ty : Ty) (c : Cell) : Hd h h (slotUnload cfg id ty c : Comp M _) := by
  unfold slotUnload; hd
macro_rules | `(tactic| hdstep) => `(tactic| with_reducible exact hd_slotUnload _ _ _ _)

theorem hd_loadSlot (cfg : Cfg) (b : Bool) (id : Id) (ty : Ty) (v : Val) : Hd h h (loadSlot cfg b id ty v : Comp M _) := by
  unfold loadSlot; hd
macro_rules | `(tactic| hdstep) => `(tactic| with_reducible exact hd_loadSlot _ _ _ _ _)

theorem hd_loadSlotDeferred (cfg : Cfg) (b : Bool) (id : Id) (ty : Ty) (tag : Nat) (v : Val) : Hd h h (loadSlotDeferred cfg b id ty tag v : Comp M _) := by
  unfold loadSlotDeferred; hd
macro_rules | `(tactic| hdstep) => `(tactic| with_reducible exact hd_loadSlotDeferred _ _ _ _ _ _)

theorem hd_loadSlotAccumulate (cfg : Cfg) (id : Id) (ty : Ty) (tag : Nat) (f : Val → Val) : Hd h h (loadSlotAccumulate cfg id ty tag f : Comp M _) := by
  unfold loadSlotAccumulate; hd
macro_rules | `(tactic| hdstep) => `(tactic| with_reducible exact hd_loadSlotAccumulate _ _ _ _ _)

theorem hd_loadItem (cfg : Cfg) (b : Bool) (id : Id) (i : Item) : Hd h h (loadItem cfg b id i : Comp M _) := by
  unfold loadItem; hd
macro_rules | `(tactic| hdstep) => `(tactic| with_reducible exact hd_loadItem _ _ _ _)

theorem hd_loadItems (cfg : Cfg) (b : Bool) (id : Id) (is : List Item) : Hd h h (loadItems cfg b id is : Comp M _) := by
  induction is with
  | nil => unfold loadItems; hd
  | cons x is ih => unfold loadItems; hd
macro_rules | `(tactic| hdstep) => `(tactic| with_reducible exact hd_loadItems _ _ _ _)

theorem hd_errorIdLoad (cfg : Cfg) (id : Id) (is : List Item) : Hd h h (errorIdLoad cfg id is : Comp M _) := by
  unfold errorIdLoad; hd
macro_rules | `(tactic| hdstep) => `(tactic| with_reducible exact hd_errorIdLoad _ _ _)

theorem hd_newError (cfg : Cfg) (is : List Item) : Hd h h (newError cfg is : Comp M _) := by
  unfold newError; hd
macro_rules | `(tactic| hdstep) => `(tactic| with_reducible exact hd_newError _ _)

theorem hd_triggerItems (cfg : Cfg) (id : Id) (is : List OnItem) : Hd h h (triggerItems cfg id is : Comp M _) := by
  induction is with
  | nil => unfold triggerItems; hd
  | cons x is ih => cases x <;> (unfold triggerItems; hd)
macro_rules | `(tactic| hdstep) => `(tactic| with_reducible exact hd_triggerItems _ _ _)

theorem hd_importCode (cfg : Cfg) (ec : ErrorCode) (v : Val) : Hd h h (importCode cfg ec v : Comp M _) := by
  unfold importCode; hd
macro_rules | `(tactic| hdstep) => `(tactic| with_reducible exact hd_importCode _ _ _)

omit [Store M] in
theorem hd_checkId (cfg : Cfg) (saved : Id) (b : Bool) : Hd h h (checkId cfg saved b : Comp M _) := by
  unfold checkId; hd
macro_rules | `(tactic| hdstep) => `(tactic| with_reducible exact hd_checkId _ _ _)

omit [Store M] in
theorem hd_getId (cfg : Cfg) (saved : Id) : Hd h h (getId cfg saved : Comp M _) := by
  unfold getId; hd
macro_rules | `(tactic| hdstep) => `(tactic| with_reducible exact hd_getId _ _)

theorem hd_unloadNodes (cfg : Cfg) (id : Id) (ns : List CapNode) : Hd h h (unloadNodes cfg id ns : Comp M _) := by
  induction ns with
  | nil => unfold unloadNodes; hd
  | cons x ns ih => cases x <;> (unfold unloadNodes; hd)
macro_rules | `(tactic| hdstep) => `(tactic| with_reducible exact hd_unloadNodes _ _ _)

theorem hd_resultUnload (cfg : Cfg) (r : ErrRes) : Hd h h (resultUnload cfg r : Comp M _) := by
  unfold resultUnload; hd
macro_rules | `(tactic| hdstep) => `(tactic| with_reducible exact hd_resultUnload _ _)

theorem hd_unloadDaNodes (cfg : Cfg) (id : Id) (ns : List (Ty × Cell)) : Hd h h (unloadDaNodes cfg id ns : Comp M _) := by
  induction ns with
  | nil => unfold unloadDaNodes; hd
  | cons x ns ih => unfold unloadDaNodes; hd
macro_rules | `(tactic| hdstep) => `(tactic| with_reducible exact hd_unloadDaNodes _ _ _)

theorem hd_unloadCell (cfg : Cfg) (id : Id) (c : CtxCell) : Hd h h (unloadCell cfg id c : Comp M _) := by
  unfold unloadCell; hd
macro_rules | `(tactic| hdstep) => `(tactic| with_reducible exact hd_unloadCell _ _ _)

theorem hd_unloadCells (cfg : Cfg) (id : Id) (cs : List CtxCell) : Hd h h (unloadCells cfg id cs : Comp M _) := by
  induction cs with
  | nil => unfold unloadCells; hd
  | cons x cs ih => unfold unloadCells; hd
macro_rules | `(tactic| hdstep) => `(tactic| with_reducible exact hd_unloadCells _ _ _)

omit [Store M] in
theorem hd_unpackId (e : Exc) : Hd h h (unpackId e : Comp M _) := by
  unfold unpackId; hd
macro_rules | `(tactic| hdstep) => `(tactic| with_reducible exact hd_unpackId _)

omit [Store M] in
theorem hd_destroyExc (e : Exc) : Hd h h (destroyExc e : Comp M _) := by
  unfold destroyExc; hd
macro_rules | `(tactic| hdstep) => `(tactic| with_reducible exact hd_destroyExc _)

omit [Store M] in
theorem hd_ctxLoc (id : Id) (cs : List CtxCell) : Hd h h (ctxLoc id cs : Comp M _) := by
  unfold ctxLoc; hd
macro_rules | `(tactic| hdstep) => `(tactic| with_reducible exact hd_ctxLoc _ _)

theorem hd_unloadOut (cfg : Cfg) (o : Out) : Hd h h (unloadOut cfg o : Comp M _) := by
  unfold unloadOut; hd
macro_rules | `(tactic| hdstep) => `(tactic| with_reducible exact hd_unloadOut _ _)

omit [Store M] in
theorem hd_noErr (o : Out) : Hd h h (noErr o : Comp M _) := by
  unfold noErr; hd
macro_rules | `(tactic| hdstep) => `(tactic| with_reducible exact hd_noErr _)

omit [Store M] in
theorem hd_extractCaptured (id : Id) (cs : List CtxCell) (ex : Option Exc) : Hd h h (extractCaptured id cs ex : Comp M _) := by
  unfold extractCaptured; hd
macro_rules | `(tactic| hdstep) => `(tactic| with_reducible exact hd_extractCaptured _ _ _)

theorem hd_catchHelper (cfg : Cfg) (e : Exc) (tys : List Ty) : Hd h h (catchHelper cfg e tys : Comp M _) := by
  induction tys with
  | nil => unfold catchHelper; hd
  | cons x tys ih => unfold catchHelper; hd
macro_rules | `(tactic| hdstep) => `(tactic| with_reducible exact hd_catchHelper _ _ _)

theorem hd_resultValue (cfg : Cfg) (r : ErrRes) (tag : Nat) : Hd h h (resultValue cfg r tag : Comp M _) := by
  unfold resultValue; hd
macro_rules | `(tactic| hdstep) => `(tactic| with_reducible exact hd_resultValue _ _ _)

omit [Store M] in
theorem hd_callHandler (cfg : Cfg) (specs : List (List Arg)) {b : Nat → List ArgVal → Comp M Out} (hb : ∀ i a, Hd h h (b i a)) (cells : List CtxCell)
    (id : Id) (ex : Option Exc) (loc : Option Val) (i : Nat) : Hd h h (callHandler cfg specs b cells id ex loc i) := by
  unfold callHandler
  repeat (first | with_reducible exact hb _ _ | hdstep1)

theorem hd_catchPath (cfg : Cfg) (specs : List (List Arg)) {b : Nat → List ArgVal → Comp M Out} (hb : ∀ h i a, Hd h h (b i a)) (e : Exc) :
    Hd h h (catchPath cfg specs b e) := by
  unfold catchPath
  repeat (first | with_reducible exact hd_callHandler cfg specs (hb _) _ _ _ _ _ | hdstep1)

theorem hd_tryHandleAll (cfg : Cfg) (specs : List (List Arg)) {x : Comp M Out} {b : Nat → List ArgVal → Comp M Out} (hx : ∀ h, Hd h h x)
    (hb : ∀ h i a, Hd h h (b i a)) : Hd h h (tryHandleAll cfg specs x b) := by
  unfold tryHandleAll
  repeat (first | with_reducible exact hx _ | with_reducible exact hd_callHandler cfg specs (hb _) _ _ _ _ _ | with_reducible exact hd_catchPath cfg specs hb _ | hdstep1)

theorem hd_tryHandleSome (cfg : Cfg) (specs : List (List Arg)) {x : Comp M Out} {b : Nat → List ArgVal → Comp M Out} (hx : ∀ h, Hd h h x)
    (hb : ∀ h i a, Hd h h (b i a)) : Hd h h (tryHandleSome cfg specs x b) := by
  unfold tryHandleSome
  repeat (first | with_reducible exact hx _ | with_reducible exact hd_callHandler cfg specs (hb _) _ _ _ _ _ | with_reducible exact hd_catchPath cfg specs hb _ | hdstep1)

theorem hd_tryCatch (cfg : Cfg) (specs : List (List Arg)) {x : Comp M Out} {b : Nat → List ArgVal → Comp M Out} (hx : ∀ h, Hd h h x)
    (hb : ∀ h i a, Hd h h (b i a)) : Hd h h (tryCatch cfg specs x b) := by
  unfold tryCatch
  repeat (first | with_reducible exact hx _ | with_reducible exact hd_callHandler cfg specs (hb _) _ _ _ _ _ | with_reducible exact hd_catchPath cfg specs hb _ | hdstep1)

theorem hd_eval (cfg : Cfg) (p : Prog) : Hd h h (eval cfg p : Comp M Out) := by
  induction p generalizing h with
  | ret o => unfold eval; hd
  | newError items k ih => unfold eval; exact Hd.bind (hd_newError _ _) (fun _ => ih _)
  | load id items k ih => unfold eval; exact Hd.bind (hd_errorIdLoad _ _ _) (fun _ => ih)
  | importCode ec v k ih => unfold eval; exact Hd.bind (hd_importCode _ _ _) (fun _ => ih _)
  | currentError k ih => unfold eval; exact Hd.bind hd_currentError (fun _ => ih _)
  | bind p k ke ih1 ih2 ih3 =>
    unfold eval
    refine Hd.bind ih1 (fun o => ?_)
    cases o with
    | val v => exact ih2 v
    | err r => exact ih3 r
    | exc e => exact Hd.pure _
  | onError items body ih => unfold eval onErrorGuard; repeat (first | with_reducible exact ih | hdstep1)
  | monNew k ih => unfold eval; exact Hd.bind hd_currentId (fun _ => ih _)
  | monCheck m k ih => unfold eval; exact Hd.bind (hd_checkId _ _ _) (fun _ => ih _)
  | monAssigned m k ih => unfold eval; exact Hd.bind (hd_getId _ _) (fun _ => ih _)
  | handleAll specs block body ih1 ih2 => unfold eval; exact hd_tryHandleAll cfg specs (fun _ => ih1) (fun _ i a => ih2 i a)
  | handleSome specs block body ih1 ih2 => unfold eval; exact hd_tryHandleSome cfg specs (fun _ => ih1) (fun _ i a => ih2 i a)
  | tryCatch specs block body ih1 ih2 => unfold eval; exact hd_tryCatch cfg specs (fun _ => ih1) (fun _ i a => ih2 i a)
  | captureAll block ih => unfold eval tryCaptureAll; repeat (first | with_reducible exact ih | hdstep1)
  | captureAllVoid block ih => unfold eval tryCaptureAllVoid; repeat (first | with_reducible exact ih | hdstep1)
  | excToResult tys block ih => unfold eval exceptionToResult; repeat (first | with_reducible exact ih | hdstep1)
  | cppCatch block h ih1 ih2 =>
    unfold eval cppCatch_
    repeat (first | with_reducible exact ih1 | with_reducible exact ih2 _ | hdstep1)
  | cppRethrow block h ih1 ih2 =>
    unfold eval cppRethrow_
    repeat (first | with_reducible exact ih1 | with_reducible exact ih2 _ | hdstep1)
  | unload r => unfold eval; hd
  | value r tag => unfold eval; hd

unseal Hd in
theorem eval_handling {cfg : Cfg} {p : Prog} {w w' : World M} {o : Out} (he : eval cfg p w = some (o, w')) : w'.handling = w.handling :=
  hd_eval cfg p w o w' rfl he

end
end Leaf
