import Verif.Prog
import Verif.Sim

/-!
# Every program behaves the same on any two storages whose operations correspond
-/

namespace Leaf

/-- A correspondence between two storages. `R`: the states correspond. `Good`: a condition on states of `N` that, once false, stays false.
Every operation that is defined on `N` and ends in a good state started in a good state, is defined on `M`, and has the same result there. -/
structure StoreSim (M N : Type) [Store M] [Store N] where
  R : M → N → Prop
  Good : N → Prop
  slotGet : ∀ ty (m : M) n a, R m n → Good n → Store.slotGet ty n = some a → Store.slotGet ty m = some a
  daKey : ∀ (m : M) n a, R m n → Good n → Store.daKey n = some a → Store.daKey m = some a
  slotSet_good : ∀ ty id v n n', Store.slotSet ty id v n = some n' → Good n' → Good n
  slotSet : ∀ ty id v (m : M) n n', R m n → Good n' → Store.slotSet ty id v n = some n' → ∃ m', Store.slotSet ty id v m = some m' ∧ R m' n'
  daReset_good : ∀ id n n', Store.daReset id n = some n' → Good n' → Good n
  daReset : ∀ id (m : M) n n', R m n → Good n' → Store.daReset id n = some n' → ∃ m', Store.daReset id m = some m' ∧ R m' n'
  daAppend_good : ∀ ty id v n n', Store.daAppend ty id v n = some n' → Good n' → Good n
  daAppend : ∀ ty id v (m : M) n n', R m n → Good n' → Store.daAppend ty id v n = some n' → ∃ m', Store.daAppend ty id v m = some m' ∧ R m' n'
  push_good : ∀ spec n n', Store.push spec n = some n' → Good n' → Good n
  push : ∀ spec (m : M) n n', R m n → Good n' → Store.push spec n = some n' → ∃ m', Store.push spec m = some m' ∧ R m' n'
  pop_good : ∀ n c n', Store.pop n = some (c, n') → Good n' → Good n
  pop : ∀ (m : M) n c n', R m n → Good n' → Store.pop n = some (c, n') → ∃ m', Store.pop m = some (c, m') ∧ R m' n'

section
variable {M N : Type} [Store M] [Store N]

/-- The same except for the storage. -/
def withMem {M N : Type} (w : World N) (m : M) : World M := ⟨w.cur, w.counter, w.ticks, w.trace, w.handling, m⟩

/-- `x` does whatever `y` does, whenever `y` is defined and ends in a good state. -/
def SSim (S : StoreSim M N) {α : Type} (x : Comp M α) (y : Comp N α) : Prop :=
  ∀ (w : World N) (a : α) (w' : World N), y w = some (a, w') → S.Good w'.mem →
    S.Good w.mem ∧ ∀ m, S.R m w.mem → ∃ m', x (withMem w m) = some (a, withMem w' m') ∧ S.R m' w'.mem

variable {S : StoreSim M N}

theorem SSim.pure {α : Type} (a : α) : SSim S (Pure.pure a) (Pure.pure a) := by
  intro w b w' h hg
  rw [pure_apply] at h
  cases h
  exact ⟨hg, fun m hm => ⟨m, rfl, hm⟩⟩

theorem SSim.bind {α β : Type} {x : Comp M α} {y : Comp N α} {f : α → Comp M β}
    {g : α → Comp N β} (h : SSim S x y) (hf : ∀ a, SSim S (f a) (g a)) : SSim S (x >>= f) (y >>= g) := by
  intro w b w' h0 hg
  rw [bind_apply] at h0
  cases hy : y w with
  | none => simp [hy] at h0
  | some p =>
    obtain ⟨a, v⟩ := p
    simp only [hy, Option.bind_some] at h0
    obtain ⟨h1, h2⟩ := hf a v b w' h0 hg
    obtain ⟨h3, h4⟩ := h w a v hy h1
    refine ⟨h3, fun m hm => ?_⟩
    obtain ⟨m1, e1, r1⟩ := h4 m hm
    obtain ⟨m2, e2, r2⟩ := h2 m1 r1
    exact ⟨m2, by rw [bind_apply, e1]; exact e2, r2⟩

theorem SSim.ub {α : Type} (x : Comp M α) : SSim S x Leaf.ub := by
  intro w b w' h
  simp [ub_apply] at h

theorem SSim.ub_bind {α β : Type} (x : Comp M β) (f : α → Comp N β) : SSim S x (Leaf.ub >>= f) := by
  intro w b w' h
  simp [bind_apply, ub_apply] at h

/-- Computations that do not touch storage. -/
theorem SSim.of_eq {α : Type} {x : Comp M α} {y : Comp N α}
    (h : ∀ w (m : M), x (withMem w m) = (y w).map (fun p => (p.1, withMem p.2 m)))
    (hm : ∀ w a w', y w = some (a, w') → w'.mem = w.mem) : SSim S x y := by
  intro w a w' hy hg
  have e := hm w a w' hy
  refine ⟨e ▸ hg, fun m hr => ⟨m, ?_, e ▸ hr⟩⟩
  rw [h, hy]; rfl

theorem ssim_emit (e : Event) : SSim S (emit e) (emit e) := .of_eq (fun _ _ => rfl) (by intro w a w' h; cases h; rfl)
theorem ssim_getCur : SSim S getCur getCur := .of_eq (fun _ _ => rfl) (by intro w a w' h; cases h; rfl)
theorem ssim_setCur (id : Id) : SSim S (setCur id) (setCur id) := .of_eq (fun _ _ => rfl) (by intro w a w' h; cases h; rfl)
theorem ssim_newId (cfg : Cfg) : SSim S (newId cfg) (newId cfg) := .of_eq (fun _ _ => rfl) (by intro w a w' h; cases h; rfl)
theorem ssim_pushHandling (e : Exc) : SSim S (pushHandling e) (pushHandling e) := .of_eq (fun _ _ => rfl) (by intro w a w' h; cases h; rfl)
theorem ssim_popHandling : SSim S popHandling popHandling := .of_eq (fun _ _ => rfl) (by intro w a w' h; cases h; rfl)
theorem ssim_currentException : SSim S currentException currentException := .of_eq (fun _ _ => rfl) (by intro w a w' h; cases h; rfl)
theorem ssim_currentId : SSim S currentId currentId := by
  refine .of_eq (fun w m => ?_) ?_
  · simp only [currentId, withMem]
    by_cases h : w.cur = 0#32 ∨ Id.Tagged w.cur <;> simp [h]
  · intro w a w' h
    simp only [currentId] at h
    split at h <;> simp at h
    rw [← h.2]
theorem ssim_assertTagged (id : Id) : SSim S (assertTagged id) (assertTagged id) := by
  refine .of_eq (fun w m => ?_) ?_
  · simp only [assertTagged]
    by_cases h : Id.Tagged id <;> simp [h]
  · intro w a w' h
    simp only [assertTagged] at h
    split at h <;> simp at h
    rw [← h]

theorem ssim_slotGet (ty : Ty) : SSim S (slotGet ty) (slotGet ty) := by
  intro w a w' h hg
  cases hx : Store.slotGet ty w.mem with
  | none => simp [slotGet, hx] at h
  | some x =>
    simp only [slotGet, hx, Option.map_some, Option.some.injEq, Prod.mk.injEq] at h
    obtain ⟨rfl, rfl⟩ := h
    exact ⟨hg, fun m hr => ⟨m, by simp [slotGet, withMem, S.slotGet ty m w.mem _ hr hg hx], hr⟩⟩

theorem ssim_daKey : SSim S daKey daKey := by
  intro w a w' h hg
  cases hx : Store.daKey w.mem with
  | none => simp [daKey, hx] at h
  | some x =>
    simp only [daKey, hx, Option.map_some, Option.some.injEq, Prod.mk.injEq] at h
    obtain ⟨rfl, rfl⟩ := h
    exact ⟨hg, fun m hr => ⟨m, by simp [daKey, withMem, S.daKey m w.mem _ hr hg hx], hr⟩⟩

theorem ssim_slotSet (ty : Ty) (id : Id) (v : Val) : SSim S (slotSet ty id v) (slotSet ty id v) := by
  intro w a w' h hg
  cases hx : Store.slotSet ty id v w.mem with
  | none => simp [slotSet, hx] at h
  | some x =>
    simp only [slotSet, hx, Option.map_some, Option.some.injEq, Prod.mk.injEq] at h
    obtain ⟨_, rfl⟩ := h
    refine ⟨S.slotSet_good ty id v _ _ hx hg, fun m hr => ?_⟩
    obtain ⟨m', e, r⟩ := S.slotSet ty id v m _ _ hr hg hx
    exact ⟨m', by simp [slotSet, withMem, e], r⟩

theorem ssim_daReset (id : Id) : SSim S (daReset id) (daReset id) := by
  intro w a w' h hg
  cases hx : Store.daReset id w.mem with
  | none => simp [daReset, hx] at h
  | some x =>
    simp only [daReset, hx, Option.map_some, Option.some.injEq, Prod.mk.injEq] at h
    obtain ⟨_, rfl⟩ := h
    refine ⟨S.daReset_good id _ _ hx hg, fun m hr => ?_⟩
    obtain ⟨m', e, r⟩ := S.daReset id m _ _ hr hg hx
    exact ⟨m', by simp [daReset, withMem, e], r⟩

theorem ssim_daAppend (ty : Ty) (id : Id) (v : Val) : SSim S (daAppend ty id v) (daAppend ty id v) := by
  intro w a w' h hg
  cases hx : Store.daAppend ty id v w.mem with
  | none => simp [daAppend, hx] at h
  | some x =>
    simp only [daAppend, hx, Option.map_some, Option.some.injEq, Prod.mk.injEq] at h
    obtain ⟨_, rfl⟩ := h
    refine ⟨S.daAppend_good ty id v _ _ hx hg, fun m hr => ?_⟩
    obtain ⟨m', e, r⟩ := S.daAppend ty id v m _ _ hr hg hx
    exact ⟨m', by simp [daAppend, withMem, e], r⟩

theorem ssim_pushCtx (spec : List CellTy) : SSim S (pushCtx spec) (pushCtx spec) := by
  intro w a w' h hg
  cases hx : Store.push spec w.mem with
  | none => simp [pushCtx, hx] at h
  | some x =>
    simp only [pushCtx, hx, Option.map_some, Option.some.injEq, Prod.mk.injEq] at h
    obtain ⟨_, rfl⟩ := h
    refine ⟨S.push_good spec _ _ hx hg, fun m hr => ?_⟩
    obtain ⟨m', e, r⟩ := S.push spec m _ _ hr hg hx
    exact ⟨m', by simp [pushCtx, withMem, e], r⟩

theorem ssim_popCtx : SSim S popCtx popCtx := by
  intro w a w' h hg
  cases hx : Store.pop w.mem with
  | none => simp [popCtx, hx] at h
  | some x =>
    obtain ⟨c, n'⟩ := x
    simp only [popCtx, hx, Option.map_some, Option.some.injEq, Prod.mk.injEq] at h
    obtain ⟨rfl, rfl⟩ := h
    refine ⟨S.pop_good _ _ _ hx hg, fun m hr => ?_⟩
    obtain ⟨m', e, r⟩ := S.pop m _ _ _ hr hg hx
    exact ⟨m', by simp [popCtx, withMem, e], r⟩

attribute [irreducible] SSim

/-- Decompose a goal `SSim x y` where `x` and `y` are the same term at the two storages. -/
syntax "ssimstep" : tactic
macro_rules | `(tactic| ssimstep) => `(tactic| fail)
macro "ssimstep1" : tactic => `(tactic|
  (first
    | with_reducible assumption
    | ssimstep
    | with_reducible first
      | exact SSim.pure _
      | exact SSim.ub_bind _ _
      | exact SSim.ub _
      | exact ssim_emit _ | exact ssim_getCur | exact ssim_setCur _ | exact ssim_newId _
      | exact ssim_pushHandling _ | exact ssim_popHandling | exact ssim_currentException | exact ssim_currentId
      | exact ssim_assertTagged _
      | exact ssim_slotGet _ | exact ssim_daKey | exact ssim_slotSet _ _ _ | exact ssim_daReset _ | exact ssim_daAppend _ _ _
      | exact ssim_pushCtx _ | exact ssim_popCtx
      | apply SSim.bind
    | split
    | intro _
    | dsimp only))
macro "ssim" : tactic => `(tactic| repeat ssimstep1)

theorem ssim_currentError : SSim S currentError currentError := by unfold currentError; ssim
theorem ssim_dynamicLoad (id : Id) (ty : Ty) (v : Val) : SSim S (dynamicLoad id ty v) (dynamicLoad id ty v) := by
  unfold dynamicLoad; ssim
theorem ssim_dynamicAccumulate (cfg : Cfg) (id : Id) (ty : Ty) (tag : Nat) (f : Val → Val) :
    SSim S (dynamicAccumulate cfg id ty tag f) (dynamicAccumulate cfg id ty tag f) := by
  unfold dynamicAccumulate; ssim
macro_rules
  | `(tactic| ssimstep) =>
    `(tactic| with_reducible first | exact ssim_currentError | exact ssim_dynamicLoad _ _ _ | exact ssim_dynamicAccumulate _ _ _ _ _)

theorem ssim_slotUnload (cfg : Cfg) (id : Id) (ty : Ty) (c : Cell) : SSim S (slotUnload cfg id ty c) (slotUnload cfg id ty c) := by
  unfold slotUnload; ssim
macro_rules | `(tactic| ssimstep) => `(tactic| with_reducible exact ssim_slotUnload _ _ _ _)

theorem ssim_loadSlot (cfg : Cfg) (b : Bool) (id : Id) (ty : Ty) (v : Val) : SSim S (loadSlot cfg b id ty v) (loadSlot cfg b id ty v) := by
  unfold loadSlot; ssim
macro_rules | `(tactic| ssimstep) => `(tactic| with_reducible exact ssim_loadSlot _ _ _ _ _)

theorem ssim_loadSlotDeferred (cfg : Cfg) (b : Bool) (id : Id) (ty : Ty) (tag : Nat) (v : Val) : SSim S (loadSlotDeferred cfg b id ty tag v) (loadSlotDeferred cfg b id ty tag v) := by
  unfold loadSlotDeferred; ssim
macro_rules | `(tactic| ssimstep) => `(tactic| with_reducible exact ssim_loadSlotDeferred _ _ _ _ _ _)

theorem ssim_loadSlotAccumulate (cfg : Cfg) (id : Id) (ty : Ty) (tag : Nat) (f : Val → Val) : SSim S (loadSlotAccumulate cfg id ty tag f) (loadSlotAccumulate cfg id ty tag f) := by
  unfold loadSlotAccumulate; ssim
macro_rules | `(tactic| ssimstep) => `(tactic| with_reducible exact ssim_loadSlotAccumulate _ _ _ _ _)

theorem ssim_loadItem (cfg : Cfg) (b : Bool) (id : Id) (i : Item) : SSim S (loadItem cfg b id i) (loadItem cfg b id i) := by
  unfold loadItem; ssim
macro_rules | `(tactic| ssimstep) => `(tactic| with_reducible exact ssim_loadItem _ _ _ _)

theorem ssim_loadItems (cfg : Cfg) (b : Bool) (id : Id) (is : List Item) : SSim S (loadItems cfg b id is) (loadItems cfg b id is) := by
  induction is with
  | nil => unfold loadItems; ssim
  | cons x is ih => unfold loadItems; ssim
macro_rules | `(tactic| ssimstep) => `(tactic| with_reducible exact ssim_loadItems _ _ _ _)

theorem ssim_errorIdLoad (cfg : Cfg) (id : Id) (is : List Item) : SSim S (errorIdLoad cfg id is) (errorIdLoad cfg id is) := by
  unfold errorIdLoad; ssim
macro_rules | `(tactic| ssimstep) => `(tactic| with_reducible exact ssim_errorIdLoad _ _ _)

theorem ssim_newError (cfg : Cfg) (is : List Item) : SSim S (newError cfg is) (newError cfg is) := by
  unfold newError; ssim
macro_rules | `(tactic| ssimstep) => `(tactic| with_reducible exact ssim_newError _ _)

theorem ssim_triggerItems (cfg : Cfg) (id : Id) (is : List OnItem) : SSim S (triggerItems cfg id is) (triggerItems cfg id is) := by
  induction is with
  | nil => unfold triggerItems; ssim
  | cons x is ih => cases x <;> (unfold triggerItems; ssim)
macro_rules | `(tactic| ssimstep) => `(tactic| with_reducible exact ssim_triggerItems _ _ _)

theorem ssim_importCode (cfg : Cfg) (ec : ErrorCode) (v : Val) : SSim S (importCode cfg ec v) (importCode cfg ec v) := by
  unfold importCode; ssim
macro_rules | `(tactic| ssimstep) => `(tactic| with_reducible exact ssim_importCode _ _ _)

theorem ssim_checkId (cfg : Cfg) (saved : Id) (b : Bool) : SSim S (checkId cfg saved b) (checkId cfg saved b) := by
  unfold checkId; ssim
macro_rules | `(tactic| ssimstep) => `(tactic| with_reducible exact ssim_checkId _ _ _)

theorem ssim_getId (cfg : Cfg) (saved : Id) : SSim S (getId cfg saved) (getId cfg saved) := by
  unfold getId; ssim
macro_rules | `(tactic| ssimstep) => `(tactic| with_reducible exact ssim_getId _ _)

theorem ssim_unloadNodes (cfg : Cfg) (id : Id) (ns : List CapNode) : SSim S (unloadNodes cfg id ns) (unloadNodes cfg id ns) := by
  induction ns with
  | nil => unfold unloadNodes; ssim
  | cons x ns ih => cases x <;> (unfold unloadNodes; ssim)
macro_rules | `(tactic| ssimstep) => `(tactic| with_reducible exact ssim_unloadNodes _ _ _)

theorem ssim_resultUnload (cfg : Cfg) (r : ErrRes) : SSim S (resultUnload cfg r) (resultUnload cfg r) := by
  unfold resultUnload; ssim
macro_rules | `(tactic| ssimstep) => `(tactic| with_reducible exact ssim_resultUnload _ _)

theorem ssim_unloadDaNodes (cfg : Cfg) (id : Id) (ns : List (Ty × Cell)) : SSim S (unloadDaNodes cfg id ns) (unloadDaNodes cfg id ns) := by
  induction ns with
  | nil => unfold unloadDaNodes; ssim
  | cons x ns ih => unfold unloadDaNodes; ssim
macro_rules | `(tactic| ssimstep) => `(tactic| with_reducible exact ssim_unloadDaNodes _ _ _)

theorem ssim_unloadCell (cfg : Cfg) (id : Id) (c : CtxCell) : SSim S (unloadCell cfg id c) (unloadCell cfg id c) := by
  unfold unloadCell; ssim
macro_rules | `(tactic| ssimstep) => `(tactic| with_reducible exact ssim_unloadCell _ _ _)

theorem ssim_unloadCells (cfg : Cfg) (id : Id) (cs : List CtxCell) : SSim S (unloadCells cfg id cs) (unloadCells cfg id cs) := by
  induction cs with
  | nil => unfold unloadCells; ssim
  | cons x cs ih => unfold unloadCells; ssim
macro_rules | `(tactic| ssimstep) => `(tactic| with_reducible exact ssim_unloadCells _ _ _)

theorem ssim_unpackId (e : Exc) : SSim S (unpackId e) (unpackId e) := by
  unfold unpackId; ssim
macro_rules | `(tactic| ssimstep) => `(tactic| with_reducible exact ssim_unpackId _)

theorem ssim_destroyExc (e : Exc) : SSim S (destroyExc e) (destroyExc e) := by
  unfold destroyExc; ssim
macro_rules | `(tactic| ssimstep) => `(tactic| with_reducible exact ssim_destroyExc _)

theorem ssim_ctxLoc (id : Id) (cs : List CtxCell) : SSim S (ctxLoc id cs) (ctxLoc id cs) := by
  unfold ctxLoc; ssim
macro_rules | `(tactic| ssimstep) => `(tactic| with_reducible exact ssim_ctxLoc _ _)

theorem ssim_unloadOut (cfg : Cfg) (o : Out) : SSim S (unloadOut cfg o) (unloadOut cfg o) := by
  unfold unloadOut; ssim
macro_rules | `(tactic| ssimstep) => `(tactic| with_reducible exact ssim_unloadOut _ _)

theorem ssim_noErr (o : Out) : SSim S (noErr o) (noErr o) := by
  unfold noErr; ssim
macro_rules | `(tactic| ssimstep) => `(tactic| with_reducible exact ssim_noErr _)

theorem ssim_extractCaptured (id : Id) (cs : List CtxCell) (ex : Option Exc) : SSim S (extractCaptured id cs ex) (extractCaptured id cs ex) := by
  unfold extractCaptured; ssim
macro_rules | `(tactic| ssimstep) => `(tactic| with_reducible exact ssim_extractCaptured _ _ _)

theorem ssim_catchHelper (cfg : Cfg) (e : Exc) (tys : List Ty) : SSim S (catchHelper cfg e tys) (catchHelper cfg e tys) := by
  induction tys with
  | nil => unfold catchHelper; ssim
  | cons x tys ih => unfold catchHelper; ssim
macro_rules | `(tactic| ssimstep) => `(tactic| with_reducible exact ssim_catchHelper _ _ _)

theorem ssim_resultValue (cfg : Cfg) (r : ErrRes) (tag : Nat) : SSim S (resultValue cfg r tag) (resultValue cfg r tag) := by
  unfold resultValue; ssim
macro_rules | `(tactic| ssimstep) => `(tactic| with_reducible exact ssim_resultValue _ _ _)

theorem ssim_callHandler (cfg : Cfg) (specs : List (List Arg)) {b1 : Nat → List ArgVal → Comp M Out}
    {b2 : Nat → List ArgVal → Comp N Out} (hb : ∀ i a, SSim S (b1 i a) (b2 i a)) (cells : List CtxCell) (id : Id)
    (ex : Option Exc) (loc : Option Val) (i : Nat) :
    SSim S (callHandler cfg specs b1 cells id ex loc i) (callHandler cfg specs b2 cells id ex loc i) := by
  unfold callHandler
  repeat (first | with_reducible exact hb _ _ | ssimstep1)

theorem ssim_catchPath (cfg : Cfg) (specs : List (List Arg)) {b1 : Nat → List ArgVal → Comp M Out}
    {b2 : Nat → List ArgVal → Comp N Out} (hb : ∀ i a, SSim S (b1 i a) (b2 i a)) (e : Exc) :
    SSim S (catchPath cfg specs b1 e) (catchPath cfg specs b2 e) := by
  unfold catchPath
  repeat (first | with_reducible exact ssim_callHandler cfg specs hb _ _ _ _ _ | ssimstep1)

theorem ssim_tryHandleAll (cfg : Cfg) (specs : List (List Arg)) {x : Comp M Out} {y : Comp N Out}
    {b1 : Nat → List ArgVal → Comp M Out}
    {b2 : Nat → List ArgVal → Comp N Out} (hx : SSim S x y) (hb : ∀ i a, SSim S (b1 i a) (b2 i a)) :
    SSim S (tryHandleAll cfg specs x b1) (tryHandleAll cfg specs y b2) := by
  unfold tryHandleAll
  repeat (first | with_reducible exact ssim_callHandler cfg specs hb _ _ _ _ _ | with_reducible exact ssim_catchPath cfg specs hb _ | ssimstep1)

theorem ssim_tryHandleSome (cfg : Cfg) (specs : List (List Arg)) {x : Comp M Out} {y : Comp N Out}
    {b1 : Nat → List ArgVal → Comp M Out}
    {b2 : Nat → List ArgVal → Comp N Out} (hx : SSim S x y) (hb : ∀ i a, SSim S (b1 i a) (b2 i a)) :
    SSim S (tryHandleSome cfg specs x b1) (tryHandleSome cfg specs y b2) := by
  unfold tryHandleSome
  repeat (first | with_reducible exact ssim_callHandler cfg specs hb _ _ _ _ _ | with_reducible exact ssim_catchPath cfg specs hb _ | ssimstep1)

theorem ssim_tryCatch (cfg : Cfg) (specs : List (List Arg)) {x : Comp M Out} {y : Comp N Out}
    {b1 : Nat → List ArgVal → Comp M Out}
    {b2 : Nat → List ArgVal → Comp N Out} (hx : SSim S x y) (hb : ∀ i a, SSim S (b1 i a) (b2 i a)) :
    SSim S (tryCatch cfg specs x b1) (tryCatch cfg specs y b2) := by
  unfold tryCatch
  repeat (first | with_reducible exact ssim_callHandler cfg specs hb _ _ _ _ _ | with_reducible exact ssim_catchPath cfg specs hb _ | ssimstep1)

/-- Every program. -/
theorem ssim_eval (cfg : Cfg) (p : Prog) : SSim S (eval cfg p) (eval cfg p) := by
  induction p with
  | ret o => unfold eval; ssim
  | newError items k ih => unfold eval; exact SSim.bind (ssim_newError _ _) (fun _ => ih _)
  | load id items k ih => unfold eval; exact SSim.bind (ssim_errorIdLoad _ _ _) (fun _ => ih)
  | importCode ec v k ih => unfold eval; exact SSim.bind (ssim_importCode _ _ _) (fun _ => ih _)
  | currentError k ih => unfold eval; exact SSim.bind ssim_currentError (fun _ => ih _)
  | bind p k ke ih1 ih2 ih3 =>
    unfold eval
    refine SSim.bind ih1 (fun o => ?_)
    cases o with
    | val v => exact ih2 v
    | err r => exact ih3 r
    | exc e => exact SSim.pure _
  | onError items body ih => unfold eval onErrorGuard; repeat (first | with_reducible exact ih | ssimstep1)
  | monNew k ih => unfold eval; exact SSim.bind ssim_currentId (fun _ => ih _)
  | monCheck m k ih => unfold eval; exact SSim.bind (ssim_checkId _ _ _) (fun _ => ih _)
  | monAssigned m k ih => unfold eval; exact SSim.bind (ssim_getId _ _) (fun _ => ih _)
  | handleAll specs block body ih1 ih2 => unfold eval; exact ssim_tryHandleAll cfg specs ih1 (fun i a => ih2 i a)
  | handleSome specs block body ih1 ih2 => unfold eval; exact ssim_tryHandleSome cfg specs ih1 (fun i a => ih2 i a)
  | tryCatch specs block body ih1 ih2 => unfold eval; exact ssim_tryCatch cfg specs ih1 (fun i a => ih2 i a)
  | captureAll block ih => unfold eval tryCaptureAll; repeat (first | with_reducible exact ih | ssimstep1)
  | captureAllVoid block ih => unfold eval tryCaptureAllVoid; repeat (first | with_reducible exact ih | ssimstep1)
  | excToResult tys block ih => unfold eval exceptionToResult; repeat (first | with_reducible exact ih | ssimstep1)
  | cppCatch block h ih1 ih2 =>
    unfold eval cppCatch_
    repeat (first | with_reducible exact ih1 | with_reducible exact ih2 _ | ssimstep1)
  | cppRethrow block h ih1 ih2 =>
    unfold eval cppRethrow_
    repeat (first | with_reducible exact ih1 | with_reducible exact ih2 _ | ssimstep1)
  | unload r => unfold eval; ssim
  | value r tag => unfold eval; ssim

end

end Leaf
