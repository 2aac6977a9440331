import Verif.PtrKeep
import Verif.Prog

/-!
# Every program behaves the same on the pointer-level storage as on the abstract storage
-/

namespace Leaf
open PtrStore (abs)

def absW (w : World PtrStore) : World AbsStore :=
  ⟨w.cur, w.counter, w.ticks, w.trace, w.handling, abs w.mem⟩

/-- `x` (on pointers) does whatever `y` (abstract) does, whenever `y` is defined. -/
def Sim {α : Type} (n n' : Nat) (x : Comp PtrStore α) (y : Comp AbsStore α) : Prop :=
  ∀ (m0 : PtrStore) (w : World PtrStore) (a : α) (w' : World AbsStore),
    PtrStore.Inv w.mem → PtrStore.Keep m0 n w.mem → y (absW w) = some (a, w') →
      ∃ w2, x w = some (a, w2) ∧ absW w2 = w' ∧ PtrStore.Inv w2.mem ∧ PtrStore.Keep m0 n' w2.mem

theorem bind_apply {M α β : Type} (x : Comp M α) (f : α → Comp M β) (w : World M) :
    (x >>= f) w = (x w).bind (fun p => f p.1 p.2) := rfl
theorem pure_apply {M α : Type} (a : α) (w : World M) : (pure a : Comp M α) w = some (a, w) := rfl
theorem ub_apply {M α : Type} (w : World M) : (ub : Comp M α) w = none := rfl

theorem Sim.pure {α : Type} {n : Nat} (a : α) : Sim n n (Pure.pure a) (Pure.pure a) := by
  intro m0 w b w' hi hk h
  rw [pure_apply] at h ⊢
  cases h
  exact ⟨w, rfl, rfl, hi, hk⟩

theorem Sim.bind {α β : Type} {n n' n'' : Nat} {x : Comp PtrStore α} {y : Comp AbsStore α} {f : α → Comp PtrStore β}
    {g : α → Comp AbsStore β} (h : Sim n n' x y) (hf : ∀ a, Sim n' n'' (f a) (g a)) : Sim n n'' (x >>= f) (y >>= g) := by
  intro m0 w b w' hi hk h0
  rw [bind_apply] at h0 ⊢
  cases hy : y (absW w) with
  | none => simp [hy] at h0
  | some p =>
    obtain ⟨a, v⟩ := p
    obtain ⟨w2, h1, h2, h3, h4⟩ := h m0 w a v hi hk hy
    simp only [hy, Option.bind_some] at h0
    rw [← h2] at h0
    simp only [h1, Option.bind_some]
    exact hf a m0 w2 b w' h3 h4 h0

theorem Sim.ub {α : Type} {n n' : Nat} (x : Comp PtrStore α) : Sim n n' x Leaf.ub := by
  intro m0 w b w' _ _ h
  simp [ub_apply] at h

theorem Sim.ub_bind {α β : Type} {n n' : Nat} (x : Comp PtrStore β) (f : α → Comp AbsStore β) : Sim n n' x (Leaf.ub >>= f) := by
  intro m0 w b w' _ _ h
  simp [bind_apply, ub_apply] at h

/-- Computations that do not touch storage. -/
theorem Sim.of_eq {α : Type} {n : Nat} {x : Comp PtrStore α} {y : Comp AbsStore α}
    (h : ∀ w, y (absW w) = (x w).map (fun p => (p.1, absW p.2)) ∧ ∀ a w', x w = some (a, w') → w'.mem = w.mem) : Sim n n x y := by
  intro m0 w a w' hi hk hy
  obtain ⟨h1, h2⟩ := h w
  rw [h1] at hy
  cases hx : x w with
  | none => simp [hx] at hy
  | some p =>
    obtain ⟨b, v⟩ := p
    simp only [hx, Option.map_some, Option.some.injEq, Prod.mk.injEq] at hy
    refine ⟨v, by rw [hy.1], hy.2, ?_, ?_⟩
    · rw [h2 b v hx]; exact hi
    · rw [h2 b v hx]; exact hk

theorem sim_emit {n : Nat} (e : Event) : Sim n n (emit e) (emit e) := .of_eq fun w => ⟨rfl, by intro a w' h; cases h; rfl⟩
theorem sim_getCur {n : Nat} : Sim n n getCur getCur := .of_eq fun w => ⟨rfl, by intro a w' h; cases h; rfl⟩
theorem sim_setCur {n : Nat} (id : Id) : Sim n n (setCur id) (setCur id) := .of_eq fun w => ⟨rfl, by intro a w' h; cases h; rfl⟩
theorem sim_newId {n : Nat} (cfg : Cfg) : Sim n n (newId cfg) (newId cfg) := .of_eq fun w => ⟨rfl, by intro a w' h; cases h; rfl⟩
theorem sim_pushHandling {n : Nat} (e : Exc) : Sim n n (pushHandling e) (pushHandling e) :=
  .of_eq fun w => ⟨rfl, by intro a w' h; cases h; rfl⟩
theorem sim_popHandling {n : Nat} : Sim n n popHandling popHandling := .of_eq fun w => ⟨rfl, by intro a w' h; cases h; rfl⟩
theorem sim_currentException {n : Nat} : Sim n n currentException currentException :=
  .of_eq fun w => ⟨rfl, by intro a w' h; cases h; rfl⟩
theorem sim_currentId {n : Nat} : Sim n n currentId currentId := by
  refine .of_eq fun w => ⟨?_, ?_⟩
  · simp only [currentId, absW]
    by_cases h : w.cur = 0#32 ∨ Id.Tagged w.cur <;> simp [h]
  · intro a w' h
    simp only [currentId] at h
    split at h <;> simp at h
    rw [← h.2]
theorem sim_assertTagged {n : Nat} (id : Id) : Sim n n (assertTagged id) (assertTagged id) := by
  refine .of_eq fun w => ⟨?_, ?_⟩
  · simp only [assertTagged]
    by_cases h : Id.Tagged id <;> simp [h]
  · intro a w' h
    simp only [assertTagged] at h
    split at h <;> simp at h
    rw [← h]

theorem sim_slotGet {n : Nat} (ty : Ty) : Sim n n (slotGet ty) (slotGet ty) := by
  intro m0 w a w' hi hk h
  simp only [slotGet, Store.slotGet, absW, Option.map_some, Option.some.injEq, Prod.mk.injEq] at h
  refine ⟨w, ?_, h.2, hi, hk⟩
  have := PtrStore.slotGet_ok hi ty
  simp only [slotGet, Store.slotGet]
  rw [this, ← h.1]; rfl

theorem sim_daKey {n : Nat} : Sim n n daKey daKey := by
  intro m0 w a w' hi hk h
  simp only [daKey, Store.daKey, absW, Option.map_some, Option.some.injEq, Prod.mk.injEq] at h
  refine ⟨w, ?_, h.2, hi, hk⟩
  have := PtrStore.daKey_ok hi
  simp only [daKey, Store.daKey]
  rw [this, ← h.1]; rfl

theorem sim_slotSet {n : Nat} (ty : Ty) (id : Id) (v : Val) : Sim n n (slotSet ty id v) (slotSet ty id v) := by
  intro m0 w a w' hi hk h
  unfold slotSet at h ⊢
  cases hx : Store.slotSet ty id v (abs w.mem) with
  | none => simp [absW, hx] at h
  | some x =>
    obtain ⟨m', h1, h2, h3⟩ := PtrStore.slotSet_ok hi ty id v hx
    simp only [absW, hx, Option.map_some, Option.some.injEq, Prod.mk.injEq] at h
    refine ⟨{ w with mem := m' }, ?_, ?_, h3, hk.slotSet hi h1⟩
    · simp [Store.slotSet, h1]
    · rw [← h.2, ← h2]; rfl

theorem sim_daReset {n : Nat} (id : Id) : Sim n n (daReset id) (daReset id) := by
  intro m0 w a w' hi hk h
  unfold daReset at h ⊢
  cases hx : Store.daReset id (abs w.mem) with
  | none => simp [absW, hx] at h
  | some x =>
    obtain ⟨m', h1, h2, h3⟩ := PtrStore.daReset_ok hi id hx
    simp only [absW, hx, Option.map_some, Option.some.injEq, Prod.mk.injEq] at h
    refine ⟨{ w with mem := m' }, ?_, ?_, h3, hk.daReset hi hx h1⟩
    · simp [Store.daReset, h1]
    · rw [← h.2, ← h2]; rfl

theorem sim_daAppend {n : Nat} (ty : Ty) (id : Id) (v : Val) : Sim n n (daAppend ty id v) (daAppend ty id v) := by
  intro m0 w a w' hi hk h
  unfold daAppend at h ⊢
  cases hx : Store.daAppend ty id v (abs w.mem) with
  | none => simp [absW, hx] at h
  | some x =>
    obtain ⟨m', h1, h2, h3⟩ := PtrStore.daAppend_ok hi ty id v hx
    simp only [absW, hx, Option.map_some, Option.some.injEq, Prod.mk.injEq] at h
    refine ⟨{ w with mem := m' }, ?_, ?_, h3, hk.daAppend hi h1⟩
    · simp [Store.daAppend, h1]
    · rw [← h.2, ← h2]; rfl

theorem sim_pushCtx {n : Nat} (spec : List CellTy) : Sim n (n + 1) (pushCtx spec) (pushCtx spec) := by
  intro m0 w a w' hi hk h
  unfold pushCtx at h ⊢
  cases hx : Store.push spec (abs w.mem) with
  | none => simp [absW, hx] at h
  | some x =>
    obtain ⟨m', h1, h2, h3⟩ := PtrStore.push_ok hi spec hx
    simp only [absW, hx, Option.map_some, Option.some.injEq, Prod.mk.injEq] at h
    refine ⟨{ w with mem := m' }, ?_, ?_, h3, hk.push hi h1⟩
    · simp [Store.push, h1]
    · rw [← h.2, ← h2]; rfl

theorem sim_popCtx {n : Nat} : Sim (n + 1) n popCtx popCtx := by
  intro m0 w a w' hi hk h
  unfold popCtx at h ⊢
  cases hx : Store.pop (abs w.mem) with
  | none => simp [absW, hx] at h
  | some x =>
    obtain ⟨c, x⟩ := x
    obtain ⟨m', h1, h2, h3⟩ := PtrStore.pop_ok hi hx
    simp only [absW, hx, Option.map_some, Option.some.injEq, Prod.mk.injEq] at h
    refine ⟨{ w with mem := m' }, ?_, ?_, h3, hk.pop hi h1⟩
    · simp [Store.pop, h1, h.1]
    · rw [← h.2, ← h2]; rfl

attribute [irreducible] Sim

/-- Decompose a goal `Sim x y` where `x` and `y` are the same term at the two storages. -/
syntax "simstep" : tactic
macro_rules | `(tactic| simstep) => `(tactic| fail)
macro "simstep1" : tactic => `(tactic|
  (first
    | with_reducible assumption
    | simstep
    | with_reducible first
      | exact Sim.pure _
      | exact Sim.ub_bind _ _
      | exact Sim.ub _
      | exact sim_emit _ | exact sim_getCur | exact sim_setCur _ | exact sim_newId _
      | exact sim_pushHandling _ | exact sim_popHandling | exact sim_currentException | exact sim_currentId
      | exact sim_assertTagged _
      | exact sim_slotGet _ | exact sim_daKey | exact sim_slotSet _ _ _ | exact sim_daReset _ | exact sim_daAppend _ _ _
      | exact sim_pushCtx _ | exact sim_popCtx
      | apply Sim.bind
    | split
    | intro _
    | dsimp only))
macro "sim" : tactic => `(tactic| repeat simstep1)

theorem sim_currentError {n : Nat} : Sim n n currentError currentError := by unfold currentError; sim
theorem sim_dynamicLoad {n : Nat} (id : Id) (ty : Ty) (v : Val) : Sim n n (dynamicLoad id ty v) (dynamicLoad id ty v) := by
  unfold dynamicLoad; sim
theorem sim_dynamicAccumulate {n : Nat} (cfg : Cfg) (id : Id) (ty : Ty) (tag : Nat) (f : Val → Val) :
    Sim n n (dynamicAccumulate cfg id ty tag f) (dynamicAccumulate cfg id ty tag f) := by
  unfold dynamicAccumulate; sim
macro_rules
  | `(tactic| simstep) =>
    `(tactic| with_reducible first | exact sim_currentError | exact sim_dynamicLoad _ _ _ | exact sim_dynamicAccumulate _ _ _ _ _)

theorem sim_slotUnload {n : Nat} (cfg : Cfg) (id : Id) (ty : Ty) (c : Cell) : Sim n n (slotUnload cfg id ty c) (slotUnload cfg id ty c) := by
  unfold slotUnload; sim
macro_rules | `(tactic| simstep) => `(tactic| with_reducible exact sim_slotUnload _ _ _ _)

theorem sim_loadSlot {n : Nat} (cfg : Cfg) (b : Bool) (id : Id) (ty : Ty) (v : Val) : Sim n n (loadSlot cfg b id ty v) (loadSlot cfg b id ty v) := by
  unfold loadSlot; sim
macro_rules | `(tactic| simstep) => `(tactic| with_reducible exact sim_loadSlot _ _ _ _ _)

theorem sim_loadSlotDeferred {n : Nat} (cfg : Cfg) (b : Bool) (id : Id) (ty : Ty) (tag : Nat) (v : Val) : Sim n n (loadSlotDeferred cfg b id ty tag v) (loadSlotDeferred cfg b id ty tag v) := by
  unfold loadSlotDeferred; sim
macro_rules | `(tactic| simstep) => `(tactic| with_reducible exact sim_loadSlotDeferred _ _ _ _ _ _)

theorem sim_loadSlotAccumulate {n : Nat} (cfg : Cfg) (id : Id) (ty : Ty) (tag : Nat) (f : Val → Val) : Sim n n (loadSlotAccumulate cfg id ty tag f) (loadSlotAccumulate cfg id ty tag f) := by
  unfold loadSlotAccumulate; sim
macro_rules | `(tactic| simstep) => `(tactic| with_reducible exact sim_loadSlotAccumulate _ _ _ _ _)

theorem sim_loadItem {n : Nat} (cfg : Cfg) (b : Bool) (id : Id) (i : Item) : Sim n n (loadItem cfg b id i) (loadItem cfg b id i) := by
  unfold loadItem; sim
macro_rules | `(tactic| simstep) => `(tactic| with_reducible exact sim_loadItem _ _ _ _)

theorem sim_loadItems {n : Nat} (cfg : Cfg) (b : Bool) (id : Id) (is : List Item) : Sim n n (loadItems cfg b id is) (loadItems cfg b id is) := by
  induction is with
  | nil => unfold loadItems; sim
  | cons x is ih => unfold loadItems; sim
macro_rules | `(tactic| simstep) => `(tactic| with_reducible exact sim_loadItems _ _ _ _)

theorem sim_errorIdLoad {n : Nat} (cfg : Cfg) (id : Id) (is : List Item) : Sim n n (errorIdLoad cfg id is) (errorIdLoad cfg id is) := by
  unfold errorIdLoad; sim
macro_rules | `(tactic| simstep) => `(tactic| with_reducible exact sim_errorIdLoad _ _ _)

theorem sim_newError {n : Nat} (cfg : Cfg) (is : List Item) : Sim n n (newError cfg is) (newError cfg is) := by
  unfold newError; sim
macro_rules | `(tactic| simstep) => `(tactic| with_reducible exact sim_newError _ _)

theorem sim_triggerItems {n : Nat} (cfg : Cfg) (id : Id) (is : List OnItem) : Sim n n (triggerItems cfg id is) (triggerItems cfg id is) := by
  induction is with
  | nil => unfold triggerItems; sim
  | cons x is ih => cases x <;> (unfold triggerItems; sim)
macro_rules | `(tactic| simstep) => `(tactic| with_reducible exact sim_triggerItems _ _ _)

theorem sim_importCode {n : Nat} (cfg : Cfg) (ec : ErrorCode) (v : Val) : Sim n n (importCode cfg ec v) (importCode cfg ec v) := by
  unfold importCode; sim
macro_rules | `(tactic| simstep) => `(tactic| with_reducible exact sim_importCode _ _ _)

theorem sim_checkId {n : Nat} (cfg : Cfg) (saved : Id) (b : Bool) : Sim n n (checkId cfg saved b) (checkId cfg saved b) := by
  unfold checkId; sim
macro_rules | `(tactic| simstep) => `(tactic| with_reducible exact sim_checkId _ _ _)

theorem sim_getId {n : Nat} (cfg : Cfg) (saved : Id) : Sim n n (getId cfg saved) (getId cfg saved) := by
  unfold getId; sim
macro_rules | `(tactic| simstep) => `(tactic| with_reducible exact sim_getId _ _)

theorem sim_unloadNodes {n : Nat} (cfg : Cfg) (id : Id) (ns : List CapNode) : Sim n n (unloadNodes cfg id ns) (unloadNodes cfg id ns) := by
  induction ns with
  | nil => unfold unloadNodes; sim
  | cons x ns ih => cases x <;> (unfold unloadNodes; sim)
macro_rules | `(tactic| simstep) => `(tactic| with_reducible exact sim_unloadNodes _ _ _)

theorem sim_resultUnload {n : Nat} (cfg : Cfg) (r : ErrRes) : Sim n n (resultUnload cfg r) (resultUnload cfg r) := by
  unfold resultUnload; sim
macro_rules | `(tactic| simstep) => `(tactic| with_reducible exact sim_resultUnload _ _)

theorem sim_unloadDaNodes {n : Nat} (cfg : Cfg) (id : Id) (ns : List (Ty × Cell)) : Sim n n (unloadDaNodes cfg id ns) (unloadDaNodes cfg id ns) := by
  induction ns with
  | nil => unfold unloadDaNodes; sim
  | cons x ns ih => unfold unloadDaNodes; sim
macro_rules | `(tactic| simstep) => `(tactic| with_reducible exact sim_unloadDaNodes _ _ _)

theorem sim_unloadCell {n : Nat} (cfg : Cfg) (id : Id) (c : CtxCell) : Sim n n (unloadCell cfg id c) (unloadCell cfg id c) := by
  unfold unloadCell; sim
macro_rules | `(tactic| simstep) => `(tactic| with_reducible exact sim_unloadCell _ _ _)

theorem sim_unloadCells {n : Nat} (cfg : Cfg) (id : Id) (cs : List CtxCell) : Sim n n (unloadCells cfg id cs) (unloadCells cfg id cs) := by
  induction cs with
  | nil => unfold unloadCells; sim
  | cons x cs ih => unfold unloadCells; sim
macro_rules | `(tactic| simstep) => `(tactic| with_reducible exact sim_unloadCells _ _ _)

theorem sim_unpackId {n : Nat} (e : Exc) : Sim n n (unpackId e) (unpackId e) := by
  unfold unpackId; sim
macro_rules | `(tactic| simstep) => `(tactic| with_reducible exact sim_unpackId _)

theorem sim_destroyExc {n : Nat} (e : Exc) : Sim n n (destroyExc e) (destroyExc e) := by
  unfold destroyExc; sim
macro_rules | `(tactic| simstep) => `(tactic| with_reducible exact sim_destroyExc _)

theorem sim_ctxLoc {n : Nat} (id : Id) (cs : List CtxCell) : Sim n n (ctxLoc id cs) (ctxLoc id cs) := by
  unfold ctxLoc; sim
macro_rules | `(tactic| simstep) => `(tactic| with_reducible exact sim_ctxLoc _ _)

theorem sim_unloadOut {n : Nat} (cfg : Cfg) (o : Out) : Sim n n (unloadOut cfg o) (unloadOut cfg o) := by
  unfold unloadOut; sim
macro_rules | `(tactic| simstep) => `(tactic| with_reducible exact sim_unloadOut _ _)

theorem sim_noErr {n : Nat} (o : Out) : Sim n n (noErr o) (noErr o) := by
  unfold noErr; sim
macro_rules | `(tactic| simstep) => `(tactic| with_reducible exact sim_noErr _)

theorem sim_extractCaptured {n : Nat} (id : Id) (cs : List CtxCell) (ex : Option Exc) : Sim n n (extractCaptured id cs ex) (extractCaptured id cs ex) := by
  unfold extractCaptured; sim
macro_rules | `(tactic| simstep) => `(tactic| with_reducible exact sim_extractCaptured _ _ _)

theorem sim_catchHelper {n : Nat} (cfg : Cfg) (e : Exc) (tys : List Ty) : Sim n n (catchHelper cfg e tys) (catchHelper cfg e tys) := by
  induction tys with
  | nil => unfold catchHelper; sim
  | cons x tys ih => unfold catchHelper; sim
macro_rules | `(tactic| simstep) => `(tactic| with_reducible exact sim_catchHelper _ _ _)

theorem sim_resultValue {n : Nat} (cfg : Cfg) (r : ErrRes) (tag : Nat) : Sim n n (resultValue cfg r tag) (resultValue cfg r tag) := by
  unfold resultValue; sim
macro_rules | `(tactic| simstep) => `(tactic| with_reducible exact sim_resultValue _ _ _)

theorem sim_callHandler {n : Nat} (cfg : Cfg) (specs : List (List Arg)) {b1 : Nat → List ArgVal → Comp PtrStore Out}
    {b2 : Nat → List ArgVal → Comp AbsStore Out} (hb : ∀ i a, Sim n n (b1 i a) (b2 i a)) (cells : List CtxCell) (id : Id)
    (ex : Option Exc) (loc : Option Val) (i : Nat) :
    Sim n n (callHandler cfg specs b1 cells id ex loc i) (callHandler cfg specs b2 cells id ex loc i) := by
  unfold callHandler
  repeat (first | with_reducible exact hb _ _ | simstep1)

theorem sim_catchPath {n : Nat} (cfg : Cfg) (specs : List (List Arg)) {b1 : Nat → List ArgVal → Comp PtrStore Out}
    {b2 : Nat → List ArgVal → Comp AbsStore Out} (hb : ∀ i a, Sim n n (b1 i a) (b2 i a)) (e : Exc) :
    Sim (n + 1) n (catchPath cfg specs b1 e) (catchPath cfg specs b2 e) := by
  unfold catchPath
  repeat (first | with_reducible exact sim_callHandler cfg specs hb _ _ _ _ _ | simstep1)

theorem sim_tryHandleAll {n : Nat} (cfg : Cfg) (specs : List (List Arg)) {x : Comp PtrStore Out} {y : Comp AbsStore Out}
    {b1 : Nat → List ArgVal → Comp PtrStore Out}
    {b2 : Nat → List ArgVal → Comp AbsStore Out} (hx : Sim (n + 1) (n + 1) x y) (hb : ∀ i a, Sim n n (b1 i a) (b2 i a)) :
    Sim n n (tryHandleAll cfg specs x b1) (tryHandleAll cfg specs y b2) := by
  unfold tryHandleAll
  repeat (first | with_reducible exact sim_callHandler cfg specs hb _ _ _ _ _ | with_reducible exact sim_catchPath cfg specs hb _ | simstep1)

theorem sim_tryHandleSome {n : Nat} (cfg : Cfg) (specs : List (List Arg)) {x : Comp PtrStore Out} {y : Comp AbsStore Out}
    {b1 : Nat → List ArgVal → Comp PtrStore Out}
    {b2 : Nat → List ArgVal → Comp AbsStore Out} (hx : Sim (n + 1) (n + 1) x y) (hb : ∀ i a, Sim n n (b1 i a) (b2 i a)) :
    Sim n n (tryHandleSome cfg specs x b1) (tryHandleSome cfg specs y b2) := by
  unfold tryHandleSome
  repeat (first | with_reducible exact sim_callHandler cfg specs hb _ _ _ _ _ | with_reducible exact sim_catchPath cfg specs hb _ | simstep1)

theorem sim_tryCatch {n : Nat} (cfg : Cfg) (specs : List (List Arg)) {x : Comp PtrStore Out} {y : Comp AbsStore Out}
    {b1 : Nat → List ArgVal → Comp PtrStore Out}
    {b2 : Nat → List ArgVal → Comp AbsStore Out} (hx : Sim (n + 1) (n + 1) x y) (hb : ∀ i a, Sim n n (b1 i a) (b2 i a)) :
    Sim n n (tryCatch cfg specs x b1) (tryCatch cfg specs y b2) := by
  unfold tryCatch
  repeat (first | with_reducible exact sim_callHandler cfg specs hb _ _ _ _ _ | with_reducible exact sim_catchPath cfg specs hb _ | simstep1)

/-- Every program does on the pointer-level storage what it does on the abstract storage. -/
theorem sim_eval {n : Nat} (cfg : Cfg) (p : Prog) : Sim n n (eval cfg p) (eval cfg p) := by
  induction p generalizing n with
  | ret o => unfold eval; sim
  | newError items k ih => unfold eval; exact Sim.bind (sim_newError _ _) (fun _ => ih _)
  | load id items k ih => unfold eval; exact Sim.bind (sim_errorIdLoad _ _ _) (fun _ => ih)
  | importCode ec v k ih => unfold eval; exact Sim.bind (sim_importCode _ _ _) (fun _ => ih _)
  | currentError k ih => unfold eval; exact Sim.bind sim_currentError (fun _ => ih _)
  | bind p k ke ih1 ih2 ih3 =>
    unfold eval
    refine Sim.bind ih1 (fun o => ?_)
    cases o with
    | val v => exact ih2 v
    | err r => exact ih3 r
    | exc e => exact Sim.pure _
  | onError items body ih => unfold eval onErrorGuard; repeat (first | with_reducible exact ih | simstep1)
  | monNew k ih => unfold eval; exact Sim.bind sim_currentId (fun _ => ih _)
  | monCheck m k ih => unfold eval; exact Sim.bind (sim_checkId _ _ _) (fun _ => ih _)
  | monAssigned m k ih => unfold eval; exact Sim.bind (sim_getId _ _) (fun _ => ih _)
  | handleAll specs block body ih1 ih2 => unfold eval; exact sim_tryHandleAll cfg specs ih1 (fun i a => ih2 i a)
  | handleSome specs block body ih1 ih2 => unfold eval; exact sim_tryHandleSome cfg specs ih1 (fun i a => ih2 i a)
  | tryCatch specs block body ih1 ih2 => unfold eval; exact sim_tryCatch cfg specs ih1 (fun i a => ih2 i a)
  | captureAll block ih => unfold eval tryCaptureAll; repeat (first | with_reducible exact ih | simstep1)
  | captureAllVoid block ih => unfold eval tryCaptureAllVoid; repeat (first | with_reducible exact ih | simstep1)
  | excToResult tys block ih => unfold eval exceptionToResult; repeat (first | with_reducible exact ih | simstep1)
  | cppCatch block h ih1 ih2 =>
    unfold eval cppCatch_
    repeat (first | with_reducible exact ih1 | with_reducible exact ih2 _ | simstep1)
  | cppRethrow block h ih1 ih2 =>
    unfold eval cppRethrow_
    repeat (first | with_reducible exact ih1 | with_reducible exact ih2 _ | simstep1)
  | unload r => unfold eval; sim
  | value r tag => unfold eval; sim

end Leaf
