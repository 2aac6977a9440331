import Verif.AllocModel
import Verif.Sim
import Verif.Total

/-!
# Lemmas about `AllocModel`: pointers, totality, outcomes
-/

namespace Leaf

theorem bindT_apply {M α β : Type} (x : CompT M α) (f : α → CompT M β) (n : Nat) (w : World M) :
    (x >>= f) n w = (x n w).bind (fun p => match p.1 with
      | none => some (none, p.2)
      | some (a, n') => f a n' p.2) := by
  show (x n w).bind _ = _
  cases x n w with
  | none => rfl
  | some p =>
    obtain ⟨r, w1⟩ := p
    cases r <;> rfl

theorem pureT_apply {M α : Type} (a : α) (n : Nat) (w : World M) : (pure a : CompT M α) n w = some (some (a, n), w) := rfl

theorem lift_apply {M α : Type} (x : Comp M α) (n : Nat) (w : World M) :
    lift x n w = (x w).map (fun p => (some (p.1, n), p.2)) := by
  show (x w).bind _ = _
  cases x w <;> rfl

theorem terminate_apply {M α : Type} (n : Nat) (w : World M) : (terminate : CompT M α) n w = some (none, w) := rfl

theorem allocate_apply {M : Type} (mem : Nat → Bool) (n : Nat) (w : World M) :
    (allocate mem : CompT M Bool) n w = some (some (mem n, n + 1), w) := rfl

/-! ## Pointers -/

def SimT {α : Type} (n n' : Nat) (x : CompT PtrStore α) (y : CompT AbsStore α) : Prop :=
  ∀ (m0 : PtrStore) (k : Nat) (w : World PtrStore) (r : Option (α × Nat)) (w' : World AbsStore),
    PtrStore.Inv w.mem → PtrStore.Keep m0 n w.mem → y k (absW w) = some (r, w') →
      ∃ w2, x k w = some (r, w2) ∧ absW w2 = w' ∧ PtrStore.Inv w2.mem ∧ (r ≠ none → PtrStore.Keep m0 n' w2.mem)

theorem SimT.pure {α : Type} {n : Nat} (a : α) : SimT n n (Pure.pure a) (Pure.pure a) := by
  intro m0 k w r w' hi hk h
  rw [pureT_apply] at h ⊢
  cases h
  exact ⟨w, rfl, rfl, hi, fun _ => hk⟩

theorem SimT.bind {α β : Type} {n n' n'' : Nat} {x : CompT PtrStore α} {y : CompT AbsStore α} {f : α → CompT PtrStore β}
    {g : α → CompT AbsStore β} (h : SimT n n' x y) (hf : ∀ a, SimT n' n'' (f a) (g a)) : SimT n n'' (x >>= f) (y >>= g) := by
  intro m0 k w b w' hi hk h0
  rw [bindT_apply] at h0 ⊢
  cases hy : y k (absW w) with
  | none => simp [hy] at h0
  | some p =>
    obtain ⟨a, v⟩ := p
    obtain ⟨w2, h1, h2, h3, h4⟩ := h m0 k w a v hi hk hy
    simp only [hy, Option.bind_some] at h0
    rw [h1, Option.bind_some]
    cases a with
    | none =>
      simp only [Option.some.injEq, Prod.mk.injEq] at h0
      obtain ⟨rfl, rfl⟩ := h0
      exact ⟨w2, rfl, h2, h3, by simp⟩
    | some a =>
      rw [← h2] at h0
      exact hf a.1 m0 a.2 w2 b w' h3 (h4 (by simp)) h0

theorem SimT.lift {α : Type} {n n' : Nat} {x : Comp PtrStore α} {y : Comp AbsStore α} (h : Sim n n' x y) :
    SimT n n' (Leaf.lift x) (Leaf.lift y) := by
  unfold Sim at h
  intro m0 k w r w' hi hk h0
  rw [lift_apply] at h0 ⊢
  cases hy : y (absW w) with
  | none => simp [hy] at h0
  | some p =>
    obtain ⟨a, v⟩ := p
    obtain ⟨w2, h1, h2, h3, h4⟩ := h m0 w a v hi hk hy
    simp only [hy, Option.map_some, Option.some.injEq, Prod.mk.injEq] at h0
    obtain ⟨rfl, rfl⟩ := h0
    exact ⟨w2, by rw [h1]; rfl, h2, h3, fun _ => h4⟩

theorem SimT.ub {α : Type} {n n' : Nat} (x : CompT PtrStore α) : SimT n n' x (Leaf.lift Leaf.ub) := by
  intro m0 k w b w' _ _ h
  simp [lift_apply, ub_apply] at h

theorem SimT.ub_bind {α β : Type} {n n' : Nat} (x : CompT PtrStore β) (f : α → CompT AbsStore β) : SimT n n' x (Leaf.lift Leaf.ub >>= f) := by
  intro m0 k w b w' _ _ h
  simp [bindT_apply, lift_apply, ub_apply] at h

theorem SimT.terminate {α : Type} {n n' : Nat} : SimT n n' (Leaf.terminate : CompT PtrStore α) Leaf.terminate := by
  intro m0 k w r w' hi hk h
  rw [terminate_apply] at h ⊢
  cases h
  exact ⟨w, rfl, rfl, hi, by simp⟩

theorem simT_allocate {n : Nat} (mem : Nat → Bool) : SimT n n (allocate mem) (allocate mem) := by
  intro m0 k w r w' hi hk h
  rw [allocate_apply] at h ⊢
  cases h
  exact ⟨w, rfl, rfl, hi, fun _ => hk⟩

theorem simT_run {α : Type} {n n' : Nat} {x : CompT PtrStore α} {y : CompT AbsStore α} (h : SimT n n' x y) {m0 : PtrStore} {k : Nat}
    {w : World PtrStore} {r : Option (α × Nat)} {w' : World AbsStore} (hi : PtrStore.Inv w.mem) (hk : PtrStore.Keep m0 n w.mem)
    (hy : y k (absW w) = some (r, w')) :
    ∃ w2, x k w = some (r, w2) ∧ absW w2 = w' ∧ PtrStore.Inv w2.mem ∧ (r ≠ none → PtrStore.Keep m0 n' w2.mem) :=
  h m0 k w r w' hi hk hy

attribute [irreducible] SimT

syntax "simTstep" : tactic
macro_rules | `(tactic| simTstep) => `(tactic| fail)
macro "simT1" : tactic => `(tactic|
  (first
    | with_reducible assumption
    | simTstep
    | with_reducible first
      | exact SimT.pure _
      | exact SimT.terminate
      | exact SimT.ub_bind _ _
      | exact SimT.ub _
      | exact simT_allocate _
      | apply SimT.lift
      | apply SimT.bind
    | simstep1))
macro "simT" : tactic => `(tactic| repeat simT1)

theorem simT_noexcept {n : Nat} {x : CompT PtrStore Bool} {y : CompT AbsStore Bool} (h : SimT n n x y) : SimT n n (noexcept x) (noexcept y) := by
  unfold noexcept; simT
theorem simT_swallow {n : Nat} {x : CompT PtrStore Bool} {y : CompT AbsStore Bool} (h : SimT n n x y) : SimT n n (swallow x) (swallow y) := by
  unfold swallow; simT
theorem simT_daAppendT {n : Nat} (mem : Nat → Bool) (ty : Ty) (id : Id) (v : Val) : SimT n n (daAppendT mem ty id v) (daAppendT mem ty id v) := by
  unfold daAppendT; simT
macro_rules | `(tactic| simTstep) => `(tactic| with_reducible exact simT_daAppendT _ _ _ _)
theorem simT_dynamicLoadT {n : Nat} (mem : Nat → Bool) (id : Id) (ty : Ty) (v : Val) : SimT n n (dynamicLoadT mem id ty v) (dynamicLoadT mem id ty v) := by
  unfold dynamicLoadT; simT
theorem simT_dynamicAccumulateT {n : Nat} (mem : Nat → Bool) (cfg : Cfg) (id : Id) (ty : Ty) (tag : Nat) (f : Val → Val) :
    SimT n n (dynamicAccumulateT mem cfg id ty tag f) (dynamicAccumulateT mem cfg id ty tag f) := by
  unfold dynamicAccumulateT; simT
theorem simT_dynamicT {n : Nat} (b : Bool) {x : CompT PtrStore Bool} {y : CompT AbsStore Bool} (h : SimT n n x y) :
    SimT n n (dynamicT b x) (dynamicT b y) := by
  unfold dynamicT
  split
  · exact SimT.bind (simT_swallow h) (fun _ => SimT.pure _)
  · exact h
macro_rules | `(tactic| simTstep) => `(tactic| with_reducible first
  | exact simT_dynamicT _ (simT_dynamicLoadT _ _ _ _)
  | exact simT_dynamicT _ (simT_dynamicAccumulateT _ _ _ _ _ _))
theorem simT_slotUnloadT {n : Nat} (mem : Nat → Bool) (cfg : Cfg) (id : Id) (ty : Ty) (c : Cell) : SimT n n (slotUnloadT mem cfg id ty c) (slotUnloadT mem cfg id ty c) := by
  unfold slotUnloadT; simT
macro_rules | `(tactic| simTstep) => `(tactic| with_reducible exact simT_slotUnloadT _ _ _ _ _)
theorem simT_loadSlotT {n : Nat} (mem : Nat → Bool) (cfg : Cfg) (b : Bool) (id : Id) (ty : Ty) (v : Val) :
    SimT n n (loadSlotT mem cfg b id ty v) (loadSlotT mem cfg b id ty v) := by
  unfold loadSlotT; simT
macro_rules | `(tactic| simTstep) => `(tactic| with_reducible exact simT_loadSlotT _ _ _ _ _ _)
theorem simT_loadItemT {n : Nat} (mem : Nat → Bool) (cfg : Cfg) (b : Bool) (id : Id) (i : Item) :
    SimT n n (loadItemT mem cfg b id i) (loadItemT mem cfg b id i) := by
  unfold loadItemT loadSlotDeferredT loadSlotAccumulateT; simT
macro_rules | `(tactic| simTstep) => `(tactic| with_reducible exact simT_loadItemT _ _ _ _ _)
theorem simT_loadItemsT {n : Nat} (mem : Nat → Bool) (cfg : Cfg) (id : Id) (is : List Item) : SimT n n (loadItemsT mem cfg id is) (loadItemsT mem cfg id is) := by
  induction is with
  | nil => unfold loadItemsT; simT
  | cons i is ih => unfold loadItemsT; simT
theorem simT_errorIdLoadT {n : Nat} (mem : Nat → Bool) (cfg : Cfg) (id : Id) (is : List Item) :
    SimT n n (errorIdLoadT mem cfg id is) (errorIdLoadT mem cfg id is) := by
  unfold errorIdLoadT
  split
  · exact simT_noexcept (simT_loadItemsT _ _ _ _)
  · exact SimT.pure _
macro_rules | `(tactic| simTstep) => `(tactic| with_reducible exact simT_errorIdLoadT _ _ _ _)
theorem simT_newErrorT {n : Nat} (mem : Nat → Bool) (cfg : Cfg) (is : List Item) : SimT n n (newErrorT mem cfg is) (newErrorT mem cfg is) := by
  unfold newErrorT; simT
macro_rules | `(tactic| simTstep) => `(tactic| with_reducible exact simT_newErrorT _ _ _)
theorem simT_triggerItemsT {n : Nat} (mem : Nat → Bool) (cfg : Cfg) (id : Id) (is : List OnItem) :
    SimT n n (triggerItemsT mem cfg id is) (triggerItemsT mem cfg id is) := by
  induction is with
  | nil => unfold triggerItemsT; simT
  | cons i is ih =>
    cases i with
    | item i => unfold triggerItemsT; exact SimT.bind (simT_noexcept (simT_loadItemT _ _ _ _ _)) (fun _ => ih)
    | action t => unfold triggerItemsT; simT
macro_rules | `(tactic| simTstep) => `(tactic| with_reducible exact simT_triggerItemsT _ _ _ _)
theorem simT_importCodeT {n : Nat} (mem : Nat → Bool) (cfg : Cfg) (ec : ErrorCode) (v : Val) : SimT n n (importCodeT mem cfg ec v) (importCodeT mem cfg ec v) := by
  unfold importCodeT
  repeat (first | with_reducible exact simT_noexcept (simT_loadSlotT _ _ _ _ _ _) | simT1)
macro_rules | `(tactic| simTstep) => `(tactic| with_reducible exact simT_importCodeT _ _ _ _)
theorem simT_unloadNodesT {n : Nat} (mem : Nat → Bool) (cfg : Cfg) (id : Id) (ns : List CapNode) : SimT n n (unloadNodesT mem cfg id ns) (unloadNodesT mem cfg id ns) := by
  induction ns with
  | nil => unfold unloadNodesT; simT
  | cons x ns ih => cases x <;> (unfold unloadNodesT; simT)
macro_rules | `(tactic| simTstep) => `(tactic| with_reducible exact simT_unloadNodesT _ _ _ _)
theorem simT_resultUnloadT {n : Nat} (mem : Nat → Bool) (cfg : Cfg) (r : ErrRes) : SimT n n (resultUnloadT mem cfg r) (resultUnloadT mem cfg r) := by
  unfold resultUnloadT; simT
macro_rules | `(tactic| simTstep) => `(tactic| with_reducible exact simT_resultUnloadT _ _ _)
theorem simT_unloadDaNodesT {n : Nat} (mem : Nat → Bool) (cfg : Cfg) (id : Id) (ns : List (Ty × Cell)) :
    SimT n n (unloadDaNodesT mem cfg id ns) (unloadDaNodesT mem cfg id ns) := by
  induction ns with
  | nil => unfold unloadDaNodesT; simT
  | cons x ns ih => unfold unloadDaNodesT; simT
macro_rules | `(tactic| simTstep) => `(tactic| with_reducible exact simT_unloadDaNodesT _ _ _ _)
theorem simT_unloadCellT {n : Nat} (mem : Nat → Bool) (cfg : Cfg) (id : Id) (c : CtxCell) : SimT n n (unloadCellT mem cfg id c) (unloadCellT mem cfg id c) := by
  unfold unloadCellT; simT
theorem simT_unloadCellsT {n : Nat} (mem : Nat → Bool) (cfg : Cfg) (id : Id) (cs : List CtxCell) :
    SimT n n (unloadCellsT mem cfg id cs) (unloadCellsT mem cfg id cs) := by
  induction cs with
  | nil => unfold unloadCellsT; simT
  | cons x cs ih => unfold unloadCellsT; exact SimT.bind ih (fun _ => simT_noexcept (simT_unloadCellT _ _ _ _))
macro_rules | `(tactic| simTstep) => `(tactic| with_reducible exact simT_unloadCellsT _ _ _ _)
theorem simT_unloadOutT {n : Nat} (mem : Nat → Bool) (cfg : Cfg) (o : Out) : SimT n n (unloadOutT mem cfg o) (unloadOutT mem cfg o) := by
  unfold unloadOutT; simT
macro_rules | `(tactic| simTstep) => `(tactic| with_reducible exact simT_unloadOutT _ _ _)
theorem simT_extractCapturedT {n : Nat} (mem : Nat → Bool) (id : Id) (cs : List CtxCell) (ex : Option Exc) :
    SimT n n (extractCapturedT mem id cs ex) (extractCapturedT mem id cs ex) := by
  unfold extractCapturedT
  repeat (first | with_reducible exact simT_noexcept (simT_allocate _) | simT1)
macro_rules | `(tactic| simTstep) => `(tactic| with_reducible exact simT_extractCapturedT _ _ _ _)
theorem simT_extractErrT {n : Nat} (mem : Nat → Bool) (id : Id) (cs : List CtxCell) (ex : Option Exc) :
    SimT n n (extractErrT mem id cs ex) (extractErrT mem id cs ex) := by
  unfold extractErrT
  cases ex <;> simT
macro_rules | `(tactic| simTstep) => `(tactic| with_reducible exact simT_extractErrT _ _ _ _)
theorem simT_catchHelperT {n : Nat} (mem : Nat → Bool) (cfg : Cfg) (e : Exc) (tys : List Ty) : SimT n n (catchHelperT mem cfg e tys) (catchHelperT mem cfg e tys) := by
  induction tys with
  | nil => unfold catchHelperT; simT
  | cons x tys ih => unfold catchHelperT; simT
macro_rules | `(tactic| simTstep) => `(tactic| with_reducible exact simT_catchHelperT _ _ _ _)

theorem simT_callHandlerT {n : Nat} (cfg : Cfg) (specs : List (List Arg)) {b1 : Nat → List ArgVal → CompT PtrStore Out}
    {b2 : Nat → List ArgVal → CompT AbsStore Out} (hb : ∀ i a, SimT n n (b1 i a) (b2 i a)) (cells : List CtxCell) (id : Id)
    (ex : Option Exc) (loc : Option Val) (i : Nat) :
    SimT n n (callHandlerT cfg specs b1 cells id ex loc i) (callHandlerT cfg specs b2 cells id ex loc i) := by
  unfold callHandlerT
  repeat (first | with_reducible exact hb _ _ | simT1)

theorem simT_catchPathT {n : Nat} (mem : Nat → Bool) (cfg : Cfg) (specs : List (List Arg)) {b1 : Nat → List ArgVal → CompT PtrStore Out}
    {b2 : Nat → List ArgVal → CompT AbsStore Out} (hb : ∀ i a, SimT n n (b1 i a) (b2 i a)) (e : Exc) :
    SimT (n + 1) n (catchPathT mem cfg specs b1 e) (catchPathT mem cfg specs b2 e) := by
  unfold catchPathT
  repeat (first | with_reducible exact simT_callHandlerT cfg specs hb _ _ _ _ _ | simT1)

/-- Every program, with every supply of memory, does on the pointer-level storage what it does on the abstract storage. -/
theorem simT_evalT {n : Nat} (mem : Nat → Bool) (cfg : Cfg) (p : Prog) : SimT n n (evalT mem cfg p) (evalT mem cfg p) := by
  induction p generalizing n with
  | ret o => unfold evalT; simT
  | newError items k ih => unfold evalT; exact SimT.bind (simT_newErrorT _ _ _) (fun _ => ih _)
  | load id items k ih => unfold evalT; exact SimT.bind (simT_errorIdLoadT _ _ _ _) (fun _ => ih)
  | importCode ec v k ih => unfold evalT; exact SimT.bind (simT_importCodeT _ _ _ _) (fun _ => ih _)
  | currentError k ih => unfold evalT; exact SimT.bind (SimT.lift sim_currentError) (fun _ => ih _)
  | bind p k ke ih1 ih2 ih3 =>
    unfold evalT
    refine SimT.bind ih1 (fun o => ?_)
    cases o with
    | val v => exact ih2 v
    | err r => exact ih3 r
    | exc e => exact SimT.pure _
  | onError items body ih => unfold evalT onErrorGuardT; repeat (first | with_reducible exact ih | simT1)
  | monNew k ih => unfold evalT; exact SimT.bind (SimT.lift sim_currentId) (fun _ => ih _)
  | monCheck m k ih => unfold evalT; exact SimT.bind (SimT.lift (sim_checkId _ _ _)) (fun _ => ih _)
  | monAssigned m k ih => unfold evalT; exact SimT.bind (SimT.lift (sim_getId _ _)) (fun _ => ih _)
  | handleAll specs block body ih1 ih2 =>
    unfold evalT tryHandleAllT
    repeat (first
      | with_reducible exact ih1
      | with_reducible exact simT_callHandlerT cfg specs (fun i a => ih2 i a) _ _ _ _ _
      | with_reducible exact simT_catchPathT mem cfg specs (fun i a => ih2 i a) _ | simT1)
  | handleSome specs block body ih1 ih2 =>
    unfold evalT tryHandleSomeT
    repeat (first
      | with_reducible exact ih1
      | with_reducible exact simT_callHandlerT cfg specs (fun i a => ih2 i a) _ _ _ _ _
      | with_reducible exact simT_catchPathT mem cfg specs (fun i a => ih2 i a) _ | simT1)
  | tryCatch specs block body ih1 ih2 =>
    unfold evalT tryCatchT
    repeat (first
      | with_reducible exact ih1
      | with_reducible exact simT_catchPathT mem cfg specs (fun i a => ih2 i a) _ | simT1)
  | captureAll block ih => unfold evalT tryCaptureAllT; repeat (first | with_reducible exact ih | simT1)
  | captureAllVoid block ih => unfold evalT tryCaptureAllVoidT; repeat (first | with_reducible exact ih | simT1)
  | excToResult tys block ih => unfold evalT exceptionToResultT; repeat (first | with_reducible exact ih | simT1)
  | cppCatch block h ih1 ih2 =>
    unfold evalT cppCatchT
    repeat (first | with_reducible exact ih1 | with_reducible exact ih2 _ | simT1)
  | cppRethrow block h ih1 ih2 =>
    unfold evalT cppRethrowT
    repeat (first | with_reducible exact ih1 | with_reducible exact ih2 _ | simT1)
  | unload r => unfold evalT; simT
  | value r tag => unfold evalT resultValueT; simT

end Leaf
