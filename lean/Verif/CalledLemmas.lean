import Verif.UnwantedSpec
import Verif.Sim

/-!
# Which functions a program calls

Lemmas for `Verif/PropUnwanted.lean`: only functions passed as items are called.
-/

namespace Leaf

/-- The functions called, newest first. -/
def tagsCalled (t : List Event) : List Nat := t.filterMap fun | .called tag => some tag | _ => none

variable {M : Type} {P : Nat → Prop}

/-- The computation only calls functions among `P`. -/
def Calls {α : Type} (P : Nat → Prop) (m : Comp M α) : Prop :=
  ∀ w a v, m w = some (a, v) → ∃ l, tagsCalled v.trace = l ++ tagsCalled w.trace ∧ ∀ t ∈ l, P t

theorem Calls.bind {α β : Type} {m : Comp M α} {f : α → Comp M β} (hm : Calls P m) (hf : ∀ a, Calls P (f a)) : Calls P (m >>= f) := by
  intro w b v h
  rw [bind_apply] at h
  cases hx : m w with
  | none => simp [hx] at h
  | some p =>
    rw [hx, Option.bind_some] at h
    obtain ⟨l1, e1, h1⟩ := hm w p.1 p.2 hx
    obtain ⟨l2, e2, h2⟩ := hf p.1 p.2 b v h
    refine ⟨l2 ++ l1, by rw [e2, e1, List.append_assoc], ?_⟩
    intro t ht
    rcases List.mem_append.mp ht with ht | ht
    · exact h2 t ht
    · exact h1 t ht

theorem Calls.pure {α : Type} (a : α) : Calls P (Pure.pure a : Comp M α) := by
  intro w b v h
  rw [pure_apply] at h
  cases h
  exact ⟨[], rfl, by simp⟩

theorem Calls.ub {α : Type} : Calls P (Leaf.ub : Comp M α) := by
  intro w b v h
  cases h

theorem Calls.ite {α : Type} {p : Prop} [Decidable p] {m n : Comp M α} (hm : Calls P m) (hn : Calls P n) : Calls P (if p then m else n) := by
  split
  · exact hm
  · exact hn

/-- A computation that does not extend the record. -/
theorem Calls.of_trace {α : Type} {m : Comp M α} (h : ∀ w a v, m w = some (a, v) → v.trace = w.trace) : Calls P m := by
  intro w a v hv
  exact ⟨[], by rw [h w a v hv]; rfl, by simp⟩

theorem calls_called {tag : Nat} (h : P tag) : Calls P (emit (.called tag) : Comp M Unit) := by
  intro w a v hv
  cases hv
  exact ⟨[tag], rfl, by simpa using h⟩

theorem calls_emit {e : Event} (h : ∀ tag, e ≠ .called tag) : Calls P (emit e : Comp M Unit) := by
  intro w a v hv
  cases hv
  refine ⟨[], ?_, by simp⟩
  cases e with
  | called tag => exact absurd rfl (h tag)
  | _ => rfl

theorem calls_getCur : Calls P (getCur : Comp M Id) := .of_trace fun w a v h => by cases h; rfl
theorem calls_setCur (id : Id) : Calls P (setCur id : Comp M Unit) := .of_trace fun w a v h => by cases h; rfl
theorem calls_pushHandling (e : Exc) : Calls P (pushHandling e : Comp M Unit) := .of_trace fun w a v h => by cases h; rfl
theorem calls_popHandling : Calls P (popHandling : Comp M Unit) := .of_trace fun w a v h => by cases h; rfl
theorem calls_currentException : Calls P (currentException : Comp M _) := .of_trace fun w a v h => by cases h; rfl

theorem calls_currentId : Calls P (currentId : Comp M Id) := .of_trace fun w a v h => by
  unfold currentId at h
  split at h
  · cases h; rfl
  · cases h

theorem calls_assertTagged (id : Id) : Calls P (assertTagged id : Comp M Unit) := .of_trace fun w a v h => by
  unfold assertTagged at h
  split at h
  · cases h; rfl
  · cases h

theorem calls_newId (cfg : Cfg) : Calls P (newId cfg : Comp M Id) := by
  intro w a v h
  cases h
  exact ⟨[], rfl, by simp⟩

theorem calls_currentError : Calls P (currentError : Comp M Id) := calls_currentId.bind fun _ => .pure _

section
variable [Store M]

theorem calls_slotGet (ty : Ty) : Calls P (slotGet ty : Comp M _) := .of_trace fun w a v h => by
  unfold slotGet at h
  obtain ⟨x, _, h⟩ := Option.map_eq_some_iff.mp h
  cases h; rfl

theorem calls_slotSet (ty : Ty) (id : Id) (u : Val) : Calls P (slotSet ty id u : Comp M _) := .of_trace fun w a v h => by
  unfold slotSet at h
  obtain ⟨x, _, h⟩ := Option.map_eq_some_iff.mp h
  cases h; rfl

theorem calls_daKey : Calls P (daKey : Comp M _) := .of_trace fun w a v h => by
  unfold daKey at h
  obtain ⟨x, _, h⟩ := Option.map_eq_some_iff.mp h
  cases h; rfl

theorem calls_daReset (id : Id) : Calls P (daReset id : Comp M _) := .of_trace fun w a v h => by
  unfold daReset at h
  obtain ⟨x, _, h⟩ := Option.map_eq_some_iff.mp h
  cases h; rfl

theorem calls_daAppend (ty : Ty) (id : Id) (u : Val) : Calls P (daAppend ty id u : Comp M _) := .of_trace fun w a v h => by
  unfold daAppend at h
  obtain ⟨x, _, h⟩ := Option.map_eq_some_iff.mp h
  cases h; rfl

theorem calls_pushCtx (spec : List CellTy) : Calls P (pushCtx spec : Comp M _) := .of_trace fun w a v h => by
  unfold pushCtx at h
  obtain ⟨x, _, h⟩ := Option.map_eq_some_iff.mp h
  cases h; rfl

theorem calls_popCtx : Calls P (popCtx : Comp M _) := .of_trace fun w a v h => by
  unfold popCtx at h
  obtain ⟨x, _, h⟩ := Option.map_eq_some_iff.mp h
  cases h; rfl

theorem calls_dynamicLoad (id : Id) (ty : Ty) (u : Val) : Calls P (dynamicLoad id ty u : Comp M _) := by
  refine calls_daKey.bind fun k => ?_
  split
  · exact .ite (calls_daAppend _ _ _) ((calls_daReset _).bind fun _ => calls_daAppend _ _ _)
  · exact .pure _

variable {cfg : Cfg}

theorem calls_dynamicAccumulate (id : Id) (ty : Ty) {tag : Nat} (ht : P tag) (f : Val → Val) : Calls P (dynamicAccumulate cfg id ty tag f : Comp M _) := by
  have he : Calls P (do emit (.called tag); emit (.offered id ty (f (cfg.dflt ty))) : Comp M Unit) := (calls_called ht).bind fun _ => calls_emit (fun _ h => by cases h)
  refine calls_daKey.bind fun k => ?_
  split
  · dsimp only
    split
    · exact (calls_daAppend _ _ _).bind fun _ => he
    · exact (calls_daReset _).bind fun _ => (calls_daAppend _ _ _).bind fun _ => he
  · exact .pure _

theorem calls_slotUnload (id : Id) (ty : Ty) (c : Cell) : Calls P (slotUnload cfg id ty c : Comp M _) := by
  have h : Calls P (match c.hasValue id with
      | none => Pure.pure ()
      | some v => do
        match ← slotGet ty with
        | some p => if (p.hasValue id).isNone then slotSet ty id v
        | none => if cfg.capture then dynamicLoad id ty v : Comp M Unit) := by
    split
    · exact .pure _
    · refine (calls_slotGet _).bind fun s => ?_
      split
      · exact .ite (calls_slotSet _ _ _) (.pure _)
      · exact .ite (calls_dynamicLoad _ _ _) (.pure _)
  unfold slotUnload
  by_cases hid : id = 0#32
  · simp only [hid, if_true]
    exact Calls.ub.bind fun _ => by rw [hid] at h; exact h
  · simp only [hid, if_false]
    exact h

theorem calls_loadItem (b : Bool) (id : Id) {i : Item} (hi : i.Tags P) : Calls P (loadItem cfg b id i : Comp M _) := by
  cases i with
  | obj ty u =>
    refine (calls_emit (fun _ h => by cases h)).bind fun _ => (calls_assertTagged _).bind fun _ => (calls_slotGet _).bind fun s => ?_
    split
    · exact .ite (calls_slotSet _ _ _) (.pure _)
    · exact .ite (calls_dynamicLoad _ _ _) (.pure _)
  | deferred ty tag u =>
    refine (calls_assertTagged _).bind fun _ => (calls_slotGet _).bind fun s => ?_
    split
    · exact .ite ((calls_called hi).bind fun _ => (calls_emit (fun _ h => by cases h)).bind fun _ => calls_slotSet _ _ _) (.pure _)
    · exact .ite ((calls_called hi).bind fun _ => (calls_emit (fun _ h => by cases h)).bind fun _ => calls_dynamicLoad _ _ _) (.pure _)
  | accum ty tag f =>
    refine (calls_assertTagged _).bind fun _ => (calls_slotGet _).bind fun s => ?_
    split
    · exact (calls_slotSet _ _ _).bind fun _ => (calls_called hi).bind fun _ => calls_emit (fun _ h => by cases h)
    · exact .ite (calls_dynamicAccumulate _ _ hi _) (.pure _)

theorem calls_loadItems (b : Bool) (id : Id) {is : List Item} (h : ∀ i ∈ is, i.Tags P) : Calls P (loadItems cfg b id is : Comp M _) := by
  induction is with
  | nil => exact .pure _
  | cons i is ih => exact (calls_loadItem _ _ (h i (List.mem_cons_self ..))).bind fun _ => ih fun j hj => h j (List.mem_cons_of_mem _ hj)

theorem calls_errorIdLoad (id : Id) {is : List Item} (h : ∀ i ∈ is, i.Tags P) : Calls P (errorIdLoad cfg id is : Comp M _) :=
  .ite (calls_loadItems _ _ h) (.pure _)

theorem calls_newError {is : List Item} (h : ∀ i ∈ is, i.Tags P) : Calls P (newError cfg is : Comp M _) :=
  (calls_newId cfg).bind fun _ => (calls_errorIdLoad _ h).bind fun _ => .pure _

theorem calls_triggerItems (id : Id) {is : List OnItem} (h : ∀ i ∈ is, i.Tags P) : Calls P (triggerItems cfg id is : Comp M _) := by
  induction is with
  | nil => exact .pure _
  | cons i is ih =>
    have ih := ih fun j hj => h j (List.mem_cons_of_mem _ hj)
    have hi := h i (List.mem_cons_self ..)
    cases i with
    | item i => exact (calls_loadItem _ _ hi).bind fun _ => ih
    | action t => exact (calls_called hi).bind fun _ => ih

theorem calls_catchHelper (e : Exc) (tys : List Ty) : Calls P (catchHelper cfg e tys : Comp M _) := by
  induction tys with
  | nil => exact calls_newError (by simp [Item.Tags])
  | cons ty tys ih =>
    refine Calls.bind ih fun id => ?_
    dsimp only
    split
    · exact (calls_errorIdLoad _ (by simp [Item.Tags])).bind fun _ => .pure _
    · exact .pure _

theorem calls_importCode (ec : ErrorCode) (u : Val) : Calls P (importCode cfg ec u : Comp M _) := by
  unfold importCode
  split
  · exact .pure _
  · refine (calls_newId cfg).bind fun _ => (calls_emit (fun _ h => by cases h)).bind fun _ => Calls.bind ?_ fun _ => .pure _
    refine (calls_assertTagged _).bind fun _ => (calls_slotGet _).bind fun s => ?_
    split
    · exact .ite (calls_slotSet _ _ _) (.pure _)
    · exact .ite (calls_dynamicLoad _ _ _) (.pure _)
  · exact .ub

omit [Store M] in
theorem calls_checkId (m : Id) (b : Bool) : Calls P (checkId cfg m b : Comp M Id) :=
  calls_currentId.bind fun _ => .ite (.pure _) (.ite (calls_newId cfg) (.pure _))

omit [Store M] in
theorem calls_getId (m : Id) : Calls P (getId cfg m : Comp M Id) :=
  calls_currentId.bind fun _ => .ite (.pure _) (calls_newId cfg)

theorem calls_unloadDaNodes (id : Id) (ns : List (Ty × Cell)) : Calls P (unloadDaNodes cfg id ns : Comp M _) := by
  induction ns with
  | nil => exact .pure _
  | cons n ns ih => exact (calls_slotUnload _ _ _).bind fun _ => ih

theorem calls_unloadCell (id : Id) (c : CtxCell) : Calls P (unloadCell cfg id c : Comp M _) := by
  cases c with
  | obj t x => exact calls_slotUnload _ _ _
  | da k ns =>
    unfold unloadCell
    have h : Calls P (if k ≠ 0#32 then (do setCur id; unloadDaNodes cfg id ns) else Pure.pure () : Comp M Unit) :=
      .ite ((calls_setCur _).bind fun _ => calls_unloadDaNodes _ _) (.pure _)
    dsimp only
    split
    · exact Calls.ub.bind fun _ => h
    · exact h

theorem calls_unloadCells (id : Id) (cells : List CtxCell) : Calls P (unloadCells cfg id cells : Comp M _) := by
  induction cells with
  | nil => exact .pure _
  | cons c cs ih => exact Calls.bind ih fun _ => calls_unloadCell _ _

omit [Store M] in
theorem calls_unpackId (e : Exc) : Calls P (unpackId e : Comp M _) := by
  unfold unpackId
  refine .ite ?_ (calls_currentError.bind fun _ => .pure _)
  split
  · exact .pure _
  · exact .pure _
  · exact calls_currentError.bind fun _ => .pure _

omit [Store M] in
theorem calls_destroyExc (e : Exc) : Calls P (destroyExc e : Comp M _) := by
  unfold destroyExc
  split
  · exact calls_getCur.bind fun _ => .ite (calls_setCur _) (.pure _)
  · exact .pure _

omit [Store M] in
theorem calls_ctxLoc (id : Id) (cells : List CtxCell) : Calls P (ctxLoc id cells : Comp M _) := by
  unfold ctxLoc
  split
  · exact .pure _
  · exact .ite .ub (.pure _)

theorem calls_unloadNodes (id : Id) (ns : List CapNode) : Calls P (unloadNodes cfg id ns : Comp M _) := by
  induction ns with
  | nil => exact .pure _
  | cons n ns ih =>
    cases n with
    | obj ty c =>
      unfold unloadNodes
      cases c.hasValue id with
      | some v => exact (calls_emit (fun _ h => by cases h)).bind fun _ => (calls_slotUnload _ _ _).bind fun _ => ih
      | none => exact (calls_slotUnload _ _ _).bind fun _ => ih
    | exc e => exact .pure _

theorem calls_resultUnload (r : ErrRes) : Calls P (resultUnload cfg r : Comp M _) := by
  cases r with
  | plain id => exact .pure _
  | captured id ns =>
    refine (calls_setCur _).bind fun _ => (calls_unloadNodes _ _).bind fun o => ?_
    cases o <;> exact .pure _

theorem calls_unloadOut (o : Out) : Calls P (unloadOut cfg o : Comp M _) := by
  cases o with
  | err r => exact calls_resultUnload r
  | _ => exact .pure _

omit [Store M] in
theorem calls_noErr (o : Out) : Calls P (noErr o : Comp M Out) := by
  cases o with
  | err r => exact .ub
  | _ => exact .pure _

omit [Store M] in
theorem calls_extractCaptured (id : Id) (cells : List CtxCell) (ex : Option Exc) : Calls P (extractCaptured id cells ex : Comp M Out) :=
  (calls_assertTagged _).bind fun _ => .pure _

section
variable {specs : List (List Arg)} {body : Nat → List ArgVal → Comp M Out} (hbody : ∀ i args, Calls P (body i args))
include hbody

omit [Store M] in
theorem calls_callHandler (cells : List CtxCell) (id : Id) (ex : Option Exc) (loc : Option Val) (i : Nat) :
    Calls P (callHandler cfg specs body cells id ex loc i) := by
  unfold callHandler
  cases specs[i]? with
  | none => exact .ub
  | some args =>
    dsimp only
    cases getArgs cfg cells id ex loc args with
    | none => exact .ub
    | some vs => exact (calls_emit (fun _ h => by cases h)).bind fun _ => hbody _ _

theorem calls_catchPath (e : Exc) : Calls P (catchPath cfg specs body e) := by
  unfold catchPath
  refine calls_popCtx.bind fun cells => (calls_unpackId e).bind fun p => (calls_pushHandling _).bind fun _ => (calls_ctxLoc _ _).bind fun loc => ?_
  cases selectSome cfg cells p.1 (if p.2.isStd = true then some p.2 else none) specs with
  | some i =>
    exact (calls_callHandler hbody _ _ _ _ _).bind fun o => calls_popHandling.bind fun _ => (calls_destroyExc _).bind fun _ => .pure _
  | none => exact (calls_unloadCells _ _).bind fun _ => calls_popHandling.bind fun _ => .pure _

theorem calls_tryHandleAll {block : Comp M Out} (hb : Calls P block) : Calls P (tryHandleAll cfg specs block body) := by
  unfold tryHandleAll
  refine (calls_pushCtx _).bind fun _ => hb.bind fun o => (calls_unloadOut o).bind fun o => ?_
  cases o with
  | val v => exact calls_popCtx.bind fun _ => .pure _
  | err r =>
    refine (calls_resultUnload r).bind fun _ => calls_popCtx.bind fun cells => (calls_ctxLoc _ _).bind fun loc => ?_
    cases selectAll cfg cells r.errId none specs with
    | some i => exact (calls_callHandler hbody _ _ _ _ _).bind fun o => calls_noErr o
    | none => exact .ub
  | exc e => exact (calls_catchPath hbody e).bind fun p => calls_noErr p.1

theorem calls_tryHandleSome {block : Comp M Out} (hb : Calls P block) : Calls P (tryHandleSome cfg specs block body) := by
  unfold tryHandleSome
  refine (calls_pushCtx _).bind fun _ => hb.bind fun o => (calls_unloadOut o).bind fun o => ?_
  have hfin : ∀ (o : Out) (cells : List CtxCell),
      Calls P (match o with | .err r' => (do unloadCells cfg r'.errId cells; Pure.pure o) | _ => Pure.pure o : Comp M Out) := by
    intro o cells
    cases o with
    | err r => exact (calls_unloadCells _ _).bind fun _ => .pure _
    | _ => exact .pure _
  cases o with
  | val v => exact calls_popCtx.bind fun _ => .pure _
  | err r =>
    refine (calls_resultUnload r).bind fun _ => calls_popCtx.bind fun cells => (calls_ctxLoc _ _).bind fun loc => ?_
    cases selectSome cfg cells r.errId none specs with
    | some i => exact (calls_callHandler hbody _ _ _ _ _).bind fun o => hfin o cells
    | none => exact (Calls.pure _).bind fun o => hfin o cells
  | exc e => exact (calls_catchPath hbody e).bind fun p => hfin p.1 p.2

theorem calls_tryCatch {block : Comp M Out} (hb : Calls P block) : Calls P (tryCatch cfg specs block body) := by
  unfold tryCatch
  refine (calls_pushCtx _).bind fun _ => hb.bind fun o => ?_
  cases o with
  | exc e => exact (calls_catchPath hbody e).bind fun p => .pure _
  | _ => exact calls_popCtx.bind fun _ => .pure _

end

theorem calls_eval (p : Prog) (hp : p.Tags P) : Calls P (eval cfg p : Comp M Out) := by
  induction p with
  | ret o => exact .pure _
  | newError items k ih => exact (calls_newError hp.1).bind fun id => ih id (hp.2 id)
  | load id items k ih => exact (calls_errorIdLoad _ hp.1).bind fun _ => ih hp.2
  | importCode ec v k ih => exact (calls_importCode _ _).bind fun id => ih id (hp id)
  | currentError k ih => exact calls_currentError.bind fun id => ih id (hp id)
  | bind p k ke ih ihk ihe =>
    rw [eval]
    refine (ih hp.1).bind fun o => ?_
    cases o with
    | val v => exact ihk v (hp.2.1 v)
    | err r => exact ihe r (hp.2.2 r)
    | exc e => exact .pure _
  | onError items body ih =>
    refine calls_currentId.bind fun _ => (ih hp.2).bind fun o => (calls_checkId _ _).bind fun id => ?_
    dsimp only
    split
    · exact (calls_assertTagged _).bind fun _ => (calls_triggerItems _ hp.1).bind fun _ => .pure _
    · exact .pure _
  | monNew k ih => exact calls_currentId.bind fun id => ih id (hp id)
  | monCheck m k ih => exact (calls_checkId _ _).bind fun id => ih _ (hp _)
  | monAssigned m k ih => exact (calls_getId _).bind fun id => ih _ (hp _)
  | handleAll specs block body ih ihb => exact calls_tryHandleAll (fun i args => ihb i args (hp.2 i args)) (ih hp.1)
  | handleSome specs block body ih ihb => exact calls_tryHandleSome (fun i args => ihb i args (hp.2 i args)) (ih hp.1)
  | tryCatch specs block body ih ihb => exact calls_tryCatch (fun i args => ihb i args (hp.2 i args)) (ih hp.1)
  | captureAll block ih =>
    unfold eval tryCaptureAll
    cases cfg.capture with
    | false =>
      refine Calls.ub.bind fun _ => (calls_pushCtx _).bind fun _ => Calls.bind (ih hp) fun o => ?_
      cases o with
      | val v => exact calls_popCtx.bind fun _ => .pure _
      | err r => exact calls_popCtx.bind fun _ => calls_currentException.bind fun _ => calls_extractCaptured _ _ _
      | exc e => exact calls_popCtx.bind fun _ => (calls_unpackId _).bind fun _ => calls_extractCaptured _ _ _
    | true =>
      refine (calls_pushCtx _).bind fun _ => Calls.bind (ih hp) fun o => ?_
      cases o with
      | val v => exact calls_popCtx.bind fun _ => .pure _
      | err r => exact calls_popCtx.bind fun _ => calls_currentException.bind fun _ => calls_extractCaptured _ _ _
      | exc e => exact calls_popCtx.bind fun _ => (calls_unpackId _).bind fun _ => calls_extractCaptured _ _ _
  | captureAllVoid block ih =>
    unfold eval tryCaptureAllVoid
    cases cfg.capture with
    | false =>
      refine Calls.ub.bind fun _ => (calls_pushCtx _).bind fun _ => Calls.bind (ih hp) fun o => ?_
      cases o with
      | val v => exact .ub
      | err r => exact .ub
      | exc e => exact calls_popCtx.bind fun _ => (calls_unpackId _).bind fun _ => calls_extractCaptured _ _ _
    | true =>
      refine (calls_pushCtx _).bind fun _ => Calls.bind (ih hp) fun o => ?_
      cases o with
      | val v => exact .ub
      | err r => exact .ub
      | exc e => exact calls_popCtx.bind fun _ => (calls_unpackId _).bind fun _ => calls_extractCaptured _ _ _
  | excToResult tys block ih =>
    refine Calls.bind (ih hp) fun o => ?_
    cases o with
    | exc e => exact (calls_catchHelper _ _).bind fun _ => .pure _
    | _ => exact .pure _
  | cppCatch block h ih ihh =>
    refine Calls.bind (ih hp.1) fun o => ?_
    cases o with
    | exc e => exact (calls_pushHandling _).bind fun _ => (ihh e (hp.2 e)).bind fun o => calls_popHandling.bind fun _ => (calls_destroyExc _).bind fun _ => .pure _
    | _ => exact .pure _
  | cppRethrow block h ih ihh =>
    refine Calls.bind (ih hp.1) fun o => ?_
    cases o with
    | exc e =>
      refine (calls_pushHandling _).bind fun _ => (ihh e (hp.2 e)).bind fun o => calls_popHandling.bind fun _ => ?_
      cases o with
      | exc e' => exact (calls_destroyExc _).bind fun _ => .pure _
      | _ => exact .pure _
    | _ => exact .pure _
  | unload r => exact calls_resultUnload r
  | value r tag =>
    refine (calls_resultUnload r).bind fun o => ?_
    cases o <;> exact .pure _

end

end Leaf
