import Verif.Hoare
import Verif.Flow

/-!
# Where the current error id comes from

In programs that do not capture error objects, the current error id of the thread is the last one generated, or zero, if an exception object
reset it.
-/

namespace Leaf

/-- The last id generated (the trace is newest first). -/
def lastGen : List Event → Option Id
  | [] => none
  | .gen id :: _ => some id
  | _ :: es => lastGen es

theorem lastGen_append (es t : List Event) : lastGen (es ++ t) = (lastGen es).or (lastGen t) := by
  induction es with
  | nil => rfl
  | cons e es ih => cases e <;> simp [lastGen, ih]

/-- No capturing scope. -/
def NoDaFs (fs : List (List CtxCell)) : Prop := ∀ f ∈ fs, ∀ k ns, CtxCell.da k ns ∉ f

/-- Since the trace was `t0` and the current id `c0`, the current id has been set by generating ids only, or reset. -/
def Tracked (t0 : List Event) (c0 : Id) (w : World AbsStore) : Prop :=
  NoDaFs w.mem.frames ∧ ∃ es, w.trace = es ++ t0 ∧ (w.cur = (lastGen es).getD c0 ∨ w.cur = 0#32)

/-- The outcome contains no captured objects. -/
def Out.Plain : Out → Prop
  | .err (.captured _ _) => False
  | _ => True

/-- The program uses neither captured results nor capturing scopes. -/
def Prog.Plain (cfg : Cfg) : Prog → Prop
  | .ret o => o.Plain
  | .newError _ k => ∀ id, (k id).Plain cfg
  | .load _ _ k => k.Plain cfg
  | .importCode _ _ k => ∀ id, (k id).Plain cfg
  | .currentError k => ∀ id, (k id).Plain cfg
  | .bind p k ke => p.Plain cfg ∧ (∀ v, (k v).Plain cfg) ∧ ∀ id, (ke (.plain id)).Plain cfg
  | .onError _ body => body.Plain cfg
  | .monNew k => ∀ id, (k id).Plain cfg
  | .monCheck _ k => ∀ id, (k id).Plain cfg
  | .monAssigned _ k => ∀ id, (k id).Plain cfg
  | .handleAll specs block body => CellTy.da ∉ deduce cfg specs ∧ block.Plain cfg ∧ ∀ i args, (body i args).Plain cfg
  | .handleSome specs block body => CellTy.da ∉ deduce cfg specs ∧ block.Plain cfg ∧ ∀ i args, (body i args).Plain cfg
  | .tryCatch specs block body => CellTy.da ∉ deduce cfg specs ∧ block.Plain cfg ∧ ∀ i args, (body i args).Plain cfg
  | .captureAll _ => False
  | .captureAllVoid _ => False
  | .excToResult _ block => block.Plain cfg
  | .cppCatch block h => block.Plain cfg ∧ ∀ e, (h e).Plain cfg
  | .cppRethrow block h => block.Plain cfg ∧ ∀ e, (h e).Plain cfg
  | .unload r => (Out.err r).Plain
  | .value r _ => (Out.err r).Plain

variable {t0 : List Event} {c0 : Id} {cfg : Cfg}

/-- Preservation. -/
abbrev Tr {α : Type} (t0 : List Event) (c0 : Id) (x : Comp AbsStore α) : Prop := Hoare (Tracked t0 c0) x (fun _ w => Tracked t0 c0 w)

theorem Tr.bind {α β : Type} {x : Comp AbsStore α} {f : α → Comp AbsStore β} (hx : Tr t0 c0 x) (hf : ∀ a, Tr t0 c0 (f a)) : Tr t0 c0 (x >>= f) :=
  Hoare.bind hx hf

theorem Tr.pure {α : Type} (a : α) : Tr t0 c0 (pure a) := Hoare.pure fun _ h => h

theorem Tr.ub {α : Type} : Tr t0 c0 (ub : Comp AbsStore α) := Hoare.ub

theorem tr_ubBind {α β : Type} {f : α → Comp AbsStore β} : Tr t0 c0 (Leaf.ub >>= f) := by
  intro w _ b w' he
  simp [bind_apply, Leaf.ub] at he

theorem Tr.ite {α : Type} {p : Prop} [Decidable p] {x y : Comp AbsStore α} (hx : Tr t0 c0 x) (hy : Tr t0 c0 y) : Tr t0 c0 (if p then x else y) := by
  split
  · exact hx
  · exact hy

theorem tr_emit {e : Event} (he : ∀ id, e ≠ .gen id) : Tr t0 c0 (emit e) := by
  rintro w ⟨h1, es, h2, h3⟩ a w' h
  simp only [emit, Option.some.injEq, Prod.mk.injEq, true_and] at h
  subst h
  refine ⟨h1, e :: es, by simp [h2], ?_⟩
  have : lastGen (e :: es) = lastGen es := by
    cases e with
    | gen id => exact absurd rfl (he id)
    | _ => rfl
  rw [this]
  exact h3

theorem tr_read {α : Type} {x : Comp AbsStore α} (h : ∀ w a w', x w = some (a, w') → w' = w) : Tr t0 c0 x := by
  intro w hw a w' he
  rw [h w a w' he]
  exact hw

theorem tr_getCur : Tr t0 c0 (getCur : Comp AbsStore Id) := tr_read (by simp [getCur])
theorem tr_currentId : Tr t0 c0 (currentId : Comp AbsStore Id) := tr_read (by
  intro w a w' h
  unfold currentId at h
  split at h <;> simp at h
  exact h.2.symm)
theorem tr_assertTagged (id : Id) : Tr t0 c0 (assertTagged id : Comp AbsStore Unit) := tr_read (by
  intro w a w' h
  unfold assertTagged at h
  split at h <;> simp at h
  exact h.symm)
theorem tr_currentException : Tr t0 c0 (currentException : Comp AbsStore _) := tr_read (by simp [currentException])
theorem tr_slotGet (ty : Ty) : Tr t0 c0 (slotGet ty : Comp AbsStore _) := tr_read (fun _ _ _ h => slotGet_world h)
theorem tr_setCur0 : Tr t0 c0 (setCur 0#32 : Comp AbsStore Unit) := by
  rintro w ⟨h1, es, h2, h3⟩ a w' h
  simp only [setCur, Option.some.injEq, Prod.mk.injEq, true_and] at h
  subst h
  exact ⟨h1, es, h2, Or.inr rfl⟩
theorem tr_pushHandling (e : Exc) : Tr t0 c0 (pushHandling e : Comp AbsStore Unit) := by
  rintro w ⟨h1, es, h2, h3⟩ a w' h
  simp only [pushHandling, Option.some.injEq, Prod.mk.injEq, true_and] at h
  subst h
  exact ⟨h1, es, h2, h3⟩
theorem tr_popHandling : Tr t0 c0 (popHandling : Comp AbsStore Unit) := by
  rintro w ⟨h1, es, h2, h3⟩ a w' h
  simp only [popHandling, Option.some.injEq, Prod.mk.injEq, true_and] at h
  subst h
  exact ⟨h1, es, h2, h3⟩
theorem tr_newId : Tr t0 c0 (newId cfg : Comp AbsStore Id) := by
  rintro w ⟨h1, es, h2, h3⟩ a w' h
  simp only [newId, generateNextId, Option.some.injEq, Prod.mk.injEq] at h
  obtain ⟨_, rfl⟩ := h
  exact ⟨h1, .gen _ :: es, by rw [List.cons_append, ← h2], Or.inl rfl⟩
theorem tr_currentError : Tr t0 c0 (currentError : Comp AbsStore Id) := Tr.bind tr_currentId fun _ => Tr.pure _

theorem noDa_setFrame {ty : Ty} {c : Cell} {f : List CtxCell} (h : ∀ k ns, CtxCell.da k ns ∉ f) : ∀ k ns, CtxCell.da k ns ∉ setFrame ty c f := by
  induction f with
  | nil => simp [setFrame]
  | cons x f ih =>
    cases x with
    | da k ns => exact absurd (by simp) (h k ns)
    | obj t d =>
      have ih := ih (fun k ns hm => h k ns (List.mem_cons_of_mem _ hm))
      intro k ns
      simp only [setFrame]
      split
      · simp only [List.mem_cons, not_or]
        exact ⟨by simp, fun hm => h k ns (List.mem_cons_of_mem _ hm)⟩
      · simp only [List.mem_cons, not_or]
        exact ⟨by simp, ih k ns⟩

theorem noDa_setBound {ty : Ty} {c : Cell} {fs : List (List CtxCell)} (h : NoDaFs fs) : NoDaFs (setBound ty c fs) := by
  induction fs with
  | nil => exact h
  | cons f fs ih =>
    have h1 := h f (by simp)
    have h2 : NoDaFs fs := fun g hg => h g (by simp [hg])
    simp only [setBound]
    split
    · intro g hg
      simp only [List.mem_cons] at hg
      rcases hg with rfl | hg
      · exact noDa_setFrame h1
      · exact h2 g hg
    · intro g hg
      simp only [List.mem_cons] at hg
      rcases hg with rfl | hg
      · exact h1
      · exact ih h2 g hg

theorem noDa_boundDa {fs : List (List CtxCell)} (h : NoDaFs fs) : boundDa fs = none := by
  induction fs with
  | nil => rfl
  | cons f fs ih =>
    have hf : frameDa f = none := by
      have h1 := h f (by simp)
      clear h ih
      induction f with
      | nil => rfl
      | cons x f ih =>
        cases x with
        | da k ns => exact absurd (by simp) (h1 k ns)
        | obj t d => exact ih (fun k ns hm => h1 k ns (List.mem_cons_of_mem _ hm))
    simp only [boundDa, hf]
    exact ih (fun g hg => h g (by simp [hg]))

theorem tr_slotSet (ty : Ty) (id : Id) (v : Val) : Tr t0 c0 (slotSet ty id v : Comp AbsStore Unit) := by
  rintro w ⟨h1, es, h2, h3⟩ a w' h
  unfold slotSet at h
  simp only [Store.slotSet] at h
  split at h
  · simp only [Option.map_some, Option.some.injEq, Prod.mk.injEq, true_and] at h
    subst h
    exact ⟨noDa_setBound h1, es, h2, h3⟩
  · simp at h

theorem tr_dynamicLoad (id : Id) (ty : Ty) (v : Val) : Tr t0 c0 (dynamicLoad id ty v : Comp AbsStore Unit) := by
  rintro w ⟨h1, es, h2, h3⟩ a w' h
  unfold dynamicLoad daKey at h
  rw [bind_apply] at h
  simp only [Store.daKey, noDa_boundDa h1, Option.map_none, Option.map_some, Option.bind_some, pure_apply, Option.some.injEq, Prod.mk.injEq, true_and] at h
  subst h
  exact ⟨h1, es, h2, h3⟩

theorem tr_dynamicAccumulate (id : Id) (ty : Ty) (tag : Nat) (f : Val → Val) : Tr t0 c0 (dynamicAccumulate cfg id ty tag f : Comp AbsStore Unit) := by
  rintro w ⟨h1, es, h2, h3⟩ a w' h
  unfold dynamicAccumulate daKey at h
  rw [bind_apply] at h
  simp only [Store.daKey, noDa_boundDa h1, Option.map_none, Option.map_some, Option.bind_some, pure_apply, Option.some.injEq, Prod.mk.injEq, true_and] at h
  subst h
  exact ⟨h1, es, h2, h3⟩

theorem tr_slotUnload (id : Id) (ty : Ty) (c : Cell) : Tr t0 c0 (slotUnload cfg id ty c : Comp AbsStore Unit) := by
  unfold slotUnload
  by_cases hid : id = 0#32
  · simp only [hid, if_true]
    exact tr_ubBind
  simp only [hid, if_false]
  split
  · exact Tr.pure _
  · refine Tr.bind (tr_slotGet _) fun x => ?_
    split
    · exact Tr.ite (tr_slotSet _ _ _) (Tr.pure _)
    · exact Tr.ite (tr_dynamicLoad _ _ _) (Tr.pure _)

theorem tr_loadSlot (b : Bool) (id : Id) (ty : Ty) (v : Val) : Tr t0 c0 (loadSlot cfg b id ty v : Comp AbsStore Unit) := by
  unfold loadSlot
  refine Tr.bind (tr_assertTagged _) fun _ => ?_
  refine Tr.bind (tr_slotGet _) fun x => ?_
  split
  · exact Tr.ite (tr_slotSet _ _ _) (Tr.pure _)
  · exact Tr.ite (tr_dynamicLoad _ _ _) (Tr.pure _)

theorem tr_loadItem (b : Bool) (id : Id) (i : Item) : Tr t0 c0 (loadItem cfg b id i : Comp AbsStore Unit) := by
  cases i with
  | obj ty v => exact Tr.bind (tr_emit (by simp)) fun _ => tr_loadSlot _ _ _ _
  | deferred ty tag v =>
    show Tr t0 c0 (loadSlotDeferred cfg b id ty tag v)
    unfold loadSlotDeferred
    refine Tr.bind (tr_assertTagged _) fun _ => ?_
    refine Tr.bind (tr_slotGet _) fun x => ?_
    split
    · exact Tr.ite (Tr.bind (tr_emit (by simp)) fun _ => Tr.bind (tr_emit (by simp)) fun _ => tr_slotSet _ _ _) (Tr.pure _)
    · exact Tr.ite (Tr.bind (tr_emit (by simp)) fun _ => Tr.bind (tr_emit (by simp)) fun _ => tr_dynamicLoad _ _ _) (Tr.pure _)
  | accum ty tag f =>
    show Tr t0 c0 (loadSlotAccumulate cfg id ty tag f)
    unfold loadSlotAccumulate
    refine Tr.bind (tr_assertTagged _) fun _ => ?_
    refine Tr.bind (tr_slotGet _) fun x => ?_
    split
    · exact Tr.bind (tr_slotSet _ _ _) fun _ => Tr.bind (tr_emit (by simp)) fun _ => tr_emit (by simp)
    · exact Tr.ite (tr_dynamicAccumulate _ _ _ _) (Tr.pure _)

theorem tr_loadItems (b : Bool) (id : Id) (is : List Item) : Tr t0 c0 (loadItems cfg b id is : Comp AbsStore Unit) := by
  induction is with
  | nil => exact Tr.pure _
  | cons i is ih => exact Tr.bind (tr_loadItem _ _ _) fun _ => ih

theorem tr_errorIdLoad (id : Id) (is : List Item) : Tr t0 c0 (errorIdLoad cfg id is : Comp AbsStore Unit) := by
  unfold errorIdLoad
  exact Tr.ite (tr_loadItems _ _ _) (Tr.pure _)

theorem tr_newError (is : List Item) : Tr t0 c0 (newError cfg is : Comp AbsStore Id) :=
  Tr.bind tr_newId fun _ => Tr.bind (tr_errorIdLoad _ _) fun _ => Tr.pure _

theorem tr_triggerItems (id : Id) (is : List OnItem) : Tr t0 c0 (triggerItems cfg id is : Comp AbsStore Unit) := by
  induction is with
  | nil => exact Tr.pure _
  | cons i is ih =>
    cases i with
    | item i => exact Tr.bind (tr_loadItem _ _ _) fun _ => ih
    | action t => exact Tr.bind (tr_emit (by simp)) fun _ => ih

theorem tr_importCode (ec : ErrorCode) (v : Val) : Tr t0 c0 (importCode cfg ec v : Comp AbsStore Id) := by
  unfold importCode
  split
  · exact Tr.pure _
  · exact Tr.bind tr_newId fun _ => Tr.bind (tr_emit (by simp)) fun _ => Tr.bind (tr_loadSlot _ _ _ _) fun _ => Tr.pure _
  · exact Tr.ub

theorem tr_checkId (m : Id) (b : Bool) : Tr t0 c0 (checkId cfg m b : Comp AbsStore Id) := by
  unfold checkId
  exact Tr.bind tr_currentId fun _ => Tr.ite (Tr.pure _) (Tr.ite tr_newId (Tr.pure _))

theorem tr_getId (m : Id) : Tr t0 c0 (getId cfg m : Comp AbsStore Id) := by
  unfold getId
  exact Tr.bind tr_currentId fun _ => Tr.ite (Tr.pure _) tr_newId

theorem tr_pushCtx {spec : List CellTy} (h0 : CellTy.da ∉ spec) : Tr t0 c0 (pushCtx spec : Comp AbsStore Unit) := by
  rintro w ⟨h1, es, h2, h3⟩ a w' h
  unfold pushCtx at h
  simp only [Store.push] at h
  split at h
  · simp only [Option.map_some, Option.some.injEq, Prod.mk.injEq, true_and] at h
    subst h
    refine ⟨?_, es, h2, h3⟩
    intro f hf k ns
    simp only [List.mem_cons] at hf
    rcases hf with rfl | hf
    · intro hm
      rw [List.mem_map] at hm
      obtain ⟨t, ht, he⟩ := hm
      cases t with
      | obj t => simp [CellTy.empty] at he
      | da => exact h0 ht
    · exact h1 f hf k ns
  · simp at h

theorem tr_popCtx : Hoare (Tracked t0 c0) (popCtx : Comp AbsStore _) (fun cells w => (∀ k ns, CtxCell.da k ns ∉ cells) ∧ Tracked t0 c0 w) := by
  rintro w ⟨h1, es, h2, h3⟩ a w' h
  unfold popCtx at h
  simp only [Store.pop] at h
  split at h
  · simp at h
  · rename_i f fs hf
    simp only [Option.map_some, Option.some.injEq, Prod.mk.injEq] at h
    obtain ⟨rfl, rfl⟩ := h
    exact ⟨h1 f (by rw [hf]; simp), fun g hg => h1 g (by rw [hf]; simp [hg]), es, h2, h3⟩

theorem tr_unloadCells (id : Id) {cells : List CtxCell} (hc : ∀ k ns, CtxCell.da k ns ∉ cells) : Tr t0 c0 (unloadCells cfg id cells : Comp AbsStore Unit) := by
  induction cells with
  | nil => exact Tr.pure _
  | cons c cs ih =>
    refine Tr.bind (ih fun k ns hm => hc k ns (List.mem_cons_of_mem _ hm)) fun _ => ?_
    cases c with
    | obj t d => exact tr_slotUnload _ _ _
    | da k ns => exact absurd (by simp) (hc k ns)

theorem tr_unpackId (e : Exc) : Tr t0 c0 (unpackId e : Comp AbsStore _) := by
  unfold unpackId
  refine Tr.ite ?_ (Tr.bind tr_currentError fun _ => Tr.pure _)
  split
  · exact Tr.pure _
  · exact Tr.pure _
  · exact Tr.bind tr_currentError fun _ => Tr.pure _

theorem tr_destroyExc (e : Exc) : Tr t0 c0 (destroyExc e : Comp AbsStore _) := by
  unfold destroyExc
  split
  · exact Tr.bind tr_getCur fun _ => Tr.ite tr_setCur0 (Tr.pure _)
  · exact Tr.pure _

theorem tr_ctxLoc (id : Id) (cells : List CtxCell) : Tr t0 c0 (ctxLoc id cells : Comp AbsStore _) := by
  unfold ctxLoc
  split
  · exact Tr.pure _
  · exact Tr.ite Tr.ub (Tr.pure _)

/-- Preservation, with a plain outcome. -/
abbrev TrO (t0 : List Event) (c0 : Id) (x : Comp AbsStore Out) : Prop := Hoare (Tracked t0 c0) x (fun o w => o.Plain ∧ Tracked t0 c0 w)

theorem trO_ub : TrO t0 c0 ub := Hoare.ub
theorem trO_pure {o : Out} (h : o.Plain) : TrO t0 c0 (pure o) := Hoare.pure fun _ hw => ⟨h, hw⟩
theorem TrO.bind {x : Comp AbsStore Out} {f : Out → Comp AbsStore Out} (hx : TrO t0 c0 x) (hf : ∀ o, o.Plain → TrO t0 c0 (f o)) : TrO t0 c0 (x >>= f) :=
  Hoare.bind hx fun o => Hoare.assume fun h => hf o h
theorem Tr.bindO {α : Type} {x : Comp AbsStore α} {f : α → Comp AbsStore Out} (hx : Tr t0 c0 x) (hf : ∀ a, TrO t0 c0 (f a)) : TrO t0 c0 (x >>= f) :=
  Hoare.bind hx hf

theorem trO_unloadOut {o : Out} (h : o.Plain) : TrO t0 c0 (unloadOut cfg o) := by
  cases o with
  | val v => exact trO_pure trivial
  | exc v => exact trO_pure trivial
  | err r =>
    cases r with
    | plain id => exact trO_pure trivial
    | captured id ns => exact h.elim

theorem trO_resultUnload {r : ErrRes} (h : (Out.err r).Plain) : TrO t0 c0 (resultUnload cfg r) := trO_unloadOut (cfg := cfg) (o := .err r) h

section
variable {specs : List (List Arg)} {body : Nat → List ArgVal → Comp AbsStore Out} (hbody : ∀ i args, TrO t0 c0 (body i args))
include hbody

theorem trO_callHandler (cells : List CtxCell) (id : Id) (ex : Option Exc) (loc : Option Val) (i : Nat) :
    TrO t0 c0 (callHandler cfg specs body cells id ex loc i) := by
  unfold callHandler
  split
  · exact trO_ub
  · split
    · exact trO_ub
    · exact Tr.bindO (tr_emit (by simp)) fun _ => hbody _ _

theorem tr_catchPath (e : Exc) : Hoare (Tracked t0 c0) (catchPath cfg specs body e)
    (fun p w => (p.1.Plain ∧ ∀ k ns, CtxCell.da k ns ∉ p.2) ∧ Tracked t0 c0 w) := by
  unfold catchPath
  refine Hoare.bind tr_popCtx fun cells => Hoare.assume fun hc => ?_
  refine Hoare.bind (tr_unpackId e) fun p => ?_
  refine Hoare.bind (tr_pushHandling _) fun _ => ?_
  refine Hoare.bind (tr_ctxLoc _ _) fun loc => ?_
  split
  · refine Hoare.bind (trO_callHandler hbody _ _ _ _ _) fun o => Hoare.assume fun ho => ?_
    refine Hoare.bind tr_popHandling fun _ => Hoare.bind (tr_destroyExc _) fun _ => ?_
    exact Hoare.pure fun _ hw => ⟨⟨ho, hc⟩, hw⟩
  · refine Hoare.bind (tr_unloadCells _ hc) fun _ => Hoare.bind tr_popHandling fun _ => ?_
    exact Hoare.pure fun _ hw => ⟨⟨trivial, hc⟩, hw⟩

theorem trO_tryHandleAll {block : Comp AbsStore Out} (hb : TrO t0 c0 block) (hs : CellTy.da ∉ deduce cfg specs) :
    TrO t0 c0 (tryHandleAll cfg specs block body) := by
  unfold tryHandleAll
  refine Hoare.bind (tr_pushCtx hs) fun _ => Hoare.bind hb fun o => Hoare.assume fun ho => ?_
  refine Hoare.bind (trO_unloadOut ho) fun o => Hoare.assume fun ho => ?_
  have hn : ∀ o, Hoare (fun w => o.Plain ∧ Tracked t0 c0 w) (noErr o) (fun o w => o.Plain ∧ Tracked t0 c0 w) := by
    intro o
    cases o with
    | err r => exact Hoare.ub
    | _ => exact Hoare.pure fun _ h => h
  cases o with
  | val v => exact Hoare.bind tr_popCtx fun _ => Hoare.pure fun _ h => ⟨trivial, h.2⟩
  | err r =>
    refine Hoare.bind (trO_resultUnload ho) fun _ => Hoare.assume fun _ => Hoare.bind tr_popCtx fun cells => Hoare.assume fun _ => ?_
    refine Hoare.bind (tr_ctxLoc _ _) fun loc => ?_
    split
    · exact Hoare.bind (trO_callHandler hbody _ _ _ _ _) hn
    · exact Hoare.ub
  | exc e => exact Hoare.bind (tr_catchPath hbody e) fun p => (hn p.1).mono (fun _ h => ⟨h.1.1, h.2⟩) fun _ _ h => h

theorem trO_tryHandleSome {block : Comp AbsStore Out} (hb : TrO t0 c0 block) (hs : CellTy.da ∉ deduce cfg specs) :
    TrO t0 c0 (tryHandleSome cfg specs block body) := by
  unfold tryHandleSome
  refine Hoare.bind (tr_pushCtx hs) fun _ => Hoare.bind hb fun o => Hoare.assume fun ho => ?_
  refine Hoare.bind (trO_unloadOut ho) fun o => Hoare.assume fun ho => ?_
  have hfin : ∀ (o : Out) (cells : List CtxCell), o.Plain → (∀ k ns, CtxCell.da k ns ∉ cells) →
      TrO t0 c0 (match o with | .err r' => (do unloadCells cfg r'.errId cells; pure o) | _ => pure o) := by
    intro o cells ho hc
    cases o with
    | err r => exact Tr.bindO (tr_unloadCells _ hc) fun _ => trO_pure ho
    | _ => exact trO_pure ho
  cases o with
  | val v => exact Hoare.bind tr_popCtx fun _ => Hoare.pure fun _ h => ⟨trivial, h.2⟩
  | err r =>
    refine Hoare.bind (trO_resultUnload ho) fun _ => Hoare.assume fun _ => Hoare.bind tr_popCtx fun cells => Hoare.assume fun hc => ?_
    refine Hoare.bind (tr_ctxLoc _ _) fun loc => ?_
    dsimp only
    split
    · exact TrO.bind (trO_callHandler hbody _ _ _ _ _) fun o ho => hfin o cells ho hc
    · exact TrO.bind (trO_pure ho) fun o ho => hfin o cells ho hc
  | exc e => exact Hoare.bind (tr_catchPath hbody e) fun p => Hoare.assume fun h => hfin p.1 p.2 h.1 h.2

theorem trO_tryCatch {block : Comp AbsStore Out} (hb : TrO t0 c0 block) (hs : CellTy.da ∉ deduce cfg specs) :
    TrO t0 c0 (tryCatch cfg specs block body) := by
  unfold tryCatch
  refine Hoare.bind (tr_pushCtx hs) fun _ => Hoare.bind hb fun o => Hoare.assume fun ho => ?_
  cases o with
  | exc e => exact Hoare.bind (tr_catchPath hbody e) fun p => Hoare.pure fun _ h => ⟨h.1.1, h.2⟩
  | _ => exact Hoare.bind tr_popCtx fun _ => Hoare.pure fun _ h => ⟨ho, h.2⟩

end

theorem tr_catchHelper (e : Exc) (tys : List Ty) : Tr t0 c0 (catchHelper cfg e tys : Comp AbsStore Id) := by
  induction tys with
  | nil => exact tr_newError _
  | cons ty tys ih =>
    refine Tr.bind ih fun id => ?_
    dsimp only
    split
    · exact Tr.bind (tr_errorIdLoad _ _) fun _ => Tr.pure _
    · exact Tr.pure _

theorem trO_eval (cfg : Cfg) (p : Prog) (hp : p.Plain cfg) : TrO t0 c0 (eval cfg p) := by
  induction p with
  | ret o => exact trO_pure hp
  | newError items k ih => exact Tr.bindO (tr_newError _) fun id => ih id (hp id)
  | load id items k ih => exact Tr.bindO (tr_errorIdLoad _ _) fun _ => ih hp
  | importCode ec v k ih => exact Tr.bindO (tr_importCode _ _) fun id => ih id (hp id)
  | currentError k ih => exact Tr.bindO tr_currentError fun id => ih id (hp id)
  | bind p k ke ih ihk ihe =>
    rw [eval]
    refine TrO.bind (ih hp.1) fun o ho => ?_
    cases o with
    | val v => exact ihk v (hp.2.1 v)
    | err r =>
      cases r with
      | plain id => exact ihe _ (hp.2.2 id)
      | captured id ns => exact ho.elim
    | exc e => exact trO_pure trivial
  | onError items body ih =>
    refine Tr.bindO tr_currentId fun _ => TrO.bind (ih hp) fun o ho => ?_
    refine Tr.bindO (tr_checkId _ _) fun id => ?_
    dsimp only
    split
    · exact Tr.bindO (tr_assertTagged _) fun _ => Tr.bindO (tr_triggerItems _ _) fun _ => trO_pure ho
    · exact trO_pure ho
  | monNew k ih => exact Tr.bindO tr_currentId fun id => ih id (hp id)
  | monCheck m k ih => exact Tr.bindO (tr_checkId _ _) fun id => ih _ (hp _)
  | monAssigned m k ih => exact Tr.bindO (tr_getId _) fun id => ih _ (hp _)
  | handleAll specs block body ih ihb => exact trO_tryHandleAll (fun i args => ihb i args (hp.2.2 i args)) (ih hp.2.1) hp.1
  | handleSome specs block body ih ihb => exact trO_tryHandleSome (fun i args => ihb i args (hp.2.2 i args)) (ih hp.2.1) hp.1
  | tryCatch specs block body ih ihb => exact trO_tryCatch (fun i args => ihb i args (hp.2.2 i args)) (ih hp.2.1) hp.1
  | captureAll block ih => exact hp.elim
  | captureAllVoid block ih => exact hp.elim
  | excToResult tys block ih =>
    refine TrO.bind (ih hp) fun o ho => ?_
    cases o with
    | exc e => exact Tr.bindO (tr_catchHelper _ _) fun _ => trO_pure trivial
    | _ => exact trO_pure ho
  | cppCatch block h ih ihh =>
    refine TrO.bind (ih hp.1) fun o ho => ?_
    cases o with
    | exc e =>
      refine Tr.bindO (tr_pushHandling _) fun _ => TrO.bind (ihh e (hp.2 e)) fun o ho => ?_
      exact Tr.bindO tr_popHandling fun _ => Tr.bindO (tr_destroyExc _) fun _ => trO_pure ho
    | _ => exact trO_pure ho
  | cppRethrow block h ih ihh =>
    refine TrO.bind (ih hp.1) fun o ho => ?_
    cases o with
    | exc e =>
      refine Tr.bindO (tr_pushHandling _) fun _ => TrO.bind (ihh e (hp.2 e)) fun o ho => ?_
      refine Tr.bindO tr_popHandling fun _ => ?_
      cases o with
      | exc e' => exact Tr.bindO (tr_destroyExc _) fun _ => trO_pure trivial
      | _ => exact trO_pure trivial
    | _ => exact trO_pure ho
  | unload r => exact trO_resultUnload hp
  | value r tag =>
    refine TrO.bind (trO_resultUnload hp) fun o ho => ?_
    cases o <;> exact trO_pure trivial

end Leaf
