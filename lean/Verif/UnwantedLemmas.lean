import Verif.UnwantedSpec
import Verif.HandlerLemmas
import Verif.Sim

/-!
# Comparing a program with one that reports fewer objects

Lemmas for `Verif/PropUnwanted.lean`. The first computation reports objects of types in `U`, the second one does not.
-/

namespace Leaf

variable {U : Ty → Bool}

/-- The context has slots for other types only. -/
def CellsFree (U : Ty → Bool) (cells : List CtxCell) : Prop := ∀ c ∈ cells, ∃ t x, c = .obj t x ∧ U t = false

def FramesFree (U : Ty → Bool) (fs : List (List CtxCell)) : Prop := ∀ f ∈ fs, CellsFree U f

theorem frameCell_free {f : List CtxCell} (h : CellsFree U f) {ty : Ty} (hu : U ty = true) : frameCell ty f = none := by
  induction f with
  | nil => rfl
  | cons c cs ih =>
    obtain ⟨t, x, rfl, ht⟩ := h c (List.mem_cons_self ..)
    have hne : t ≠ ty := by
      intro e
      rw [e, hu] at ht
      cases ht
    rw [frameCell, if_neg hne]
    exact ih fun c hc => h c (List.mem_cons_of_mem _ hc)

theorem boundCell_free {fs : List (List CtxCell)} (h : FramesFree U fs) {ty : Ty} (hu : U ty = true) : boundCell ty fs = none := by
  induction fs with
  | nil => rfl
  | cons f fs ih =>
    rw [boundCell, frameCell_free (h f (List.mem_cons_self ..)) hu]
    exact ih fun f hf => h f (List.mem_cons_of_mem _ hf)

theorem frameDa_free {f : List CtxCell} (h : CellsFree U f) : frameDa f = none := by
  induction f with
  | nil => rfl
  | cons c cs ih =>
    obtain ⟨t, x, rfl, _⟩ := h c (List.mem_cons_self ..)
    exact ih fun c hc => h c (List.mem_cons_of_mem _ hc)

theorem boundDa_free {fs : List (List CtxCell)} (h : FramesFree U fs) : boundDa fs = none := by
  induction fs with
  | nil => rfl
  | cons f fs ih =>
    rw [boundDa, frameDa_free (h f (List.mem_cons_self ..))]
    exact ih fun f hf => h f (List.mem_cons_of_mem _ hf)

theorem setFrame_free {f : List CtxCell} (h : CellsFree U f) (ty : Ty) (c : Cell) : CellsFree U (setFrame ty c f) := by
  induction f with
  | nil => exact h
  | cons d cs ih =>
    obtain ⟨t, x, rfl, ht⟩ := h d (List.mem_cons_self ..)
    have hcs : CellsFree U cs := fun c hc => h c (List.mem_cons_of_mem _ hc)
    rw [setFrame]
    split
    · intro e he
      rcases List.mem_cons.mp he with rfl | he
      · exact ⟨t, c, rfl, ht⟩
      · exact hcs e he
    · intro e he
      rcases List.mem_cons.mp he with rfl | he
      · exact ⟨t, x, rfl, ht⟩
      · exact ih hcs e he

theorem setBound_free {fs : List (List CtxCell)} (h : FramesFree U fs) (ty : Ty) (c : Cell) : FramesFree U (setBound ty c fs) := by
  induction fs with
  | nil => exact h
  | cons f fs ih =>
    have hf := h f (List.mem_cons_self ..)
    have hfs : FramesFree U fs := fun g hg => h g (List.mem_cons_of_mem _ hg)
    rw [setBound]
    split
    · intro g hg
      rcases List.mem_cons.mp hg with rfl | hg
      · exact setFrame_free hf ty c
      · exact hfs g hg
    · intro g hg
      rcases List.mem_cons.mp hg with rfl | hg
      · exact hf
      · exact ih hfs g hg

/-! ## The relation -/

/-- The states differ in the record only; no scope takes objects of types in `U`, or captures. -/
structure URel (U : Ty → Bool) (w w' : World AbsStore) : Prop where
  free : FramesFree U w.mem.frames
  eq : w' = { w with trace := w'.trace }
  trace : withoutOffers U w'.trace = withoutOffers U w.trace

/-- Where the first computation ends, the second one ends with the same outcome. -/
def UEqv {α : Type} (U : Ty → Bool) (Q : α → Prop) (m m' : Comp AbsStore α) : Prop :=
  ∀ w w', URel U w w' → ∀ a v, m w = some (a, v) → Q a ∧ ∃ v', m' w' = some (a, v') ∧ URel U v v'

abbrev UEqv0 {α : Type} (U : Ty → Bool) (m m' : Comp AbsStore α) : Prop := UEqv U (fun _ => True) m m'

theorem UEqv.bind {α β : Type} {Q : α → Prop} {R : β → Prop} {m m' : Comp AbsStore α} {f f' : α → Comp AbsStore β} (hm : UEqv U Q m m')
    (hf : ∀ a, Q a → UEqv U R (f a) (f' a)) : UEqv U R (m >>= f) (m' >>= f') := by
  intro w w' hw b v h
  rw [bind_apply] at h
  cases hx : m w with
  | none => simp [hx] at h
  | some p =>
    rw [hx, Option.bind_some] at h
    obtain ⟨h1, v', h2, h3⟩ := hm w w' hw p.1 p.2 hx
    rw [bind_apply, h2, Option.bind_some]
    exact hf p.1 h1 p.2 v' h3 b v h

theorem UEqv.bind0 {α β : Type} {R : β → Prop} {m m' : Comp AbsStore α} {f f' : α → Comp AbsStore β} (hm : UEqv0 U m m')
    (hf : ∀ a, UEqv U R (f a) (f' a)) : UEqv U R (m >>= f) (m' >>= f') := UEqv.bind hm fun a _ => hf a

theorem UEqv.pure {α : Type} {Q : α → Prop} {a : α} (h : Q a) : UEqv U Q (pure a) (pure a) := by
  intro w w' hw b v hv
  rw [pure_apply, Option.some.injEq, Prod.mk.injEq] at hv
  obtain ⟨rfl, rfl⟩ := hv
  exact ⟨h, w', rfl, hw⟩

theorem UEqv.pure0 {α : Type} (a : α) : UEqv0 U (Pure.pure a : Comp AbsStore α) (Pure.pure a) := UEqv.pure trivial

theorem UEqv.ub {α : Type} {Q : α → Prop} {m : Comp AbsStore α} : UEqv U Q Leaf.ub m := by
  intro w w' _ b v h
  simp [Leaf.ub] at h

theorem UEqv.ubBind {α β : Type} {Q : β → Prop} {f : α → Comp AbsStore β} {m : Comp AbsStore β} : UEqv U Q (Leaf.ub >>= f) m := by
  intro w w' _ b v h
  simp [bind_apply, Leaf.ub] at h

theorem UEqv.ite {α : Type} {Q : α → Prop} {p : Prop} [Decidable p] {m m' n n' : Comp AbsStore α} (hm : UEqv U Q m m') (hn : UEqv U Q n n') :
    UEqv U Q (if p then m else n) (if p then m' else n') := by
  split
  · exact hm
  · exact hn

/-- A computation that neither looks at the record nor extends it. -/
theorem ueqv_silent {α : Type} {m : Comp AbsStore α}
    (h : ∀ w a v, m w = some (a, v) → v.trace = w.trace ∧ (FramesFree U w.mem.frames → FramesFree U v.mem.frames) ∧ ∀ t, m { w with trace := t } = some (a, { v with trace := t })) :
    UEqv0 U m m := by
  intro w w' hw a v hv
  obtain ⟨h1, h2, h3⟩ := h w a v hv
  refine ⟨trivial, { v with trace := w'.trace }, ?_, h2 hw.free, rfl, by rw [h1]; exact hw.trace⟩
  rw [hw.eq]
  exact h3 _

theorem withoutOffers_cons (e : Event) (t : List Event) : withoutOffers U (e :: t) = withoutOffers U [e] ++ withoutOffers U t := by
  unfold withoutOffers
  rw [← List.filter_append]
  rfl

theorem ueqv_emit (e : Event) : UEqv0 U (emit e) (emit e) := by
  intro w w' hw a v hv
  simp only [emit, Option.some.injEq, Prod.mk.injEq, true_and] at hv
  subst hv
  refine ⟨trivial, _, rfl, hw.free, ?_, ?_⟩
  · have := hw.eq
    rw [this]
  · show withoutOffers U (e :: w'.trace) = withoutOffers U (e :: w.trace)
    rw [withoutOffers_cons, withoutOffers_cons e w.trace, hw.trace]

/-- Reporting an object is not part of what is compared. -/
theorem ueqv_offered {id : Id} {ty : Ty} {v : Val} (hu : U ty = true) : UEqv0 U (emit (.offered id ty v)) (pure ()) := by
  intro w w' hw a u hv
  simp only [emit, Option.some.injEq, Prod.mk.injEq, true_and] at hv
  subst hv
  refine ⟨trivial, w', rfl, hw.free, hw.eq, ?_⟩
  show _ = withoutOffers U (_ :: w.trace)
  rw [hw.trace, withoutOffers_cons]
  simp [withoutOffers, hu]

theorem ueqv_getCur : UEqv0 U (getCur : Comp AbsStore Id) getCur := ueqv_silent (by
  intro w a v h
  simp only [getCur, Option.some.injEq, Prod.mk.injEq] at h
  obtain ⟨rfl, rfl⟩ := h
  exact ⟨rfl, id, fun _ => rfl⟩)

theorem ueqv_currentId : UEqv0 U (currentId : Comp AbsStore Id) currentId := ueqv_silent (by
  intro w a v h
  unfold currentId at h ⊢
  split at h
  · rename_i hc
    simp only [Option.some.injEq, Prod.mk.injEq] at h
    obtain ⟨rfl, rfl⟩ := h
    exact ⟨rfl, id, fun _ => by simp [hc]⟩
  · simp at h)

theorem ueqv_assertTagged (id : Id) : UEqv0 U (assertTagged id : Comp AbsStore Unit) (assertTagged id) := ueqv_silent (by
  intro w a v h
  unfold assertTagged at h ⊢
  split at h
  · rename_i hc
    simp only [Option.some.injEq, Prod.mk.injEq, true_and] at h
    subst h
    exact ⟨rfl, fun h => h, fun _ => by simp [hc]⟩
  · simp at h)

theorem ueqv_setCur (id : Id) : UEqv0 U (setCur id : Comp AbsStore Unit) (setCur id) := ueqv_silent (by
  intro w a v h
  simp only [setCur, Option.some.injEq, Prod.mk.injEq, true_and] at h
  subst h
  exact ⟨rfl, fun h => h, fun _ => rfl⟩)

theorem ueqv_pushHandling (e : Exc) : UEqv0 U (pushHandling e : Comp AbsStore Unit) (pushHandling e) := ueqv_silent (by
  intro w a v h
  simp only [pushHandling, Option.some.injEq, Prod.mk.injEq, true_and] at h
  subst h
  exact ⟨rfl, fun h => h, fun _ => rfl⟩)

theorem ueqv_popHandling : UEqv0 U (popHandling : Comp AbsStore Unit) popHandling := ueqv_silent (by
  intro w a v h
  simp only [popHandling, Option.some.injEq, Prod.mk.injEq, true_and] at h
  subst h
  exact ⟨rfl, fun h => h, fun _ => rfl⟩)

theorem ueqv_slotGet (ty : Ty) : UEqv U (fun s => U ty = true → s = none) (slotGet ty : Comp AbsStore _) (slotGet ty) := by
  intro w w' hw a v h
  simp only [slotGet, Store.slotGet, Option.map_some, Option.some.injEq, Prod.mk.injEq] at h
  obtain ⟨rfl, rfl⟩ := h
  refine ⟨fun hu => boundCell_free hw.free hu, w', ?_, hw⟩
  have e : w'.mem = w.mem := by rw [hw.eq]
  simp only [slotGet, Store.slotGet, e, Option.map_some]

theorem ueqv_slotSet (ty : Ty) (id : Id) (u : Val) : UEqv0 U (slotSet ty id u : Comp AbsStore Unit) (slotSet ty id u) := ueqv_silent (by
  intro w a v h
  unfold slotSet at h ⊢
  simp only [Store.slotSet] at h ⊢
  split at h
  · simp only [Option.map_some, Option.some.injEq, Prod.mk.injEq, true_and] at h
    subst h
    exact ⟨rfl, fun h => setBound_free h _ _, fun _ => rfl⟩
  · simp at h)

theorem ueqv_pushCtx {spec : List CellTy} (h0 : ∀ t ∈ spec, ∃ ty, t = .obj ty ∧ U ty = false) : UEqv0 U (pushCtx spec : Comp AbsStore Unit) (pushCtx spec) := ueqv_silent (by
  intro w a v h
  unfold pushCtx at h ⊢
  simp only [Store.push] at h ⊢
  split at h
  · rename_i hn
    simp only [Option.map_some, Option.some.injEq, Prod.mk.injEq, true_and] at h
    subst h
    refine ⟨rfl, fun h1 f hf => ?_, fun _ => by simp [hn]⟩
    simp only [List.mem_cons] at hf
    rcases hf with rfl | hf
    · intro c hm
      rw [List.mem_map] at hm
      obtain ⟨t, ht, rfl⟩ := hm
      obtain ⟨ty, rfl, hu⟩ := h0 t ht
      exact ⟨ty, none, rfl, hu⟩
    · exact h1 f hf
  · simp at h)

theorem ueqv_popCtx : UEqv U (CellsFree U) (popCtx : Comp AbsStore _) popCtx := by
  intro w w' hw a v h
  unfold popCtx at h
  simp only [Store.pop] at h
  split at h
  · simp at h
  · rename_i f fs hf
    simp only [Option.map_some, Option.some.injEq, Prod.mk.injEq] at h
    obtain ⟨rfl, rfl⟩ := h
    have h1 := hw.free
    refine ⟨h1 f (by rw [hf]; simp), { w' with mem := ⟨fs⟩ }, ?_, fun g hg => h1 g (by rw [hf]; simp [hg]), ?_, hw.trace⟩
    · have e : w'.mem = w.mem := by rw [hw.eq]
      unfold popCtx
      simp only [Store.pop, e, hf, Option.map_some]
    · have := hw.eq
      rw [this]

theorem ueqv_newId (cfg : Cfg) : UEqv0 U (newId cfg : Comp AbsStore Id) (newId cfg) := by
  intro w w' hw a v h
  obtain ⟨hn, he, ht⟩ := hw
  generalize w'.trace = t' at he ht
  subst he
  simp only [newId, Option.some.injEq, Prod.mk.injEq] at h
  obtain ⟨rfl, rfl⟩ := h
  refine ⟨trivial, _, rfl, hn, rfl, ?_⟩
  rw [withoutOffers_cons, withoutOffers_cons _ w.trace]
  exact congrArg _ ht

theorem ueqv_currentError : UEqv0 U (currentError : Comp AbsStore Id) currentError := UEqv.bind0 ueqv_currentId fun _ => UEqv.pure0 _

/-- No scope captures: nothing happens. -/
theorem ueqv_noop2 {m m' : Comp AbsStore Unit} (h : ∀ w, boundDa w.mem.frames = none → m w = some ((), w)) (h' : ∀ w, boundDa w.mem.frames = none → m' w = some ((), w)) :
    UEqv0 U m m' := by
  intro w w' hw a v hv
  rw [h w (boundDa_free hw.free)] at hv
  cases hv
  have : boundDa w'.mem.frames = none := by rw [hw.eq]; exact boundDa_free hw.free
  exact ⟨trivial, w', h' w' this, hw⟩

theorem dynamicLoad_free (id : Id) (ty : Ty) (u : Val) (w : World AbsStore) (h : boundDa w.mem.frames = none) : (dynamicLoad id ty u : Comp AbsStore Unit) w = some ((), w) := by
  unfold dynamicLoad daKey
  rw [bind_apply]
  simp only [Store.daKey, h, Option.map_none, Option.map_some, Option.bind_some, pure_apply]

theorem dynamicAccumulate_free (cfg : Cfg) (id : Id) (ty : Ty) (tag : Nat) (f : Val → Val) (w : World AbsStore) (h : boundDa w.mem.frames = none) :
    (dynamicAccumulate cfg id ty tag f : Comp AbsStore Unit) w = some ((), w) := by
  unfold dynamicAccumulate daKey
  rw [bind_apply]
  simp only [Store.daKey, h, Option.map_none, Option.map_some, Option.bind_some, pure_apply]

/-- `if BOOST_LEAF_CFG_CAPTURE then m`. -/
theorem ifCapture_free {cfg : Cfg} {m : Comp AbsStore Unit} (h : ∀ w, boundDa w.mem.frames = none → m w = some ((), w)) (w : World AbsStore) (hw : boundDa w.mem.frames = none) :
    (if cfg.capture then m else pure ()) w = some ((), w) := by
  cases cfg.capture
  · rfl
  · exact h w hw

/-! ## What both programs do -/

section
variable {cfg : Cfg}

theorem ueqv_slotGet0 (ty : Ty) : UEqv0 U (slotGet ty : Comp AbsStore _) (slotGet ty) := fun w w' hw a v h => ⟨trivial, (ueqv_slotGet ty w w' hw a v h).2⟩

theorem ueqv_slotUnload (id : Id) (ty : Ty) (c : Cell) : UEqv0 U (slotUnload cfg id ty c) (slotUnload cfg id ty c) := by
  unfold slotUnload
  by_cases hid : id = 0#32
  · simp only [hid, if_true]
    exact UEqv.ubBind
  simp only [hid, if_false]
  split
  · exact UEqv.pure0 _
  · refine UEqv.bind0 (ueqv_slotGet0 _) fun s => ?_
    split
    · exact UEqv.ite (ueqv_slotSet _ _ _) (UEqv.pure0 _)
    · exact ueqv_noop2 (ifCapture_free (dynamicLoad_free _ _ _)) (ifCapture_free (dynamicLoad_free _ _ _))

theorem ueqv_loadSlot (b : Bool) (id : Id) (ty : Ty) (u : Val) : UEqv0 U (loadSlot cfg b id ty u) (loadSlot cfg b id ty u) := by
  unfold loadSlot
  refine UEqv.bind0 (ueqv_assertTagged _) fun _ => ?_
  refine UEqv.bind0 (ueqv_slotGet0 _) fun s => ?_
  split
  · exact UEqv.ite (ueqv_slotSet _ _ _) (UEqv.pure0 _)
  · exact ueqv_noop2 (ifCapture_free (dynamicLoad_free _ _ _)) (ifCapture_free (dynamicLoad_free _ _ _))

theorem ueqv_loadItem (b : Bool) (id : Id) (i : Item) : UEqv0 U (loadItem cfg b id i) (loadItem cfg b id i) := by
  cases i with
  | obj ty u => exact UEqv.bind0 (ueqv_emit _) fun _ => ueqv_loadSlot _ _ _ _
  | deferred ty tag u =>
    refine UEqv.bind0 (ueqv_assertTagged _) fun _ => UEqv.bind0 (ueqv_slotGet0 _) fun s => ?_
    split
    · exact UEqv.ite (UEqv.bind0 (ueqv_emit _) fun _ => UEqv.bind0 (ueqv_emit _) fun _ => ueqv_slotSet _ _ _) (UEqv.pure0 _)
    · exact UEqv.ite (UEqv.bind0 (ueqv_emit _) fun _ => UEqv.bind0 (ueqv_emit _) fun _ => ueqv_noop2 (dynamicLoad_free _ _ _) (dynamicLoad_free _ _ _)) (UEqv.pure0 _)
  | accum ty tag f =>
    refine UEqv.bind0 (ueqv_assertTagged _) fun _ => UEqv.bind0 (ueqv_slotGet0 _) fun s => ?_
    split
    · exact UEqv.bind0 (ueqv_slotSet _ _ _) fun _ => UEqv.bind0 (ueqv_emit _) fun _ => ueqv_emit _
    · exact ueqv_noop2 (ifCapture_free (dynamicAccumulate_free _ _ _ _ _)) (ifCapture_free (dynamicAccumulate_free _ _ _ _ _))

/-! ## What only the first program does -/

/-- If the first computation ends, it has changed nothing but the record of reported objects. -/
theorem ueqv_skip {α : Type} {m : Comp AbsStore Unit} {n n' : Comp AbsStore α} {Q : α → Prop} (h : UEqv0 U m (pure ())) (hn : UEqv U Q n n') :
    UEqv U Q (do m; n) n' := by
  intro w w' hw a v hv
  rw [bind_apply] at hv
  cases hx : m w with
  | none => simp [hx] at hv
  | some p =>
    rw [hx, Option.bind_some] at hv
    obtain ⟨_, v', h2, h3⟩ := h w w' hw p.1 p.2 hx
    rw [pure_apply, Option.some.injEq, Prod.mk.injEq] at h2
    obtain ⟨_, rfl⟩ := h2
    exact hn p.2 w' h3 a v hv

theorem ueqv_assertTagged_skip (id : Id) : UEqv0 U (assertTagged id : Comp AbsStore Unit) (pure ()) := by
  intro w w' hw a v h
  unfold assertTagged at h
  split at h
  · cases h
    exact ⟨trivial, w', rfl, hw⟩
  · simp at h

/-- The slot is looked up in vain. -/
theorem ueqv_slotGet_skip {α : Type} {ty : Ty} (hu : U ty = true) {f : Option Cell → Comp AbsStore α} {n' : Comp AbsStore α} {Q : α → Prop} (h : UEqv U Q (f none) n') :
    UEqv U Q (slotGet ty >>= f) n' := by
  intro w w' hw a v hv
  rw [bind_apply] at hv
  simp only [slotGet, Store.slotGet, boundCell_free hw.free hu, Option.map_some, Option.bind_some] at hv
  exact h w w' hw a v hv

theorem ueqv_unwanted (b : Bool) (id : Id) (i : Item) (h : i.unwanted cfg U = true) : UEqv0 U (loadItem cfg b id i) (pure ()) := by
  have hp : ∀ w : World AbsStore, boundDa w.mem.frames = none → (pure () : Comp AbsStore Unit) w = some ((), w) := fun _ _ => rfl
  cases i with
  | obj ty u =>
    refine ueqv_skip (ueqv_offered h) (ueqv_skip (ueqv_assertTagged_skip _) (ueqv_slotGet_skip h ?_))
    exact ueqv_noop2 (ifCapture_free (dynamicLoad_free _ _ _)) hp
  | deferred ty tag u =>
    simp only [Item.unwanted, Bool.and_eq_true, Bool.not_eq_true'] at h
    refine ueqv_skip (ueqv_assertTagged_skip _) (ueqv_slotGet_skip h.1 ?_)
    simp only [h.2]
    exact UEqv.pure0 _
  | accum ty tag f =>
    refine ueqv_skip (ueqv_assertTagged_skip _) (ueqv_slotGet_skip h ?_)
    exact ueqv_noop2 (ifCapture_free (dynamicAccumulate_free _ _ _ _ _)) hp

theorem ueqv_loadItems (b : Bool) (id : Id) (is : List Item) :
    UEqv0 U (loadItems cfg b id is) (loadItems cfg b id (is.filter fun i => !i.unwanted cfg U)) := by
  induction is with
  | nil => exact UEqv.pure0 _
  | cons i is ih =>
    by_cases h : i.unwanted cfg U = true
    · rw [List.filter_cons_of_neg (by simp [h])]
      exact ueqv_skip (ueqv_unwanted _ _ _ h) ih
    · rw [List.filter_cons_of_pos (by simp [h])]
      exact UEqv.bind0 (ueqv_loadItem _ _ _) fun _ => ih

theorem ueqv_errorIdLoad (id : Id) (is : List Item) : UEqv0 U (errorIdLoad cfg id is) (errorIdLoad cfg id (is.filter fun i => !i.unwanted cfg U)) := by
  unfold errorIdLoad
  exact UEqv.ite (ueqv_loadItems _ _ _) (UEqv.pure0 _)

theorem ueqv_newError (is : List Item) : UEqv0 U (newError cfg is) (newError cfg (is.filter fun i => !i.unwanted cfg U)) :=
  UEqv.bind0 (ueqv_newId cfg) fun _ => UEqv.bind0 (ueqv_errorIdLoad _ _) fun _ => UEqv.pure0 _

theorem ueqv_triggerItems (id : Id) (is : List OnItem) : UEqv0 U (triggerItems cfg id is) (triggerItems cfg id (is.filter fun i => !i.unwanted cfg U)) := by
  induction is with
  | nil => exact UEqv.pure0 _
  | cons i is ih =>
    cases i with
    | item i =>
      by_cases h : i.unwanted cfg U = true
      · rw [List.filter_cons_of_neg (by simp [OnItem.unwanted, h])]
        exact ueqv_skip (ueqv_unwanted _ _ _ h) ih
      · rw [List.filter_cons_of_pos (by simp [OnItem.unwanted, h])]
        exact UEqv.bind0 (ueqv_loadItem _ _ _) fun _ => ih
    | action t =>
      rw [List.filter_cons_of_pos (by simp [OnItem.unwanted])]
      exact UEqv.bind0 (ueqv_emit _) fun _ => ih

/-! ## Composite operations -/

theorem ueqv_loadItems0 (b : Bool) (id : Id) (is : List Item) : UEqv0 U (loadItems cfg b id is) (loadItems cfg b id is) := by
  induction is with
  | nil => exact UEqv.pure0 _
  | cons i is ih => exact UEqv.bind0 (ueqv_loadItem _ _ _) fun _ => ih

theorem ueqv_errorIdLoad0 (id : Id) (is : List Item) : UEqv0 U (errorIdLoad cfg id is) (errorIdLoad cfg id is) := by
  unfold errorIdLoad
  exact UEqv.ite (ueqv_loadItems0 _ _ _) (UEqv.pure0 _)

theorem ueqv_catchHelper (e : Exc) (tys : List Ty) : UEqv0 U (catchHelper cfg e tys) (catchHelper cfg e tys) := by
  induction tys with
  | nil => exact UEqv.bind0 (ueqv_newId cfg) fun _ => UEqv.bind0 (ueqv_errorIdLoad0 _ _) fun _ => UEqv.pure0 _
  | cons ty tys ih =>
    refine UEqv.bind0 ih fun id => ?_
    dsimp only
    split
    · exact UEqv.bind0 (ueqv_errorIdLoad0 _ _) fun _ => UEqv.pure0 _
    · exact UEqv.pure0 _

theorem ueqv_importCode (ec : ErrorCode) (u : Val) : UEqv0 U (importCode cfg ec u) (importCode cfg ec u) := by
  unfold importCode
  split
  · exact UEqv.pure0 _
  · exact UEqv.bind0 (ueqv_newId cfg) fun _ => UEqv.bind0 (ueqv_emit _) fun _ => UEqv.bind0 (ueqv_loadSlot _ _ _ _) fun _ => UEqv.pure0 _
  · exact UEqv.ub

theorem ueqv_checkId (m : Id) (b : Bool) : UEqv0 U (checkId cfg m b : Comp AbsStore Id) (checkId cfg m b) := by
  unfold checkId
  exact UEqv.bind0 ueqv_currentId fun _ => UEqv.ite (UEqv.pure0 _) (UEqv.ite (ueqv_newId cfg) (UEqv.pure0 _))

theorem ueqv_getId (m : Id) : UEqv0 U (getId cfg m : Comp AbsStore Id) (getId cfg m) := by
  unfold getId
  exact UEqv.bind0 ueqv_currentId fun _ => UEqv.ite (UEqv.pure0 _) (ueqv_newId cfg)

theorem ueqv_unloadCells (id : Id) {cells : List CtxCell} (hc : CellsFree U cells) : UEqv0 U (unloadCells cfg id cells) (unloadCells cfg id cells) := by
  induction cells with
  | nil => exact UEqv.pure0 _
  | cons c cs ih =>
    refine UEqv.bind0 (ih fun d hm => hc d (List.mem_cons_of_mem _ hm)) fun _ => ?_
    obtain ⟨t, x, rfl, _⟩ := hc c (List.mem_cons_self ..)
    exact ueqv_slotUnload _ _ _

theorem ueqv_unpackId (e : Exc) : UEqv0 U (unpackId e : Comp AbsStore _) (unpackId e) := by
  unfold unpackId
  refine UEqv.ite ?_ (UEqv.bind0 ueqv_currentError fun _ => UEqv.pure0 _)
  split
  · exact UEqv.pure0 _
  · exact UEqv.pure0 _
  · exact UEqv.bind0 ueqv_currentError fun _ => UEqv.pure0 _

theorem ueqv_destroyExc (e : Exc) : UEqv0 U (destroyExc e : Comp AbsStore _) (destroyExc e) := by
  unfold destroyExc
  split
  · exact UEqv.bind0 ueqv_getCur fun _ => UEqv.ite (ueqv_setCur _) (UEqv.pure0 _)
  · exact UEqv.pure0 _

theorem ueqv_ctxLoc (id : Id) (cells : List CtxCell) : UEqv0 U (ctxLoc id cells : Comp AbsStore _) (ctxLoc id cells) := by
  unfold ctxLoc
  split
  · exact UEqv.pure0 _
  · exact UEqv.ite UEqv.ub (UEqv.pure0 _)

theorem ueqv_unloadNodes (id : Id) (ns : List CapNode) : UEqv0 U (unloadNodes cfg id ns) (unloadNodes cfg id ns) := by
  induction ns with
  | nil => exact UEqv.pure0 _
  | cons n ns ih =>
    cases n with
    | obj ty c =>
      unfold unloadNodes
      cases c.hasValue id with
      | some v => exact UEqv.bind0 (ueqv_emit _) fun _ => UEqv.bind0 (ueqv_slotUnload _ _ _) fun _ => ih
      | none => exact UEqv.bind0 (ueqv_slotUnload _ _ _) fun _ => ih
    | exc e => exact UEqv.pure0 _

theorem ueqv_resultUnload (r : ErrRes) : UEqv0 U (resultUnload cfg r) (resultUnload cfg r) := by
  cases r with
  | plain id => exact UEqv.pure0 _
  | captured id ns =>
    refine UEqv.bind0 (ueqv_setCur _) fun _ => UEqv.bind0 (ueqv_unloadNodes _ _) fun o => ?_
    cases o <;> exact UEqv.pure0 _

theorem ueqv_unloadOut (o : Out) : UEqv0 U (unloadOut cfg o) (unloadOut cfg o) := by
  cases o with
  | err r => exact ueqv_resultUnload r
  | _ => exact UEqv.pure0 _

theorem ueqv_noErr (o : Out) : UEqv0 U (noErr o : Comp AbsStore Out) (noErr o) := by
  cases o with
  | err r => exact UEqv.ub
  | _ => exact UEqv.pure0 _

theorem notTaken_deduce {specs : List (List Arg)} (h : NotTaken cfg U specs) : ∀ t ∈ deduce cfg specs, ∃ ty, t = .obj ty ∧ U ty = false := by
  intro t ht
  unfold deduce at ht
  rw [List.mem_filter, mem_mpUnique, List.mem_flatten] at ht
  obtain ⟨⟨l, hl, htl⟩, _⟩ := ht
  obtain ⟨a, ha, rfl⟩ := List.mem_map.mp hl
  obtain ⟨args, h1, h2⟩ := List.mem_flatten.mp ha
  exact h args h1 a h2 t htl

section
variable {specs : List (List Arg)} {body body2 : Nat → List ArgVal → Comp AbsStore Out} (hbody : ∀ i args, UEqv0 U (body i args) (body2 i args))
include hbody

theorem ueqv_callHandler (cells : List CtxCell) (id : Id) (ex : Option Exc) (loc : Option Val) (i : Nat) :
    UEqv0 U (callHandler cfg specs body cells id ex loc i) (callHandler cfg specs body2 cells id ex loc i) := by
  unfold callHandler
  cases specs[i]? with
  | none => exact UEqv.ub
  | some args =>
    dsimp only
    cases getArgs cfg cells id ex loc args with
    | none => exact UEqv.ub
    | some vs => exact UEqv.bind0 (ueqv_emit _) fun _ => hbody _ _

theorem ueqv_catchPath (e : Exc) : UEqv U (fun p => CellsFree U p.2) (catchPath cfg specs body e) (catchPath cfg specs body2 e) := by
  unfold catchPath
  refine UEqv.bind ueqv_popCtx fun cells hc => ?_
  refine UEqv.bind0 (ueqv_unpackId e) fun p => ?_
  refine UEqv.bind0 (ueqv_pushHandling _) fun _ => ?_
  refine UEqv.bind0 (ueqv_ctxLoc _ _) fun loc => ?_
  cases selectSome cfg cells p.1 (if p.2.isStd = true then some p.2 else none) specs with
  | some i =>
    refine UEqv.bind0 (ueqv_callHandler hbody _ _ _ _ _) fun o => ?_
    exact UEqv.bind0 ueqv_popHandling fun _ => UEqv.bind0 (ueqv_destroyExc _) fun _ => UEqv.pure hc
  | none => exact UEqv.bind0 (ueqv_unloadCells _ hc) fun _ => UEqv.bind0 ueqv_popHandling fun _ => UEqv.pure hc

theorem ueqv_tryHandleAll {block block2 : Comp AbsStore Out} (hb : UEqv0 U block block2) (hs : NotTaken cfg U specs) :
    UEqv0 U (tryHandleAll cfg specs block body) (tryHandleAll cfg specs block2 body2) := by
  unfold tryHandleAll
  refine UEqv.bind0 (ueqv_pushCtx (notTaken_deduce hs)) fun _ => UEqv.bind0 hb fun o => UEqv.bind0 (ueqv_unloadOut o) fun o => ?_
  cases o with
  | val v => exact UEqv.bind ueqv_popCtx fun _ _ => UEqv.pure trivial
  | err r =>
    refine UEqv.bind0 (ueqv_resultUnload r) fun _ => UEqv.bind ueqv_popCtx fun cells _ => ?_
    refine UEqv.bind0 (ueqv_ctxLoc _ _) fun loc => ?_
    cases selectAll cfg cells r.errId none specs with
    | some i => exact UEqv.bind0 (ueqv_callHandler hbody _ _ _ _ _) fun o => ueqv_noErr o
    | none => exact UEqv.ub
  | exc e => exact UEqv.bind (ueqv_catchPath hbody e) fun p hp => ueqv_noErr p.1

theorem ueqv_tryHandleSome {block block2 : Comp AbsStore Out} (hb : UEqv0 U block block2) (hs : NotTaken cfg U specs) :
    UEqv0 U (tryHandleSome cfg specs block body) (tryHandleSome cfg specs block2 body2) := by
  unfold tryHandleSome
  refine UEqv.bind0 (ueqv_pushCtx (notTaken_deduce hs)) fun _ => UEqv.bind0 hb fun o => UEqv.bind0 (ueqv_unloadOut o) fun o => ?_
  have hfin : ∀ (o : Out) (cells : List CtxCell), CellsFree U cells →
      UEqv0 U (match o with | .err r' => (do unloadCells cfg r'.errId cells; pure o) | _ => pure o)
        (match o with | .err r' => (do unloadCells cfg r'.errId cells; pure o) | _ => pure o) := by
    intro o cells hc
    cases o with
    | err r => exact UEqv.bind0 (ueqv_unloadCells _ hc) fun _ => UEqv.pure0 _
    | _ => exact UEqv.pure0 _
  cases o with
  | val v => exact UEqv.bind ueqv_popCtx fun _ _ => UEqv.pure trivial
  | err r =>
    refine UEqv.bind0 (ueqv_resultUnload r) fun _ => UEqv.bind ueqv_popCtx fun cells hc => ?_
    refine UEqv.bind0 (ueqv_ctxLoc _ _) fun loc => ?_
    cases selectSome cfg cells r.errId none specs with
    | some i => exact UEqv.bind0 (ueqv_callHandler hbody _ _ _ _ _) fun o => hfin o cells hc
    | none => exact UEqv.bind0 (UEqv.pure0 _) fun o => hfin o cells hc
  | exc e => exact UEqv.bind (ueqv_catchPath hbody e) fun p h => hfin p.1 p.2 h

theorem ueqv_tryCatch {block block2 : Comp AbsStore Out} (hb : UEqv0 U block block2) (hs : NotTaken cfg U specs) :
    UEqv0 U (tryCatch cfg specs block body) (tryCatch cfg specs block2 body2) := by
  unfold tryCatch
  refine UEqv.bind0 (ueqv_pushCtx (notTaken_deduce hs)) fun _ => UEqv.bind0 hb fun o => ?_
  cases o with
  | exc e => exact UEqv.bind (ueqv_catchPath hbody e) fun p h => UEqv.pure0 _
  | _ => exact UEqv.bind ueqv_popCtx fun _ _ => UEqv.pure0 _

end

theorem ueqv_eval (p : Prog) (hp : p.Ignores cfg U) : UEqv0 U (eval cfg p) (eval cfg (p.without cfg U)) := by
  induction p with
  | ret o => exact UEqv.pure0 _
  | newError items k ih => exact UEqv.bind0 (ueqv_newError _) fun id => ih id (hp id)
  | load id items k ih => exact UEqv.bind0 (ueqv_errorIdLoad _ _) fun _ => ih hp
  | importCode ec v k ih => exact UEqv.bind0 (ueqv_importCode _ _) fun id => ih id (hp id)
  | currentError k ih => exact UEqv.bind0 ueqv_currentError fun id => ih id (hp id)
  | bind p k ke ih ihk ihe =>
    rw [Prog.without, eval, eval]
    refine UEqv.bind0 (ih hp.1) fun o => ?_
    cases o with
    | val v => exact ihk v (hp.2.1 v)
    | err r => exact ihe r (hp.2.2 r)
    | exc e => exact UEqv.pure0 _
  | onError items body ih =>
    refine UEqv.bind0 ueqv_currentId fun _ => UEqv.bind0 (ih hp) fun o => UEqv.bind0 (ueqv_checkId _ _) fun id => ?_
    dsimp only
    split
    · exact UEqv.bind0 (ueqv_assertTagged _) fun _ => UEqv.bind0 (ueqv_triggerItems _ _) fun _ => UEqv.pure0 _
    · exact UEqv.pure0 _
  | monNew k ih => exact UEqv.bind0 ueqv_currentId fun id => ih id (hp id)
  | monCheck m k ih => exact UEqv.bind0 (ueqv_checkId _ _) fun id => ih _ (hp _)
  | monAssigned m k ih => exact UEqv.bind0 (ueqv_getId _) fun id => ih _ (hp _)
  | handleAll specs block body ih ihb => exact ueqv_tryHandleAll (fun i args => ihb i args (hp.2.2 i args)) (ih hp.2.1) hp.1
  | handleSome specs block body ih ihb => exact ueqv_tryHandleSome (fun i args => ihb i args (hp.2.2 i args)) (ih hp.2.1) hp.1
  | tryCatch specs block body ih ihb => exact ueqv_tryCatch (fun i args => ihb i args (hp.2.2 i args)) (ih hp.2.1) hp.1
  | captureAll block ih => exact hp.elim
  | captureAllVoid block ih => exact hp.elim
  | excToResult tys block ih =>
    refine UEqv.bind0 (ih hp) fun o => ?_
    cases o with
    | exc e => exact UEqv.bind0 (ueqv_catchHelper _ _) fun _ => UEqv.pure0 _
    | _ => exact UEqv.pure0 _
  | cppCatch block h ih ihh =>
    refine UEqv.bind0 (ih hp.1) fun o => ?_
    cases o with
    | exc e =>
      refine UEqv.bind0 (ueqv_pushHandling _) fun _ => UEqv.bind0 (ihh e (hp.2 e)) fun o => ?_
      exact UEqv.bind0 ueqv_popHandling fun _ => UEqv.bind0 (ueqv_destroyExc _) fun _ => UEqv.pure0 _
    | _ => exact UEqv.pure0 _
  | cppRethrow block h ih ihh =>
    refine UEqv.bind0 (ih hp.1) fun o => ?_
    cases o with
    | exc e =>
      refine UEqv.bind0 (ueqv_pushHandling _) fun _ => UEqv.bind0 (ihh e (hp.2 e)) fun o => ?_
      refine UEqv.bind0 ueqv_popHandling fun _ => ?_
      cases o with
      | exc e' => exact UEqv.bind0 (ueqv_destroyExc _) fun _ => UEqv.pure0 _
      | _ => exact UEqv.pure0 _
    | _ => exact UEqv.pure0 _
  | unload r => exact ueqv_resultUnload r
  | value r tag =>
    refine UEqv.bind0 (ueqv_resultUnload r) fun o => ?_
    cases o <;> exact UEqv.pure0 _

end

end Leaf
