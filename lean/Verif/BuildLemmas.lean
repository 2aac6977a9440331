import Verif.BuildSpec
import Verif.CurTrack
import Verif.HandlerLemmas
import Verif.Sim

/-!
# Comparing two builds

Lemmas for `Verif/PropBuild.lean`. The first computation runs in the build with more features, the second one in the build with less.
-/

namespace Leaf

theorem SameEvents.refl (d x : Bool) (t : List Event) : SameEvents d x t t := by
  induction t with
  | nil => exact .nil
  | cons e t ih => exact .same (fun _ => rfl) rfl ih

/-! ## The relation -/

variable {d x : Bool}

/-- The states differ in the record only; no scope captures. -/
structure BRel (d x : Bool) (w w' : World AbsStore) : Prop where
  noDa : NoDaFs w.mem.frames
  eq : w' = { w with trace := w'.trace }
  trace : SameEvents d x w.trace w'.trace

/-- Where the first computation ends, the second one ends with the same outcome. -/
def BEqv {α : Type} (d x : Bool) (Q : α → Prop) (m m' : Comp AbsStore α) : Prop :=
  ∀ w w', BRel d x w w' → ∀ a v, m w = some (a, v) → Q a ∧ ∃ v', m' w' = some (a, v') ∧ BRel d x v v'

abbrev BEqv0 {α : Type} (d x : Bool) (m m' : Comp AbsStore α) : Prop := BEqv d x (fun _ => True) m m'

theorem BEqv.bind {α β : Type} {Q : α → Prop} {R : β → Prop} {m m' : Comp AbsStore α} {f f' : α → Comp AbsStore β} (hm : BEqv d x Q m m')
    (hf : ∀ a, Q a → BEqv d x R (f a) (f' a)) : BEqv d x R (m >>= f) (m' >>= f') := by
  intro w w' hw b v h
  rw [bind_apply] at h
  cases hx : m w with
  | none => simp [hx] at h
  | some p =>
    rw [hx, Option.bind_some] at h
    obtain ⟨h1, v', h2, h3⟩ := hm w w' hw p.1 p.2 hx
    rw [bind_apply, h2, Option.bind_some]
    exact hf p.1 h1 p.2 v' h3 b v h

theorem BEqv.bind0 {α β : Type} {R : β → Prop} {m m' : Comp AbsStore α} {f f' : α → Comp AbsStore β} (hm : BEqv0 d x m m')
    (hf : ∀ a, BEqv d x R (f a) (f' a)) : BEqv d x R (m >>= f) (m' >>= f') := BEqv.bind hm fun a _ => hf a

theorem BEqv.pure {α : Type} {Q : α → Prop} {a : α} (h : Q a) : BEqv d x Q (pure a) (pure a) := by
  intro w w' hw b v hv
  rw [pure_apply, Option.some.injEq, Prod.mk.injEq] at hv
  obtain ⟨rfl, rfl⟩ := hv
  exact ⟨h, w', rfl, hw⟩

theorem BEqv.pure0 {α : Type} (a : α) : BEqv0 d x (Pure.pure a : Comp AbsStore α) (Pure.pure a) := BEqv.pure trivial

theorem BEqv.ub {α : Type} {Q : α → Prop} {m : Comp AbsStore α} : BEqv d x Q Leaf.ub m := by
  intro w w' _ b v h
  simp [Leaf.ub] at h

theorem BEqv.ubBind {α β : Type} {Q : β → Prop} {f : α → Comp AbsStore β} {m : Comp AbsStore β} : BEqv d x Q (Leaf.ub >>= f) m := by
  intro w w' _ b v h
  simp [bind_apply, Leaf.ub] at h

theorem BEqv.ite {α : Type} {Q : α → Prop} {p : Prop} [Decidable p] {m m' n n' : Comp AbsStore α} (hm : BEqv d x Q m m') (hn : BEqv d x Q n n') :
    BEqv d x Q (if p then m else n) (if p then m' else n') := by
  split
  · exact hm
  · exact hn

/-- A computation that neither looks at the record nor extends it. -/
theorem beqv_silent {α : Type} {m : Comp AbsStore α}
    (h : ∀ w a v, m w = some (a, v) → v.trace = w.trace ∧ (NoDaFs w.mem.frames → NoDaFs v.mem.frames) ∧ ∀ t, m { w with trace := t } = some (a, { v with trace := t })) :
    BEqv0 d x m m := by
  intro w w' hw a v hv
  obtain ⟨h1, h2, h3⟩ := h w a v hv
  refine ⟨trivial, { v with trace := w'.trace }, ?_, h2 hw.noDa, rfl, by rw [h1]; exact hw.trace⟩
  rw [hw.eq]
  exact h3 _

theorem beqv_emit {e e' : Event} (h1 : d = true → e' = e) (h2 : e'.unlisted = e.unlisted) : BEqv0 d x (emit e) (emit e') := by
  intro w w' hw a v hv
  simp only [emit, Option.some.injEq, Prod.mk.injEq, true_and] at hv
  subst hv
  refine ⟨trivial, _, rfl, hw.noDa, ?_, .same h1 h2 hw.trace⟩
  have := hw.eq
  rw [this]

theorem beqv_emit0 (e : Event) : BEqv0 d x (emit e) (emit e) := beqv_emit (fun _ => rfl) rfl

theorem beqv_getCur : BEqv0 d x (getCur : Comp AbsStore Id) getCur := beqv_silent (by
  intro w a v h
  simp only [getCur, Option.some.injEq, Prod.mk.injEq] at h
  obtain ⟨rfl, rfl⟩ := h
  exact ⟨rfl, id, fun _ => rfl⟩)

theorem beqv_currentId : BEqv0 d x (currentId : Comp AbsStore Id) currentId := beqv_silent (by
  intro w a v h
  unfold currentId at h ⊢
  split at h
  · rename_i hc
    simp only [Option.some.injEq, Prod.mk.injEq] at h
    obtain ⟨rfl, rfl⟩ := h
    exact ⟨rfl, id, fun _ => by simp [hc]⟩
  · simp at h)

theorem beqv_assertTagged (id : Id) : BEqv0 d x (assertTagged id : Comp AbsStore Unit) (assertTagged id) := beqv_silent (by
  intro w a v h
  unfold assertTagged at h ⊢
  split at h
  · rename_i hc
    simp only [Option.some.injEq, Prod.mk.injEq, true_and] at h
    subst h
    exact ⟨rfl, fun h => h, fun _ => by simp [hc]⟩
  · simp at h)

theorem beqv_setCur (id : Id) : BEqv0 d x (setCur id : Comp AbsStore Unit) (setCur id) := beqv_silent (by
  intro w a v h
  simp only [setCur, Option.some.injEq, Prod.mk.injEq, true_and] at h
  subst h
  exact ⟨rfl, fun h => h, fun _ => rfl⟩)

theorem beqv_pushHandling (e : Exc) : BEqv0 d x (pushHandling e : Comp AbsStore Unit) (pushHandling e) := beqv_silent (by
  intro w a v h
  simp only [pushHandling, Option.some.injEq, Prod.mk.injEq, true_and] at h
  subst h
  exact ⟨rfl, fun h => h, fun _ => rfl⟩)

theorem beqv_popHandling : BEqv0 d x (popHandling : Comp AbsStore Unit) popHandling := beqv_silent (by
  intro w a v h
  simp only [popHandling, Option.some.injEq, Prod.mk.injEq, true_and] at h
  subst h
  exact ⟨rfl, fun h => h, fun _ => rfl⟩)

theorem beqv_slotGet (ty : Ty) : BEqv0 d x (slotGet ty : Comp AbsStore _) (slotGet ty) := beqv_silent (by
  intro w a v h
  simp only [slotGet, Store.slotGet, Option.map_some, Option.some.injEq, Prod.mk.injEq] at h
  obtain ⟨rfl, rfl⟩ := h
  exact ⟨rfl, id, fun _ => rfl⟩)

theorem beqv_slotSet (ty : Ty) (id : Id) (u : Val) : BEqv0 d x (slotSet ty id u : Comp AbsStore Unit) (slotSet ty id u) := beqv_silent (by
  intro w a v h
  unfold slotSet at h ⊢
  simp only [Store.slotSet] at h ⊢
  split at h
  · simp only [Option.map_some, Option.some.injEq, Prod.mk.injEq, true_and] at h
    subst h
    exact ⟨rfl, noDa_setBound, fun _ => rfl⟩
  · simp at h)

theorem beqv_pushCtx {spec : List CellTy} (h0 : CellTy.da ∉ spec) : BEqv0 d x (pushCtx spec : Comp AbsStore Unit) (pushCtx spec) := beqv_silent (by
  intro w a v h
  unfold pushCtx at h ⊢
  simp only [Store.push] at h ⊢
  split at h
  · rename_i hn
    simp only [Option.map_some, Option.some.injEq, Prod.mk.injEq, true_and] at h
    subst h
    refine ⟨rfl, fun h1 f hf k ns => ?_, fun _ => by simp [hn]⟩
    simp only [List.mem_cons] at hf
    rcases hf with rfl | hf
    · intro hm
      rw [List.mem_map] at hm
      obtain ⟨t, ht, he⟩ := hm
      cases t with
      | obj t => simp [CellTy.empty] at he
      | da => exact h0 ht
    · exact h1 f hf k ns
  · simp at h)

theorem beqv_popCtx : BEqv d x (fun cells => ∀ k ns, CtxCell.da k ns ∉ cells) (popCtx : Comp AbsStore _) popCtx := by
  intro w w' hw a v h
  have h' := h
  unfold popCtx at h
  simp only [Store.pop] at h
  split at h
  · simp at h
  · rename_i f fs hf
    simp only [Option.map_some, Option.some.injEq, Prod.mk.injEq] at h
    obtain ⟨rfl, rfl⟩ := h
    have h1 := hw.noDa
    refine ⟨h1 f (by rw [hf]; simp), { w' with mem := ⟨fs⟩ }, ?_, fun g hg => h1 g (by rw [hf]; simp [hg]), ?_, hw.trace⟩
    · have e : w'.mem = w.mem := by rw [hw.eq]
      unfold popCtx
      simp only [Store.pop, e, hf, Option.map_some]
    · have := hw.eq
      rw [this]

theorem beqv_newId {cfg cfg2 : Cfg} (hi : cfg2.interf = cfg.interf) : BEqv0 d x (newId cfg : Comp AbsStore Id) (newId cfg2) := by
  intro w w' hw a v h
  obtain ⟨hn, he, ht⟩ := hw
  generalize w'.trace = t' at he ht
  subst he
  simp only [newId, Option.some.injEq, Prod.mk.injEq] at h
  obtain ⟨rfl, rfl⟩ := h
  refine ⟨trivial, _, by unfold newId; rw [hi], hn, rfl, .same (fun _ => rfl) rfl ht⟩

theorem beqv_currentError : BEqv0 d x (currentError : Comp AbsStore Id) currentError := BEqv.bind0 beqv_currentId fun _ => BEqv.pure0 _

/-- No scope captures: nothing happens. -/
theorem beqv_noop {m : Comp AbsStore Unit} (h : ∀ w, NoDaFs w.mem.frames → m w = some ((), w)) : BEqv0 d x m (pure ()) := by
  intro w w' hw a v hv
  rw [h w hw.noDa] at hv
  cases hv
  exact ⟨trivial, w', rfl, hw⟩

theorem beqv_noop2 {m m' : Comp AbsStore Unit} (h : ∀ w, NoDaFs w.mem.frames → m w = some ((), w)) (h' : ∀ w, NoDaFs w.mem.frames → m' w = some ((), w)) :
    BEqv0 d x m m' := by
  intro w w' hw a v hv
  rw [h w hw.noDa] at hv
  cases hv
  have : NoDaFs w'.mem.frames := by rw [hw.eq]; exact hw.noDa
  exact ⟨trivial, w', h' w' this, hw⟩

theorem dynamicLoad_noDa (id : Id) (ty : Ty) (u : Val) (w : World AbsStore) (h : NoDaFs w.mem.frames) : (dynamicLoad id ty u : Comp AbsStore Unit) w = some ((), w) := by
  unfold dynamicLoad daKey
  rw [bind_apply]
  simp only [Store.daKey, noDa_boundDa h, Option.map_none, Option.map_some, Option.bind_some, pure_apply]

theorem dynamicAccumulate_noDa (cfg : Cfg) (id : Id) (ty : Ty) (tag : Nat) (f : Val → Val) (w : World AbsStore) (h : NoDaFs w.mem.frames) :
    (dynamicAccumulate cfg id ty tag f : Comp AbsStore Unit) w = some ((), w) := by
  unfold dynamicAccumulate daKey
  rw [bind_apply]
  simp only [Store.daKey, noDa_boundDa h, Option.map_none, Option.map_some, Option.bind_some, pure_apply]

/-- `if BOOST_LEAF_CFG_CAPTURE then m`. -/
theorem ifCapture_noDa {cfg : Cfg} {m : Comp AbsStore Unit} (h : ∀ w, NoDaFs w.mem.frames → m w = some ((), w)) (w : World AbsStore) (hw : NoDaFs w.mem.frames) :
    (if cfg.capture then m else pure ()) w = some ((), w) := by
  cases cfg.capture
  · rfl
  · exact h w hw

section
variable {cfg cfg2 : Cfg}

theorem beqv_slotUnload (id : Id) (ty : Ty) (c : Cell) : BEqv0 d x (slotUnload cfg id ty c) (slotUnload cfg2 id ty c) := by
  unfold slotUnload
  by_cases hid : id = 0#32
  · simp only [hid, if_true]
    exact BEqv.ubBind
  simp only [hid, if_false]
  split
  · exact BEqv.pure0 _
  · refine BEqv.bind0 (beqv_slotGet _) fun s => ?_
    split
    · exact BEqv.ite (beqv_slotSet _ _ _) (BEqv.pure0 _)
    · exact beqv_noop2 (ifCapture_noDa (dynamicLoad_noDa _ _ _)) (ifCapture_noDa (dynamicLoad_noDa _ _ _))

theorem beqv_loadSlot (b : Bool) (id : Id) (ty : Ty) (u : Val) : BEqv0 d x (loadSlot cfg b id ty u) (loadSlot cfg2 b id ty u) := by
  unfold loadSlot
  refine BEqv.bind0 (beqv_assertTagged _) fun _ => ?_
  refine BEqv.bind0 (beqv_slotGet _) fun s => ?_
  split
  · exact BEqv.ite (beqv_slotSet _ _ _) (BEqv.pure0 _)
  · exact beqv_noop2 (ifCapture_noDa (dynamicLoad_noDa _ _ _)) (ifCapture_noDa (dynamicLoad_noDa _ _ _))

variable (hl : Lesser cfg cfg2)
include hl

theorem beqv_loadSlotDeferred (hx : lostCapture cfg cfg2 = true → x = true) (b : Bool) (id : Id) (ty : Ty) (tag : Nat) (u : Val) :
    BEqv0 d x (loadSlotDeferred cfg b id ty tag u) (loadSlotDeferred cfg2 b id ty tag u) := by
  unfold loadSlotDeferred
  refine BEqv.bind0 (beqv_assertTagged _) fun _ => ?_
  refine BEqv.bind0 (beqv_slotGet _) fun s => ?_
  split
  · exact BEqv.ite (BEqv.bind0 (beqv_emit0 _) fun _ => BEqv.bind0 (beqv_emit0 _) fun _ => beqv_slotSet _ _ _) (BEqv.pure0 _)
  · by_cases h2 : cfg2.capture = true
    · have h1 := hl.capture h2
      simp only [h1, h2, if_true]
      exact BEqv.bind0 (beqv_emit0 _) fun _ => BEqv.bind0 (beqv_emit0 _) fun _ => beqv_noop2 (dynamicLoad_noDa _ _ _) (dynamicLoad_noDa _ _ _)
    · by_cases h1 : cfg.capture = true
      · simp only [h1, if_true, h2]
        intro w w' hw a v hv
        simp only [bind_apply, emit, Option.bind_some] at hv
        rw [dynamicLoad_noDa _ _ _ _ (by exact hw.noDa)] at hv
        cases hv
        exact ⟨trivial, w', rfl, hw.noDa, hw.eq, .extra (hx (by simp [lostCapture, h1, h2])) hw.trace⟩
      · simp only [h1, h2]
        exact BEqv.pure0 _

theorem beqv_loadSlotAccumulate (id : Id) (ty : Ty) (tag : Nat) (f : Val → Val) :
    BEqv0 d x (loadSlotAccumulate cfg id ty tag f) (loadSlotAccumulate cfg2 id ty tag f) := by
  unfold loadSlotAccumulate
  rw [hl.dflt]
  refine BEqv.bind0 (beqv_assertTagged _) fun _ => ?_
  refine BEqv.bind0 (beqv_slotGet _) fun s => ?_
  split
  · exact BEqv.bind0 (beqv_slotSet _ _ _) fun _ => BEqv.bind0 (beqv_emit0 _) fun _ => beqv_emit0 _
  · exact beqv_noop2 (ifCapture_noDa (dynamicAccumulate_noDa _ _ _ _ _)) (ifCapture_noDa (dynamicAccumulate_noDa _ _ _ _ _))

variable (hx : lostCapture cfg cfg2 = true → x = true)
include hx

theorem beqv_loadItem (b : Bool) (id : Id) (i : Item) : BEqv0 d x (loadItem cfg b id i) (loadItem cfg2 b id i) := by
  cases i with
  | obj ty u => exact BEqv.bind0 (beqv_emit0 _) fun _ => beqv_loadSlot _ _ _ _
  | deferred ty tag u => exact beqv_loadSlotDeferred hl hx _ _ _ _ _
  | accum ty tag f => exact beqv_loadSlotAccumulate hl _ _ _ _

theorem beqv_loadItems (b : Bool) (id : Id) (is : List Item) : BEqv0 d x (loadItems cfg b id is) (loadItems cfg2 b id is) := by
  induction is with
  | nil => exact BEqv.pure0 _
  | cons i is ih => exact BEqv.bind0 (beqv_loadItem hl hx _ _ _) fun _ => ih

theorem beqv_errorIdLoad (id : Id) (is : List Item) : BEqv0 d x (errorIdLoad cfg id is) (errorIdLoad cfg2 id is) := by
  unfold errorIdLoad
  exact BEqv.ite (beqv_loadItems hl hx _ _ _) (BEqv.pure0 _)

theorem beqv_newError (is : List Item) : BEqv0 d x (newError cfg is) (newError cfg2 is) :=
  BEqv.bind0 (beqv_newId hl.interf) fun _ => BEqv.bind0 (beqv_errorIdLoad hl hx _ _) fun _ => BEqv.pure0 _

theorem beqv_triggerItems (id : Id) (is : List OnItem) : BEqv0 d x (triggerItems cfg id is) (triggerItems cfg2 id is) := by
  induction is with
  | nil => exact BEqv.pure0 _
  | cons i is ih =>
    cases i with
    | item i => exact BEqv.bind0 (beqv_loadItem hl hx _ _ _) fun _ => ih
    | action t => exact BEqv.bind0 (beqv_emit0 _) fun _ => ih

theorem beqv_catchHelper (e : Exc) (tys : List Ty) : BEqv0 d x (catchHelper cfg e tys) (catchHelper cfg2 e tys) := by
  induction tys with
  | nil => exact beqv_newError hl hx _
  | cons ty tys ih =>
    refine BEqv.bind0 ih fun id => ?_
    dsimp only
    split
    · exact BEqv.bind0 (beqv_errorIdLoad hl hx _ _) fun _ => BEqv.pure0 _
    · exact BEqv.pure0 _

omit hx

theorem beqv_importCode (ec : ErrorCode) (u : Val) : BEqv0 d x (importCode cfg ec u) (importCode cfg2 ec u) := by
  unfold importCode
  split
  · exact BEqv.pure0 _
  · exact BEqv.bind0 (beqv_newId hl.interf) fun _ => BEqv.bind0 (beqv_emit0 _) fun _ => BEqv.bind0 (beqv_loadSlot _ _ _ _) fun _ => BEqv.pure0 _
  · exact BEqv.ub

theorem beqv_checkId (m : Id) (b : Bool) : BEqv0 d x (checkId cfg m b : Comp AbsStore Id) (checkId cfg2 m b) := by
  unfold checkId
  exact BEqv.bind0 beqv_currentId fun _ => BEqv.ite (BEqv.pure0 _) (BEqv.ite (beqv_newId hl.interf) (BEqv.pure0 _))

theorem beqv_getId (m : Id) : BEqv0 d x (getId cfg m : Comp AbsStore Id) (getId cfg2 m) := by
  unfold getId
  exact BEqv.bind0 beqv_currentId fun _ => BEqv.ite (BEqv.pure0 _) (beqv_newId hl.interf)

omit hl in
theorem beqv_unloadCells (id : Id) {cells : List CtxCell} (hc : ∀ k ns, CtxCell.da k ns ∉ cells) : BEqv0 d x (unloadCells cfg id cells) (unloadCells cfg2 id cells) := by
  induction cells with
  | nil => exact BEqv.pure0 _
  | cons c cs ih =>
    refine BEqv.bind0 (ih fun k ns hm => hc k ns (List.mem_cons_of_mem _ hm)) fun _ => ?_
    cases c with
    | obj t u => exact beqv_slotUnload _ _ _
    | da k ns => exact absurd (by simp) (hc k ns)

end

theorem beqv_unpackId (e : Exc) : BEqv0 d x (unpackId e : Comp AbsStore _) (unpackId e) := by
  unfold unpackId
  refine BEqv.ite ?_ (BEqv.bind0 beqv_currentError fun _ => BEqv.pure0 _)
  split
  · exact BEqv.pure0 _
  · exact BEqv.pure0 _
  · exact BEqv.bind0 beqv_currentError fun _ => BEqv.pure0 _

theorem beqv_destroyExc (e : Exc) : BEqv0 d x (destroyExc e : Comp AbsStore _) (destroyExc e) := by
  unfold destroyExc
  split
  · exact BEqv.bind0 beqv_getCur fun _ => BEqv.ite (beqv_setCur _) (BEqv.pure0 _)
  · exact BEqv.pure0 _

theorem beqv_ctxLoc (id : Id) (cells : List CtxCell) : BEqv0 d x (ctxLoc id cells : Comp AbsStore _) (ctxLoc id cells) := by
  unfold ctxLoc
  split
  · exact BEqv.pure0 _
  · exact BEqv.ite BEqv.ub (BEqv.pure0 _)

/-- Agreement, with a plain outcome. -/
abbrev BEqvO (d x : Bool) (m m' : Comp AbsStore Out) : Prop := BEqv d x Out.Plain m m'

theorem beqvO_unloadOut {cfg cfg2 : Cfg} {o : Out} (h : o.Plain) : BEqvO d x (unloadOut cfg o) (unloadOut cfg2 o) := by
  cases o with
  | val v => exact BEqv.pure trivial
  | exc v => exact BEqv.pure trivial
  | err r =>
    cases r with
    | plain id => exact BEqv.pure trivial
    | captured id ns => exact h.elim

theorem beqvO_resultUnload {cfg cfg2 : Cfg} {r : ErrRes} (h : (Out.err r).Plain) : BEqvO d x (resultUnload cfg r) (resultUnload cfg2 r) :=
  beqvO_unloadOut (cfg := cfg) (cfg2 := cfg2) (o := .err r) h

/-! ## Selecting and calling handlers -/

section
variable {cfg cfg2 : Cfg} (hl : Lesser cfg cfg2)
include hl

theorem peek_lesser (cells : List CtxCell) (id : Id) (ex : Option Exc) (ty : Ty) : peek cfg2 cells id ex ty = peek cfg cells id ex ty := by
  unfold peek
  rw [hl.abs]

theorem check_lesser (cells : List CtxCell) (id : Id) (ex : Option Exc) : Arg.check cfg2 cells id ex = Arg.check cfg cells id ex := by
  funext a
  cases a <;> simp only [Arg.check, peek_lesser hl]

theorem selectSomeFrom_lesser (cells : List CtxCell) (id : Id) (ex : Option Exc) (i : Nat) (hs : List (List Arg)) :
    selectSomeFrom cfg2 cells id ex i hs = selectSomeFrom cfg cells id ex i hs := by
  induction hs generalizing i with
  | nil => rfl
  | cons h hs ih => simp only [selectSomeFrom, checkArgs, check_lesser hl, ih]; rfl

theorem selectAllFrom_lesser (cells : List CtxCell) (id : Id) (ex : Option Exc) (i : Nat) (hs : List (List Arg)) :
    selectAllFrom cfg2 cells id ex i hs = selectAllFrom cfg cells id ex i hs := by
  induction hs generalizing i with
  | nil => rfl
  | cons h hs ih =>
    cases hs with
    | nil => rfl
    | cons h' hs => simp only [selectAllFrom, checkArgs, check_lesser hl, ih]; rfl

theorem get_lesser (cells : List CtxCell) (id : Id) (ex : Option Exc) (loc : Option Val) (a : Arg) {v : ArgVal} (h : a.get cfg cells id ex loc = some v) :
    ∃ v', a.getB d cfg2 cells id ex loc = some v' ∧ (d = true → v' = v) ∧ v'.unlisted = v.unlisted := by
  cases a <;> simp only [Arg.get, Option.some.injEq] at h <;> simp only [Arg.getB, peek_lesser hl] <;>
    first
    | exact ⟨v, h, fun _ => rfl, rfl⟩
    | (subst h; exact ⟨_, rfl, fun hd => by simp [hd], rfl⟩)

theorem getArgs_lesser (cells : List CtxCell) (id : Id) (ex : Option Exc) (loc : Option Val) (as : List Arg) {vs : List ArgVal}
    (h : getArgs cfg cells id ex loc as = some vs) :
    ∃ vs', getArgsB d cfg2 cells id ex loc as = some vs' ∧ (d = true → vs' = vs) ∧ vs'.map ArgVal.unlisted = vs.map ArgVal.unlisted := by
  induction as generalizing vs with
  | nil => exact ⟨vs, h, fun _ => rfl, rfl⟩
  | cons a as ih =>
    simp only [getArgs, Option.bind_eq_bind, Option.bind_eq_some_iff] at h
    obtain ⟨v, h1, ws, h2, h3⟩ := h
    cases h3
    obtain ⟨v', e1, e2, e3⟩ := get_lesser (d := d) hl cells id ex loc a h1
    obtain ⟨ws', f1, f2, f3⟩ := ih h2
    refine ⟨v' :: ws', ?_, fun hd => by rw [e2 hd, f2 hd], by simp only [List.map_cons, e3, f3]⟩
    simp only [getArgsB, e1, f1, Option.bind_eq_bind, Option.bind_some]
    rfl

end

theorem deduce_lesser {cfg cfg2 : Cfg} (hl : Lesser cfg cfg2) {specs : List (List Arg)} (h : CellTy.da ∉ deduce cfg specs) : deduceB d cfg2 specs = deduce cfg specs := by
  have key : ∀ a ∈ specs.flatten, Arg.contextTypesB d cfg2 a = Arg.contextTypes cfg a := by
    intro a ha
    cases a with
    | details =>
      have hc : cfg.capture = false := by
        cases hcc : cfg.capture
        · rfl
        · exfalso
          apply h
          unfold deduce
          rw [List.mem_filter]
          refine ⟨(mem_mpUnique _ _).mpr ?_, rfl⟩
          rw [List.mem_flatten]
          exact ⟨_, List.mem_map.mpr ⟨_, ha, rfl⟩, by simp [Arg.contextTypes, hcc]⟩
      have hc2 : cfg2.capture = false := by
        cases h2 : cfg2.capture
        · rfl
        · rw [hl.capture h2] at hc; exact absurd hc (by simp)
      simp [Arg.contextTypesB, Arg.contextTypes, hc, hc2]
    | _ => rfl
  unfold deduceB deduce
  rw [List.map_congr_left key]
  congr 1
  funext t
  cases t <;> simp only [CellTy.excluded, hl.abs]

section
variable {cfg cfg2 : Cfg} (hl : Lesser cfg cfg2) (hx : lostCapture cfg cfg2 = true → x = true)
  {specs : List (List Arg)} {body body2 : Nat → List ArgVal → Comp AbsStore Out}
  (hbody : ∀ i args args', (d = true → args' = args) → args'.map ArgVal.unlisted = args.map ArgVal.unlisted → BEqvO d x (body i args) (body2 i args'))
include hl hbody

theorem beqvO_callHandler (cells : List CtxCell) (id : Id) (ex : Option Exc) (loc : Option Val) (i : Nat) :
    BEqvO d x (callHandler cfg specs body cells id ex loc i) (callHandlerB d cfg2 specs body2 cells id ex loc i) := by
  unfold callHandler callHandlerB
  cases specs[i]? with
  | none => exact BEqv.ub
  | some args =>
    dsimp only
    cases h : getArgs cfg cells id ex loc args with
    | none => exact BEqv.ub
    | some vs =>
      obtain ⟨vs', h1, h2, h3⟩ := getArgs_lesser (d := d) hl cells id ex loc args h
      rw [h1]
      exact BEqv.bind0 (beqv_emit (fun hd => by rw [h2 hd]) (by simp only [Event.unlisted, h3])) fun _ => hbody _ _ _ h2 h3

theorem beqv_catchPath (e : Exc) : BEqv d x (fun p => p.1.Plain ∧ ∀ k ns, CtxCell.da k ns ∉ p.2) (catchPath cfg specs body e) (catchPathB d cfg2 specs body2 e) := by
  unfold catchPath catchPathB
  refine BEqv.bind beqv_popCtx fun cells hc => ?_
  refine BEqv.bind0 (beqv_unpackId e) fun p => ?_
  refine BEqv.bind0 (beqv_pushHandling _) fun _ => ?_
  refine BEqv.bind0 (beqv_ctxLoc _ _) fun loc => ?_
  unfold selectSome
  rw [selectSomeFrom_lesser hl]
  cases selectSomeFrom cfg cells p.1 (if p.2.isStd = true then some p.2 else none) 0 specs with
  | some i =>
    refine BEqv.bind (beqvO_callHandler hl hbody _ _ _ _ _) fun o ho => ?_
    exact BEqv.bind0 beqv_popHandling fun _ => BEqv.bind0 (beqv_destroyExc _) fun _ => BEqv.pure ⟨ho, hc⟩
  | none => exact BEqv.bind0 (beqv_unloadCells _ hc) fun _ => BEqv.bind0 beqv_popHandling fun _ => BEqv.pure ⟨trivial, hc⟩

theorem beqvO_tryHandleAll {block block2 : Comp AbsStore Out} (hb : BEqvO d x block block2) (hs : CellTy.da ∉ deduce cfg specs) :
    BEqvO d x (tryHandleAll cfg specs block body) (tryHandleAllB d cfg2 specs block2 body2) := by
  unfold tryHandleAll tryHandleAllB
  rw [deduce_lesser hl hs]
  refine BEqv.bind0 (beqv_pushCtx hs) fun _ => BEqv.bind hb fun o ho => ?_
  refine BEqv.bind (beqvO_unloadOut ho) fun o ho => ?_
  have hn : ∀ o : Out, o.Plain → BEqvO d x (noErr o) (noErr o) := by
    intro o ho
    cases o with
    | err r => exact BEqv.ub
    | _ => exact BEqv.pure ho
  cases o with
  | val v => exact BEqv.bind beqv_popCtx fun _ _ => BEqv.pure trivial
  | err r =>
    refine BEqv.bind (beqvO_resultUnload ho) fun _ _ => BEqv.bind beqv_popCtx fun cells _ => ?_
    refine BEqv.bind0 (beqv_ctxLoc _ _) fun loc => ?_
    unfold selectAll
    rw [selectAllFrom_lesser hl]
    cases selectAllFrom cfg cells r.errId none 0 specs with
    | some i => exact BEqv.bind (beqvO_callHandler hl hbody _ _ _ _ _) hn
    | none => exact BEqv.ub
  | exc e => exact BEqv.bind (beqv_catchPath hl hbody e) fun p hp => hn p.1 hp.1

theorem beqvO_tryHandleSome {block block2 : Comp AbsStore Out} (hb : BEqvO d x block block2) (hs : CellTy.da ∉ deduce cfg specs) :
    BEqvO d x (tryHandleSome cfg specs block body) (tryHandleSomeB d cfg2 specs block2 body2) := by
  unfold tryHandleSome tryHandleSomeB
  rw [deduce_lesser hl hs]
  refine BEqv.bind0 (beqv_pushCtx hs) fun _ => BEqv.bind hb fun o ho => ?_
  refine BEqv.bind (beqvO_unloadOut ho) fun o ho => ?_
  have hfin : ∀ (o : Out) (cells : List CtxCell), o.Plain → (∀ k ns, CtxCell.da k ns ∉ cells) →
      BEqvO d x (match o with | .err r' => (do unloadCells cfg r'.errId cells; pure o) | _ => pure o)
        (match o with | .err r' => (do unloadCells cfg2 r'.errId cells; pure o) | _ => pure o) := by
    intro o cells ho hc
    cases o with
    | err r => exact BEqv.bind0 (beqv_unloadCells _ hc) fun _ => BEqv.pure ho
    | _ => exact BEqv.pure ho
  cases o with
  | val v => exact BEqv.bind beqv_popCtx fun _ _ => BEqv.pure trivial
  | err r =>
    refine BEqv.bind (beqvO_resultUnload ho) fun _ _ => BEqv.bind beqv_popCtx fun cells hc => ?_
    refine BEqv.bind0 (beqv_ctxLoc _ _) fun loc => ?_
    unfold selectSome
    rw [selectSomeFrom_lesser hl]
    cases selectSomeFrom cfg cells r.errId none 0 specs with
    | some i => exact BEqv.bind (beqvO_callHandler hl hbody _ _ _ _ _) fun o ho => hfin o cells ho hc
    | none => exact BEqv.bind (BEqv.pure (Q := Out.Plain) ho) fun o ho => hfin o cells ho hc
  | exc e => exact BEqv.bind (beqv_catchPath hl hbody e) fun p h => hfin p.1 p.2 h.1 h.2

theorem beqvO_tryCatch {block block2 : Comp AbsStore Out} (hb : BEqvO d x block block2) (hs : CellTy.da ∉ deduce cfg specs) :
    BEqvO d x (tryCatch cfg specs block body) (tryCatchB d cfg2 specs block2 body2) := by
  unfold tryCatch tryCatchB
  rw [deduce_lesser hl hs]
  refine BEqv.bind0 (beqv_pushCtx hs) fun _ => BEqv.bind hb fun o ho => ?_
  cases o with
  | exc e => exact BEqv.bind (beqv_catchPath hl hbody e) fun p h => BEqv.pure h.1
  | _ => exact BEqv.bind beqv_popCtx fun _ _ => BEqv.pure ho

end

theorem beqvO_evalB {cfg cfg2 : Cfg} (hl : Lesser cfg cfg2) (hx : lostCapture cfg cfg2 = true → x = true) (p : Prog) (hp : p.Plain cfg)
    (hb : d = false → p.Blind) : BEqvO d x (eval cfg p) (evalB d cfg2 p) := by
  have hbody : ∀ {body : Nat → List ArgVal → Prog} (_ : ∀ i args, (body i args).Plain cfg)
      (_ : d = false → (∀ i args, (body i args).Blind) ∧ ∀ i args, body i args = body i (args.map ArgVal.unlisted))
      (_ : ∀ i args, (body i args).Plain cfg → (d = false → (body i args).Blind) → BEqvO d x (eval cfg (body i args)) (evalB d cfg2 (body i args))),
      ∀ i args args', (d = true → args' = args) → args'.map ArgVal.unlisted = args.map ArgVal.unlisted →
        BEqvO d x (eval cfg (body i args)) (evalB d cfg2 (body i args')) := by
    intro body h1 h2 ih i args args' e1 e2
    have : body i args' = body i args := by
      cases hd : d with
      | true => rw [e1 hd]
      | false => rw [(h2 hd).2 i args', (h2 hd).2 i args, e2]
    rw [this]
    exact ih i args (h1 i args) fun hd => (h2 hd).1 i args
  induction p with
  | ret o => exact BEqv.pure hp
  | newError items k ih => exact BEqv.bind0 (beqv_newError hl hx _) fun id => ih id (hp id) fun h => hb h id
  | load id items k ih => exact BEqv.bind0 (beqv_errorIdLoad hl hx _ _) fun _ => ih hp hb
  | importCode ec v k ih => exact BEqv.bind0 (beqv_importCode hl _ _) fun id => ih id (hp id) fun h => hb h id
  | currentError k ih => exact BEqv.bind0 beqv_currentError fun id => ih id (hp id) fun h => hb h id
  | bind p k ke ih ihk ihe =>
    rw [eval, evalB]
    refine BEqv.bind (ih hp.1 fun h => (hb h).1) fun o ho => ?_
    cases o with
    | val v => exact ihk v (hp.2.1 v) fun h => (hb h).2.1 v
    | err r =>
      cases r with
      | plain id => exact ihe _ (hp.2.2 id) fun h => (hb h).2.2 _
      | captured id ns => exact ho.elim
    | exc e => exact BEqv.pure trivial
  | onError items body ih =>
    refine BEqv.bind0 beqv_currentId fun _ => BEqv.bind (ih hp hb) fun o ho => ?_
    refine BEqv.bind0 (beqv_checkId hl _ _) fun id => ?_
    dsimp only
    split
    · exact BEqv.bind0 (beqv_assertTagged _) fun _ => BEqv.bind0 (beqv_triggerItems hl hx _ _) fun _ => BEqv.pure ho
    · exact BEqv.pure ho
  | monNew k ih => exact BEqv.bind0 beqv_currentId fun id => ih id (hp id) fun h => hb h id
  | monCheck m k ih => exact BEqv.bind0 (beqv_checkId hl _ _) fun id => ih _ (hp _) fun h => hb h _
  | monAssigned m k ih => exact BEqv.bind0 (beqv_getId hl _) fun id => ih _ (hp _) fun h => hb h _
  | handleAll specs block body ih ihb =>
    exact beqvO_tryHandleAll hl (hbody hp.2.2 (fun h => (hb h).2) ihb) (ih hp.2.1 fun h => (hb h).1) hp.1
  | handleSome specs block body ih ihb =>
    exact beqvO_tryHandleSome hl (hbody hp.2.2 (fun h => (hb h).2) ihb) (ih hp.2.1 fun h => (hb h).1) hp.1
  | tryCatch specs block body ih ihb =>
    exact beqvO_tryCatch hl (hbody hp.2.2 (fun h => (hb h).2) ihb) (ih hp.2.1 fun h => (hb h).1) hp.1
  | captureAll block ih => exact hp.elim
  | captureAllVoid block ih => exact hp.elim
  | excToResult tys block ih =>
    refine BEqv.bind (ih hp hb) fun o ho => ?_
    cases o with
    | exc e => exact BEqv.bind0 (beqv_catchHelper hl hx _ _) fun _ => BEqv.pure trivial
    | _ => exact BEqv.pure ho
  | cppCatch block h ih ihh =>
    refine BEqv.bind (ih hp.1 fun h => (hb h).1) fun o ho => ?_
    cases o with
    | exc e =>
      refine BEqv.bind0 (beqv_pushHandling _) fun _ => BEqv.bind (ihh e (hp.2 e) fun h => (hb h).2 e) fun o ho => ?_
      exact BEqv.bind0 beqv_popHandling fun _ => BEqv.bind0 (beqv_destroyExc _) fun _ => BEqv.pure ho
    | _ => exact BEqv.pure ho
  | cppRethrow block h ih ihh =>
    refine BEqv.bind (ih hp.1 fun h => (hb h).1) fun o ho => ?_
    cases o with
    | exc e =>
      refine BEqv.bind0 (beqv_pushHandling _) fun _ => BEqv.bind (ihh e (hp.2 e) fun h => (hb h).2 e) fun o ho => ?_
      refine BEqv.bind0 beqv_popHandling fun _ => ?_
      cases o with
      | exc e' => exact BEqv.bind0 (beqv_destroyExc _) fun _ => BEqv.pure trivial
      | _ => exact BEqv.pure trivial
    | _ => exact BEqv.pure ho
  | unload r => exact beqvO_resultUnload hp
  | value r tag =>
    refine BEqv.bind (beqvO_resultUnload hp) fun o ho => ?_
    cases o <;> exact BEqv.pure trivial

/-! ## Pointers -/

theorem sim_callHandlerB {n : Nat} (d : Bool) (cfg : Cfg) (specs : List (List Arg)) {b1 : Nat → List ArgVal → Comp PtrStore Out}
    {b2 : Nat → List ArgVal → Comp AbsStore Out} (hb : ∀ i a, Sim n n (b1 i a) (b2 i a)) (cells : List CtxCell) (id : Id)
    (ex : Option Exc) (loc : Option Val) (i : Nat) :
    Sim n n (callHandlerB d cfg specs b1 cells id ex loc i) (callHandlerB d cfg specs b2 cells id ex loc i) := by
  unfold callHandlerB
  repeat (first | with_reducible exact hb _ _ | simstep1)

theorem sim_catchPathB {n : Nat} (d : Bool) (cfg : Cfg) (specs : List (List Arg)) {b1 : Nat → List ArgVal → Comp PtrStore Out}
    {b2 : Nat → List ArgVal → Comp AbsStore Out} (hb : ∀ i a, Sim n n (b1 i a) (b2 i a)) (e : Exc) :
    Sim (n + 1) n (catchPathB d cfg specs b1 e) (catchPathB d cfg specs b2 e) := by
  unfold catchPathB
  repeat (first | with_reducible exact sim_callHandlerB d cfg specs hb _ _ _ _ _ | simstep1)

theorem sim_evalB {n : Nat} (d : Bool) (cfg : Cfg) (p : Prog) : Sim n n (evalB d cfg p) (evalB d cfg p) := by
  induction p generalizing n with
  | ret o => unfold evalB; sim
  | newError items k ih => unfold evalB; exact Sim.bind (sim_newError _ _) (fun _ => ih _)
  | load id items k ih => unfold evalB; exact Sim.bind (sim_errorIdLoad _ _ _) (fun _ => ih)
  | importCode ec v k ih => unfold evalB; exact Sim.bind (sim_importCode _ _ _) (fun _ => ih _)
  | currentError k ih => unfold evalB; exact Sim.bind sim_currentError (fun _ => ih _)
  | bind p k ke ih1 ih2 ih3 =>
    unfold evalB
    refine Sim.bind ih1 (fun o => ?_)
    cases o with
    | val v => exact ih2 v
    | err r => exact ih3 r
    | exc e => exact Sim.pure _
  | onError items body ih => unfold evalB onErrorGuard; repeat (first | with_reducible exact ih | simstep1)
  | monNew k ih => unfold evalB; exact Sim.bind sim_currentId (fun _ => ih _)
  | monCheck m k ih => unfold evalB; exact Sim.bind (sim_checkId _ _ _) (fun _ => ih _)
  | monAssigned m k ih => unfold evalB; exact Sim.bind (sim_getId _ _) (fun _ => ih _)
  | handleAll specs block body ih1 ih2 =>
    unfold evalB tryHandleAllB
    repeat (first | with_reducible exact ih1 | with_reducible exact sim_callHandlerB d cfg specs (fun i a => ih2 i a) _ _ _ _ _ |
      with_reducible exact sim_catchPathB d cfg specs (fun i a => ih2 i a) _ | simstep1)
  | handleSome specs block body ih1 ih2 =>
    unfold evalB tryHandleSomeB
    repeat (first | with_reducible exact ih1 | with_reducible exact sim_callHandlerB d cfg specs (fun i a => ih2 i a) _ _ _ _ _ |
      with_reducible exact sim_catchPathB d cfg specs (fun i a => ih2 i a) _ | simstep1)
  | tryCatch specs block body ih1 ih2 =>
    unfold evalB tryCatchB
    repeat (first | with_reducible exact ih1 | with_reducible exact sim_callHandlerB d cfg specs (fun i a => ih2 i a) _ _ _ _ _ |
      with_reducible exact sim_catchPathB d cfg specs (fun i a => ih2 i a) _ | simstep1)
  | captureAll block ih => unfold evalB tryCaptureAll; repeat (first | with_reducible exact ih | simstep1)
  | captureAllVoid block ih => unfold evalB tryCaptureAllVoid; repeat (first | with_reducible exact ih | simstep1)
  | excToResult tys block ih => unfold evalB exceptionToResult; repeat (first | with_reducible exact ih | simstep1)
  | cppCatch block h ih1 ih2 =>
    unfold evalB cppCatch_
    repeat (first | with_reducible exact ih1 | with_reducible exact ih2 _ | simstep1)
  | cppRethrow block h ih1 ih2 =>
    unfold evalB cppRethrow_
    repeat (first | with_reducible exact ih1 | with_reducible exact ih2 _ | simstep1)
  | unload r => unfold evalB; sim
  | value r tag => unfold evalB; sim

end Leaf
