import Verif.UnwindLemmas

/-!
# Destructors that keep their errors to themselves do not touch other scopes
-/

namespace Leaf

/-- The computation changes only the innermost scopes: it starts with scopes of shape `s` on top of others and ends with scopes of shape `s'` on top of these, which are
as they were. -/
def Within {α : Type} (s s' : List (List CellTy)) (x : Comp AbsStore α) (Q : α → Prop) : Prop :=
  ∀ (w : World AbsStore) inner outer a w', w.mem.frames = inner ++ outer → shape inner = s → x w = some (a, w') →
    Q a ∧ ∃ inner', w'.mem.frames = inner' ++ outer ∧ shape inner' = s'

theorem Within.pure {α : Type} {s : List (List CellTy)} {a : α} {Q : α → Prop} (h : Q a) : Within s s (Pure.pure a) Q := by
  intro w inner outer b w' h1 h2 e
  rw [pure_apply] at e
  cases e
  exact ⟨h, inner, h1, h2⟩

theorem Within.bind {α β : Type} {s s' s'' : List (List CellTy)} {x : Comp AbsStore α} {f : α → Comp AbsStore β} {P : α → Prop} {Q : β → Prop}
    (hx : Within s s' x P) (hf : ∀ a, P a → Within s' s'' (f a) Q) : Within s s'' (x >>= f) Q := by
  intro w inner outer b w' h1 h2 e
  rw [bind_apply] at e
  cases h : x w with
  | none => simp [h] at e
  | some p =>
    simp only [h, Option.bind_some] at e
    obtain ⟨a1, inner', a2, a3⟩ := hx w inner outer p.1 p.2 h1 h2 h
    exact hf p.1 a1 p.2 inner' outer b w' a2 a3 e

theorem Within.ub {α : Type} {s s' : List (List CellTy)} {Q : α → Prop} : Within s s' (ub : Comp AbsStore α) Q := by
  intro w inner outer a w' _ _ e
  simp [ub_apply] at e

theorem Within.mono {α : Type} {s s' : List (List CellTy)} {x : Comp AbsStore α} {P Q : α → Prop} (hx : Within s s' x P) (h : ∀ a, P a → Q a) : Within s s' x Q := by
  intro w inner outer a w' h1 h2 e
  obtain ⟨a1, a2⟩ := hx w inner outer a w' h1 h2 e
  exact ⟨h a a1, a2⟩

/-- Computations that do not touch the storage. -/
theorem within_mem {α : Type} {s : List (List CellTy)} {x : Comp AbsStore α} (h : ∀ w a w', x w = some (a, w') → w'.mem = w.mem) : Within s s x fun _ => True := by
  intro w inner outer a w' h1 h2 e
  exact ⟨trivial, inner, by rw [h w a w' e]; exact h1, h2⟩

theorem within_emit {s : List (List CellTy)} (e : Event) : Within s s (emit e) fun _ => True := within_mem (by intro w a w' h; cases h; rfl)
theorem within_setCur {s : List (List CellTy)} (id : Id) : Within s s (setCur id) fun _ => True := within_mem (by intro w a w' h; cases h; rfl)
theorem within_getCur {s : List (List CellTy)} : Within s s getCur fun _ => True := within_mem (by intro w a w' h; cases h; rfl)
theorem within_newId {s : List (List CellTy)} (cfg : Cfg) : Within s s (newId cfg) fun _ => True := within_mem (by intro w a w' h; cases h; rfl)
theorem within_pushHandling {s : List (List CellTy)} (e : Exc) : Within s s (pushHandling e) fun _ => True := within_mem (by intro w a w' h; cases h; rfl)
theorem within_popHandling {s : List (List CellTy)} : Within s s popHandling fun _ => True := within_mem (by intro w a w' h; cases h; rfl)
theorem within_currentId {s : List (List CellTy)} : Within s s currentId fun _ => True := within_mem (by
  intro w a w' h
  unfold currentId at h
  split at h
  · cases h; rfl
  · cases h)
theorem within_assertTagged {s : List (List CellTy)} (id : Id) : Within s s (assertTagged id) fun _ => True := within_mem (by
  intro w a w' h
  unfold assertTagged at h
  split at h
  · cases h; rfl
  · cases h)
theorem within_currentError {s : List (List CellTy)} : Within s s currentError fun _ => True := Within.bind within_currentId fun _ _ => Within.pure trivial

theorem frameCell_of_mem {ty : Ty} {f : List CtxCell} (h : CellTy.obj ty ∈ f.map CtxCell.cellTy) : ∃ c, frameCell ty f = some c := by
  cases hc : frameCell ty f with
  | some c => exact ⟨c, rfl⟩
  | none =>
    exfalso
    apply frameCell_none hc
    obtain ⟨x, h1, h2⟩ := List.mem_map.1 h
    cases x with
    | obj t c =>
      simp only [CtxCell.cellTy, CellTy.obj.injEq] at h2
      subst h2
      exact List.mem_flatMap.2 ⟨_, h1, by simp [CtxCell.tys]⟩
    | da k ns => simp [CtxCell.cellTy] at h2

theorem bound_append {ty : Ty} {inner : List (List CtxCell)} (h : Covered (shape inner) ty) (outer : List (List CtxCell)) (c' : Cell) :
    (∃ c, boundCell ty (inner ++ outer) = some c) ∧ setBound ty c' (inner ++ outer) = setBound ty c' inner ++ outer := by
  induction inner with
  | nil => obtain ⟨f, hf, _⟩ := h; simp [shape] at hf
  | cons f fs ih =>
    simp only [List.cons_append, boundCell, setBound]
    cases hc : frameCell ty f with
    | some c => exact ⟨⟨c, rfl⟩, rfl⟩
    | none =>
      have : Covered (shape fs) ty := by
        obtain ⟨g, hg, hm⟩ := h
        simp only [shape, List.map_cons, List.mem_cons] at hg
        rcases hg with rfl | hg
        · obtain ⟨c, hc'⟩ := frameCell_of_mem hm
          rw [hc] at hc'
          cases hc'
        · exact ⟨g, hg, hm⟩
      obtain ⟨h1, h2⟩ := ih this
      exact ⟨h1, by simp only [h2, List.cons_append]⟩

theorem within_slotGet {α : Type} {s s' : List (List CellTy)} {ty : Ty} (hc : Covered s ty) {f : Option Cell → Comp AbsStore α} {Q : α → Prop}
    (hf : ∀ c, Within s s' (f (some c)) Q) : Within s s' (slotGet ty >>= f) Q := by
  intro w inner outer a w' h1 h2 e
  obtain ⟨⟨c, h3⟩, _⟩ := bound_append (h2 ▸ hc) outer none
  have : (slotGet ty : Comp AbsStore _) w = some (some c, w) := by simp [slotGet, Store.slotGet, h1, h3]
  rw [bind_apply, this] at e
  exact hf c w inner outer a w' h1 h2 e

theorem within_slotSet {s : List (List CellTy)} {ty : Ty} (hc : Covered s ty) (id : Id) (v : Val) : Within s s (slotSet ty id v) fun _ => True := by
  intro w inner outer a w' h1 h2 e
  obtain ⟨⟨c, h3⟩, h4⟩ := bound_append (h2 ▸ hc) outer (some (id, v))
  rw [← h1] at h3
  simp only [slotSet, Store.slotSet, h3, Option.map_some, Option.some.injEq, Prod.mk.injEq] at e
  obtain ⟨_, rfl⟩ := e
  exact ⟨trivial, setBound ty (some (id, v)) inner, by show setBound _ _ w.mem.frames = _; rw [h1]; exact h4, by rw [setBound_shape]; exact h2⟩

theorem within_ite {α : Type} {s s' : List (List CellTy)} {c : Prop} [Decidable c] {x y : Comp AbsStore α} {Q : α → Prop} (hx : Within s s' x Q) (hy : Within s s' y Q) :
    Within s s' (if c then x else y) Q := by
  split
  · exact hx
  · exact hy

theorem within_loadSlot {s : List (List CellTy)} (cfg : Cfg) (b : Bool) (id : Id) {ty : Ty} (hc : Covered s ty) (v : Val) :
    Within s s (loadSlot cfg b id ty v) fun _ => True := by
  unfold loadSlot
  refine Within.bind (within_assertTagged id) fun _ _ => within_slotGet hc fun c => ?_
  exact within_ite (within_slotSet hc _ _) (Within.pure trivial)

theorem within_loadItem {s : List (List CellTy)} (cfg : Cfg) (b : Bool) (id : Id) {i : Item} (hc : Covered s i.ty) :
    Within s s (loadItem cfg b id i) fun _ => True := by
  cases i with
  | obj ty v => exact Within.bind (within_emit _) fun _ _ => within_loadSlot cfg b id hc v
  | deferred ty tag v =>
    unfold loadItem loadSlotDeferred
    refine Within.bind (within_assertTagged id) fun _ _ => within_slotGet hc fun c => ?_
    exact within_ite (Within.bind (within_emit _) fun _ _ => Within.bind (within_emit _) fun _ _ => within_slotSet hc _ _) (Within.pure trivial)
  | accum ty tag f =>
    unfold loadItem loadSlotAccumulate
    refine Within.bind (within_assertTagged id) fun _ _ => within_slotGet hc fun c => ?_
    exact Within.bind (within_slotSet hc _ _) fun _ _ => Within.bind (within_emit _) fun _ _ => within_emit _

theorem within_loadItems {s : List (List CellTy)} (cfg : Cfg) (b : Bool) (id : Id) {is : List Item} (hc : ∀ i ∈ is, Covered s i.ty) :
    Within s s (loadItems cfg b id is) fun _ => True := by
  induction is with
  | nil => exact Within.pure trivial
  | cons i is ih => exact Within.bind (within_loadItem cfg b id (hc i (by simp))) fun _ _ => ih fun j hj => hc j (by simp [hj])

theorem within_errorIdLoad {s : List (List CellTy)} (cfg : Cfg) (id : Id) {is : List Item} (hc : ∀ i ∈ is, Covered s i.ty) :
    Within s s (errorIdLoad cfg id is) fun _ => True := within_ite (within_loadItems cfg false id hc) (Within.pure trivial)

theorem within_newError {s : List (List CellTy)} (cfg : Cfg) {is : List Item} (hc : ∀ i ∈ is, Covered s i.ty) :
    Within s s (newError cfg is) fun _ => True :=
  Within.bind (within_newId cfg) fun _ _ => Within.bind (within_errorIdLoad cfg _ hc) fun _ _ => Within.pure trivial

theorem within_triggerItems {s : List (List CellTy)} (cfg : Cfg) (id : Id) {is : List OnItem} (hc : ∀ i, .item i ∈ is → Covered s i.ty) :
    Within s s (triggerItems cfg id is) fun _ => True := by
  induction is with
  | nil => exact Within.pure trivial
  | cons i is ih =>
    have ih := ih fun j hj => hc j (by simp [hj])
    cases i with
    | item i => exact Within.bind (within_loadItem cfg true id (hc i (by simp))) fun _ _ => ih
    | action tag => exact Within.bind (within_emit _) fun _ _ => ih

theorem within_importCode {s : List (List CellTy)} (cfg : Cfg) (ec : ErrorCode) (v : Val) (hc : Covered s tyErrorCode) :
    Within s s (importCode cfg ec v) fun _ => True := by
  unfold importCode
  split
  · exact Within.pure trivial
  · exact Within.bind (within_newId cfg) fun _ _ => Within.bind (within_emit _) fun _ _ => Within.bind (within_loadSlot cfg false _ hc v) fun _ _ => Within.pure trivial
  · exact Within.ub

theorem within_checkId {s : List (List CellTy)} (cfg : Cfg) (saved : Id) (b : Bool) : Within s s (checkId cfg saved b) fun _ => True := by
  refine Within.bind within_currentId fun _ _ => within_ite (Within.pure trivial) (within_ite (within_newId cfg) (Within.pure trivial))

theorem within_getId {s : List (List CellTy)} (cfg : Cfg) (saved : Id) : Within s s (getId cfg saved) fun _ => True :=
  Within.bind within_currentId fun _ _ => within_ite (Within.pure trivial) (within_newId cfg)

theorem within_unpackId {s : List (List CellTy)} (e : Exc) : Within s s (unpackId e) fun _ => True := by
  unfold unpackId
  refine within_ite ?_ (Within.bind within_currentError fun _ _ => Within.pure trivial)
  split
  · exact Within.pure trivial
  · exact Within.pure trivial
  · exact Within.bind within_currentError fun _ _ => Within.pure trivial

theorem within_destroyExc {s : List (List CellTy)} (e : Exc) : Within s s (destroyExc e) fun _ => True := by
  unfold destroyExc
  split
  · exact Within.bind within_getCur fun _ _ => within_ite (within_setCur _) (Within.pure trivial)
  · exact Within.pure trivial

theorem within_ctxLoc {s : List (List CellTy)} (id : Id) (cells : List CtxCell) : Within s s (ctxLoc id cells) fun _ => True := by
  unfold ctxLoc
  split
  · exact Within.pure trivial
  · exact within_ite Within.ub (Within.pure trivial)

theorem within_slotUnload {s : List (List CellTy)} (cfg : Cfg) (id : Id) {ty : Ty} (hc : Covered s ty) (c : Cell) :
    Within s s (slotUnload cfg id ty c) fun _ => True := by
  unfold slotUnload
  have : Within s s (match c.hasValue id with
      | none => pure ()
      | some v => do
        match ← slotGet ty with
        | some p => if (p.hasValue id).isNone then slotSet ty id v
        | none => if cfg.capture then dynamicLoad id ty v : Comp AbsStore Unit) fun _ => True := by
    split
    · exact Within.pure trivial
    · exact within_slotGet hc fun c => within_ite (within_slotSet hc _ _) (Within.pure trivial)
  by_cases h : id = 0#32
  · simp only [h, if_true]
    exact Within.bind (P := fun _ => True) Within.ub fun _ _ => h ▸ this
  · simp only [h, if_false]
    exact this

theorem within_unloadCells {s : List (List CellTy)} (cfg : Cfg) (id : Id) {cells : List CtxCell} (hc : ∀ t ∈ cells.map CtxCell.cellTy, ∃ ty, t = .obj ty ∧ Covered s ty) :
    Within s s (unloadCells cfg id cells) fun _ => True := by
  induction cells with
  | nil => exact Within.pure trivial
  | cons c cs ih =>
    refine Within.bind (ih fun t ht => hc t (by simp only [List.map_cons, List.mem_cons]; exact .inr ht)) fun _ _ => ?_
    obtain ⟨ty, h1, h2⟩ := hc c.cellTy (by simp)
    cases c with
    | obj t c =>
      simp only [CtxCell.cellTy, CellTy.obj.injEq] at h1
      subst h1
      exact within_slotUnload cfg id h2 c
    | da k ns => simp [CtxCell.cellTy] at h1

theorem within_pushCtx {s : List (List CellTy)} (spec : List CellTy) : Within s (spec :: s) (pushCtx spec) fun _ => True := by
  intro w inner outer a w' h1 h2 e
  simp only [pushCtx, Store.push] at e
  split at e
  · simp only [Option.map_some, Option.some.injEq, Prod.mk.injEq] at e
    obtain ⟨_, rfl⟩ := e
    refine ⟨trivial, spec.map CellTy.empty :: inner, by simp [h1], ?_⟩
    simp only [shape, List.map_cons, List.map_map, ← h2, List.cons.injEq, and_true]
    have : CtxCell.cellTy ∘ CellTy.empty = id := by funext t; cases t <;> rfl
    rw [this, List.map_id]
  · simp at e

theorem within_popCtx {c : List CellTy} {s : List (List CellTy)} : Within (c :: s) s popCtx fun cells => cells.map CtxCell.cellTy = c := by
  intro w inner outer a w' h1 h2 e
  cases inner with
  | nil => simp [shape] at h2
  | cons f fs =>
    simp only [shape, List.map_cons, List.cons.injEq] at h2
    simp only [popCtx, Store.pop, h1, List.cons_append, Option.map_some, Option.some.injEq, Prod.mk.injEq] at e
    obtain ⟨rfl, rfl⟩ := e
    exact ⟨h2.1, fs, rfl, h2.2⟩

/-- Not a failed result with captured objects. -/
def Out.Uncaptured (o : Out) : Prop := ∀ r, o = .err r → r.IsPlain

theorem within_resultUnload {s : List (List CellTy)} (cfg : Cfg) {r : ErrRes} (h : r.IsPlain) : Within s s (resultUnload cfg r) fun o => o.Uncaptured := by
  cases r with
  | plain id => exact Within.pure (by intro r hr; cases hr; exact h)
  | captured id ns => exact h.elim

theorem within_unloadOut {s : List (List CellTy)} (cfg : Cfg) {o : Out} (h : o.Uncaptured) : Within s s (unloadOut cfg o) fun o => o.Uncaptured := by
  cases o with
  | val v => exact Within.pure h
  | err r => exact within_resultUnload cfg (h r rfl)
  | exc e => exact Within.pure h

theorem within_noErr {s : List (List CellTy)} (o : Out) : Within s s (noErr o) fun o => o.Uncaptured := by
  cases o with
  | val v => exact Within.pure nofun
  | err r => exact Within.ub
  | exc e => exact Within.pure nofun

theorem within_callHandler {s : List (List CellTy)} (cfg : Cfg) {specs : List (List Arg)} {body : Nat → List ArgVal → Comp AbsStore Out} {Q : Out → Prop}
    (hb : ∀ i args, Within s s (body i args) Q) (cells : List CtxCell) (id : Id) (ex : Option Exc) (loc : Option Val) (i : Nat) :
    Within s s (callHandler cfg specs body cells id ex loc i) Q := by
  unfold callHandler
  split
  · exact Within.ub
  · split
    · exact Within.ub
    · exact Within.bind (within_emit _) fun _ _ => hb _ _

theorem selectSome_total (cfg : Cfg) (cells : List CtxCell) (id : Id) (ex : Option Exc) {specs : List (List Arg)} (h : ValidAll specs) :
    ∃ i, selectSome cfg cells id ex specs = some i := by
  have : ∀ i0, ∃ i, selectSomeFrom cfg cells id ex i0 specs = some i := by
    obtain ⟨init, last, rfl, hl⟩ := h
    induction init with
    | nil => exact fun i0 => ⟨i0, by simp [selectSomeFrom, hl]⟩
    | cons s ss ih =>
      intro i0
      obtain ⟨i, hi⟩ := ih (i0 + 1)
      simp only [List.cons_append, selectSomeFrom]
      split
      · exact ⟨_, rfl⟩
      · exact ⟨i, hi⟩
  exact this 0

/-- The scopes that the objects of an unhandled error go to. -/
def Takes (cfg : Cfg) (s : List (List CellTy)) (specs : List (List Arg)) : Prop := ∀ t ∈ deduce cfg specs, ∃ ty, t = .obj ty ∧ Covered s ty

theorem within_catchPath {s : List (List CellTy)} (cfg : Cfg) {specs : List (List Arg)} {body : Nat → List ArgVal → Comp AbsStore Out}
    (hb : ∀ i args, Within s s (body i args) fun o => o.Uncaptured) (hs : ValidAll specs ∨ Takes cfg s specs) (e : Exc) :
    Within (deduce cfg specs :: s) s (catchPath cfg specs body e) fun p => p.1.Uncaptured ∧ p.2.map CtxCell.cellTy = deduce cfg specs := by
  unfold catchPath
  refine Within.bind within_popCtx fun cells hcells => Within.bind (within_unpackId e) fun p _ => ?_
  obtain ⟨id, e'⟩ := p
  refine Within.bind (within_pushHandling _) fun _ _ => Within.bind (within_ctxLoc _ _) fun loc _ => ?_
  split
  · refine Within.bind (within_callHandler cfg hb _ _ _ _ _) fun o ho => ?_
    exact Within.bind within_popHandling fun _ _ => Within.bind (within_destroyExc _) fun _ _ => Within.pure ⟨ho, hcells⟩
  · rename_i hsel
    rcases hs with hs | hs
    · obtain ⟨i, hi⟩ := selectSome_total cfg cells id (if e'.isStd then some e' else none) hs
      rw [hi] at hsel
      cases hsel
    · refine Within.bind (within_unloadCells cfg id (by rw [hcells]; exact hs)) fun _ _ => Within.bind within_popHandling fun _ _ => Within.pure ⟨nofun, hcells⟩

theorem within_evalU (cfg : Cfg) (old : Bool) (n : Nat) (p : UProg) {s : List (List CellTy)} (hp : p.Contained cfg s) :
    Within s s (evalU cfg old n p) fun o => o.Uncaptured := by
  induction p generalizing n s with
  | ret o => exact Within.pure hp
  | newError items k ih => exact Within.bind (within_newError cfg hp.1) fun id _ => ih id n (hp.2 id)
  | load id items k ih => exact Within.bind (within_errorIdLoad cfg id hp.1) fun _ _ => ih n hp.2
  | importCode ec v k ih => exact Within.bind (within_importCode cfg ec v hp.1) fun id _ => ih id n (hp.2 id)
  | currentError k ih => exact Within.bind within_currentError fun id _ => ih id n (hp id)
  | bind p k ke ih1 ih2 ih3 =>
    unfold evalU
    refine Within.bind (ih1 n hp.1) fun o ho => ?_
    cases o with
    | val v => exact ih2 v n (hp.2.1 v)
    | err r =>
      cases r with
      | plain id => exact ih3 _ n (hp.2.2 id)
      | captured id ns => exact (ho _ rfl).elim
    | exc e => exact Within.pure nofun
  | onError items body ih =>
    unfold evalU onErrorU
    refine Within.bind within_currentId fun saved _ => Within.bind (ih n hp.2) fun o ho => Within.bind (within_checkId cfg saved _) fun id _ => ?_
    exact within_ite (Within.bind (within_assertTagged id) fun _ _ => Within.bind (within_triggerItems cfg id hp.1) fun _ _ => Within.pure ho) (Within.pure ho)
  | monNew k ih => exact Within.bind within_currentId fun id _ => ih _ n (hp _)
  | monCheck m k ih => exact Within.bind (within_checkId cfg _ _) fun id _ => ih _ n (hp _)
  | monAssigned m k ih => exact Within.bind (within_getId cfg _) fun id _ => ih _ n (hp _)
  | handleAll specs block body ih1 ih2 =>
    unfold evalU tryHandleAll
    refine Within.bind (within_pushCtx _) fun _ _ => Within.bind (ih1 n hp.2.1) fun o ho => Within.bind (within_unloadOut cfg ho) fun o2 ho2 => ?_
    cases o2 with
    | val v => exact Within.bind within_popCtx fun _ _ => Within.pure nofun
    | err r =>
      refine Within.bind (within_resultUnload cfg (ho2 r rfl)) fun _ _ => Within.bind within_popCtx fun cells _ => Within.bind (within_ctxLoc _ _) fun loc _ => ?_
      split
      · exact Within.bind (within_callHandler cfg (fun i args => ih2 i args n (hp.2.2 i args)) _ _ _ _ _) fun o _ => within_noErr o
      · exact Within.ub
    | exc e => exact Within.bind (within_catchPath cfg (fun i args => ih2 i args n (hp.2.2 i args)) (.inl hp.1) e) fun p _ => within_noErr p.1
  | handleSome specs block body ih1 ih2 =>
    unfold evalU tryHandleSome
    have hu : ∀ (cells : List CtxCell), cells.map CtxCell.cellTy = deduce cfg specs → ∀ o : Out, o.Uncaptured → Within s s (do
          match o with
          | .err r' => unloadCells cfg r'.errId cells
          | _ => pure ()
          return o) fun o => o.Uncaptured := by
      intro cells hc o ho
      cases o with
      | val v => exact Within.pure ho
      | err r' => exact Within.bind (within_unloadCells cfg _ (by rw [hc]; exact hp.1)) fun _ _ => Within.pure ho
      | exc e => exact Within.pure ho
    refine Within.bind (within_pushCtx _) fun _ _ => Within.bind (ih1 n hp.2.1) fun o ho => Within.bind (within_unloadOut cfg ho) fun o2 ho2 => ?_
    cases o2 with
    | val v => exact Within.bind within_popCtx fun _ _ => Within.pure nofun
    | err r =>
      refine Within.bind (within_resultUnload cfg (ho2 r rfl)) fun _ _ => Within.bind within_popCtx fun cells hc => Within.bind (within_ctxLoc _ _) fun loc _ => ?_
      cases hi : selectSome cfg cells r.errId none specs with
      | none => exact hu cells hc _ ho2
      | some i => exact Within.bind (within_callHandler cfg (fun i args => ih2 i args n (hp.2.2 i args)) _ _ _ _ _) fun o ho => hu cells hc o ho
    | exc e =>
      refine Within.bind (within_catchPath cfg (fun i args => ih2 i args n (hp.2.2 i args)) (.inr hp.1) e) fun p hp => ?_
      obtain ⟨o, cells⟩ := p
      exact hu cells hp.2 o hp.1
  | tryCatch specs block body ih1 ih2 =>
    unfold evalU tryCatch
    refine Within.bind (within_pushCtx _) fun _ _ => Within.bind (ih1 n hp.2.1) fun o ho => ?_
    cases o with
    | val v => exact Within.bind within_popCtx fun _ _ => Within.pure ho
    | err r => exact Within.bind within_popCtx fun _ _ => Within.pure ho
    | exc e => exact Within.bind (within_catchPath cfg (fun i args => ih2 i args n (hp.2.2 i args)) (.inr hp.1) e) fun p hp => Within.pure hp.1
  | captureAll block ih => exact hp.elim
  | captureAllVoid block ih => exact hp.elim
  | excToResult tys block ih =>
    have hh : ∀ (e : Exc) (l : List Ty), (∀ ty ∈ l, Covered s ty) → Within s s (catchHelper cfg e l) fun _ => True := by
      intro e l hl
      induction l with
      | nil => exact within_newError cfg (by intro i hi; simp only [List.mem_singleton] at hi; subst hi; exact hp.1 tyExPtr (by simp))
      | cons ty l ih2 =>
        refine Within.bind (ih2 fun t ht => hl t (by simp [ht])) fun id _ => ?_
        split
        · exact Within.bind (within_errorIdLoad cfg id (by intro i hi; simp only [List.mem_singleton] at hi; subst hi; exact hl ty (by simp))) fun _ _ => Within.pure trivial
        · exact Within.pure trivial
    unfold evalU exceptionToResult
    refine Within.bind (ih n hp.2) fun o ho => ?_
    cases o with
    | val v => exact Within.pure ho
    | err r => exact Within.pure ho
    | exc e =>
      refine Within.bind (hh e _ ?_) fun id _ => Within.pure (by intro r hr; cases hr; trivial)
      intro ty hty
      split at hty
      · exact hp.1 ty (by simp [hty])
      · simp at hty
  | cppCatch block h ih1 ih2 =>
    unfold evalU cppCatch_
    refine Within.bind (ih1 n hp.1) fun o ho => ?_
    cases o with
    | val v => exact Within.pure ho
    | err r => exact Within.pure ho
    | exc e =>
      refine Within.bind (within_pushHandling e) fun _ _ => Within.bind (ih2 e n (hp.2 e)) fun o2 ho2 => ?_
      exact Within.bind within_popHandling fun _ _ => Within.bind (within_destroyExc e) fun _ _ => Within.pure ho2
  | cppRethrow block h ih1 ih2 =>
    unfold evalU cppRethrow_
    refine Within.bind (ih1 n hp.1) fun o ho => ?_
    cases o with
    | val v => exact Within.pure ho
    | err r => exact Within.pure ho
    | exc e =>
      refine Within.bind (within_pushHandling e) fun _ _ => Within.bind (ih2 e n (hp.2 e)) fun o2 ho2 => Within.bind within_popHandling fun _ _ => ?_
      cases o2 with
      | val v => exact Within.pure nofun
      | err r => exact Within.pure nofun
      | exc e' => exact Within.bind (within_destroyExc e) fun _ _ => Within.pure nofun
  | unload r => exact within_resultUnload cfg hp
  | value r tag =>
    unfold evalU resultValue
    refine Within.bind (within_resultUnload cfg hp) fun o _ => ?_
    cases o <;> exact Within.pure nofun
  | cleanup p q ih1 ih2 =>
    unfold evalU cppCatch_
    refine Within.bind (ih1 n hp.1) fun o ho => Within.bind (P := fun _ => True) ?_ fun _ _ => Within.pure ho
    refine Within.bind (ih2 _ hp.2) fun o2 _ => ?_
    cases o2 with
    | val v => exact Within.pure trivial
    | err r => exact Within.pure trivial
    | exc e =>
      refine Within.bind (within_pushHandling e) fun _ _ => Within.bind (Within.pure (Q := fun _ => True) trivial) fun _ _ => ?_
      exact Within.bind within_popHandling fun _ _ => Within.bind (within_destroyExc e) fun _ _ => Within.pure trivial

end Leaf
