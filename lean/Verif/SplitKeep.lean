import Verif.Sim
import Verif.Wf
import Verif.SplitSpec

/-!
# Programs running on top of two different stacks of scopes

Lemmas for `Verif/PropSplit.lean`. Two threads run the same program. Their innermost scopes are the same, below are different ones that are accessed in the same way (`Below`).
-/

namespace Leaf

/-- What is done to the stack of frames `b` by loading objects has the corresponding effect on `b'`. -/
structure Below (B : List (List CtxCell) → List (List CtxCell) → Prop) : Prop where
  cell : ∀ {b b'}, B b b' → ∀ ty, boundCell ty b' = boundCell ty b
  set : ∀ {b b'}, B b b' → ∀ ty c, B (setBound ty c b) (setBound ty c b')
  da : ∀ {b b'}, B b b' → boundDa b' = boundDa b
  setDa : ∀ {b b'}, B b b' → ∀ k ns, B (setBoundDa k ns b) (setBoundDa k ns b')

theorem below_eq : Below Eq where
  cell h _ := by rw [h]
  set h _ _ := by rw [h]
  da h := by rw [h]
  setDa h _ _ := by rw [h]

variable {B : List (List CtxCell) → List (List CtxCell) → Prop}

/-- The threads agree, apart from what is below the innermost `k` scopes. -/
structure AgreeBelow (B : List (List CtxCell) → List (List CtxCell) → Prop) (k : Nat) (w w' : World AbsStore) : Prop where
  cur : w'.cur = w.cur
  counter : w'.counter = w.counter
  ticks : w'.ticks = w.ticks
  handling : w'.handling = w.handling
  trace : w'.trace.map Event.anyIndex = w.trace.map Event.anyIndex
  frames : ∃ top b b', top.length = k ∧ w.mem.frames = top ++ b ∧ w'.mem.frames = top ++ b' ∧ B b b'

/-- `m'` does what `m` does. -/
def Same {α : Type} (B : List (List CtxCell) → List (List CtxCell) → Prop) (k k' : Nat) (m m' : Comp AbsStore α) : Prop :=
  ∀ w w', AgreeBelow B k w w' → ∀ a v, m w = some (a, v) → ∃ v', m' w' = some (a, v') ∧ AgreeBelow B k' v v'

/-- The computation does the same in both threads. -/
abbrev Keeps {α : Type} (B : List (List CtxCell) → List (List CtxCell) → Prop) (k k' : Nat) (m : Comp AbsStore α) : Prop := Same B k k' m m

theorem Same.bind {α β : Type} {k k' k'' : Nat} {m m' : Comp AbsStore α} {f f' : α → Comp AbsStore β} (hm : Same B k k' m m') (hf : ∀ a, Same B k' k'' (f a) (f' a)) :
    Same B k k'' (m >>= f) (m' >>= f') := by
  intro w w' r b v h
  rw [bind_apply] at h ⊢
  cases hx : m w with
  | none => simp [hx] at h
  | some p =>
    rw [hx, Option.bind_some] at h
    obtain ⟨v1, e1, r1⟩ := hm w w' r p.1 p.2 hx
    obtain ⟨v2, e2, r2⟩ := hf p.1 p.2 v1 r1 b v h
    exact ⟨v2, by rw [e1, Option.bind_some]; exact e2, r2⟩

theorem Same.pure {α : Type} {k : Nat} (a : α) : Same B k k (Pure.pure a) (Pure.pure a) := by
  intro w w' r b v h
  rw [pure_apply] at h ⊢
  cases h
  exact ⟨w', rfl, r⟩

theorem Same.ub {α : Type} {k k' : Nat} (m : Comp AbsStore α) : Same B k k' Leaf.ub m := by
  intro w w' r b v h
  cases h

theorem Same.ite {α : Type} {k k' : Nat} {p : Prop} [Decidable p] {m m' n n' : Comp AbsStore α} (hm : Same B k k' m m') (hn : Same B k k' n n') :
    Same B k k' (if p then m else n) (if p then m' else n') := by
  split
  · exact hm
  · exact hn

theorem Keeps.ub {α : Type} {k k' : Nat} : Keeps B k k' (Leaf.ub : Comp AbsStore α) := Same.ub _
theorem Keeps.pure {α : Type} {k : Nat} (a : α) : Keeps B k k (Pure.pure a : Comp AbsStore α) := Same.pure a
theorem Keeps.bind {α β : Type} {k k' k'' : Nat} {m : Comp AbsStore α} {f : α → Comp AbsStore β} (hm : Keeps B k k' m) (hf : ∀ a, Keeps B k' k'' (f a)) : Keeps B k k'' (m >>= f) :=
  Same.bind hm hf
theorem Keeps.ite {α : Type} {k k' : Nat} {p : Prop} [Decidable p] {m n : Comp AbsStore α} (hm : Keeps B k k' m) (hn : Keeps B k k' n) : Keeps B k k' (if p then m else n) :=
  Same.ite hm hn

variable {k : Nat}

theorem keeps_emit (e : Event) : Keeps B k k (emit e : Comp AbsStore Unit) := by
  intro w w' r a v h
  cases h
  refine ⟨_, rfl, r.cur, r.counter, r.ticks, r.handling, ?_, r.frames⟩
  show (e :: w'.trace).map _ = (e :: w.trace).map _
  rw [List.map_cons, List.map_cons, r.trace]

theorem same_handled (id : Id) (ex : Option Exc) (i j : Nat) (args : List ArgVal) : Same B k k (emit (.handled id ex i args) : Comp AbsStore Unit) (emit (.handled id ex j args)) := by
  intro w w' r a v h
  cases h
  refine ⟨_, rfl, r.cur, r.counter, r.ticks, r.handling, ?_, r.frames⟩
  show (_ :: w'.trace).map _ = (_ :: w.trace).map _
  rw [List.map_cons, List.map_cons, r.trace]
  rfl

theorem keeps_getCur : Keeps B k k (getCur : Comp AbsStore Id) := by
  intro w w' r a v h
  cases h
  exact ⟨w', by show some (w'.cur, w') = _; rw [r.cur], r⟩

theorem keeps_setCur (id : Id) : Keeps B k k (setCur id : Comp AbsStore Unit) := by
  intro w w' r a v h
  cases h
  exact ⟨_, rfl, rfl, r.counter, r.ticks, r.handling, r.trace, r.frames⟩

theorem keeps_pushHandling (e : Exc) : Keeps B k k (pushHandling e : Comp AbsStore Unit) := by
  intro w w' r a v h
  cases h
  exact ⟨_, rfl, r.cur, r.counter, r.ticks, by show e :: w'.handling = _; rw [r.handling], r.trace, r.frames⟩

theorem keeps_popHandling : Keeps B k k (popHandling : Comp AbsStore Unit) := by
  intro w w' r a v h
  cases h
  exact ⟨_, rfl, r.cur, r.counter, r.ticks, by show w'.handling.tail = _; rw [r.handling], r.trace, r.frames⟩

theorem keeps_currentException : Keeps B k k (currentException : Comp AbsStore _) := by
  intro w w' r a v h
  cases h
  exact ⟨w', by show some (w'.handling.head?, w') = _; rw [r.handling], r⟩

theorem keeps_currentId : Keeps B k k (currentId : Comp AbsStore Id) := by
  intro w w' r a v h
  unfold currentId at h ⊢
  rw [r.cur]
  split at h
  · rename_i hc
    cases h
    exact ⟨w', by rw [if_pos hc], r⟩
  · cases h

theorem keeps_assertTagged (id : Id) : Keeps B k k (assertTagged id : Comp AbsStore Unit) := by
  intro w w' r a v h
  unfold assertTagged at h ⊢
  split at h
  · rename_i hc
    cases h
    exact ⟨w', by rw [if_pos hc], r⟩
  · cases h

theorem keeps_newId (cfg : Cfg) : Keeps B k k (newId cfg : Comp AbsStore Id) := by
  intro w w' r a v h
  unfold newId at h ⊢
  rw [r.counter, r.ticks]
  cases h
  refine ⟨_, rfl, rfl, rfl, rfl, r.handling, ?_, r.frames⟩
  show (_ :: w'.trace).map _ = (_ :: w.trace).map _
  rw [List.map_cons, List.map_cons, r.trace]

theorem keeps_currentError : Keeps B k k (currentError : Comp AbsStore Id) := keeps_currentId.bind fun _ => .pure _

/-! ## Storage -/

theorem boundCell_append (ty : Ty) (t b : List (List CtxCell)) : boundCell ty (t ++ b) = (boundCell ty t).or (boundCell ty b) := by
  induction t with
  | nil => rfl
  | cons f fs ih =>
    rw [List.cons_append, boundCell, boundCell]
    cases frameCell ty f with
    | some c => rfl
    | none => exact ih

theorem boundDa_append (t b : List (List CtxCell)) : boundDa (t ++ b) = (boundDa t).or (boundDa b) := by
  induction t with
  | nil => rfl
  | cons f fs ih =>
    rw [List.cons_append, boundDa, boundDa]
    cases frameDa f with
    | some c => rfl
    | none => exact ih

theorem setBound_append (ty : Ty) (c : Cell) (t b : List (List CtxCell)) :
    setBound ty c (t ++ b) = if (boundCell ty t).isSome then setBound ty c t ++ b else t ++ setBound ty c b := by
  induction t with
  | nil => rfl
  | cons f fs ih =>
    rw [List.cons_append, setBound, setBound, boundCell]
    cases frameCell ty f with
    | some c => rfl
    | none =>
      dsimp only
      rw [ih]
      split <;> rfl

theorem setBoundDa_append (key : Id) (ns : List (Ty × Cell)) (t b : List (List CtxCell)) :
    setBoundDa key ns (t ++ b) = if (boundDa t).isSome then setBoundDa key ns t ++ b else t ++ setBoundDa key ns b := by
  induction t with
  | nil => rfl
  | cons f fs ih =>
    rw [List.cons_append, setBoundDa, setBoundDa, boundDa]
    cases frameDa f with
    | some c => rfl
    | none =>
      dsimp only
      rw [ih]
      split <;> rfl

theorem setBound_length (ty : Ty) (c : Cell) (t : List (List CtxCell)) : (setBound ty c t).length = t.length := by
  induction t with
  | nil => rfl
  | cons f fs ih =>
    rw [setBound]
    split
    · rfl
    · rw [List.length_cons, ih, List.length_cons]

theorem setBoundDa_length (key : Id) (ns : List (Ty × Cell)) (t : List (List CtxCell)) : (setBoundDa key ns t).length = t.length := by
  induction t with
  | nil => rfl
  | cons f fs ih =>
    rw [setBoundDa]
    split
    · rfl
    · rw [List.length_cons, ih, List.length_cons]

section
variable (hB : Below B)
include hB

theorem AgreeBelow.cell {w w' : World AbsStore} (r : AgreeBelow B k w w') (ty : Ty) : boundCell ty w'.mem.frames = boundCell ty w.mem.frames := by
  obtain ⟨t, b, b', _, e1, e2, h⟩ := r.frames
  rw [e1, e2, boundCell_append, boundCell_append, hB.cell h]

theorem AgreeBelow.da {w w' : World AbsStore} (r : AgreeBelow B k w w') : boundDa w'.mem.frames = boundDa w.mem.frames := by
  obtain ⟨t, b, b', _, e1, e2, h⟩ := r.frames
  rw [e1, e2, boundDa_append, boundDa_append, hB.da h]

theorem AgreeBelow.set {w w' : World AbsStore} (r : AgreeBelow B k w w') (ty : Ty) (c : Cell) :
    AgreeBelow B k { w with mem := ⟨setBound ty c w.mem.frames⟩ } { w' with mem := ⟨setBound ty c w'.mem.frames⟩ } := by
  obtain ⟨t, b, b', hl, e1, e2, h⟩ := r.frames
  refine ⟨r.cur, r.counter, r.ticks, r.handling, r.trace, ?_⟩
  dsimp only
  rw [e1, e2, setBound_append, setBound_append]
  split
  · exact ⟨_, b, b', by rw [setBound_length]; exact hl, rfl, rfl, h⟩
  · exact ⟨t, _, _, hl, rfl, rfl, hB.set h ty c⟩

theorem AgreeBelow.setDa {w w' : World AbsStore} (r : AgreeBelow B k w w') (key : Id) (ns : List (Ty × Cell)) :
    AgreeBelow B k { w with mem := ⟨setBoundDa key ns w.mem.frames⟩ } { w' with mem := ⟨setBoundDa key ns w'.mem.frames⟩ } := by
  obtain ⟨t, b, b', hl, e1, e2, h⟩ := r.frames
  refine ⟨r.cur, r.counter, r.ticks, r.handling, r.trace, ?_⟩
  dsimp only
  rw [e1, e2, setBoundDa_append, setBoundDa_append]
  split
  · exact ⟨_, b, b', by rw [setBoundDa_length]; exact hl, rfl, rfl, h⟩
  · exact ⟨t, _, _, hl, rfl, rfl, hB.setDa h key ns⟩

theorem keeps_slotGet (ty : Ty) : Keeps B k k (slotGet ty : Comp AbsStore _) := by
  intro w w' r a v h
  cases h
  exact ⟨w', by show some (boundCell ty w'.mem.frames, w') = _; rw [r.cell hB], r⟩

theorem keeps_slotSet (ty : Ty) (id : Id) (u : Val) : Keeps B k k (slotSet ty id u : Comp AbsStore _) := by
  intro w w' r a v h
  simp only [slotSet, Store.slotSet] at h ⊢
  rw [r.cell hB]
  cases hc : boundCell ty w.mem.frames with
  | none => rw [hc] at h; cases h
  | some c =>
    rw [hc] at h
    cases h
    exact ⟨_, rfl, r.set hB ty _⟩

theorem keeps_daKey : Keeps B k k (daKey : Comp AbsStore _) := by
  intro w w' r a v h
  cases h
  exact ⟨w', by show some ((boundDa w'.mem.frames).map Prod.fst, w') = _; rw [r.da hB], r⟩

theorem keeps_daReset (id : Id) : Keeps B k k (daReset id : Comp AbsStore _) := by
  intro w w' r a v h
  simp only [daReset, Store.daReset] at h ⊢
  rw [r.da hB]
  cases hc : boundDa w.mem.frames with
  | none => rw [hc] at h; cases h
  | some d =>
    obtain ⟨key, ns⟩ := d
    rw [hc] at h
    cases ns with
    | nil =>
      cases h
      exact ⟨_, rfl, r.setDa hB _ _⟩
    | cons n ns => cases h

theorem keeps_daAppend (ty : Ty) (id : Id) (u : Val) : Keeps B k k (daAppend ty id u : Comp AbsStore _) := by
  intro w w' r a v h
  simp only [daAppend, Store.daAppend] at h ⊢
  rw [r.da hB, r.cell hB]
  cases hc : boundDa w.mem.frames with
  | none => rw [hc] at h; cases h
  | some d =>
    obtain ⟨key, ns⟩ := d
    rw [hc] at h
    dsimp only at h ⊢
    split at h
    · cases h
    · rename_i hk
      cases hb : boundCell ty w.mem.frames with
      | some c => rw [hb] at h; cases h
      | none =>
        rw [hb] at h
        cases h
        rw [if_neg hk]
        exact ⟨_, rfl, r.setDa hB _ _⟩

omit hB in
theorem keeps_pushCtx (spec : List CellTy) : Keeps B k (k + 1) (pushCtx spec : Comp AbsStore _) := by
  intro w w' r a v h
  simp only [pushCtx, Store.push] at h ⊢
  obtain ⟨t, b, b', hl, e1, e2, h'⟩ := r.frames
  split at h
  · rename_i hn
    cases h
    rw [if_pos hn]
    exact ⟨_, rfl, r.cur, r.counter, r.ticks, r.handling, r.trace, spec.map CellTy.empty :: t, b, b', by rw [List.length_cons, hl], by rw [e1]; rfl, by rw [e2]; rfl, h'⟩
  · cases h

omit hB in
theorem keeps_popCtx : Keeps B (k + 1) k (popCtx : Comp AbsStore _) := by
  intro w w' r a v h
  simp only [popCtx, Store.pop] at h ⊢
  obtain ⟨t, b, b', hl, e1, e2, h'⟩ := r.frames
  cases t with
  | nil => cases hl
  | cons f t =>
    rw [e1] at h
    cases h
    rw [e2]
    exact ⟨_, rfl, r.cur, r.counter, r.ticks, r.handling, r.trace, t, b, b', by simpa using hl, rfl, rfl, h'⟩

theorem keeps_dynamicLoad (id : Id) (ty : Ty) (u : Val) : Keeps B k k (dynamicLoad id ty u : Comp AbsStore _) := by
  refine (keeps_daKey hB).bind fun k => ?_
  split
  · exact .ite ((keeps_daAppend hB) _ _ _) (((keeps_daReset hB) _).bind fun _ => (keeps_daAppend hB) _ _ _)
  · exact .pure _

variable {cfg : Cfg}

theorem keeps_dynamicAccumulate (id : Id) (ty : Ty) (tag : Nat) (f : Val → Val) : Keeps B k k (dynamicAccumulate cfg id ty tag f : Comp AbsStore _) := by
  have he : Keeps B k k (do emit (.called tag); emit (.offered id ty (f (cfg.dflt ty))) : Comp AbsStore Unit) := (keeps_emit _).bind fun _ => keeps_emit _
  refine (keeps_daKey hB).bind fun k => ?_
  split
  · dsimp only
    split
    · exact ((keeps_daAppend hB) _ _ _).bind fun _ => he
    · exact ((keeps_daReset hB) _).bind fun _ => ((keeps_daAppend hB) _ _ _).bind fun _ => he
  · exact .pure _

theorem keeps_slotUnload (id : Id) (ty : Ty) (c : Cell) : Keeps B k k (slotUnload cfg id ty c : Comp AbsStore _) := by
  have h : Keeps B k k (match c.hasValue id with
      | none => Pure.pure ()
      | some v => do
        match ← slotGet ty with
        | some p => if (p.hasValue id).isNone then slotSet ty id v
        | none => if cfg.capture then dynamicLoad id ty v : Comp AbsStore Unit) := by
    split
    · exact .pure _
    · refine ((keeps_slotGet hB) _).bind fun s => ?_
      split
      · exact .ite ((keeps_slotSet hB) _ _ _) (.pure _)
      · exact .ite ((keeps_dynamicLoad hB) _ _ _) (.pure _)
  unfold slotUnload
  by_cases hid : id = 0#32
  · simp only [hid, if_true]
    exact (Keeps.ub (k' := k)).bind fun _ => by rw [hid] at h; exact h
  · simp only [hid, if_false]
    exact h

theorem keeps_loadItem (b : Bool) (id : Id) (i : Item) : Keeps B k k (loadItem cfg b id i : Comp AbsStore _) := by
  cases i with
  | obj ty u =>
    refine (keeps_emit _).bind fun _ => (keeps_assertTagged _).bind fun _ => ((keeps_slotGet hB) _).bind fun s => ?_
    split
    · exact .ite ((keeps_slotSet hB) _ _ _) (.pure _)
    · exact .ite ((keeps_dynamicLoad hB) _ _ _) (.pure _)
  | deferred ty tag u =>
    refine (keeps_assertTagged _).bind fun _ => ((keeps_slotGet hB) _).bind fun s => ?_
    split
    · exact .ite ((keeps_emit _).bind fun _ => (keeps_emit _).bind fun _ => (keeps_slotSet hB) _ _ _) (.pure _)
    · exact .ite ((keeps_emit _).bind fun _ => (keeps_emit _).bind fun _ => (keeps_dynamicLoad hB) _ _ _) (.pure _)
  | accum ty tag f =>
    refine (keeps_assertTagged _).bind fun _ => ((keeps_slotGet hB) _).bind fun s => ?_
    split
    · exact ((keeps_slotSet hB) _ _ _).bind fun _ => (keeps_emit _).bind fun _ => keeps_emit _
    · exact .ite ((keeps_dynamicAccumulate hB) _ _ _ _) (.pure _)

theorem keeps_loadItems (b : Bool) (id : Id) (is : List Item) : Keeps B k k (loadItems cfg b id is : Comp AbsStore _) := by
  induction is with
  | nil => exact .pure _
  | cons i is ih => exact ((keeps_loadItem hB) _ _ _).bind fun _ => ih

theorem keeps_errorIdLoad (id : Id) (is : List Item) : Keeps B k k (errorIdLoad cfg id is : Comp AbsStore _) :=
  .ite ((keeps_loadItems hB) _ _ _) (.pure _)

theorem keeps_newError (is : List Item) : Keeps B k k (newError cfg is : Comp AbsStore _) :=
  (keeps_newId cfg).bind fun _ => ((keeps_errorIdLoad hB) _ _).bind fun _ => .pure _

theorem keeps_triggerItems (id : Id) (is : List OnItem) : Keeps B k k (triggerItems cfg id is : Comp AbsStore _) := by
  induction is with
  | nil => exact .pure _
  | cons i is ih =>
    cases i with
    | item i => exact ((keeps_loadItem hB) _ _ _).bind fun _ => ih
    | action t => exact (keeps_emit _).bind fun _ => ih

theorem keeps_catchHelper (e : Exc) (tys : List Ty) : Keeps B k k (catchHelper cfg e tys : Comp AbsStore _) := by
  induction tys with
  | nil => exact (keeps_newError hB) _
  | cons ty tys ih =>
    refine Keeps.bind ih fun id => ?_
    dsimp only
    split
    · exact ((keeps_errorIdLoad hB) _ _).bind fun _ => .pure _
    · exact .pure _

theorem keeps_importCode (ec : ErrorCode) (u : Val) : Keeps B k k (importCode cfg ec u : Comp AbsStore _) := by
  unfold importCode
  split
  · exact .pure _
  · refine (keeps_newId cfg).bind fun _ => (keeps_emit _).bind fun _ => Keeps.bind ?_ fun _ => .pure _
    refine (keeps_assertTagged _).bind fun _ => ((keeps_slotGet hB) _).bind fun s => ?_
    split
    · exact .ite ((keeps_slotSet hB) _ _ _) (.pure _)
    · exact .ite ((keeps_dynamicLoad hB) _ _ _) (.pure _)
  · exact .ub

omit hB in
theorem keeps_checkId (m : Id) (b : Bool) : Keeps B k k (checkId cfg m b : Comp AbsStore Id) :=
  keeps_currentId.bind fun _ => .ite (.pure _) (.ite (keeps_newId cfg) (.pure _))

omit hB in
theorem keeps_getId (m : Id) : Keeps B k k (getId cfg m : Comp AbsStore Id) :=
  keeps_currentId.bind fun _ => .ite (.pure _) (keeps_newId cfg)

theorem keeps_unloadDaNodes (id : Id) (ns : List (Ty × Cell)) : Keeps B k k (unloadDaNodes cfg id ns : Comp AbsStore _) := by
  induction ns with
  | nil => exact .pure _
  | cons n ns ih => exact ((keeps_slotUnload hB) _ _ _).bind fun _ => ih

theorem keeps_unloadCell (id : Id) (c : CtxCell) : Keeps B k k (unloadCell cfg id c : Comp AbsStore _) := by
  cases c with
  | obj t x => exact (keeps_slotUnload hB) _ _ _
  | da key ns =>
    unfold unloadCell
    have h : Keeps B k k (if key ≠ 0#32 then (do setCur id; unloadDaNodes cfg id ns) else Pure.pure () : Comp AbsStore Unit) :=
      .ite ((keeps_setCur _).bind fun _ => (keeps_unloadDaNodes hB) _ _) (.pure _)
    dsimp only
    split
    · exact (Keeps.ub (k' := k)).bind fun _ => h
    · exact h

theorem keeps_unloadCells (id : Id) (cells : List CtxCell) : Keeps B k k (unloadCells cfg id cells : Comp AbsStore _) := by
  induction cells with
  | nil => exact .pure _
  | cons c cs ih => exact Keeps.bind ih fun _ => (keeps_unloadCell hB) _ _

omit hB in
theorem keeps_unpackId (e : Exc) : Keeps B k k (unpackId e : Comp AbsStore _) := by
  unfold unpackId
  refine .ite ?_ (keeps_currentError.bind fun _ => .pure _)
  split
  · exact .pure _
  · exact .pure _
  · exact keeps_currentError.bind fun _ => .pure _

omit hB in
theorem keeps_destroyExc (e : Exc) : Keeps B k k (destroyExc e : Comp AbsStore _) := by
  unfold destroyExc
  split
  · exact keeps_getCur.bind fun _ => .ite (keeps_setCur _) (.pure _)
  · exact .pure _

omit hB in
theorem keeps_ctxLoc (id : Id) (cells : List CtxCell) : Keeps B k k (ctxLoc id cells : Comp AbsStore _) := by
  unfold ctxLoc
  split
  · exact .pure _
  · exact .ite .ub (.pure _)

theorem keeps_unloadNodes (id : Id) (ns : List CapNode) : Keeps B k k (unloadNodes cfg id ns : Comp AbsStore _) := by
  induction ns with
  | nil => exact .pure _
  | cons n ns ih =>
    cases n with
    | obj ty c =>
      unfold unloadNodes
      cases c.hasValue id with
      | some v => exact (keeps_emit _).bind fun _ => ((keeps_slotUnload hB) _ _ _).bind fun _ => ih
      | none => exact ((keeps_slotUnload hB) _ _ _).bind fun _ => ih
    | exc e => exact .pure _

theorem keeps_resultUnload (r : ErrRes) : Keeps B k k (resultUnload cfg r : Comp AbsStore _) := by
  cases r with
  | plain id => exact .pure _
  | captured id ns =>
    refine (keeps_setCur _).bind fun _ => ((keeps_unloadNodes hB) _ _).bind fun o => ?_
    cases o <;> exact .pure _

theorem keeps_unloadOut (o : Out) : Keeps B k k (unloadOut cfg o : Comp AbsStore _) := by
  cases o with
  | err r => exact (keeps_resultUnload hB) r
  | _ => exact .pure _

omit hB in
theorem keeps_noErr (o : Out) : Keeps B k k (noErr o : Comp AbsStore Out) := by
  cases o with
  | err r => exact .ub
  | _ => exact .pure _

omit hB in
theorem keeps_extractCaptured (id : Id) (cells : List CtxCell) (ex : Option Exc) : Keeps B k k (extractCaptured id cells ex : Comp AbsStore Out) :=
  (keeps_assertTagged _).bind fun _ => .pure _

section
variable {specs : List (List Arg)} {body : Nat → List ArgVal → Comp AbsStore Out} (hbody : ∀ i args, Keeps B k k (body i args))
include hbody

omit hB in
theorem keeps_callHandler (cells : List CtxCell) (id : Id) (ex : Option Exc) (loc : Option Val) (i : Nat) :
    Keeps B k k (callHandler cfg specs body cells id ex loc i) := by
  unfold callHandler
  cases specs[i]? with
  | none => exact .ub
  | some args =>
    dsimp only
    cases getArgs cfg cells id ex loc args with
    | none => exact .ub
    | some vs => exact (keeps_emit _).bind fun _ => hbody _ _

theorem keeps_catchPath (e : Exc) : Keeps B (k + 1) k (catchPath cfg specs body e) := by
  unfold catchPath
  refine keeps_popCtx.bind fun cells => (keeps_unpackId e).bind fun p => (keeps_pushHandling _).bind fun _ => (keeps_ctxLoc _ _).bind fun loc => ?_
  cases selectSome cfg cells p.1 (if p.2.isStd = true then some p.2 else none) specs with
  | some i =>
    exact (keeps_callHandler hbody _ _ _ _ _).bind fun o => keeps_popHandling.bind fun _ => (keeps_destroyExc _).bind fun _ => .pure _
  | none => exact ((keeps_unloadCells hB) _ _).bind fun _ => keeps_popHandling.bind fun _ => .pure _

theorem keeps_tryHandleAll {block : Comp AbsStore Out} (hb : Keeps B (k + 1) (k + 1) block) : Keeps B k k (tryHandleAll cfg specs block body) := by
  unfold tryHandleAll
  refine (keeps_pushCtx _).bind fun _ => hb.bind fun o => ((keeps_unloadOut hB) o).bind fun o => ?_
  cases o with
  | val v => exact keeps_popCtx.bind fun _ => .pure _
  | err r =>
    refine ((keeps_resultUnload hB) r).bind fun _ => keeps_popCtx.bind fun cells => (keeps_ctxLoc _ _).bind fun loc => ?_
    cases selectAll cfg cells r.errId none specs with
    | some i => exact (keeps_callHandler hbody _ _ _ _ _).bind fun o => keeps_noErr o
    | none => exact .ub
  | exc e => exact ((keeps_catchPath hB hbody) e).bind fun p => keeps_noErr p.1

theorem keeps_tryHandleSome {block : Comp AbsStore Out} (hb : Keeps B (k + 1) (k + 1) block) : Keeps B k k (tryHandleSome cfg specs block body) := by
  unfold tryHandleSome
  refine (keeps_pushCtx _).bind fun _ => hb.bind fun o => ((keeps_unloadOut hB) o).bind fun o => ?_
  have hfin : ∀ (o : Out) (cells : List CtxCell),
      Keeps B k k (match o with | .err r' => (do unloadCells cfg r'.errId cells; Pure.pure o) | _ => Pure.pure o : Comp AbsStore Out) := by
    intro o cells
    cases o with
    | err r => exact ((keeps_unloadCells hB) _ _).bind fun _ => .pure _
    | _ => exact .pure _
  cases o with
  | val v => exact keeps_popCtx.bind fun _ => .pure _
  | err r =>
    refine ((keeps_resultUnload hB) r).bind fun _ => keeps_popCtx.bind fun cells => (keeps_ctxLoc _ _).bind fun loc => ?_
    cases selectSome cfg cells r.errId none specs with
    | some i => exact (keeps_callHandler hbody _ _ _ _ _).bind fun o => hfin o cells
    | none => exact (Keeps.pure _).bind fun o => hfin o cells
  | exc e => exact ((keeps_catchPath hB hbody) e).bind fun p => hfin p.1 p.2

theorem keeps_tryCatch {block : Comp AbsStore Out} (hb : Keeps B (k + 1) (k + 1) block) : Keeps B k k (tryCatch cfg specs block body) := by
  unfold tryCatch
  refine (keeps_pushCtx _).bind fun _ => hb.bind fun o => ?_
  cases o with
  | exc e => exact ((keeps_catchPath hB hbody) e).bind fun p => .pure _
  | _ => exact keeps_popCtx.bind fun _ => .pure _

end

theorem keeps_eval (p : Prog) : Keeps B k k (eval cfg p : Comp AbsStore Out) := by
  induction p generalizing k with
  | ret o => exact .pure _
  | newError items k ih => exact ((keeps_newError hB) _).bind fun id => ih id
  | load id items k ih => exact ((keeps_errorIdLoad hB) _ _).bind fun _ => ih
  | importCode ec v k ih => exact ((keeps_importCode hB) _ _).bind fun id => ih id
  | currentError k ih => exact keeps_currentError.bind fun id => ih id
  | bind p k ke ih ihk ihe =>
    rw [eval]
    refine ih.bind fun o => ?_
    cases o with
    | val v => exact ihk v
    | err r => exact ihe r
    | exc e => exact .pure _
  | onError items body ih =>
    refine keeps_currentId.bind fun _ => ih.bind fun o => (keeps_checkId _ _).bind fun id => ?_
    dsimp only
    split
    · exact (keeps_assertTagged _).bind fun _ => ((keeps_triggerItems hB) _ _).bind fun _ => .pure _
    · exact .pure _
  | monNew k ih => exact keeps_currentId.bind fun id => ih id
  | monCheck m k ih => exact (keeps_checkId _ _).bind fun id => ih _
  | monAssigned m k ih => exact (keeps_getId _).bind fun id => ih _
  | handleAll specs block body ih ihb => exact (keeps_tryHandleAll hB) (fun i args => ihb i args) ih
  | handleSome specs block body ih ihb => exact (keeps_tryHandleSome hB) (fun i args => ihb i args) ih
  | tryCatch specs block body ih ihb => exact (keeps_tryCatch hB) (fun i args => ihb i args) ih
  | captureAll block ih =>
    unfold eval tryCaptureAll
    cases cfg.capture with
    | false =>
      refine (Keeps.ub (k' := k)).bind fun _ => (keeps_pushCtx _).bind fun _ => Keeps.bind ih fun o => ?_
      cases o with
      | val v => exact keeps_popCtx.bind fun _ => .pure _
      | err r => exact keeps_popCtx.bind fun _ => keeps_currentException.bind fun _ => keeps_extractCaptured _ _ _
      | exc e => exact keeps_popCtx.bind fun _ => (keeps_unpackId _).bind fun _ => keeps_extractCaptured _ _ _
    | true =>
      refine (keeps_pushCtx _).bind fun _ => Keeps.bind ih fun o => ?_
      cases o with
      | val v => exact keeps_popCtx.bind fun _ => .pure _
      | err r => exact keeps_popCtx.bind fun _ => keeps_currentException.bind fun _ => keeps_extractCaptured _ _ _
      | exc e => exact keeps_popCtx.bind fun _ => (keeps_unpackId _).bind fun _ => keeps_extractCaptured _ _ _
  | captureAllVoid block ih =>
    unfold eval tryCaptureAllVoid
    cases cfg.capture with
    | false =>
      refine (Keeps.ub (k' := k)).bind fun _ => (keeps_pushCtx _).bind fun _ => Keeps.bind ih fun o => ?_
      cases o with
      | val v => exact .ub
      | err r => exact .ub
      | exc e => exact keeps_popCtx.bind fun _ => (keeps_unpackId _).bind fun _ => keeps_extractCaptured _ _ _
    | true =>
      refine (keeps_pushCtx _).bind fun _ => Keeps.bind ih fun o => ?_
      cases o with
      | val v => exact .ub
      | err r => exact .ub
      | exc e => exact keeps_popCtx.bind fun _ => (keeps_unpackId _).bind fun _ => keeps_extractCaptured _ _ _
  | excToResult tys block ih =>
    refine Keeps.bind ih fun o => ?_
    cases o with
    | exc e => exact ((keeps_catchHelper hB) _ _).bind fun _ => .pure _
    | _ => exact .pure _
  | cppCatch block h ih ihh =>
    refine Keeps.bind ih fun o => ?_
    cases o with
    | exc e => exact (keeps_pushHandling _).bind fun _ => (ihh e).bind fun o => keeps_popHandling.bind fun _ => (keeps_destroyExc _).bind fun _ => .pure _
    | _ => exact .pure _
  | cppRethrow block h ih ihh =>
    refine Keeps.bind ih fun o => ?_
    cases o with
    | exc e =>
      refine (keeps_pushHandling _).bind fun _ => (ihh e).bind fun o => keeps_popHandling.bind fun _ => ?_
      cases o with
      | exc e' => exact (keeps_destroyExc _).bind fun _ => .pure _
      | _ => exact .pure _
    | _ => exact .pure _
  | unload r => exact (keeps_resultUnload hB) r
  | value r tag =>
    refine ((keeps_resultUnload hB) r).bind fun o => ?_
    cases o <;> exact .pure _

end

end Leaf
