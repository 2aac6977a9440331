import Verif.CaptureLemmas

/-!
# C22: errors travel through any number of scopes

An error is reported by `new_error` with some objects, and leaves the reporting function as a failed `result` or as an exception. Around it are
any number of layers of code that do not handle it. The theorem: the first enclosing scope with a suitable handler calls the first suitable
handler, with the objects the error was reported with; what is suitable, and what it receives, is determined by these objects alone.

The theorems are `_partial` because the claim is false for `try_catch` scopes on the way of a failed `result` (`C22_refuted_try_catch`).
-/

namespace Leaf

/-! ## Specification -/

/-- What a layer of code around the reporting function does. -/
inductive Layer
  /-- `try_handle_some` with handlers none of which is suitable -/
  | handle (specs : List (List Arg)) (body : Nat → List ArgVal → Prog)
  /-- `try_catch` with handlers none of which is suitable -/
  | catch_ (specs : List (List Arg)) (body : Nat → List ArgVal → Prog)
  /-- `auto g = on_error(items...)` -/
  | guard (items : List OnItem)
  /-- `if( auto r = f() ) { ... } else return r.error();` -/
  | forward (onValue : Val → Prog)

/-- Put a layer around a program. -/
def Layer.around : Layer → Prog → Prog
  | .handle specs body, p => .handleSome specs p body
  | .catch_ specs body, p => .tryCatch specs p body
  | .guard items, p => .onError items p
  | .forward k, p => .bind p k (fun r => .ret (.err r.forward))

/-- The reporting function: calls `new_error(items...)`, then returns a failed result, or throws. -/
def report (items : List Item) : Option (Id → Exc) → Prog
  | none => .newError items (fun id => .ret (.err (.plain id)))
  | some f => .newError items (fun id => .ret (.exc (f id)))

/-- The program consisting of the reporting function in the given layers, outermost first. -/
def within (ls : List Layer) (p : Prog) : Prog := ls.foldr Layer.around p

/-- The objects attached to the error by `new_error(items...)`: for each type, the last one. -/
def objects (cfg : Cfg) (items : List Item) : Ty → Option Val := fun ty => items.foldl (Item.step cfg false ty) none

/-- The objects attached after a layer: a guard adds those the error does not have yet (and calls functions taking `E &`). -/
def Layer.attach (cfg : Cfg) (A : Ty → Option Val) : Layer → (Ty → Option Val)
  | .guard items => fun ty => (onItems items).foldl (Item.step cfg true ty) (A ty)
  | _ => A

/-- The objects attached to the error when it leaves all layers. -/
def attached (cfg : Cfg) (items : List Item) (ls : List Layer) : Ty → Option Val :=
  ls.foldr (fun l A => l.attach cfg A) (objects cfg items)

/-- The object of type `ty` a handler can see for an error with objects `A`: the attached one (unless the type cannot be stored), or else (a
sub-object of) the exception. -/
def SeesOf (cfg : Cfg) (A : Ty → Option Val) (ex : Option Exc) (ty : Ty) (v : Val) : Prop :=
  (cfg.isAbstract ty = false ∧ A ty = some v) ∨
    ((cfg.isAbstract ty = true ∨ A ty = none) ∧ ∃ e, ex = some e ∧ e.cast ty = some v)

/-- The handler is suitable for an error with objects `A`. -/
def SuitableOf (cfg : Cfg) (A : Ty → Option Val) (ex : Option Exc) (hd : List Arg) : Prop :=
  ∀ a ∈ hd, match a with
    | .req ty => ∃ v, SeesOf cfg A ex ty v
    | .pred ty p => ∃ v, SeesOf cfg A ex ty v ∧ p v = true
    | .catch_ p => ∃ e, ex = some e ∧ p e = true
    | _ => True

def FirstSuitableOf (cfg : Cfg) (A : Ty → Option Val) (ex : Option Exc) (specs : List (List Arg)) (i : Nat) : Prop :=
  (∃ hd, specs[i]? = some hd ∧ SuitableOf cfg A ex hd) ∧ ∀ j < i, ∀ hd, specs[j]? = some hd → ¬ SuitableOf cfg A ex hd

/-- The handlers mention objects of type `ty`: their scope keeps a slot for them. (`diagnostic_info` and `diagnostic_details` mention the source
location; `error_info` does not.) -/
def Mentions (cfg : Cfg) (specs : List (List Arg)) (ty : Ty) : Prop := ∃ hd ∈ specs, ∃ a ∈ hd, Needs cfg a (.obj ty)

/-- The source location shown is the attached one, if the handlers mention it. -/
def LocationOf (cfg : Cfg) (specs : List (List Arg)) (A : Ty → Option Val) (loc : Option Val) : Prop :=
  ∀ v, loc = some v ↔ Mentions cfg specs tySrcLoc ∧ A tySrcLoc = some v

/-- The objects listed are the attached ones, of the types the handlers mention. -/
def ListsMentioned (cfg : Cfg) (specs : List (List Arg)) (A : Ty → Option Val) (objs : List (Ty × Val)) : Prop :=
  (objs.map Prod.fst).Nodup ∧ ∀ ty v, (ty, v) ∈ objs ↔ Mentions cfg specs ty ∧ A ty = some v

/-- The captured objects listed are attached ones, of types the handlers do not mention. If diagnostics are enabled, all of them are listed, except
those of a type kept by an enclosing scope. -/
def ListsOthers (cfg : Cfg) (specs : List (List Arg)) (outer : List Scope) (A : Ty → Option Val) (objs : List (Ty × Val)) : Prop :=
  (objs.map Prod.fst).Nodup ∧ (∀ ty v, (ty, v) ∈ objs → ¬ Mentions cfg specs ty ∧ A ty = some v) ∧
    (cfg.capture = true → ∀ ty v, ¬ Mentions cfg specs ty → A ty = some v → (∀ s ∈ outer, ¬ Handles ty s ∧ ¬ HasCaptured ty s) → (ty, v) ∈ objs)

/-- What the handler gets for each argument. -/
def ReceivesOf (cfg : Cfg) (specs : List (List Arg)) (outer : List Scope) (A : Ty → Option Val) (id : Id) (ex : Option Exc) : Arg → ArgVal → Prop
  | .req ty, .obj ty' v => ty' = ty ∧ SeesOf cfg A ex ty v
  | .ptr ty, .ptr ty' (some v) => ty' = ty ∧ SeesOf cfg A ex ty v
  | .ptr ty, .ptr ty' none => ty' = ty ∧ ∀ v, ¬ SeesOf cfg A ex ty v
  | .pred ty _, .obj ty' v => ty' = ty ∧ SeesOf cfg A ex ty v
  | .catch_ _, .exc e => ex = some e
  | .info, .info id' ex' loc => id' = id ∧ ex' = ex ∧ LocationOf cfg specs A loc
  | .diag, .diag id' ex' loc objs => id' = id ∧ ex' = ex ∧ LocationOf cfg specs A loc ∧ ListsMentioned cfg specs A objs
  | .details, .details id' ex' loc objs cap =>
    id' = id ∧ ex' = ex ∧ LocationOf cfg specs A loc ∧ ListsMentioned cfg specs A objs ∧ ListsOthers cfg specs outer A cap
  | _, _ => False

/-- The layer does not handle an error with objects `A`. A `try_catch` does not propagate objects of failed results (see
`C22_refuted_try_catch`), so is allowed for exceptions only. -/
def Layer.Passes (cfg : Cfg) (A : Ty → Option Val) (ex : Option Exc) (thrown : Bool) : Layer → Prop
  | .handle specs _ => ∀ hd ∈ specs, ¬ SuitableOf cfg A ex hd
  | .catch_ specs _ => thrown = true ∧ ∀ hd ∈ specs, ¬ SuitableOf cfg A ex hd
  | .guard _ => True
  | .forward _ => True

/-- No layer handles the error. -/
def PassesAll (cfg : Cfg) (items : List Item) (ex : Option Exc) (thrown : Bool) : List Layer → Prop
  | [] => True
  | l :: ls => PassesAll cfg items ex thrown ls ∧ l.Passes cfg (attached cfg items ls) ex thrown

/-- The id to be generated next is new to the thread. -/
structure FreshId (cfg : Cfg) (w : World PtrStore) : Prop where
  cur : nextId cfg w ≠ w.cur
  stored : ∀ ty v, ¬ Stored ty (nextId cfg w) v (scopes w)

/-! ## Suitability is determined by the attached objects -/

section
variable {cfg : Cfg} {specs : List (List Arg)} {s : Scope} {ss : List Scope} {A : Ty → Option Val} {id : Id} {ex : Option Exc}

theorem slot_of (hs : s.map CtxCell.cellTy = deduce cfg specs) (hg : FramesGood [s]) (hA : Attached cfg id A (s :: ss)) {ty : Ty}
    (hm : Mentions cfg specs ty) (v : Val) : CtxCell.obj ty (some (id, v)) ∈ s ↔ A ty = some v := by
  have hso := scopeOk_deduced hs
  have hcell : CellTy.obj ty ∈ s.map CtxCell.cellTy := by
    rw [hs]
    exact ((C17_deduction cfg specs).1 _).mpr hm
  have hw : wanted cfg ty (s :: ss) = true := by
    rw [wanted_iff]
    obtain ⟨x, hx, he⟩ := List.mem_map.mp hcell
    cases x with
    | da k ns => simp [CtxCell.cellTy] at he
    | obj t c =>
      simp only [CtxCell.cellTy, CellTy.obj.injEq] at he
      subst he
      exact Or.inl ⟨s, by simp, Or.inl ⟨c, hx⟩⟩
  have h1 := hA.1 ty hw
  rw [← scope_avail (hg s (by simp)).2 hcell] at h1
  rw [← h1]
  constructor
  · intro h
    rw [findCell_of_mem hso.nodup h]
    simp [Cell.hasValue]
  · intro h
    cases hf : findCell ty s with
    | none => simp [hf] at h
    | some c =>
      simp only [hf, Option.bind_some] at h
      rw [hasValue_eq_some] at h
      subst h
      exact findCell_mem hf

theorem mentions_of_slot (hs : s.map CtxCell.cellTy = deduce cfg specs) {ty : Ty} (h : Handles ty s) : Mentions cfg specs ty := by
  obtain ⟨c, h⟩ := h
  refine ((C17_deduction cfg specs).1 _).mp ?_
  rw [← hs]
  exact List.mem_map.mpr ⟨_, h, rfl⟩

theorem stored_of (hs : s.map CtxCell.cellTy = deduce cfg specs) (hg : FramesGood [s]) (hA : Attached cfg id A (s :: ss)) {ty : Ty} (v : Val) :
    CtxCell.obj ty (some (id, v)) ∈ s ↔ Mentions cfg specs ty ∧ A ty = some v := by
  constructor
  · intro h
    have hm := mentions_of_slot hs ⟨_, h⟩
    exact ⟨hm, (slot_of hs hg hA hm v).mp h⟩
  · rintro ⟨hm, h⟩
    exact (slot_of hs hg hA hm v).mpr h

theorem mem_slotsIn {f : Scope} {ty : Ty} {c : Cell} : (ty, c) ∈ slotsIn f ↔ CtxCell.obj ty c ∈ f ∨ ∃ k ns, CtxCell.da k ns ∈ f ∧ (ty, c) ∈ ns := by
  unfold slotsIn
  rw [List.mem_flatMap]
  constructor
  · rintro ⟨x, hx, h⟩
    cases x with
    | obj t d =>
      simp only [List.mem_singleton, Prod.mk.injEq] at h
      obtain ⟨rfl, rfl⟩ := h
      exact Or.inl hx
    | da k ns => exact Or.inr ⟨k, ns, hx, h⟩
  · rintro (h | ⟨k, ns, h, h'⟩)
    · exact ⟨_, h, by simp⟩
    · exact ⟨_, h, h'⟩

theorem slotsIn_unique {f : Scope} (hn : (frameTys f).Nodup) {ty : Ty} {c d : Cell} (h : (ty, c) ∈ slotsIn f) (h' : (ty, d) ∈ slotsIn f) : c = d := by
  rw [← slotsIn_tys] at hn
  generalize slotsIn f = l at h h' hn
  induction l with
  | nil => simp at h
  | cons x l ih =>
    simp only [List.map_cons, List.nodup_cons] at hn
    simp only [List.mem_cons] at h h'
    rcases h with rfl | h <;> rcases h' with h' | h'
    · exact (Prod.mk.inj h').2.symm
    · exact absurd (List.mem_map.mpr ⟨_, h', rfl⟩) hn.1
    · subst h'
      exact absurd (List.mem_map.mpr ⟨_, h, rfl⟩) hn.1
    · exact ih h h' hn.2

theorem captured_of (hs : s.map CtxCell.cellTy = deduce cfg specs) (hg : FramesGood [s]) (hA : Attached cfg id A (s :: ss)) {hd : List Arg}
    (hm : hd ∈ specs) (ha : .details ∈ hd) {objs : List (Ty × Val)} (h : ListsCaptured s id objs) : ListsOthers cfg specs ss A objs := by
  have hn := (hg s (by simp)).2
  refine ⟨h.1, fun ty v hv => ?_, fun hc ty v h1 h2 h3 => ?_⟩
  · obtain ⟨k, ns, e1, e2⟩ := (h.2 ty v).mp hv
    have hin : (ty, some (id, v)) ∈ slotsIn s := mem_slotsIn.mpr (Or.inr ⟨k, ns, e1, e2⟩)
    refine ⟨fun hmen => ?_, ?_⟩
    · have hcell : CellTy.obj ty ∈ s.map CtxCell.cellTy := by
        rw [hs]
        exact ((C17_deduction cfg specs).1 _).mpr hmen
      obtain ⟨x, hx, he⟩ := List.mem_map.mp hcell
      cases x with
      | da k ns => simp [CtxCell.cellTy] at he
      | obj t c =>
        simp only [CtxCell.cellTy, CellTy.obj.injEq] at he
        subst he
        obtain ⟨pre, post, rfl⟩ := List.append_of_mem hx
        have happ : frameTys (pre ++ CtxCell.obj t c :: post) = frameTys pre ++ frameTys (CtxCell.obj t c :: post) := by simp [frameTys]
        rw [happ, frameTys_cons] at hn
        simp only [List.mem_append, List.mem_cons, reduceCtorEq, false_or] at e1
        rw [List.nodup_append] at hn
        rcases e1 with e1 | e1
        · exact hn.2.2 _ (List.mem_flatMap.mpr ⟨_, e1, List.mem_map.mpr ⟨_, e2, rfl⟩⟩) _ (by simp [CtxCell.tys]) rfl
        · have := hn.2.1
          simp only [CtxCell.tys, List.singleton_append, List.nodup_cons] at this
          exact this.1 (List.mem_flatMap.mpr ⟨_, e1, List.mem_map.mpr ⟨_, e2, rfl⟩⟩)
    · have hb : boundCell ty (s :: ss) = some (some (id, v)) := by
        cases hf : frameCell ty s with
        | none =>
          refine absurd ?_ (frameCell_none hf)
          rw [← slotsIn_tys]
          exact List.mem_map.mpr ⟨_, hin, rfl⟩
        | some c =>
          have := slotsIn_unique hn (frameCell_mem hf) hin
          subst this
          simp only [boundCell, hf]
      have hw : wanted cfg ty (s :: ss) = true := by unfold wanted; rw [hb]; rfl
      rw [← hA.1 ty hw]
      unfold avail
      rw [hb]
      simp [Cell.hasValue]
  · have hda : CellTy.da ∈ s.map CtxCell.cellTy := by
      rw [hs]
      exact ((C17_deduction cfg specs).1 _).mpr ⟨hd, hm, _, ha, .capture hc⟩
    obtain ⟨x, hx, he⟩ := List.mem_map.mp hda
    cases x with
    | obj t c => simp [CtxCell.cellTy] at he
    | da k ns =>
      have hw : wanted cfg ty (s :: ss) = true := by
        rw [wanted_iff]
        exact Or.inr ⟨hc, s, by simp, k, ns, hx⟩
      have hav := hA.1 ty hw
      rw [h2] at hav
      unfold avail at hav
      cases hb : boundCell ty (s :: ss) with
      | none => simp [hb] at hav
      | some c =>
        simp only [hb, Option.bind_some] at hav
        rw [hasValue_eq_some] at hav
        subst hav
        obtain ⟨f, hf, hin⟩ := boundCell_mem hb
        simp only [List.mem_cons] at hf
        rcases hf with rfl | hf
        · rcases mem_slotsIn.mp hin with hin | hin
          · exact absurd (mentions_of_slot hs ⟨_, hin⟩) h1
          · exact (h.2 ty v).mpr hin
        · rcases mem_slotsIn.mp hin with hin | ⟨k', ns', e1, e2⟩
          · exact absurd ⟨_, hin⟩ (h3 f hf).1
          · exact absurd ⟨k', ns', _, e1, e2⟩ (h3 f hf).2

theorem sees_of (hs : s.map CtxCell.cellTy = deduce cfg specs) (hg : FramesGood [s]) (hA : Attached cfg id A (s :: ss)) {hd : List Arg} (hm : hd ∈ specs)
    {ty : Ty} (hty : .req ty ∈ hd ∨ .ptr ty ∈ hd ∨ ∃ p, .pred ty p ∈ hd) (v : Val) : Sees s id ex ty v ↔ SeesOf cfg A ex ty v := by
  have hso := scopeOk_deduced hs
  cases ha : cfg.isAbstract ty with
  | true =>
    have hno : ∀ c, CtxCell.obj ty c ∉ s := fun c hc => by
      have := hso.storable ty ⟨c, hc⟩
      rw [ha] at this
      simp at this
    unfold Sees SeesOf
    simp only [ha, Bool.true_eq_false, false_and, true_or, true_and, false_or, hno, not_false_eq_true, implies_true]
  | false =>
    have hneed : ∃ a ∈ hd, Needs cfg a (.obj ty) := by
      rcases hty with h | h | ⟨p, h⟩
      · exact ⟨_, h, .req ty ha⟩
      · exact ⟨_, h, .ptr ty ha⟩
      · exact ⟨_, h, .pred ty p ha⟩
    have key := fun v => slot_of hs hg hA ⟨hd, hm, hneed⟩ v
    unfold Sees SeesOf
    simp only [key, ha, true_and, Bool.false_eq_true, false_or]
    have : (∀ v', ¬ A ty = some v') ↔ A ty = none := by
      cases A ty <;> simp
    rw [this]

theorem suitable_of (hs : s.map CtxCell.cellTy = deduce cfg specs) (hg : FramesGood [s]) (hA : Attached cfg id A (s :: ss)) {hd : List Arg} (hm : hd ∈ specs) :
    Suitable s id ex hd ↔ SuitableOf cfg A ex hd := by
  unfold Suitable SuitableOf
  refine forall_congr' fun a => forall_congr' fun ha => ?_
  cases a with
  | req ty => simp only [ArgAvailable, sees_of hs hg hA hm (Or.inl ha)]
  | pred ty p => simp only [ArgAvailable, sees_of hs hg hA hm (Or.inr (Or.inr ⟨p, ha⟩))]
  | catch_ p => rfl
  | _ => simp [ArgAvailable]

theorem firstSuitable_of (hs : s.map CtxCell.cellTy = deduce cfg specs) (hg : FramesGood [s]) (hA : Attached cfg id A (s :: ss)) {i : Nat} :
    FirstSuitable s id ex specs i ↔ FirstSuitableOf cfg A ex specs i := by
  unfold FirstSuitable FirstSuitableOf
  constructor
  · rintro ⟨⟨hd, h1, h2⟩, h3⟩
    refine ⟨⟨hd, h1, (suitable_of hs hg hA (List.mem_of_getElem? h1)).mp h2⟩, fun j hj hd hh hc => h3 j hj hd hh ?_⟩
    exact (suitable_of hs hg hA (List.mem_of_getElem? hh)).mpr hc
  · rintro ⟨⟨hd, h1, h2⟩, h3⟩
    refine ⟨⟨hd, h1, (suitable_of hs hg hA (List.mem_of_getElem? h1)).mpr h2⟩, fun j hj hd hh hc => h3 j hj hd hh ?_⟩
    exact (suitable_of hs hg hA (List.mem_of_getElem? hh)).mp hc

theorem receives_of (hs : s.map CtxCell.cellTy = deduce cfg specs) (hg : FramesGood [s]) (hA : Attached cfg id A (s :: ss)) {hd : List Arg} (hm : hd ∈ specs)
    {a : Arg} (ha : a ∈ hd) {x : ArgVal} (h : Receives s id ex a x) :
    ReceivesOf cfg specs ss A id ex a x := by
  cases a with
  | req ty =>
    have := fun v => sees_of (ex := ex) hs hg hA hm (Or.inl ha) v
    cases x with
    | obj t v => simpa [this, Receives, ReceivesOf] using h
    | _ => simp [Receives] at h
  | ptr ty =>
    have := fun v => sees_of (ex := ex) hs hg hA hm (Or.inr (Or.inl ha)) v
    cases x with
    | ptr t o => cases o <;> simpa [this, Receives, ReceivesOf] using h
    | _ => simp [Receives] at h
  | pred ty p =>
    have := fun v => sees_of (ex := ex) hs hg hA hm (Or.inr (Or.inr ⟨p, ha⟩)) v
    cases x with
    | obj t v => simpa [this, Receives, ReceivesOf] using h
    | _ => simp [Receives] at h
  | catch_ p => cases x <;> first | exact h | exact h.elim
  | info =>
    cases x with
    | info => exact ⟨h.1, h.2.1, fun v => (h.2.2 v).trans (stored_of hs hg hA v)⟩
    | _ => exact h.elim
  | diag =>
    cases x with
    | diag =>
      obtain ⟨h1, h2, h3, h4⟩ := h
      exact ⟨h1, h2, fun v => (h3 v).trans (stored_of hs hg hA v), h4.1, fun ty v => (h4.2 ty v).trans (stored_of hs hg hA v)⟩
    | _ => exact h.elim
  | details =>
    cases x with
    | details =>
      obtain ⟨h1, h2, h3, h4, h5⟩ := h
      exact ⟨h1, h2, fun v => (h3 v).trans (stored_of hs hg hA v), ⟨h4.1, fun ty v => (h4.2 ty v).trans (stored_of hs hg hA v)⟩,
        captured_of hs hg hA hm ha h5⟩
    | _ => exact h.elim

end

/-! ## One layer -/

/-- The outcome reports error `id`, as a failed result or (`thrown`) as exception `e`, possibly examined on the way. -/
def FailsWith (id : Id) : Option Exc → Out → Prop
  | none, o => ∃ k, o = .err (.plain k) ∧ makeErrorId k = id
  | some e, o => ∃ e', o = .exc e' ∧ e'.examined = e.examined

/-- No handler was called between the states `w` and `w'`. -/
def NoHandlerCalled (w w' : World PtrStore) : Prop :=
  ∃ es, w'.trace = es ++ w.trace ∧ ∀ id ex i args, .handled id ex i args ∉ es

theorem noHandler_trans {w w1 w2 : World PtrStore} (h1 : NoHandlerCalled w w1) (h2 : NoHandlerCalled w1 w2) : NoHandlerCalled w w2 := by
  obtain ⟨es1, e1, q1⟩ := h1
  obtain ⟨es2, e2, q2⟩ := h2
  refine ⟨es2 ++ es1, by rw [e2, e1, List.append_assoc], fun id ex i args h => ?_⟩
  rcases List.mem_append.mp h with h | h
  · exact q2 _ _ _ _ h
  · exact q1 _ _ _ _ h

theorem noHandler_eq {w w' : World PtrStore} (h : w'.trace = w.trace) : NoHandlerCalled w w' := ⟨[], h, by simp⟩

theorem itemEvents_quiet (cfg : Cfg) (keep : Bool) (id : Id) (i : Item) (fs : List (List CtxCell)) :
    ∀ id' ex k args, .handled id' ex k args ∉ itemEvents cfg keep id i fs := by
  intro id' ex k args
  unfold itemEvents
  split
  · simp
  · split <;> simp
  · split <;> simp

theorem itemsEvents_quiet (cfg : Cfg) (keep : Bool) (id : Id) (is : List Item) (fs : List (List CtxCell)) :
    ∀ id' ex k args, .handled id' ex k args ∉ itemsEvents cfg keep id is fs := by
  induction is generalizing fs with
  | nil => simp [itemsEvents]
  | cons i is ih =>
    intro id' ex k args h
    rw [itemsEvents, List.mem_append] at h
    exact h.elim (ih _ _ _ _ _) (itemEvents_quiet _ _ _ _ _ _ _ _ _)

theorem onEvents_quiet (cfg : Cfg) (id : Id) (is : List OnItem) (fs : List (List CtxCell)) :
    ∀ id' ex k args, .handled id' ex k args ∉ onEvents cfg id is fs := by
  induction is generalizing fs with
  | nil => simp [onEvents]
  | cons i is ih =>
    intro id' ex k args h
    cases i with
    | item i =>
      rw [onEvents, List.mem_append] at h
      exact h.elim (ih _ _ _ _ _) (itemEvents_quiet _ _ _ _ _ _ _ _ _)
    | action t =>
      rw [onEvents, List.mem_append] at h
      exact h.elim (ih _ _ _ _ _) (by simp)

/-- No objects of the current error of the thread are stored in active scopes. -/
def Quiet (w : World PtrStore) : Prop := ∀ ty v, ¬ Stored ty (makeErrorId w.cur) v (scopes w)

/-- Run in any state where `id` is the next id to be generated, and new, the program generates `id` and fails with that error, objects `A` attached,
and no handler is called. (`KeyStep` is used for C27 only: the program does not capture objects of other errors. `q` is used for C57 only: the
program may rely on there being no objects of the current error.) -/
def Reports (cfg : Cfg) (da : Bool) (id : Id) (A : Ty → Option Val) (e : Option Exc) (p : Prog) (q : Bool := false) : Prop :=
  ∀ w : World PtrStore, ThreadOk w → (da = false → NoCapturingScope w) → FreshId cfg w → nextId cfg w = id → (q = true → Quiet w) →
    ∃ o w', eval cfg p w = some (o, w') ∧ FailsWith id e o ∧ w'.cur = id ∧ Attached cfg id A (scopes w') ∧ KeyStep id (scopes w) (scopes w') ∧
      NoHandlerCalled w w' ∧ .gen id ∈ w'.trace

theorem seenId_examined (e e' : Exc) (cur : Id) (h : e'.examined = e.examined) : e'.seenId cur = e.seenId cur := by
  obtain ⟨_, _, h1, h2, _⟩ := C21_same_exception e
  obtain ⟨_, _, h3, h4, _⟩ := C21_same_exception e'
  rw [h] at h3 h4
  unfold Exc.seenId
  rw [← h1, ← h2, ← h3, ← h4]

theorem examined_twice (e : Exc) : e.examined.examined = e.examined := by
  cases e with
  | mk tag isStd idSrc casts clear => cases isStd <;> cases idSrc <;> rfl

section
variable {cfg : Cfg} {specs : List (List Arg)} {block : Prog} {body : Nat → List ArgVal → Prog} {da : Bool} {w w1 : World PtrStore} {r : ErrRes} {e : Exc}
  {s : Scope} {ss : List Scope} {i : Nat} {A : Ty → Option Val} {id : Id} {eo : Option Exc} {p : Prog} {q : Bool}

theorem leave_result (hp : (Prog.handleSome specs block body).WF cfg da) (hw : ThreadOk w) (hda : da = false → NoCapturingScope w)
    (h : attempt cfg (deduce cfg specs) (eval cfg block) w = some (.err r, w1)) (hs : scopes w1 = s :: ss)
    (hn : ∀ hd ∈ specs, ¬ Suitable s r.errId none hd) :
    ∃ w', eval cfg (.handleSome specs block body) w = some (.err r, w') ∧ w'.cur = unloadCur r.errId s w1.cur ∧
      scopes w' = unloadFs cfg r.errId s ss ∧ w'.trace = w1.trace ∧ w'.ticks = w1.ticks := by
  obtain ⟨h1, h2, h3, h4, h5⟩ := attempt_state hp.1 hw hda h hs
  have hid := errId_tagged r
  obtain ⟨w3, e1, e2, e3⟩ := popCtx_ptr h1 hs
  obtain ⟨f1, f2, f3, f4, f5, f6⟩ := threadOk_of_absW e2
  obtain ⟨w', g1, g2, g3⟩ := unload_ptr cfg hid (scopes_cons_good h1 hs) e3
  obtain ⟨k1, k2, k3, k4, k5, k6⟩ := threadOk_of_absW g3
  have hsel := ((C15_select_some (scopeOk_deduced h3) hid none specs).2).mpr hn
  refine ⟨w', handleSome_err_none (body := fun i args => eval cfg (body i args)) h e1 (ctxLoc_eq hid s w3) hsel g1, ?_, ?_, ?_, ?_⟩
  · rw [k2]; show unloadCur _ _ w3.cur = _; rw [f2]; rfl
  · rw [k6]
    have : scopes w3 = ss := f6
    show unloadFs cfg r.errId s (scopes w3) = _
    rw [this]
  · rw [k1]; show w3.trace = _; rw [f1]; rfl
  · rw [k5]; show w3.ticks = _; rw [f5]; rfl

theorem leave_catch (hw : ThreadOk w1) (hs : scopes w1 = s :: ss)
    (hsl : s.map CtxCell.cellTy = deduce cfg specs) (he : e.Ok)
    (hn : ∀ hd ∈ specs, ¬ Suitable s (e.seenId w1.cur) (shown e.examined) hd) :
    ∃ w', catchPath cfg specs (fun i args => eval cfg (body i args)) e w1 = some ((.exc e.examined, s), w') ∧
      w'.cur = unloadCur (e.seenId w1.cur) s w1.cur ∧ scopes w' = unloadFs cfg (e.seenId w1.cur) s ss ∧ w'.trace = w1.trace ∧
      nextId cfg w' = nextId cfg w1 ∧ w'.ticks = w1.ticks := by
  have hid := seenId_tagged he w1.cur
  obtain ⟨w3, e1, e2, e3⟩ := popCtx_ptr hw hs
  obtain ⟨f1, f2, f3, f4, f5, f6⟩ := threadOk_of_absW e2
  have hu := unpackId_eq (M := PtrStore) (e := e) (w := w3) e3.good.1
  rw [f2] at hu
  have hh : ∀ x ∈ e.examined :: w3.handling, Exc.Ok x := by
    intro x hx
    simp only [List.mem_cons] at hx
    rcases hx with rfl | hx
    · exact examined_ok he
    · exact e3.good.3 x hx
  have hok : ThreadOk { w3 with handling := e.examined :: w3.handling } := threadOk_with e3 _ _ hh
  obtain ⟨w', g1, g2, g3⟩ := unload_ptr cfg hid (scopes_cons_good hw hs) hok
  obtain ⟨k1, k2, k3, k4, k5, k6⟩ := threadOk_of_absW g3
  have hsel := ((C15_select_some (scopeOk_deduced hsl) hid (shown e.examined) specs).2).mpr hn
  refine ⟨_, catchPath_none (body := fun i args => eval cfg (body i args)) (w2 := w1) e1 hu (ctxLoc_eq hid s _) hsel g1, ?_, ?_, ?_, ?_, ?_⟩
  · show w'.cur = _
    rw [k2]; show unloadCur _ _ w3.cur = _; rw [f2]; rfl
  · show scopes w' = _
    rw [k6]
    have : scopes w3 = ss := f6
    show unloadFs cfg _ s (scopes w3) = _
    rw [this]
  · show w'.trace = _; rw [k1]; show w3.trace = _; rw [f1]; rfl
  · have q1 : w'.counter = w1.counter := by rw [k3]; show w3.counter = _; rw [f3]; rfl
    have q2 : w'.ticks = w1.ticks := by rw [k5]; show w3.ticks = _; rw [f5]; rfl
    unfold nextId
    show w'.counter + BitVec.ofNat 32 (4 * cfg.interf w'.ticks) + 4#32 = _
    rw [q1, q2]
  · show w'.ticks = _; rw [k5]; show w3.ticks = _; rw [f5]; rfl

theorem freshId_push (hf : FreshId cfg w) {w0 : World PtrStore} {spec : List CellTy} (h : pushCtx spec w = some ((), w0))
    (hs : scopes w0 = spec.map CellTy.empty :: scopes w) : FreshId cfg w0 ∧ nextId cfg w0 = nextId cfg w := by
  have hw : nextId cfg w0 = nextId cfg w ∧ w0.cur = w.cur := by
    unfold pushCtx at h
    cases hp : Store.push spec w.mem with
    | none => simp [hp] at h
    | some m =>
      simp only [hp, Option.map_some, Option.some.injEq, Prod.mk.injEq, true_and] at h
      subst h
      exact ⟨rfl, rfl⟩
  refine ⟨⟨by rw [hw.1, hw.2]; exact hf.cur, fun ty v => ?_⟩, hw.1⟩
  rw [hw.1, hs, stored_cons]
  rintro (hm | h)
  · clear hs h
    induction spec with
    | nil => simp [slotsIn_nil] at hm
    | cons t spec ih => cases t <;> simp [CellTy.empty, slotsIn_obj, slotsIn_da] at hm <;> exact ih hm
  · exact hf.stored ty v h

theorem stored_pushed {spec : List CellTy} {ty : Ty} {id : Id} {v : Val} {fs : List (List CtxCell)} :
    Stored ty id v (spec.map CellTy.empty :: fs) ↔ Stored ty id v fs := by
  rw [stored_cons]
  exact ⟨fun h => h.resolve_left stored_empty, Or.inr⟩

theorem pushCtx_cur {w0 : World PtrStore} {spec : List CellTy} (h : pushCtx spec w = some ((), w0)) : w0.cur = w.cur := by
  unfold pushCtx at h
  cases hp : Store.push spec w.mem with
  | none => simp [hp] at h
  | some m =>
    simp only [hp, Option.map_some, Option.some.injEq, Prod.mk.injEq, true_and] at h
    subst h
    rfl

theorem quiet_push (hq : Quiet w) {w0 : World PtrStore} {spec : List CellTy} (h : pushCtx spec w = some ((), w0))
    (hs : scopes w0 = spec.map CellTy.empty :: scopes w) : Quiet w0 := by
  intro ty v
  rw [pushCtx_cur h, hs, stored_pushed]
  exact hq ty v

theorem pushCtx_trace {w0 : World PtrStore} {spec : List CellTy} (h : pushCtx spec w = some ((), w0)) : w0.trace = w.trace := by
  unfold pushCtx at h
  cases hp : Store.push spec w.mem with
  | none => simp [hp] at h
  | some m =>
    simp only [hp, Option.map_some, Option.some.injEq, Prod.mk.injEq, true_and] at h
    subst h
    rfl

/-- Run the inner program in a new scope. -/
theorem reports_attempt (hb : block.WF cfg (da || capturing cfg specs)) (hr : Reports cfg (da || capturing cfg specs) id A eo block q)
    (hw : ThreadOk w) (hda : da = false → NoCapturingScope w) (hf : FreshId cfg w) (hid : nextId cfg w = id) (hq : q = true → Quiet w) :
    ∃ o w1 s ss, attemptRaw (deduce cfg specs) (eval cfg block) w = some (o, w1) ∧ FailsWith id eo o ∧ w1.cur = id ∧
      attempt cfg (deduce cfg specs) (eval cfg block) w = some (o, w1) ∧ scopes w1 = s :: ss ∧ Attached cfg id A (s :: ss) ∧
      ThreadOk w1 ∧ o.Ok ∧ s.map CtxCell.cellTy = deduce cfg specs ∧ KeyStep id (scopes w) ss ∧
      NoHandlerCalled w w1 ∧ .gen id ∈ w1.trace := by
  obtain ⟨o, w1, s, ss, h1, _, h2, h3, h4, h5, h6⟩ := attemptRaw_ptr (deduce_nodup cfg specs) hb hw (noDa_push fun h => noDa_of (hda h))
  obtain ⟨w0, e1, _, e3, e4⟩ := push_ptr hw (deduce_nodup cfg specs)
  obtain ⟨f1, f2⟩ := freshId_push hf e1 e4
  have hda0 : (da || capturing cfg specs) = false → NoCapturingScope w0 := by
    intro h
    rw [noCapturing_iff, e4]
    have : NoDa (deduce cfg specs :: shape (scopes w)) := noDa_push (fun h => noDa_of (hda h)) h
    simp only [shape, List.map_cons, List.map_map]
    have hc : ∀ t : CellTy, (CtxCell.cellTy ∘ CellTy.empty) t = t := fun t => by cases t <;> rfl
    rw [List.map_congr_left (fun t _ => hc t)]
    rw [List.map_id']
    exact this
  obtain ⟨o', w1', g1, g2, g3, g4, g5, g6, g7⟩ := hr w0 e3 hda0 f1 (f2.trans hid) (fun h => quiet_push (hq h) e1 e4)
  have h1' := h1
  unfold attemptRaw at h1'
  rw [bind_apply, e1, Option.bind_some, g1] at h1'
  simp only [Option.some.injEq, Prod.mk.injEq] at h1'
  obtain ⟨rfl, rfl⟩ := h1'
  rw [e4, h4] at g5
  refine ⟨o', w1', s, ss, h1, g2, g3, ?_, h4, h4 ▸ g4, h2, h3, h5, g5.2, noHandler_trans (noHandler_eq (pushCtx_trace e1)) g6, g7⟩
  rw [attempt_of_raw h1]
  cases eo with
  | none => obtain ⟨k, rfl, _⟩ := g2; rfl
  | some e => obtain ⟨e', rfl, _⟩ := g2; rfl

/-- The exception handlers can see. -/
def visible (eo : Option Exc) : Option Exc := eo.bind fun e => shown e.examined

theorem reports_handle (hp : (Prog.handleSome specs block body).WF cfg da) (hr : Reports cfg (da || capturing cfg specs) id A eo block q)
    (hid : ∀ e, eo = some e → e.seenId id = id) (hn : ∀ hd ∈ specs, ¬ SuitableOf cfg A (visible eo) hd) :
    Reports cfg da id A eo (.handleSome specs block body) q := by
  intro w hw hda hf hnx hq
  obtain ⟨o, w1, s, ss, h1, h2, h3, h4, h5, h6, h7, h8, h9, h10, h11, h12⟩ := reports_attempt hp.1 hr hw hda hf hnx hq
  have hg := scopes_cons_good h7 h5
  have hgs := (hg s (by simp)).2
  cases eo with
  | none =>
    obtain ⟨k, rfl, hk⟩ := h2
    have hk' : (ErrRes.plain k).errId = id := hk
    obtain ⟨w', e1, e2, e3, e4, _⟩ := leave_result hp hw hda h4 h5 (fun hd hm => by
      rw [hk', suitable_of h9 hg h6 hm]; exact hn hd hm)
    rw [hk'] at e2 e3
    refine ⟨_, w', e1, ⟨k, rfl, hk⟩, ?_, ?_, ?_, noHandler_trans h11 (noHandler_eq e4), by rw [e4]; exact h12⟩
    · rw [e2, h3, unloadCur_self]
    · rw [e3]; exact attached_leave hgs h6
    · rw [e3]; exact keyStep_trans h10 (keyStep_unloadFs _ _ _ _)
  | some e =>
    obtain ⟨e', rfl, he⟩ := h2
    have hk : e'.seenId w1.cur = id := by rw [h3, seenId_examined e e' id he]; exact hid e rfl
    obtain ⟨w', e1, e2, e3, e4, _⟩ := leave_catch (body := body) h7 h5 h9 h8 (fun hd hm => by
      rw [hk, suitable_of h9 hg h6 hm, he]; exact hn hd hm)
    rw [hk] at e2 e3
    refine ⟨_, w', handleSome_exc h4 e1 rfl, ⟨_, rfl, ?_⟩, ?_, ?_, ?_, noHandler_trans h11 (noHandler_eq e4), by rw [e4]; exact h12⟩
    · rw [examined_twice, he]
    · rw [e2, h3, unloadCur_self]
    · rw [e3]; exact attached_leave hgs h6
    · rw [e3]; exact keyStep_trans h10 (keyStep_unloadFs _ _ _ _)

theorem reports_catch (hp : (Prog.tryCatch specs block body).WF cfg da) (hr : Reports cfg (da || capturing cfg specs) id A (some e) block q)
    (hid : e.seenId id = id) (hn : ∀ hd ∈ specs, ¬ SuitableOf cfg A (visible (some e)) hd) :
    Reports cfg da id A (some e) (.tryCatch specs block body) q := by
  intro w hw hda hf hnx hq
  obtain ⟨o, w1, s, ss, h1, h2, h3, h4, h5, h6, h7, h8, h9, h10, h11, h12⟩ := reports_attempt hp.1 hr hw hda hf hnx hq
  have hg := scopes_cons_good h7 h5
  have hgs := (hg s (by simp)).2
  obtain ⟨e', rfl, he⟩ := h2
  have hk : e'.seenId w1.cur = id := by rw [h3, seenId_examined e e' id he]; exact hid
  obtain ⟨w', e1, e2, e3, e4, _⟩ := leave_catch (body := body) h7 h5 h9 h8 (fun hd hm => by
    rw [hk, suitable_of h9 hg h6 hm, he]; exact hn hd hm)
  rw [hk] at e2 e3
  refine ⟨_, w', tryCatch_exc h1 e1, ⟨_, rfl, ?_⟩, ?_, ?_, ?_, noHandler_trans h11 (noHandler_eq e4), by rw [e4]; exact h12⟩
  · rw [examined_twice, he]
  · rw [e2, h3, unloadCur_self]
  · rw [e3]; exact attached_leave hgs h6
  · rw [e3]; exact keyStep_trans h10 (keyStep_unloadFs _ _ _ _)

theorem accOk_of_noDa {fs : List (List CtxCell)} {is : List Item} (hi : ∀ i ∈ is, i.Ok cfg da) (hda : da = false → NoDa (shape fs)) (id : Id) :
    (∃ i ∈ is, i.isAccum = true) → AccOk cfg id fs := by
  rintro ⟨i, hm, ha⟩ hc k ns hb
  have h := hi i hm
  cases i with
  | accum t tag f =>
    rcases h with h | h
    · rw [hc] at h; simp at h
    · rw [boundDa_none (hda h)] at hb; simp at hb
  | _ => simp [Item.isAccum] at ha

theorem onItems_ok {is : List OnItem} (h : ∀ i ∈ is, i.Ok cfg da) : ∀ i ∈ onItems is, i.Ok cfg da := by
  intro i hi
  unfold onItems at hi
  rw [List.mem_filterMap] at hi
  obtain ⟨x, hx, he⟩ := hi
  cases x with
  | item j => simp only [Option.some.injEq] at he; subst he; exact h _ hx
  | action t => simp at he

theorem reports_guard {items : List OnItem} (hp : (Prog.onError items p).WF cfg da) (hr : Reports cfg da id A eo p q) :
    Reports cfg da id (fun ty => (onItems items).foldl (Item.step cfg true ty) (A ty)) eo (.onError items p) q := by
  intro w hw hda hf hnx hq
  have hidt : id.Tagged := by rw [← hnx]; exact nextId_tagged (w := absW w) hw.good
  obtain ⟨o, w1, h1, h2, h3, h4, h5, h6, h7⟩ := hr w hw hda hf hnx hq
  obtain ⟨o', w1', e1, _, e3, e4, e5⟩ := tot_ptr (sim_eval (n := 0) cfg p) (tot_eval cfg p hp.2 _ (fun h => noDa_of (hda h))) hw rfl
  rw [h1] at e1
  simp only [Option.some.injEq, Prod.mk.injEq] at e1
  obtain ⟨rfl, rfl⟩ := e1
  have hda1 : da = false → NoDa (shape (scopes w1)) := fun h => by rw [e4]; exact noDa_of (hda h)
  have ht := triggerItems_eq cfg hidt items (absW w1) e3.good.4 (accOk_of_noDa (onItems_ok hp.1) hda1 id)
  obtain ⟨w2, g1, g2, g3⟩ := run_abs (sim_triggerItems cfg id items) e3 ht (put_good e3.good (putItems_good (tagged_ne_zero hidt) e3.good.4))
  obtain ⟨k1, k2, k3, k4, k5, k6⟩ := threadOk_of_absW g2
  have hne : w1.cur ≠ w.cur := by rw [h3, ← hnx]; exact hf.cur
  have c0 : currentId w = some (w.cur, w) := by
    unfold currentId
    have : w.cur = 0#32 ∨ Id.Tagged w.cur := hw.good.1
    simp only [this, if_true]
  have c1 : currentId w1 = some (w1.cur, w1) := by
    unfold currentId
    have : w1.cur = 0#32 ∨ Id.Tagged w1.cur := e3.good.1
    simp only [this, if_true]
  refine ⟨o, w2, ?_, h2, ?_, ?_, ?_, noHandler_trans h6 ⟨_, k1, onEvents_quiet _ _ _ _⟩, ?_⟩
  · show onErrorGuard cfg items (eval cfg p) w = _
    unfold onErrorGuard
    rw [bind_apply, c0, Option.bind_some, bind_apply, h1, Option.bind_some, bind_apply]
    have hck : ∀ b, checkId cfg w.cur b w1 = some (id, w1) := by
      intro b
      unfold checkId
      rw [bind_apply, c1, Option.bind_some]
      simp only [hne, ne_eq, not_false_eq_true, if_true]
      rw [pure_apply, h3]
    rw [hck, Option.bind_some]
    simp only [tagged_ne_zero hidt, ne_eq, not_false_eq_true, if_true, bind_apply, assertTagged, hidt]
    rw [Option.bind_some, g1]
    rfl
  · rw [k2]; exact h3
  · rw [k6]
    exact attached_putItems h4
  · rw [k6]
    exact keyStep_trans h5 (keyStep_putItems _ _ _ _ _)
  · rw [k1]; exact List.mem_append_right _ h7

theorem reports_forward {k : Val → Prog} (hr : Reports cfg da id A eo p q) :
    Reports cfg da id A eo (.bind p k (fun r => .ret (.err r.forward))) q := by
  intro w hw hda hf hnx hq
  obtain ⟨o, w1, h1, h2, h3, h4, h5, h6, h7⟩ := hr w hw hda hf hnx hq
  cases eo with
  | none =>
    obtain ⟨k', rfl, hk⟩ := h2
    refine ⟨.err (ErrRes.plain k').forward, w1, ?_, ?_, h3, h4, h5, h6, h7⟩
    · simp only [eval, bind_apply, h1, Option.bind_some]; rfl
    · exact ⟨_, rfl, by show makeErrorId (makeErrorId k') = _; rw [hk, makeErrorId_of_tagged (hk ▸ makeErrorId_tagged k')]⟩
  | some e =>
    obtain ⟨e', rfl, he⟩ := h2
    refine ⟨.exc e', w1, ?_, ⟨e', rfl, he⟩, h3, h4, h5, h6, h7⟩
    simp only [eval, bind_apply, h1, Option.bind_some]; rfl

theorem reports_report {items : List Item} {f : Option (Id → Exc)} (hp : (report items f).WF cfg da) :
    Reports cfg da id (objects cfg items) (f.map (· id)) (report items f) := by
  intro w hw hda hf hnx hq
  have hidt : id.Tagged := by rw [← hnx]; exact nextId_tagged (w := absW w) hw.good
  have hi : ∀ i ∈ items, i.Ok cfg da := by cases f <;> exact hp.1
  have hacc := accOk_of_noDa (fs := (absW w).mem.frames) hi (fun h => noDa_of (hda h)) (nextId cfg (absW w))
  have h := newError_eq cfg items (absW w) hw.good hacc
  obtain ⟨w', g1, g2, g3⟩ := run_abs (sim_newError cfg items) hw h
    (put_good (gen_good hw.good) (putItems_good (tagged_ne_zero (nextId_tagged hw.good)) hw.good.4))
  obtain ⟨k1, k2, k3, k4, k5, k6⟩ := threadOk_of_absW g2
  have hx : nextId cfg (absW w) = id := hnx
  rw [hx] at g1 g2 k6
  have hcur : w'.cur = id := by rw [k2]; exact hx
  have hat : Attached cfg id (objects cfg items) (scopes w') := by
    rw [k6]
    exact attached_putItems (attached_fresh (by rw [← hx]; exact hf.stored))
  have hks : KeyStep id (scopes w) (scopes w') := by
    rw [k6]
    exact keyStep_putItems _ _ _ _ _
  have htr : w'.trace = itemsEvents cfg false id items (scopes w) ++ .gen id :: w.trace := by
    rw [k1, ← hx]; rfl
  have hnh : NoHandlerCalled w w' := by
    refine ⟨itemsEvents cfg false id items (scopes w) ++ [.gen id], by rw [htr, List.append_assoc]; rfl, fun id' ex k args h => ?_⟩
    rcases List.mem_append.mp h with h | h
    · exact itemsEvents_quiet _ _ _ _ _ _ _ _ _ h
    · simp at h
  have hgen : .gen id ∈ w'.trace := by rw [htr]; simp
  cases f with
  | none =>
    refine ⟨.err (.plain id), w', ?_, ⟨id, rfl, makeErrorId_of_tagged hidt⟩, hcur, hat, hks, hnh, hgen⟩
    simp only [report, eval, bind_apply, g1, Option.bind_some]; rfl
  | some f =>
    refine ⟨.exc (f id), w', ?_, ⟨f id, rfl, rfl⟩, hcur, hat, hks, hnh, hgen⟩
    simp only [report, eval, bind_apply, g1, Option.bind_some]; rfl

end

/-! ## All layers -/

theorem reports_within {cfg : Cfg} {items : List Item} {f : Option (Id → Exc)} {id : Id} (hid : ∀ g, f = some g → (g id).seenId id = id)
    (ls : List Layer) {da : Bool} (hp : (within ls (report items f)).WF cfg da) (hpass : PassesAll cfg items (visible (f.map (· id))) f.isSome ls) :
    Reports cfg da id (attached cfg items ls) (f.map (· id)) (within ls (report items f)) := by
  have hide : ∀ e, f.map (· id) = some e → e.seenId id = id := by
    intro e he
    cases f with
    | none => simp at he
    | some g => simp only [Option.map_some, Option.some.injEq] at he; subst he; exact hid g rfl
  induction ls generalizing da with
  | nil => exact reports_report hp
  | cons l ls ih =>
    cases l with
    | handle specs body => exact reports_handle hp (ih hp.1 hpass.1) hide hpass.2
    | catch_ specs body =>
      cases f with
      | none => simp [PassesAll, Layer.Passes] at hpass
      | some g => exact reports_catch hp (ih hp.1 hpass.1) (hide _ rfl) hpass.2.2
    | guard is => exact reports_guard hp (ih hp.2 hpass.1)
    | forward k => exact reports_forward (ih hp.1 hpass.1)


section
variable {cfg : Cfg} {specs : List (List Arg)} {ls : List Layer} {items : List Item} {f : Option (Id → Exc)} {body : Nat → List ArgVal → Prog} {da : Bool}
  {w : World PtrStore}

/-- The handlers at `specs` handle the error, in a run that starts in state `w` and ends in `w'`: no handler is called before handler `i` is called
with `vals`, and this determines the outcome `o`. -/
structure Handled (cfg : Cfg) (w : World PtrStore) (A : Ty → Option Val) (id : Id) (ex : Option Exc) (specs : List (List Arg))
    (body : Nat → List ArgVal → Prog) (i : Nat) (vals : List ArgVal) (o : Out) (w' : World PtrStore) : Prop where
  /-- the first suitable handler, judging by the attached objects -/
  first : FirstSuitableOf cfg A ex specs i
  /-- it is called with the attached objects, its outcome is `o`, and nothing else happens -/
  called : ∃ (hd : List Arg) (w1 wh wr : World PtrStore), specs[i]? = some hd ∧ vals.length = hd.length ∧
    (∀ (j : Nat) a x, hd[j]? = some a → vals[j]? = some x → ReceivesOf cfg specs (scopes wh) A id ex a x) ∧
    NoHandlerCalled w w1 ∧ wh.trace = .handled id ex i vals :: w1.trace ∧ eval cfg (body i vals) wh = some (o, wr) ∧ w'.trace = wr.trace

/-- **C22: `try_handle_all`.** -/
theorem C22_handle_all_partial (hp : (Prog.handleAll specs (within ls (report items f)) body).WF cfg da) (hw : ThreadOk w)
    (hda : da = false → NoCapturingScope w) (hf : FreshId cfg w) (hid : ∀ g, f = some g → (g (nextId cfg w)).seenId (nextId cfg w) = nextId cfg w)
    (hpass : PassesAll cfg items (visible (f.map (· (nextId cfg w)))) f.isSome ls) :
    ∃ i vals o w', eval cfg (.handleAll specs (within ls (report items f)) body) w = some (o, w') ∧
      Handled cfg w (attached cfg items ls) (nextId cfg w) (visible (f.map (· (nextId cfg w)))) specs body i vals o w' := by
  have hr := reports_within hid ls hp.2.1 hpass
  obtain ⟨o1, w1, s, ss, h1, h2, h3, h4, h5, h6, h7, h8, h9, h10, h11, h12⟩ := reports_attempt hp.2.1 hr hw hda hf rfl (by simp)
  have hg := scopes_cons_good h7 h5
  have hfail : ∃ hnd, failure o1 w1 = some (nextId cfg w, visible (f.map (· (nextId cfg w))), hnd) := by
    cases f with
    | none =>
      obtain ⟨k, rfl, hk⟩ := h2
      exact ⟨w1.handling, by simp only [failure]; rw [← hk]; rfl⟩
    | some g =>
      obtain ⟨e', rfl, he⟩ := h2
      refine ⟨e'.examined :: w1.handling, ?_⟩
      simp only [failure, h3, seenId_examined _ e' _ he, hid g rfl, he]
      rfl
  obtain ⟨hnd, hfail⟩ := hfail
  obtain ⟨i, hd, vals, wh, o, wr, w', e1, e2, e3, e4, e5, e6, e7, e8⟩ := C15_handle_all hp hw hda h4 h5 hfail
  refine ⟨i, vals, o, w', e6, (firstSuitable_of h9 hg h6).mp e1, hd, w1, wh, wr, e2, e3.1, fun j a x ha hx => ?_, h11, e4.trace, e5, e7⟩
  rw [e4.scopes]
  exact receives_of h9 hg h6 (List.mem_of_getElem? e2) (List.mem_of_getElem? ha) (e3.2 j a x ha hx)

/-- **C22: `try_handle_some`.** -/
theorem C22_handle_some_partial (hp : (Prog.handleSome specs (within ls (report items f)) body).WF cfg da) (hw : ThreadOk w)
    (hda : da = false → NoCapturingScope w) (hf : FreshId cfg w) (hid : ∀ g, f = some g → (g (nextId cfg w)).seenId (nextId cfg w) = nextId cfg w)
    (hpass : PassesAll cfg items (visible (f.map (· (nextId cfg w)))) f.isSome ls) {i : Nat}
    (hi : FirstSuitableOf cfg (attached cfg items ls) (visible (f.map (· (nextId cfg w)))) specs i) :
    ∃ vals o w', eval cfg (.handleSome specs (within ls (report items f)) body) w = some (o, w') ∧
      Handled cfg w (attached cfg items ls) (nextId cfg w) (visible (f.map (· (nextId cfg w)))) specs body i vals o w' := by
  have hr := reports_within hid ls hp.1 hpass
  obtain ⟨o1, w1, s, ss, h1, h2, h3, h4, h5, h6, h7, h8, h9, h10, h11, h12⟩ := reports_attempt hp.1 hr hw hda hf rfl (by simp)
  have hg := scopes_cons_good h7 h5
  cases f with
  | none =>
    obtain ⟨k, rfl, hk⟩ := h2
    have hk' : (ErrRes.plain k).errId = nextId cfg w := hk
    obtain ⟨hd, vals, wh, o, wr, w', e1, e2, e3, e4, e5, e6, _⟩ := C15_handle_some_result hp hw hda h4 h5 (i := i)
      (by rw [hk']; exact (firstSuitable_of h9 hg h6).mpr hi)
    rw [hk'] at e2 e3
    refine ⟨vals, o, w', e5, hi, hd, w1, wh, wr, e1, e2.1, fun j a x ha hx => ?_, h11, e3.trace, e4, e6⟩
    rw [e3.scopes]
    exact receives_of h9 hg h6 (List.mem_of_getElem? e1) (List.mem_of_getElem? ha) (e2.2 j a x ha hx)
  | some g =>
    obtain ⟨e', rfl, he⟩ := h2
    have hk : e'.seenId w1.cur = nextId cfg w := by rw [h3, seenId_examined _ e' _ he]; exact hid g rfl
    obtain ⟨hd, vals, wh, o, wr, wd, w', e1, e2, e3, e4, e5, e6, _⟩ := C15_handle_some_exception hp hw hda h4 h5 (i := i)
      (by rw [hk, he]; exact (firstSuitable_of h9 hg h6).mpr hi)
    rw [hk, he] at e2 e3
    refine ⟨vals, o, w', e5, hi, hd, w1, wh, wr, e1, e2.1, fun j a x ha hx => ?_, h11, e3.trace, e4, e6⟩
    rw [e3.scopes]
    exact receives_of h9 hg h6 (List.mem_of_getElem? e1) (List.mem_of_getElem? ha) (e2.2 j a x ha hx)

/-- **C22: `try_catch`.** -/
theorem C22_try_catch_partial {g : Id → Exc} (hp : (Prog.tryCatch specs (within ls (report items (some g))) body).WF cfg da) (hw : ThreadOk w)
    (hda : da = false → NoCapturingScope w) (hf : FreshId cfg w) (hid : (g (nextId cfg w)).seenId (nextId cfg w) = nextId cfg w)
    (hpass : PassesAll cfg items (visible (some (g (nextId cfg w)))) true ls) {i : Nat}
    (hi : FirstSuitableOf cfg (attached cfg items ls) (visible (some (g (nextId cfg w)))) specs i) :
    ∃ vals o w', eval cfg (.tryCatch specs (within ls (report items (some g))) body) w = some (o, w') ∧
      Handled cfg w (attached cfg items ls) (nextId cfg w) (visible (some (g (nextId cfg w)))) specs body i vals o w' := by
  have hr := reports_within (f := some g) (by rintro _ h; simp only [Option.some.injEq] at h; subst h; exact hid) ls hp.1 hpass
  obtain ⟨o1, w1, s, ss, h1, h2, h3, h4, h5, h6, h7, h8, h9, h10, h11, h12⟩ := reports_attempt hp.1 hr hw hda hf rfl (by simp)
  have hg := scopes_cons_good h7 h5
  obtain ⟨e', rfl, he⟩ := h2
  have hk : e'.seenId w1.cur = nextId cfg w := by rw [h3, seenId_examined _ e' _ he]; exact hid
  obtain ⟨hd, vals, wh, o, wr, w', e1, e2, e3, e4, e5, e6, _⟩ := C15_try_catch hp hw hda h1 h5 (i := i)
    (by rw [hk, he]; exact (firstSuitable_of h9 hg h6).mpr hi)
  rw [hk, he] at e2 e3
  refine ⟨vals, o, w', e5, hi, hd, w1, wh, wr, e1, e2.1, fun j a x ha hx => ?_, h11, e3.trace, e4, e6⟩
  rw [e3.scopes]
  exact receives_of h9 hg h6 (List.mem_of_getElem? e1) (List.mem_of_getElem? ha) (e2.2 j a x ha hx)

end

/-- Guards on the way do not change an attached object, unless they modify it on purpose. -/
theorem C22_guards_keep (cfg : Cfg) (items : List Item) (ls : List Layer) (ty : Ty) (v : Val)
    (hn : ∀ is, .guard is ∈ ls → ∀ t tag f, .accum t tag f ∈ onItems is → t ≠ ty) (h : objects cfg items ty = some v) :
    attached cfg items ls ty = some v := by
  induction ls with
  | nil => exact h
  | cons l ls ih =>
    have ih := ih (fun is hm => hn is (List.mem_cons_of_mem _ hm))
    show l.attach cfg (attached cfg items ls) ty = some v
    cases l with
    | guard is =>
      show (onItems is).foldl (Item.step cfg true ty) (attached cfg items ls ty) = some v
      rw [foldl_first cfg ty _ (hn is (by simp)), ih]
      rfl
    | _ => exact ih

/-- The object of type `ty` reported is the last one given. -/
theorem C22_objects (cfg : Cfg) (items : List Item) (ty : Ty) (hn : ∀ t tag f, .accum t tag f ∈ items → t ≠ ty) :
    objects cfg items ty = (objsOf ty items).getLast? := by
  unfold objects
  rw [foldl_last cfg ty items hn]
  simp

/-! ## A refuting witness for `try_catch` and failed results -/

/-- **C22, as stated, is false if intermediate `try_catch` scopes are included:** `try_catch` discards the objects stored in its scope when its
block returns a failed result (handle_errors.hpp:668-702). Here the object of type 10 does not reach the enclosing handler. -/
theorem C22_refuted_try_catch :
    runFresh exCfg (.handleAll [[.req 10], []] (.tryCatch [[.req 10, .req 11]] (.newError [.obj 10 1] (fun id => .ret (.err (.plain id))))
      (fun _ _ => .ret (.val 0))) (fun i _ => .ret (.val i))) = some (.val 1, [], [.handled 5#32 none 1 [], .offered 5#32 10 1, .gen 5#32]) ∧
    runFresh exCfg (.handleAll [[.req 10], []] (.newError [.obj 10 1] (fun id => .ret (.err (.plain id)))) (fun i _ => .ret (.val i))) =
      some (.val 0, [], [.handled 5#32 none 0 [.obj 10 1], .offered 5#32 10 1, .gen 5#32]) := by
  constructor <;> decide +kernel

/-! ## The hypotheses can be met -/

/-- Three layers: a scope that does not mention the type, one that does, and a guard adding an object. -/
def exLayers : List Layer := [.handle [[.req 12]] exBody, .forward (fun v => .ret (.val v)), .handle exSpecs' exBody, .guard [.item (.obj 13 4), .item (.obj 10 9)]]

theorem exLayers_wf (da : Bool) : (within exLayers (report [.obj 10 1, .obj 11 2] none)).WF exCfg da :=
  ⟨⟨⟨⟨by simp [OnItem.Ok, Item.Ok], exFail_wf _⟩, fun i args _ => exBody_wf _ i args⟩, fun _ => trivial,
    fun r h => by cases r with | plain => trivial | captured => exact h⟩, fun i args _ => exBody_wf _ i args⟩

theorem exLayers_fresh : FreshId exCfg (initThread 1#32) := by
  refine ⟨by decide, ?_⟩
  intro ty v h
  have : scopes (initThread 1#32) = [] := rfl
  rw [this] at h
  simp [stored_nil] at h

theorem exLayers_passes : PassesAll exCfg [.obj 10 1, .obj 11 2] none false exLayers := by
  simp only [exLayers, PassesAll, Layer.Passes, true_and, and_true, exSpecs', List.mem_cons, List.not_mem_nil, or_false]
  refine ⟨?_, ?_⟩
  · rintro hd (rfl | rfl) h
    · have := h (.req 12) (by simp)
      obtain ⟨v, h | ⟨_, e, h, _⟩⟩ := this
      · simp [attached, objects, Layer.attach, onItems, Item.step, Item.ty] at h
      · simp at h
    · have := h (.pred 10 (· == 3)) (by simp)
      obtain ⟨v, h | ⟨_, e, h, _⟩, hv⟩ := this
      · simp [attached, objects, Layer.attach, onItems, Item.step, Item.ty, Item.isAccum, Item.objFor] at h
        simp at hv
        simp [← h.2] at hv
      · simp at h
  · rintro hd rfl h
    have := h (.req 12) (by simp)
    obtain ⟨v, h | ⟨_, e, h, _⟩⟩ := this
    · simp [attached, objects, Layer.attach, onItems, Item.step, Item.ty] at h
    · simp at h

example : (Prog.handleAll [[.req 12], [.req 10, .ptr 13], []] (within exLayers (report [.obj 10 1, .obj 11 2] none)) (fun i _ => .ret (.val i))).WF exCfg false ∧
    ThreadOk (initThread 1#32) ∧ FreshId exCfg (initThread 1#32) ∧ PassesAll exCfg [.obj 10 1, .obj 11 2] none false exLayers :=
  ⟨⟨⟨[[.req 12], [.req 10, .ptr 13]], [], rfl, rfl⟩, exLayers_wf _, fun _ _ _ => ⟨trivial, by intro r; simp⟩⟩, threadOk_init (by decide),
    exLayers_fresh, exLayers_passes⟩

/-- What happens: the second handler gets both objects, with the values reported first. -/
example : runFresh exCfg (.handleAll [[.req 12], [.req 10, .ptr 13], []] (within exLayers (report [.obj 10 1, .obj 11 2] none)) (fun i _ => .ret (.val i))) =
    some (.val 1, [], [.handled 5#32 none 1 [.obj 10 1, .ptr 13 (some 4)], .offered 5#32 10 9, .offered 5#32 13 4, .offered 5#32 11 2, .offered 5#32 10 1,
      .gen 5#32]) := by decide +kernel

/-- The same with an exception, and a `try_catch` on the way. -/
example : runFresh exCfg (.handleAll [[.req 12], [.req 10, .ptr 13, .catch_ (fun _ => true)], []]
    (within (.catch_ [[.req 12]] exBody :: exLayers) (report [.obj 10 1, .obj 11 2] (some fun id => ⟨0, true, .base id, [(20, 7)], true⟩))) (fun i _ => .ret (.val i))) =
    some (.val 1, [], [.handled 5#32 (some ⟨0, true, .base 5#32, [(20, 7)], false⟩) 1 [.obj 10 1, .ptr 13 (some 4), .exc ⟨0, true, .base 5#32, [(20, 7)], false⟩],
      .offered 5#32 10 9, .offered 5#32 13 4, .offered 5#32 11 2, .offered 5#32 10 1, .gen 5#32]) := by decide +kernel

/-! ## The handler required at the end of `try_handle_all` -/

/-- **C18.** The check made by the compiler for the last handler of a `try_handle_all` accepts exactly the handlers which are suitable for every error,
whatever objects it has and whether or not it is reported by an exception. -/
theorem C18_valid (cfg : Cfg) (specs : List (List Arg)) :
    ValidAll specs ↔ ∃ hd, specs.getLast? = some hd ∧ ∀ A ex, SuitableOf cfg A ex hd := by
  have key : ∀ hd : List Arg, matchesAny hd = true ↔ ∀ A ex, SuitableOf cfg A ex hd := by
    intro hd
    constructor
    · intro h A ex a ha
      have := List.all_eq_true.mp h a ha
      cases a <;> simp_all [Arg.always]
    · intro h
      refine List.all_eq_true.mpr fun a ha => ?_
      have := h (fun _ => none) none a ha
      cases a <;> simp_all [Arg.always, SeesOf]
  constructor
  · rintro ⟨init, last, rfl, h⟩
    exact ⟨last, by simp, (key last).mp h⟩
  · rintro ⟨hd, h1, h2⟩
    obtain ⟨init, h3⟩ := List.getLast?_eq_some_iff.mp h1
    exact ⟨init, hd, h3, (key hd).mpr h2⟩

example : ValidAll [[.req 12], [.ptr 10, .info, .diag, .details]] ∧ ¬ ValidAll [[.ptr 10], [.req 12]] :=
  ⟨⟨[[.req 12]], _, rfl, rfl⟩, fun ⟨init, last, h, h'⟩ => by
    have := congrArg List.getLast? h
    simp at this
    subst this
    revert h'
    decide⟩

end Leaf
