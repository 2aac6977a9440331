import Verif.HandlerLemmas
import Verif.PropLoad

/-!
# Properties C15, C16, C17: which handler is called, and which slots a scope has

C15 is here stated for a scope with given content; `PropFlow` states it for whole programs.
-/

namespace Leaf

/-! ## C17 -/

/-- The slots a handler argument needs. -/
inductive Needs (cfg : Cfg) : Arg → CellTy → Prop
  | req (ty : Ty) (h : cfg.isAbstract ty = false) : Needs cfg (.req ty) (.obj ty)
  | ptr (ty : Ty) (h : cfg.isAbstract ty = false) : Needs cfg (.ptr ty) (.obj ty)
  | pred (ty : Ty) (p : Val → Bool) (h : cfg.isAbstract ty = false) : Needs cfg (.pred ty p) (.obj ty)
  | diag (h : cfg.isAbstract tySrcLoc = false) : Needs cfg .diag (.obj tySrcLoc)
  | details (h : cfg.isAbstract tySrcLoc = false) : Needs cfg .details (.obj tySrcLoc)
  | capture (h : cfg.capture = true) : Needs cfg .details .da

/-- The slots needed by a handler argument, in order. -/
def uses (cfg : Cfg) : Arg → List CellTy
  | .req ty | .ptr ty | .pred ty _ => if cfg.isAbstract ty then [] else [.obj ty]
  | .diag => if cfg.isAbstract tySrcLoc then [] else [.obj tySrcLoc]
  | .details => (if cfg.isAbstract tySrcLoc then [] else [.obj tySrcLoc]) ++ (if cfg.capture then [.da] else [])
  | .catch_ _ | .info => []

theorem uses_iff (cfg : Cfg) (a : Arg) (t : CellTy) : t ∈ uses cfg a ↔ Needs cfg a t := by
  constructor
  · intro h
    cases a with
    | req ty =>
      cases ha : cfg.isAbstract ty <;> simp [uses, ha] at h
      subst h; exact .req ty ha
    | ptr ty =>
      cases ha : cfg.isAbstract ty <;> simp [uses, ha] at h
      subst h; exact .ptr ty ha
    | pred ty p =>
      cases ha : cfg.isAbstract ty <;> simp [uses, ha] at h
      subst h; exact .pred ty p ha
    | catch_ p => simp [uses] at h
    | info => simp [uses] at h
    | diag =>
      cases ha : cfg.isAbstract tySrcLoc <;> simp [uses, ha] at h
      subst h; exact .diag ha
    | details =>
      simp only [uses, List.mem_append] at h
      rcases h with h | h
      · cases ha : cfg.isAbstract tySrcLoc <;> simp [ha] at h
        subst h; exact .details ha
      · cases hc : cfg.capture <;> simp [hc] at h
        subst h; exact .capture hc
  · intro h
    cases h with
    | capture hc => simp [uses, hc]
    | _ => simp [uses, *]

theorem uses_eq_filter (cfg : Cfg) (a : Arg) : uses cfg a = (a.contextTypes cfg).filter (fun t => !t.excluded cfg) := by
  cases a with
  | req ty => cases h : cfg.isAbstract ty <;> simp [uses, Arg.contextTypes, CellTy.excluded, h]
  | ptr ty => cases h : cfg.isAbstract ty <;> simp [uses, Arg.contextTypes, CellTy.excluded, h]
  | pred ty p => cases h : cfg.isAbstract ty <;> simp [uses, Arg.contextTypes, CellTy.excluded, h]
  | catch_ p => rfl
  | info => rfl
  | diag => cases h : cfg.isAbstract tySrcLoc <;> simp [uses, Arg.contextTypes, CellTy.excluded, h]
  | details => cases h : cfg.isAbstract tySrcLoc <;> cases h' : cfg.capture <;> simp [uses, Arg.contextTypes, CellTy.excluded, h, h']

/-- **C17.** The slots of a scope are exactly those needed by the arguments of its handlers (types that cannot be stored excepted), each
exactly once, in order of first use. -/
theorem C17_deduction (cfg : Cfg) (specs : List (List Arg)) :
    (∀ t, t ∈ deduce cfg specs ↔ ∃ h ∈ specs, ∃ a ∈ h, Needs cfg a t) ∧ (deduce cfg specs).Nodup ∧
    (∀ t u, t ∈ deduce cfg specs → u ∈ deduce cfg specs →
      ((deduce cfg specs).idxOf t < (deduce cfg specs).idxOf u ↔
        ((specs.flatten).flatMap (uses cfg)).idxOf t < ((specs.flatten).flatMap (uses cfg)).idxOf u)) := by
  have hu : (specs.flatten).flatMap (uses cfg) =
      ((specs.flatten.map (Arg.contextTypes cfg)).flatten).filter (fun t => !t.excluded cfg) := by
    rw [List.filter_flatten, List.map_map, List.flatMap_def]
    congr 1
    apply List.map_congr_left
    intro a _
    exact uses_eq_filter cfg a
  have hmem : ∀ t, t ∈ deduce cfg specs ↔ t ∈ (specs.flatten).flatMap (uses cfg) := by
    intro t
    rw [hu]
    unfold deduce
    simp only [List.mem_filter, mem_mpUnique]
  refine ⟨fun t => ?_, deduce_nodup cfg specs, fun t u ht hu' => ?_⟩
  · rw [hmem]
    simp only [List.mem_flatMap, List.mem_flatten, uses_iff]
    constructor
    · rintro ⟨a, ⟨h, h1, h2⟩, h3⟩; exact ⟨h, h1, a, h2, h3⟩
    · rintro ⟨h, h1, a, h2, h3⟩; exact ⟨a, ⟨h, h1, h2⟩, h3⟩
  · rw [hu]
    unfold deduce at ht hu' ⊢
    simp only [List.mem_filter] at ht hu'
    rw [idxOf_filter_lt (fun t : CellTy => !t.excluded cfg) _ ht.2 hu'.2, idxOf_filter_lt (fun t : CellTy => !t.excluded cfg) _ ht.2 hu'.2]
    exact idxOf_mpUnique_lt _ _ _ ((mem_mpUnique _ _).mp ht.1)

/-- Lookup by type in a context with these slots is unambiguous: there is exactly one slot for each type used. -/
theorem C17_lookup (cfg : Cfg) (specs : List (List Arg)) (s : Scope) (hs : s.map CtxCell.cellTy = deduce cfg specs) (ty : Ty)
    (hty : ∃ h ∈ specs, ∃ a ∈ h, Needs cfg a (.obj ty)) :
    ∃ pre c post, s = pre ++ .obj ty c :: post ∧ ¬ Handles ty pre ∧ ¬ Handles ty post ∧ findCell ty s = some c := by
  have hd := C17_deduction cfg specs
  have hm : CellTy.obj ty ∈ s.map CtxCell.cellTy := by rw [hs]; exact (hd.1 _).mpr hty
  have hn : (s.map CtxCell.cellTy).Nodup := by rw [hs]; exact hd.2.1
  simp only [List.mem_map] at hm
  obtain ⟨x, hx, he⟩ := hm
  cases x with
  | da k ns => simp [CtxCell.cellTy] at he
  | obj t c =>
    simp only [CtxCell.cellTy, CellTy.obj.injEq] at he
    subst he
    obtain ⟨pre, post, rfl⟩ := List.append_of_mem hx
    refine ⟨pre, c, post, rfl, ?_, ?_, findCell_of_mem hn hx⟩
    · rintro ⟨c', h⟩
      simp only [List.map_append, List.map_cons, List.nodup_append, List.mem_map] at hn
      exact hn.2.2 _ ⟨_, h, rfl⟩ _ (List.mem_cons_self ..) rfl
    · rintro ⟨c', h⟩
      simp only [List.map_append, List.map_cons, List.nodup_append, List.nodup_cons, List.mem_map] at hn
      exact hn.2.1.1 ⟨_, h, rfl⟩

/-- A handler list with repeated types, a predicate, `diagnostic_details`. -/
example : deduce exCfg [[.req 10, .ptr 11], [.pred 11 (· == 3), .details], [.req 12, .req 10], [.info]] =
    [.obj 10, .obj 11, .obj 0, .da, .obj 12] := by decide

/-- The hypotheses of `C17_lookup`. -/
example : let s : Scope := [.obj 10 (some (5#32, 1)), .obj 11 none]
    s.map CtxCell.cellTy = deduce exCfg [[.req 10, .ptr 11], [.pred 11 (· == 3)]] ∧ Needs exCfg (.ptr 11) (.obj 11) :=
  ⟨by decide, (uses_iff _ _ _).mp (by decide)⟩

/-! ## C15 -/

/-- The object of type `ty` a handler can see when error `id` is handled in a scope with content `s`, while handling exception `ex`:
the one stored for this error, or else the exception itself (a sub-object of it). -/
def Sees (s : Scope) (id : Id) (ex : Option Exc) (ty : Ty) (v : Val) : Prop :=
  CtxCell.obj ty (some (id, v)) ∈ s ∨
    ((∀ v', CtxCell.obj ty (some (id, v')) ∉ s) ∧ ∃ e, ex = some e ∧ e.cast ty = some v)

/-- The argument is available. -/
def ArgAvailable (s : Scope) (id : Id) (ex : Option Exc) : Arg → Prop
  | .req ty => ∃ v, Sees s id ex ty v
  | .pred ty p => ∃ v, Sees s id ex ty v ∧ p v = true
  | .catch_ p => ∃ e, ex = some e ∧ p e = true
  | .ptr _ | .info | .diag | .details => True

/-- All arguments of the handler are available. -/
def Suitable (s : Scope) (id : Id) (ex : Option Exc) (h : List Arg) : Prop := ∀ a ∈ h, ArgAvailable s id ex a

/-- Handler number `i` is the first suitable one. -/
def FirstSuitable (s : Scope) (id : Id) (ex : Option Exc) (specs : List (List Arg)) (i : Nat) : Prop :=
  (∃ h, specs[i]? = some h ∧ Suitable s id ex h) ∧ ∀ j < i, ∀ h, specs[j]? = some h → ¬ Suitable s id ex h

/-- `loc` is the source location stored in the scope for error `id`, if any. -/
def IsLocation (s : Scope) (id : Id) (loc : Option Val) : Prop := ∀ v, loc = some v ↔ CtxCell.obj tySrcLoc (some (id, v)) ∈ s

/-- `objs` lists the objects stored in the slots of the scope for error `id`, each once. -/
def ListsStored (s : Scope) (id : Id) (objs : List (Ty × Val)) : Prop :=
  (objs.map Prod.fst).Nodup ∧ ∀ ty v, (ty, v) ∈ objs ↔ CtxCell.obj ty (some (id, v)) ∈ s

/-- `objs` lists the objects captured by the scope for error `id`, each once. -/
def ListsCaptured (s : Scope) (id : Id) (objs : List (Ty × Val)) : Prop :=
  (objs.map Prod.fst).Nodup ∧ ∀ ty v, (ty, v) ∈ objs ↔ ∃ k ns, CtxCell.da k ns ∈ s ∧ (ty, some (id, v)) ∈ ns

/-- What a handler receives for an argument. -/
def Receives (s : Scope) (id : Id) (ex : Option Exc) : Arg → ArgVal → Prop
  | .req ty, .obj ty' v => ty' = ty ∧ Sees s id ex ty v
  | .ptr ty, .ptr ty' (some v) => ty' = ty ∧ Sees s id ex ty v
  | .ptr ty, .ptr ty' none => ty' = ty ∧ ∀ v, ¬ Sees s id ex ty v
  | .pred ty _, .obj ty' v => ty' = ty ∧ Sees s id ex ty v
  | .catch_ _, .exc e => ex = some e
  | .info, .info id' ex' loc => id' = id ∧ ex' = ex ∧ IsLocation s id loc
  | .diag, .diag id' ex' loc objs => id' = id ∧ ex' = ex ∧ IsLocation s id loc ∧ ListsStored s id objs
  | .details, .details id' ex' loc objs cap => id' = id ∧ ex' = ex ∧ IsLocation s id loc ∧ ListsStored s id objs ∧ ListsCaptured s id cap
  | _, _ => False

def ReceivesAll (s : Scope) (id : Id) (ex : Option Exc) (h : List Arg) (vals : List ArgVal) : Prop :=
  vals.length = h.length ∧ ∀ (i : Nat) a v, h[i]? = some a → vals[i]? = some v → Receives s id ex a v

/-- No slot of the scope is for a type that cannot be stored; each type has one slot at most (both hold by C17). -/
structure ScopeOk (cfg : Cfg) (s : Scope) : Prop where
  nodup : (s.map CtxCell.cellTy).Nodup
  storable : ∀ ty, Handles ty s → cfg.isAbstract ty = false

theorem scopeOk_deduced {cfg : Cfg} {specs : List (List Arg)} {s : Scope} (hs : s.map CtxCell.cellTy = deduce cfg specs) : ScopeOk cfg s := by
  refine ⟨hs ▸ deduce_nodup cfg specs, fun ty ⟨c, hc⟩ => ?_⟩
  have : CellTy.obj ty ∈ deduce cfg specs := by
    rw [← hs]; exact List.mem_map.mpr ⟨_, hc, rfl⟩
  unfold deduce at this
  simpa [CellTy.excluded] using (List.mem_filter.mp this).2

theorem peek_iff {cfg : Cfg} {s : Scope} (hs : ScopeOk cfg s) {id : Id} (hid : id.Tagged) (ex : Option Exc) (ty : Ty) (v : Val) :
    peek cfg s id ex ty = some v ↔ Sees s id ex ty v := by
  have key : ∀ v, (if cfg.isAbstract ty then none else (findCell ty s).bind (Cell.hasValue · id)) = some v ↔
      CtxCell.obj ty (some (id, v)) ∈ s := by
    intro v
    constructor
    · intro h
      split at h
      · simp at h
      · cases hf : findCell ty s with
        | none => simp [hf] at h
        | some c =>
          simp only [hf, Option.bind_some] at h
          have hm := findCell_mem hf
          cases c with
          | none => simp [Cell.hasValue] at h
          | some kv =>
            obtain ⟨k, v'⟩ := kv
            simp only [Cell.hasValue] at h
            split at h
            · rename_i hk
              simp only [Option.some.injEq] at h
              subst hk; subst h; exact hm
            · simp at h
    · intro h
      rw [if_neg (by rw [hs.storable ty ⟨_, h⟩]; simp), findCell_of_mem hs.nodup h]
      simp [Cell.hasValue]
  unfold peek Sees
  rw [if_neg (tagged_ne_zero hid)]
  cases hf : (if cfg.isAbstract ty then none else (findCell ty s).bind (Cell.hasValue · id)) with
  | some v' =>
    have h1 := (key v').mp hf
    simp only [Option.some.injEq]
    constructor
    · rintro rfl; exact Or.inl h1
    · rintro (h | ⟨h, _⟩)
      · have := (key v).mpr h
        rw [hf] at this
        simpa using this
      · exact absurd h1 (h v')
  | none =>
    have h1 : ∀ v', CtxCell.obj ty (some (id, v')) ∉ s := fun v' h => by
      have := (key v').mpr h
      rw [hf] at this
      simp at this
    constructor
    · intro h
      right
      refine ⟨h1, ?_⟩
      cases ex with
      | none => simp at h
      | some e => exact ⟨e, rfl, h⟩
    · rintro (h | ⟨_, e, rfl, h⟩)
      · exact absurd h (h1 v)
      · exact h

theorem sees_unique {s : Scope} (hs : (s.map CtxCell.cellTy).Nodup) {id : Id} {ex : Option Exc} {ty : Ty} {v v' : Val}
    (h : Sees s id ex ty v) (h' : Sees s id ex ty v') : v = v' := by
  rcases h with h | ⟨h, e, he, hv⟩
  · rcases h' with h' | ⟨h', _⟩
    · have e1 := findCell_of_mem hs h
      have e2 := findCell_of_mem hs h'
      rw [e1] at e2
      simpa using e2
    · exact absurd h (h' v)
  · rcases h' with h' | ⟨_, e', he', hv'⟩
    · exact absurd h' (h v')
    · rw [he] at he'
      simp only [Option.some.injEq] at he'
      subst he'
      rw [hv] at hv'
      simpa using hv'

theorem check_iff {cfg : Cfg} {s : Scope} (hs : ScopeOk cfg s) {id : Id} (hid : id.Tagged) (ex : Option Exc) (a : Arg) :
    a.check cfg s id ex = true ↔ ArgAvailable s id ex a := by
  cases a with
  | req ty =>
    simp only [Arg.check, ArgAvailable, Option.isSome_iff_exists, peek_iff hs hid]
  | pred ty p =>
    simp only [Arg.check, ArgAvailable]
    cases hp : peek cfg s id ex ty with
    | none =>
      simp only [Bool.false_eq_true, false_iff]
      rintro ⟨v, hv, _⟩
      rw [← peek_iff hs hid, hp] at hv
      simp at hv
    | some v =>
      have hv := (peek_iff hs hid ex ty v).mp hp
      constructor
      · intro h; exact ⟨v, hv, h⟩
      · rintro ⟨v', hv', h⟩; rw [sees_unique hs.nodup hv hv']; exact h
  | catch_ p =>
    cases ex with
    | none => simp [Arg.check, ArgAvailable]
    | some e => simp [Arg.check, ArgAvailable]
  | _ => simp [Arg.check, ArgAvailable]

theorem checkArgs_iff {cfg : Cfg} {s : Scope} (hs : ScopeOk cfg s) {id : Id} (hid : id.Tagged) (ex : Option Exc) (h : List Arg) :
    checkArgs cfg s id ex h = true ↔ Suitable s id ex h := by
  unfold checkArgs Suitable
  rw [List.all_eq_true]
  exact forall_congr' fun a => forall_congr' fun _ => check_iff hs hid ex a

theorem findIdx_iff {cfg : Cfg} {s : Scope} (hs : ScopeOk cfg s) {id : Id} (hid : id.Tagged) (ex : Option Exc) (specs : List (List Arg)) (i : Nat) :
    specs.findIdx? (checkArgs cfg s id ex) = some i ↔ FirstSuitable s id ex specs i := by
  rw [List.findIdx?_eq_some_iff_getElem]
  unfold FirstSuitable
  constructor
  · rintro ⟨h, h1, h2⟩
    refine ⟨⟨specs[i], by simp, (checkArgs_iff hs hid ex _).mp h1⟩, fun j hj h' hh => ?_⟩
    have := h2 j hj
    rw [List.getElem?_eq_some_iff] at hh
    obtain ⟨_, rfl⟩ := hh
    rw [← checkArgs_iff hs hid ex]
    simpa using this
  · rintro ⟨⟨h, h1, h2⟩, h3⟩
    rw [List.getElem?_eq_some_iff] at h1
    obtain ⟨hl, rfl⟩ := h1
    refine ⟨hl, (checkArgs_iff hs hid ex _).mpr h2, fun j hj => ?_⟩
    have := h3 j hj specs[j] (by simp)
    rw [← checkArgs_iff hs hid ex] at this
    simpa using this

theorem findIdx_none_iff {cfg : Cfg} {s : Scope} (hs : ScopeOk cfg s) {id : Id} (hid : id.Tagged) (ex : Option Exc) (specs : List (List Arg)) :
    specs.findIdx? (checkArgs cfg s id ex) = none ↔ ∀ h ∈ specs, ¬ Suitable s id ex h := by
  rw [List.findIdx?_eq_none_iff]
  refine forall_congr' fun h => forall_congr' fun _ => ?_
  rw [← checkArgs_iff hs hid ex]
  simp

/-- **C15, selection (`try_handle_some`, `try_catch`).** The handler selected is the first suitable one; none is selected iff none is suitable. -/
theorem C15_select_some {cfg : Cfg} {s : Scope} (hs : ScopeOk cfg s) {id : Id} (hid : id.Tagged) (ex : Option Exc) (specs : List (List Arg)) :
    (∀ i, selectSome cfg s id ex specs = some i ↔ FirstSuitable s id ex specs i) ∧
    (selectSome cfg s id ex specs = none ↔ ∀ h ∈ specs, ¬ Suitable s id ex h) := by
  unfold selectSome
  rw [selectSomeFrom_eq]
  constructor
  · intro i
    rw [← findIdx_iff hs hid ex specs i]
    cases specs.findIdx? (checkArgs cfg s id ex) <;> simp
  · rw [← findIdx_none_iff hs hid ex specs]
    cases specs.findIdx? (checkArgs cfg s id ex) <;> simp

/-- **C15, selection (`try_handle_all`, `context::handle_error`).** The handler selected is the first suitable one. -/
theorem C15_select_all {cfg : Cfg} {s : Scope} (hs : ScopeOk cfg s) {id : Id} (hid : id.Tagged) (ex : Option Exc) {specs : List (List Arg)}
    (hv : ValidAll specs) :
    (∀ i, selectAll cfg s id ex specs = some i ↔ FirstSuitable s id ex specs i) ∧ ∃ i, selectAll cfg s id ex specs = some i := by
  refine ⟨fun i => ?_, selectAllFrom_total cfg s id ex 0 hv⟩
  unfold selectAll
  rw [selectAllFrom_eq cfg s id ex 0 hv, ← findIdx_iff hs hid ex specs i]
  cases specs.findIdx? (checkArgs cfg s id ex) <;> simp

theorem firstSuitable_unique {s : Scope} {id : Id} {ex : Option Exc} {specs : List (List Arg)} {i j : Nat}
    (hi : FirstSuitable s id ex specs i) (hj : FirstSuitable s id ex specs j) : i = j := by
  rcases Nat.lt_trichotomy i j with h | h | h
  · obtain ⟨a, h1, h2⟩ := hi.1; exact absurd h2 (hj.2 i h a h1)
  · exact h
  · obtain ⟨a, h1, h2⟩ := hj.1; exact absurd h2 (hi.2 j h a h1)

theorem isLocation_find {cfg : Cfg} {s : Scope} (hs : ScopeOk cfg s) (id : Id) : IsLocation s id ((findCell tySrcLoc s).bind (Cell.hasValue · id)) := by
  intro v
  constructor
  · intro h
    cases hf : findCell tySrcLoc s with
    | none => rw [hf] at h; simp at h
    | some c =>
      have hm := findCell_mem hf
      rw [hf] at h
      cases c with
      | none => simp [Cell.hasValue] at h
      | some p =>
        obtain ⟨k, x⟩ := p
        simp only [Option.bind_some, Cell.hasValue, Option.ite_none_right_eq_some, Option.some.injEq] at h
        obtain ⟨rfl, rfl⟩ := h
        exact hm
  · intro h
    rw [findCell_of_mem hs.nodup h]
    simp [Cell.hasValue]

theorem mem_ctxObjs {id : Id} (hid : id.Tagged) (s : Scope) (ty : Ty) (v : Val) :
    (ty, v) ∈ ctxObjs id s ↔ CtxCell.obj ty (some (id, v)) ∈ s := by
  have h0 := tagged_ne_zero hid
  unfold ctxObjs
  rw [List.mem_filterMap]
  constructor
  · rintro ⟨x, hx, h⟩
    cases x with
    | da k ns => simp at h
    | obj t c =>
      cases c with
      | none => simp at h
      | some p =>
        obtain ⟨k, x⟩ := p
        simp only [ne_eq, h0, not_false_eq_true, true_and, Option.ite_none_left_eq_some, Decidable.not_not, Option.some.injEq, Prod.mk.injEq] at h
        obtain ⟨rfl, rfl, rfl⟩ := h
        exact hx
  · intro h
    exact ⟨_, h, by simp⟩

theorem mem_daObjs {id : Id} (hid : id.Tagged) {s : Scope} (hg : FramesGood [s]) (ty : Ty) (v : Val) :
    (ty, v) ∈ daObjs id s ↔ ∃ k ns, CtxCell.da k ns ∈ s ∧ (ty, some (id, v)) ∈ ns := by
  have h0 := tagged_ne_zero hid
  unfold daObjs
  rw [List.mem_flatMap]
  constructor
  · rintro ⟨x, hx, h⟩
    cases x with
    | obj t c => simp at h
    | da k ns =>
      simp only at h
      split at h
      · simp at h
      · rw [List.mem_filterMap] at h
        obtain ⟨⟨t, c⟩, hn, h⟩ := h
        cases c with
        | none => simp at h
        | some p =>
          obtain ⟨k', x⟩ := p
          simp only [ne_eq, h0, not_false_eq_true, true_and, Option.ite_none_left_eq_some, Decidable.not_not, Option.some.injEq, Prod.mk.injEq] at h
          obtain ⟨rfl, rfl, rfl⟩ := h
          exact ⟨k, ns, hx, hn⟩
  · rintro ⟨k, ns, h1, h2⟩
    refine ⟨_, h1, ?_⟩
    have hk : k ≠ 0#32 := by
      rintro rfl
      have : ns = [] := (hg s (by simp)).1 _ h1 rfl
      rw [this] at h2
      simp at h2
    simp only [if_neg hk]
    rw [List.mem_filterMap]
    exact ⟨_, h2, by simp⟩

theorem ctxObjs_tys (id : Id) (s : Scope) : ((ctxObjs id s).map Prod.fst).Sublist (frameTys s) := by
  induction s with
  | nil => simp [ctxObjs]
  | cons x s ih =>
    cases x with
    | da k ns => exact List.Sublist.trans ih (by simp only [frameTys, List.flatMap_cons]; exact List.sublist_append_right _ _)
    | obj t c =>
      have e : frameTys (.obj t c :: s) = t :: frameTys s := by simp [frameTys, CtxCell.tys]
      rw [e]
      cases c with
      | none => exact List.Sublist.trans ih (List.sublist_cons_self _ _)
      | some p =>
        obtain ⟨k, v⟩ := p
        have : ctxObjs id (.obj t (some (k, v)) :: s) = if id ≠ 0#32 ∧ k ≠ id then ctxObjs id s else (t, v) :: ctxObjs id s := by
          unfold ctxObjs
          rw [List.filterMap_cons]
          split <;> simp_all
        rw [this]
        split
        · exact List.Sublist.trans ih (List.sublist_cons_self _ _)
        · exact ih.cons_cons _

theorem daNodes_tys (id : Id) (ns : List (Ty × Cell)) : ((ns.filterMap fun
        | (ty, some (k, v)) => if id ≠ 0#32 ∧ k ≠ id then none else some (ty, v)
        | _ => none).map Prod.fst).Sublist (ns.map Prod.fst) := by
  induction ns with
  | nil => simp
  | cons n ns ih =>
    obtain ⟨t, c⟩ := n
    cases c with
    | none => exact List.Sublist.trans ih (List.sublist_cons_self _ _)
    | some p =>
      obtain ⟨k, v⟩ := p
      rw [List.filterMap_cons]
      by_cases h : id ≠ 0#32 ∧ k ≠ id
      · simp only [if_pos h]
        exact List.Sublist.trans ih (List.sublist_cons_self _ _)
      · simp only [if_neg h]
        exact ih.cons_cons _

theorem daObjs_tys (id : Id) (s : Scope) : ((daObjs id s).map Prod.fst).Sublist (frameTys s) := by
  induction s with
  | nil => simp [daObjs]
  | cons x s ih =>
    cases x with
    | obj t c => exact List.Sublist.trans ih (by simp only [frameTys, List.flatMap_cons]; exact List.sublist_append_right _ _)
    | da k ns =>
      have e : daObjs id (.da k ns :: s) = (if k = 0#32 then [] else ns.filterMap fun
        | (ty, some (k, v)) => if id ≠ 0#32 ∧ k ≠ id then none else some (ty, v)
        | _ => none) ++ daObjs id s := rfl
      rw [e, List.map_append]
      show List.Sublist _ (ns.map Prod.fst ++ frameTys s)
      refine List.Sublist.append ?_ ih
      split
      · simp
      · exact daNodes_tys id ns

theorem lists_stored {id : Id} (hid : id.Tagged) {s : Scope} (hg : FramesGood [s]) : ListsStored s id (ctxObjs id s) :=
  ⟨(ctxObjs_tys id s).nodup (hg s (by simp)).2, mem_ctxObjs hid s⟩

theorem lists_captured {id : Id} (hid : id.Tagged) {s : Scope} (hg : FramesGood [s]) : ListsCaptured s id (daObjs id s) :=
  ⟨(daObjs_tys id s).nodup (hg s (by simp)).2, mem_daObjs hid hg⟩

theorem get_receives {cfg : Cfg} {s : Scope} (hs : ScopeOk cfg s) (hg : FramesGood [s]) {id : Id} (hid : id.Tagged) {ex : Option Exc} {a : Arg} {v : ArgVal}
    (h : Arg.get cfg s id ex ((findCell tySrcLoc s).bind (Cell.hasValue · id)) a = some v) : Receives s id ex a v := by
  cases a with
  | req ty =>
    simp only [Arg.get, Option.map_eq_some_iff] at h
    obtain ⟨x, h1, rfl⟩ := h
    exact ⟨rfl, (peek_iff hs hid ex ty x).mp h1⟩
  | pred ty p =>
    simp only [Arg.get, Option.map_eq_some_iff] at h
    obtain ⟨x, h1, rfl⟩ := h
    exact ⟨rfl, (peek_iff hs hid ex ty x).mp h1⟩
  | ptr ty =>
    simp only [Arg.get, Option.some.injEq] at h
    subst h
    cases hp : peek cfg s id ex ty with
    | none => exact ⟨rfl, fun v hv => by rw [← peek_iff hs hid, hp] at hv; simp at hv⟩
    | some x => exact ⟨rfl, (peek_iff hs hid ex ty x).mp hp⟩
  | catch_ p =>
    simp only [Arg.get, Option.map_eq_some_iff] at h
    obtain ⟨x, h1, rfl⟩ := h
    exact h1
  | info => simp only [Arg.get, Option.some.injEq] at h; subst h; exact ⟨rfl, rfl, isLocation_find hs id⟩
  | diag => simp only [Arg.get, Option.some.injEq] at h; subst h; exact ⟨rfl, rfl, isLocation_find hs id, lists_stored hid hg⟩
  | details =>
    simp only [Arg.get, Option.some.injEq] at h
    subst h
    exact ⟨rfl, rfl, isLocation_find hs id, lists_stored hid hg, lists_captured hid hg⟩

theorem getArgs_receives {cfg : Cfg} {s : Scope} (hs : ScopeOk cfg s) (hgood : FramesGood [s]) {id : Id} (hid : id.Tagged) {ex : Option Exc} {loc : Option Val}
    (hloc : loc = (findCell tySrcLoc s).bind (Cell.hasValue · id)) {h : List Arg} {vals : List ArgVal} (hg : getArgs cfg s id ex loc h = some vals) : ReceivesAll s id ex h vals := by
  induction h generalizing vals with
  | nil =>
    simp only [getArgs, Option.some.injEq] at hg
    subst hg
    exact ⟨rfl, by simp⟩
  | cons a as ih =>
    simp only [getArgs] at hg
    cases ha : Arg.get cfg s id ex loc a with
    | none => simp [ha] at hg
    | some v =>
      cases hr : getArgs cfg s id ex loc as with
      | none => simp [ha, hr] at hg
      | some vs =>
        simp only [ha, hr, Option.bind_eq_bind, Option.bind_some, Option.some.injEq, Option.pure_def] at hg
        subst hg
        obtain ⟨h1, h2⟩ := ih hr
        refine ⟨by simp [h1], fun i b x hb hx => ?_⟩
        cases i with
        | zero =>
          simp only [List.getElem?_cons_zero, Option.some.injEq] at hb hx
          subst hb; subst hx
          subst hloc
          exact get_receives hs hgood hid ha
        | succ i =>
          simp only [List.getElem?_cons_succ] at hb hx
          exact h2 i b x hb hx

/-- The hypotheses of C15: a scope with an object of the error handled and one of another error, and a list of handlers the second of which is selected. -/
example : let s : Scope := [.obj 11 (some (9#32, 2)), .obj 10 (some (5#32, 1))]
    let specs := [[.req 11], [.req 10, .ptr 11], [.info]]
    ScopeOk exCfg s ∧ FramesGood [s] ∧ Id.Tagged 5#32 ∧ ValidAll specs ∧ selectAll exCfg s 5#32 none specs = some 1 ∧ selectSome exCfg s 5#32 none specs = some 1 ∧
      FirstSuitable s 5#32 none specs 1 ∧ selectSome exCfg s 5#32 none [[.req 11]] = none := by
  intro s specs
  have hs : ScopeOk exCfg s := scopeOk_deduced (specs := specs) (by decide)
  have hsel : selectSome exCfg s 5#32 none specs = some 1 := by decide
  refine ⟨hs, ?_, by decide, ⟨[[.req 11], [.req 10, .ptr 11]], [.info], rfl, rfl⟩, by decide, hsel, ((C15_select_some hs (by decide) none specs).1 1).mp hsel, by decide⟩
  intro f hf
  simp only [List.mem_cons, List.not_mem_nil, or_false] at hf
  subst hf
  refine ⟨?_, by decide⟩
  intro c hc
  simp only [s, List.mem_cons, List.not_mem_nil, or_false] at hc
  rcases hc with rfl | rfl <;> exact trivial

/-! ## C16 -/

/-- A handler (`tag` identifies it) or a `std::tuple` of handlers, nested arbitrarily. -/
inductive HTree
  | fn (tag : Nat) (args : List Arg)
  | tup (ts : List HTree)

mutual
/-- The handlers in order. -/
def HTree.flat : HTree → List (Nat × List Arg)
  | .fn tag args => [(tag, args)]
  | .tup ts => flatAll ts
def flatAll : List HTree → List (Nat × List Arg)
  | [] => []
  | t :: ts => t.flat ++ flatAll ts
end

mutual
/-- `fn_mp_args_fwd<H>::type`, context.hpp:417-435: argument types of a handler, or of all handlers of a tuple, appended. -/
def HTree.mpArgs : HTree → List Arg
  | .fn _ args => args
  | .tup ts => mpArgsAll ts
def mpArgsAll : List HTree → List Arg
  | [] => []
  | t :: ts => t.mpArgs ++ mpArgsAll ts
end

/-- `context_type_from_handlers<H...>`, context.hpp:437-445. -/
def deduceTree (cfg : Cfg) (ts : List HTree) : List CellTy :=
  (mpUnique (((mpArgsAll ts).map (Arg.contextTypes cfg)).flatten)).filter (fun t => !t.excluded cfg)

mutual
def HTree.size : HTree → Nat
  | .fn _ _ => 1
  | .tup ts => 1 + sizeAll ts
def sizeAll : List HTree → Nat
  | [] => 0
  | t :: ts => t.size + sizeAll ts
end

theorem sizeAll_append (a b : List HTree) : sizeAll (a ++ b) = sizeAll a + sizeAll b := by
  induction a with
  | nil => simp [sizeAll]
  | cons t a ih => simp only [List.cons_append, sizeAll, ih]; omega

theorem size_pos (t : HTree) : 0 < t.size := by cases t <;> simp [HTree.size] <;> omega

/-- `handle_error_` and `handle_error_tuple_`, handle_errors.hpp:415-479: the four overloads; gives the handler called.
`none`: does not compile (no overload for an empty argument list; `static_assert` on the last handler). -/
def handleErrorTree (cfg : Cfg) (cells : List CtxCell) (id : Id) (ex : Option Exc) : List HTree → Option Nat
  | [] => none
  | [.fn tag args] => if matchesAny args then some tag else none
  | .fn tag args :: cdr => if matchesAny args || checkArgs cfg cells id ex args then some tag else handleErrorTree cfg cells id ex cdr
  | .tup ts :: cdr => handleErrorTree cfg cells id ex (ts ++ cdr)
termination_by ts => sizeAll ts
decreasing_by
  · simp only [sizeAll, HTree.size]; omega
  · simp only [sizeAll, HTree.size, sizeAll_append]; omega

/-- The same for handlers passed flat: the tag of the handler selected by `selectAll`. -/
def handleErrorFlat (cfg : Cfg) (cells : List CtxCell) (id : Id) (ex : Option Exc) (hs : List (Nat × List Arg)) : Option Nat :=
  (selectAll cfg cells id ex (hs.map Prod.snd)).bind fun i => (hs.map Prod.fst)[i]?

theorem flatAll_append (a b : List HTree) : flatAll (a ++ b) = flatAll a ++ flatAll b := by
  induction a with
  | nil => simp [flatAll]
  | cons t a ih => simp [flatAll, ih]

theorem selectAllFrom_shift (cfg : Cfg) (cells : List CtxCell) (id : Id) (ex : Option Exc) (i : Nat) (specs : List (List Arg)) :
    selectAllFrom cfg cells id ex (i + 1) specs = (selectAllFrom cfg cells id ex i specs).map (· + 1) := by
  induction specs generalizing i with
  | nil => rfl
  | cons h hs ih =>
    cases hs with
    | nil => by_cases hm : matchesAny h = true <;> simp [selectAllFrom, hm]
    | cons h' hs =>
      have hstep : ∀ i, selectAllFrom cfg cells id ex i (h :: h' :: hs) =
        if matchesAny h || checkArgs cfg cells id ex h then some i else selectAllFrom cfg cells id ex (i + 1) (h' :: hs) := fun _ => rfl
      rw [hstep, hstep, ih]
      split <;> rfl

theorem handleErrorFlat_cons (cfg : Cfg) (cells : List CtxCell) (id : Id) (ex : Option Exc) (tag : Nat) (args : List Arg) {hs : List (Nat × List Arg)}
    (hne : hs ≠ []) :
    handleErrorFlat cfg cells id ex ((tag, args) :: hs) =
      if matchesAny args || checkArgs cfg cells id ex args then some tag else handleErrorFlat cfg cells id ex hs := by
  cases hs with
  | nil => exact absurd rfl hne
  | cons h hs =>
    have hstep : selectAll cfg cells id ex (args :: h.2 :: hs.map Prod.snd) =
        if matchesAny args || checkArgs cfg cells id ex args then some 0 else selectAllFrom cfg cells id ex 1 (h.2 :: hs.map Prod.snd) := rfl
    unfold handleErrorFlat
    simp only [List.map_cons]
    rw [hstep]
    split
    · rfl
    · rw [selectAllFrom_shift]
      unfold selectAll
      cases selectAllFrom cfg cells id ex 0 (h.2 :: hs.map Prod.snd) <;> simp

/-- The instantiation of `handle_error_` compiles: there is an overload for every call, the `static_assert` on the last handler holds. -/
def compilesTree : List HTree → Bool
  | [] => false
  | [.fn _ args] => matchesAny args
  | .fn _ _ :: cdr => compilesTree cdr
  | .tup ts :: cdr => compilesTree (ts ++ cdr)
termination_by ts => sizeAll ts
decreasing_by
  · simp only [sizeAll, HTree.size]; omega
  · simp only [sizeAll, HTree.size, sizeAll_append]; omega

theorem compilesTree_flat {ts : List HTree} (h : compilesTree ts = true) : ValidAll ((flatAll ts).map Prod.snd) := by
  induction ts using compilesTree.induct with
  | case1 => simp [compilesTree] at h
  | case2 t args =>
    rw [compilesTree] at h
    exact ⟨[], args, by simp [flatAll, HTree.flat], h⟩
  | case3 t args cdr hne ih =>
    rw [compilesTree.eq_3 _ _ _ hne] at h
    obtain ⟨init, last, h1, h2⟩ := ih h
    exact ⟨args :: init, last, by simp [flatAll, HTree.flat, h1], h2⟩
  | case4 ts cdr ih =>
    rw [compilesTree] at h
    have := ih h
    rw [flatAll_append] at this
    simpa [flatAll, HTree.flat] using this

/-- **C16, `try_handle_all` and `handle_error`.** Whenever a call with handlers grouped in tuples compiles, passing them flat compiles as well, and
the handler called is the one that would be called if they were passed flat. -/
theorem C16_same_handler (cfg : Cfg) (s : Scope) (id : Id) (ex : Option Exc) (ts : List HTree) (hc : compilesTree ts = true) :
    ValidAll ((flatAll ts).map Prod.snd) ∧ handleErrorTree cfg s id ex ts = handleErrorFlat cfg s id ex (flatAll ts) := by
  refine ⟨compilesTree_flat hc, ?_⟩
  induction ts using compilesTree.induct with
  | case1 => simp [compilesTree] at hc
  | case2 t args =>
    rw [compilesTree] at hc
    rw [handleErrorTree, if_pos hc]
    simp [flatAll, HTree.flat, handleErrorFlat, selectAll, selectAllFrom, hc]
  | case3 t args cdr hne ih =>
    rw [compilesTree.eq_3 _ _ _ hne] at hc
    have hf : flatAll cdr ≠ [] := by
      intro e
      obtain ⟨init, last, h1, _⟩ := compilesTree_flat hc
      rw [e] at h1
      simp at h1
    rw [handleErrorTree.eq_3 _ _ _ _ _ _ _ hne]
    simp only [flatAll, HTree.flat, List.singleton_append]
    rw [handleErrorFlat_cons _ _ _ _ _ _ hf, ih hc]
  | case4 ts cdr ih =>
    rw [compilesTree] at hc
    rw [handleErrorTree, ih hc, flatAll_append]
    simp [flatAll, HTree.flat]

/-- No tuple is empty. -/
inductive HTree.NoEmpty : HTree → Prop
  | fn (tag : Nat) (args : List Arg) : NoEmpty (.fn tag args)
  | tup (ts : List HTree) (hne : ts ≠ []) (h : ∀ t ∈ ts, t.NoEmpty) : NoEmpty (.tup ts)

/-- **C16, converse.** If no tuple is empty, the call with tuples compiles iff the flat call does. -/
theorem C16_compiles_iff (ts : List HTree) (hne : ∀ t ∈ ts, t.NoEmpty) :
    compilesTree ts = true ↔ ValidAll ((flatAll ts).map Prod.snd) := by
  refine ⟨compilesTree_flat, ?_⟩
  have nonempty : ∀ ts : List HTree, (∀ t ∈ ts, t.NoEmpty) → ts ≠ [] → flatAll ts ≠ [] := by
    intro ts
    induction ts using compilesTree.induct with
    | case1 => intro _ h; exact absurd rfl h
    | case2 t args => intro _ _; simp [flatAll, HTree.flat]
    | case3 t args cdr _ _ => intro _ _; simp [flatAll, HTree.flat]
    | case4 ts cdr ih =>
      intro h _
      have h1 := h (.tup ts) (by simp)
      cases h1 with
      | tup _ hne h2 =>
        have := ih (by
          intro t ht
          rcases List.mem_append.mp ht with ht | ht
          · exact h2 t ht
          · exact h t (by simp [ht])) (by simp [hne])
        rw [flatAll_append] at this
        simpa [flatAll, HTree.flat] using this
  induction ts using compilesTree.induct with
  | case1 => rintro ⟨init, last, h, _⟩; simp [flatAll] at h
  | case2 t args =>
    rintro ⟨init, last, h, hl⟩
    rw [compilesTree]
    cases init with
    | nil => simp [flatAll, HTree.flat] at h; rw [h]; exact hl
    | cons a b => simp [flatAll, HTree.flat] at h
  | case3 t args cdr hcdr ih =>
    rintro ⟨init, last, h, hl⟩
    rw [compilesTree.eq_3 _ _ _ hcdr]
    have hf := nonempty cdr (fun t ht => hne t (by simp [ht])) hcdr
    refine ih (fun t ht => hne t (by simp [ht])) ?_
    cases init with
    | nil =>
      simp only [flatAll, HTree.flat, List.singleton_append, List.map_cons, List.nil_append, List.cons.injEq, List.map_eq_nil_iff] at h
      exact absurd h.2 hf
    | cons a b =>
      simp only [flatAll, HTree.flat, List.map_cons, List.cons_append, List.cons.injEq] at h
      exact ⟨b, last, h.2, hl⟩
  | case4 ts cdr ih =>
    intro h
    rw [compilesTree]
    have h1 := hne (.tup ts) (by simp)
    cases h1 with
    | tup _ _ h2 =>
      refine ih ?_ ?_
      · intro t ht
        rcases List.mem_append.mp ht with ht | ht
        · exact h2 t ht
        · exact hne t (by simp [ht])
      · rw [flatAll_append]
        simpa [flatAll, HTree.flat] using h

/-- **C16, `try_handle_some` and `try_catch`.** These append a handler without arguments (`tag`) to the list: any grouping, empty tuples
included, compiles and calls the first suitable handler of the flat list, or the appended one if there is none. -/
theorem C16_same_handler_some (cfg : Cfg) (s : Scope) (id : Id) (ex : Option Exc) (ts : List HTree) (tag : Nat) :
    compilesTree (ts ++ [.fn tag []]) = true ∧
    handleErrorTree cfg s id ex (ts ++ [.fn tag []]) =
      some (match selectSome cfg s id ex ((flatAll ts).map Prod.snd) with
        | some i => (((flatAll ts).map Prod.fst)[i]?).getD tag
        | none => tag) := by
  have hc : compilesTree (ts ++ [.fn tag []]) = true := by
    induction ts using compilesTree.induct with
    | case1 => simp [compilesTree, matchesAny]
    | case2 t args =>
      show compilesTree (.fn t args :: [.fn tag []]) = true
      rw [compilesTree.eq_3 _ _ _ (by simp)]
      simp [compilesTree, matchesAny]
    | case3 t args cdr _ ih =>
      rw [List.cons_append, compilesTree.eq_3 _ _ _ (by simp)]
      exact ih
    | case4 ts cdr ih =>
      rw [List.cons_append, compilesTree, ← List.append_assoc]
      exact ih
  refine ⟨hc, ?_⟩
  rw [(C16_same_handler cfg s id ex _ hc).2, flatAll_append]
  generalize flatAll ts = hs
  simp only [flatAll, HTree.flat, List.append_nil]
  induction hs with
  | nil => rfl
  | cons h hs ih =>
    obtain ⟨t, args⟩ := h
    rw [List.cons_append, handleErrorFlat_cons _ _ _ _ _ _ (by simp), ih]
    have hstep : selectSome cfg s id ex (((t, args) :: hs).map Prod.snd) =
      if matchesAny args || checkArgs cfg s id ex args then some 0 else selectSomeFrom cfg s id ex 1 (hs.map Prod.snd) := rfl
    rw [hstep]
    split
    · simp
    · unfold selectSome
      rw [selectSomeFrom_eq, selectSomeFrom_eq]
      cases (hs.map Prod.snd).findIdx? (checkArgs cfg s id ex) with
      | none => rfl
      | some i => simp [Nat.add_comm 1 i]

mutual
theorem mpArgs_flat (t : HTree) : t.mpArgs = (t.flat.map Prod.snd).flatten := by
  cases t with
  | fn tag args => simp [HTree.mpArgs, HTree.flat]
  | tup ts => simpa [HTree.mpArgs, HTree.flat] using mpArgsAll_flat ts
theorem mpArgsAll_flat (ts : List HTree) : mpArgsAll ts = ((flatAll ts).map Prod.snd).flatten := by
  cases ts with
  | nil => simp [mpArgsAll, flatAll]
  | cons t ts => simp [mpArgsAll, flatAll, mpArgs_flat t, mpArgsAll_flat ts]
end

/-- **C16, storage.** The slots deduced are those deduced from the flat list. -/
theorem C16_same_slots (cfg : Cfg) (ts : List HTree) : deduceTree cfg ts = deduce cfg ((flatAll ts).map Prod.snd) := by
  unfold deduceTree deduce
  rw [mpArgsAll_flat]

/-- Handlers 1 to 4 nested in tuples. -/
def exTree : List HTree := [.tup [.fn 1 [.req 10], .tup [.fn 2 [.req 11], .fn 3 [.ptr 12]]], .fn 4 []]

example : compilesTree exTree = true ∧ flatAll exTree = [(1, [.req 10]), (2, [.req 11]), (3, [.ptr 12]), (4, [])] ∧
    handleErrorTree exCfg [.obj 10 none, .obj 11 (some (5#32, 7)), .obj 12 none] 5#32 none exTree = some 2 := by
  refine ⟨?_, ?_, ?_⟩
  · simp [exTree, compilesTree, matchesAny]
  · simp [exTree, flatAll, HTree.flat]
  · rw [(C16_same_handler _ _ _ _ _ (by simp [exTree, compilesTree, matchesAny])).2]
    simp only [exTree, flatAll, HTree.flat, List.append_nil, List.cons_append, List.nil_append]
    decide

end Leaf
