import Verif.SplitKeep
import Verif.AbsFlow
import Verif.LoadLemmas
import Verif.HandlerLemmas

/-!
# Two nested scopes and one scope with the handlers of both

Lemmas for `Verif/PropSplit.lean`.
-/

namespace Leaf

/-- The cells that are slots of error types, without allocator. -/
def PlainCells (f : List CtxCell) : Prop := CellTy.da ∉ f.map CtxCell.cellTy

theorem PlainCells.tail {c : CtxCell} {f : List CtxCell} (h : PlainCells (c :: f)) : PlainCells f := by
  unfold PlainCells at h ⊢
  simp only [List.map_cons, List.mem_cons, not_or] at h
  exact h.2

theorem PlainCells.head {c : CtxCell} {f : List CtxCell} (h : PlainCells (c :: f)) : ∃ t x, c = .obj t x := by
  cases c with
  | obj t x => exact ⟨t, x, rfl⟩
  | da k ns => simp [PlainCells, CtxCell.cellTy] at h

theorem frameCell_none_iff {ty : Ty} {f : List CtxCell} (h : PlainCells f) : frameCell ty f = none ↔ CellTy.obj ty ∉ f.map CtxCell.cellTy := by
  induction f with
  | nil => simp [frameCell]
  | cons c f ih =>
    obtain ⟨t, x, rfl⟩ := h.head
    by_cases ht : t = ty
    · simp [frameCell, ht, CtxCell.cellTy]
    · simp [frameCell, ht, CtxCell.cellTy, ih h.tail, Ne.symm ht]

theorem frameCell_append (ty : Ty) (f g : List CtxCell) : frameCell ty (f ++ g) = (frameCell ty f).or (frameCell ty g) := by
  induction f with
  | nil => rfl
  | cons c f ih =>
    cases c with
    | obj t x => by_cases ht : t = ty <;> simp [frameCell, ht, ih]
    | da k ns => cases hn : nodeCell ty ns <;> simp [frameCell, hn, ih]

theorem findCell_plain {ty : Ty} {f : List CtxCell} (h : PlainCells f) : findCell ty f = frameCell ty f := by
  induction f with
  | nil => rfl
  | cons c f ih =>
    obtain ⟨t, x, rfl⟩ := h.head
    by_cases ht : t = ty <;> simp [frameCell, findCell, ht, ih h.tail]

theorem setFrame_of_none {ty : Ty} {c : Cell} {f : List CtxCell} (h : frameCell ty f = none) : setFrame ty c f = f := by
  induction f with
  | nil => rfl
  | cons x f ih =>
    cases x with
    | obj t d =>
      by_cases ht : t = ty
      · simp [frameCell, ht] at h
      · simp only [frameCell, ht, if_false] at h
        simp [setFrame, ht, ih h]
    | da k ns =>
      cases hn : nodeCell ty ns with
      | some d => simp [frameCell, hn] at h
      | none =>
        simp only [frameCell, hn] at h
        simp [setFrame, hn, ih h]

theorem setFrame_append {ty : Ty} {c : Cell} {f g : List CtxCell} :
    setFrame ty c (f ++ g) = if (frameCell ty f).isSome then setFrame ty c f ++ g else f ++ setFrame ty c g := by
  induction f with
  | nil => simp [frameCell]
  | cons x f ih =>
    cases x with
    | obj t d =>
      by_cases ht : t = ty
      · simp [frameCell, ht, setFrame]
      · simp only [List.cons_append, setFrame, ht, if_false, frameCell, ih]
        split <;> rfl
    | da k ns =>
      cases hn : nodeCell ty ns with
      | some d => simp [frameCell, hn, setFrame]
      | none =>
        simp only [List.cons_append, setFrame, hn, frameCell, ih]
        split <;> rfl

/-- The cells of types not in `S`. -/
def others (S : List CellTy) (f : List CtxCell) : List CtxCell := f.filter fun c => c.cellTy ∉ S

theorem others_plain {S : List CellTy} {f : List CtxCell} (h : PlainCells f) : PlainCells (others S f) := by
  intro hm
  obtain ⟨c, hc, e⟩ := List.mem_map.mp hm
  exact h (List.mem_map.mpr ⟨c, (List.mem_filter.mp hc).1, e⟩)

theorem others_cons {S : List CellTy} {t : Ty} {x : Cell} {f : List CtxCell} :
    others S (.obj t x :: f) = if CellTy.obj t ∈ S then others S f else .obj t x :: others S f := by
  unfold others
  rw [List.filter_cons]
  have : (CtxCell.obj t x).cellTy = .obj t := rfl
  rw [this]
  by_cases hs : CellTy.obj t ∈ S <;> simp [hs]

theorem frameCell_others {S : List CellTy} {ty : Ty} {f : List CtxCell} (h : PlainCells f) :
    frameCell ty (others S f) = if CellTy.obj ty ∈ S then none else frameCell ty f := by
  induction f with
  | nil => simp [others, frameCell]
  | cons c f ih =>
    obtain ⟨t, x, rfl⟩ := h.head
    have ih := ih h.tail
    rw [others_cons]
    by_cases ht : t = ty
    · subst ht
      by_cases hs : CellTy.obj t ∈ S <;> simp [hs, ih, frameCell]
    · by_cases hs : CellTy.obj t ∈ S <;> simp [hs, ih, frameCell, ht]

theorem setFrame_others {S : List CellTy} {ty : Ty} {c : Cell} {f : List CtxCell} (h : PlainCells f) (hs : CellTy.obj ty ∉ S) :
    setFrame ty c (others S f) = others S (setFrame ty c f) := by
  induction f with
  | nil => rfl
  | cons d f ih =>
    obtain ⟨t, x, rfl⟩ := h.head
    have ih := ih h.tail
    rw [others_cons]
    by_cases ht : t = ty
    · subst ht
      simp [setFrame, hs, others_cons]
    · by_cases hm : CellTy.obj t ∈ S <;> simp [setFrame, hm, ht, ih, others_cons]

theorem setFrame_plain {ty : Ty} {c : Cell} {f : List CtxCell} (h : PlainCells f) : PlainCells (setFrame ty c f) := by
  unfold PlainCells
  rw [setFrame_shape]
  exact h

theorem setFrameDa_none {k : Id} {ns : List (Ty × Cell)} {f : List CtxCell} (h : frameDa f = none) : setFrameDa k ns f = f := by
  induction f with
  | nil => rfl
  | cons c f ih =>
    cases c with
    | obj t x => simp only [setFrameDa]; rw [ih h]
    | da k ns => cases h

theorem setBoundDa_none {k : Id} {ns : List (Ty × Cell)} {fs : List (List CtxCell)} (h : boundDa fs = none) : setBoundDa k ns fs = fs := by
  induction fs with
  | nil => rfl
  | cons f fs ih =>
    cases hf : frameDa f with
    | some d => simp [boundDa, hf] at h
    | none =>
      simp only [boundDa, hf] at h
      simp [setBoundDa, hf, ih h]

/-- `b`: a scope with slots `S1` in a scope with slots `S2`; `b'`: a scope with both. Slots of the outer scope that are also in the inner one are empty. The enclosing scopes have no slots of the types
`S1` that are not in `S2`. -/
def Split (S1 S2 : List CellTy) (b b' : List (List CtxCell)) : Prop :=
  ∃ I O rest, b = I :: O :: rest ∧ b' = (I ++ others S1 O) :: rest ∧ I.map CtxCell.cellTy = S1 ∧ O.map CtxCell.cellTy = S2 ∧ PlainCells I ∧ PlainCells O ∧
    (∀ t c, CellTy.obj t ∈ S1 → frameCell t O = some c → c = none) ∧ boundDa rest = none ∧ (∀ t, CellTy.obj t ∈ S1 → CellTy.obj t ∉ S2 → boundCell t rest = none)

theorem boundDa_plain {f : List CtxCell} {fs : List (List CtxCell)} (h : PlainCells f) : boundDa (f :: fs) = boundDa fs := by
  rw [boundDa, frameDa_none h]

theorem append_plain {f g : List CtxCell} (hf : PlainCells f) (hg : PlainCells g) : PlainCells (f ++ g) := by
  unfold PlainCells at *
  rw [List.map_append, List.mem_append]
  exact fun h => h.elim hf hg

theorem boundDa_setBound (ty : Ty) (c : Cell) {fs : List (List CtxCell)} (h : boundDa fs = none) : boundDa (setBound ty c fs) = none := by
  induction fs with
  | nil => rfl
  | cons f fs ih =>
    cases hf : frameDa f with
    | some d => simp [boundDa, hf] at h
    | none =>
      simp only [boundDa, hf] at h
      have hp : PlainCells f := by
        intro hm
        obtain ⟨x, hx, e⟩ := List.mem_map.mp hm
        cases x with
        | obj t d => cases e
        | da k ns => exact (frameDa_none_iff f).mp hf k ns hx
      rw [setBound]
      cases frameCell ty f with
      | some d => simp only; rw [boundDa_plain (setFrame_plain hp)]; exact h
      | none => simp only; rw [boundDa_plain hp]; exact ih h

theorem below_split (S1 S2 : List CellTy) : Below (Split S1 S2) where
  cell := by
    rintro b b' ⟨I, O, rest, rfl, rfl, h1, h2, pI, pO, hn, hd, hr⟩ ty
    simp only [boundCell, frameCell_append, frameCell_others pO]
    cases hI : frameCell ty I with
    | some c => rfl
    | none =>
      have : CellTy.obj ty ∉ S1 := h1 ▸ (frameCell_none_iff pI).mp hI
      simp [this]
  set := by
    rintro b b' ⟨I, O, rest, rfl, rfl, h1, h2, pI, pO, hn, hd, hr⟩ ty c
    simp only [setBound, frameCell_append, frameCell_others pO]
    cases hI : frameCell ty I with
    | some d =>
      refine ⟨setFrame ty c I, O, rest, rfl, ?_, by rw [setFrame_shape, h1], h2, setFrame_plain pI, pO, hn, hd, hr⟩
      simp [setFrame_append, hI]
    | none =>
      have hs : CellTy.obj ty ∉ S1 := h1 ▸ (frameCell_none_iff pI).mp hI
      simp only [hs, if_false, Option.none_or]
      cases hO : frameCell ty O with
      | some d =>
        refine ⟨I, setFrame ty c O, rest, rfl, ?_, h1, by rw [setFrame_shape, h2], pI, setFrame_plain pO, ?_, hd, hr⟩
        · simp [setFrame_append, hI, setFrame_others pO hs]
        · intro t e ht hc
          have hne : t ≠ ty := by rintro rfl; exact hs ht
          rw [frameCell_setFrame_ne c O hne] at hc
          exact hn t e ht hc
      | none =>
        refine ⟨I, O, setBound ty c rest, rfl, rfl, h1, h2, pI, pO, hn, boundDa_setBound ty c hd, ?_⟩
        intro t ht ht2
        have hne : t ≠ ty := by rintro rfl; exact hs ht
        rw [boundCell_setBound_ne c rest hne]
        exact hr t ht ht2
  da := by
    rintro b b' ⟨I, O, rest, rfl, rfl, h1, h2, pI, pO, hn, hd, hr⟩
    rw [boundDa_plain pI, boundDa_plain pO, boundDa_plain (append_plain pI (others_plain pO))]
  setDa := by
    rintro b b' ⟨I, O, rest, rfl, rfl, h1, h2, pI, pO, hn, hd, hr⟩ k ns
    rw [setBoundDa_none (by rw [boundDa_plain pI, boundDa_plain pO]; exact hd), setBoundDa_none (by rw [boundDa_plain (append_plain pI (others_plain pO))]; exact hd)]
    exact ⟨I, O, rest, rfl, rfl, h1, h2, pI, pO, hn, hd, hr⟩

/-! ## Deduction of the slots -/

theorem deduce_append (cfg : Cfg) (H1 H2 : List (List Arg)) :
    deduce cfg (H1 ++ H2) = deduce cfg H1 ++ (deduce cfg H2).filter fun t => t ∉ deduce cfg H1 := by
  unfold deduce
  rw [List.flatten_append, List.map_append, List.flatten_append]
  generalize ((H1.flatten.map (Arg.contextTypes cfg)).flatten) = A
  generalize ((H2.flatten.map (Arg.contextTypes cfg)).flatten) = C
  have : mpUnique (A ++ C) = mpUnique A ++ (mpUnique C).filter (fun x => x ∉ mpUnique A) := by
    have h := mpUnique_aux_eq C (mpUnique A)
    rw [← h]
    unfold mpUnique
    rw [List.foldl_append]
  rw [this, List.filter_append, List.filter_filter, List.filter_filter]
  congr 1
  apply List.filter_congr
  intro x _
  cases hx : x.excluded cfg <;> simp [List.mem_filter, hx]

theorem deduce_plain {cfg : Cfg} {H : List (List Arg)} (h : PlainSpecs H) : CellTy.da ∉ deduce cfg H ∧ CellTy.obj tySrcLoc ∉ deduce cfg H := by
  have : ∀ t ∈ deduce cfg H, ∃ u, t = .obj u ∧ u ≠ tySrcLoc := by
    intro t ht
    unfold deduce at ht
    rw [List.mem_filter, mem_mpUnique, List.mem_flatten] at ht
    obtain ⟨⟨l, hl, htl⟩, _⟩ := ht
    obtain ⟨a, ha, rfl⟩ := List.mem_map.mp hl
    obtain ⟨args, h1, h2⟩ := List.mem_flatten.mp ha
    have hp := h args h1 a h2
    cases a <;> simp [Arg.contextTypes, Arg.Plain] at htl hp <;> exact ⟨_, htl, hp⟩
  refine ⟨fun hm => ?_, fun hm => ?_⟩
  · obtain ⟨u, e, _⟩ := this _ hm; cases e
  · obtain ⟨u, e, hu⟩ := this _ hm; cases e; exact hu rfl

/-! ## Selecting handlers -/

section

variable {cfg : Cfg} {id : Id} {ex : Option Exc}

/-- Handlers `H` find the same objects in both tuples. -/
def SameObjs (cfg : Cfg) (id : Id) (H : List (List Arg)) (c1 c2 : List CtxCell) : Prop :=
  ∀ ty, CellTy.obj ty ∈ deduce cfg H → (findCell ty c1).bind (Cell.hasValue · id) = (findCell ty c2).bind (Cell.hasValue · id)

theorem mem_deduce {H : List (List Arg)} {args : List Arg} {a : Arg} {ty : Ty} (h1 : args ∈ H) (h2 : a ∈ args) (h3 : CellTy.obj ty ∈ a.contextTypes cfg) (h4 : cfg.isAbstract ty = false) :
    CellTy.obj ty ∈ deduce cfg H := by
  unfold deduce
  rw [List.mem_filter, mem_mpUnique, List.mem_flatten]
  exact ⟨⟨_, List.mem_map.mpr ⟨a, List.mem_flatten.mpr ⟨args, h1, h2⟩, rfl⟩, h3⟩, by simp [CellTy.excluded, h4]⟩

theorem peek_same {H : List (List Arg)} {args : List Arg} {a : Arg} {ty : Ty} {c1 c2 : List CtxCell} (hs : SameObjs cfg id H c1 c2) (h1 : args ∈ H) (h2 : a ∈ args)
    (h3 : CellTy.obj ty ∈ a.contextTypes cfg) : peek cfg c1 id ex ty = peek cfg c2 id ex ty := by
  unfold peek
  cases ha : cfg.isAbstract ty with
  | true => rfl
  | false => rw [hs ty (mem_deduce h1 h2 h3 ha)]

theorem check_same {H : List (List Arg)} {args : List Arg} {a : Arg} {c1 c2 : List CtxCell} (hs : SameObjs cfg id H c1 c2) (h1 : args ∈ H) (h2 : a ∈ args) :
    a.check cfg c1 id ex = a.check cfg c2 id ex := by
  cases a with
  | req ty => simp only [Arg.check]; rw [peek_same hs h1 h2 (by simp [Arg.contextTypes])]
  | pred ty p => simp only [Arg.check]; rw [peek_same hs h1 h2 (by simp [Arg.contextTypes])]
  | _ => rfl

theorem get_same {H : List (List Arg)} {args : List Arg} {a : Arg} {c1 c2 : List CtxCell} {loc : Option Val} (hs : SameObjs cfg id H c1 c2) (hp : PlainSpecs H) (h1 : args ∈ H) (h2 : a ∈ args) :
    a.get cfg c1 id ex loc = a.get cfg c2 id ex loc := by
  have := hp args h1 a h2
  cases a with
  | req ty => simp only [Arg.get]; rw [peek_same hs h1 h2 (by simp [Arg.contextTypes])]
  | ptr ty => simp only [Arg.get]; rw [peek_same hs h1 h2 (by simp [Arg.contextTypes])]
  | pred ty p => simp only [Arg.get]; rw [peek_same hs h1 h2 (by simp [Arg.contextTypes])]
  | diag => exact this.elim
  | details => exact this.elim
  | _ => rfl

theorem getArgs_same {H : List (List Arg)} {args : List Arg} {c1 c2 : List CtxCell} {loc : Option Val} (hs : SameObjs cfg id H c1 c2) (hp : PlainSpecs H) (h1 : args ∈ H) :
    getArgs cfg c1 id ex loc args = getArgs cfg c2 id ex loc args := by
  have : ∀ l : List Arg, (∀ a ∈ l, a ∈ args) → getArgs cfg c1 id ex loc l = getArgs cfg c2 id ex loc l := by
    intro l
    induction l with
    | nil => intro _; rfl
    | cons a l ih =>
      intro hl
      simp only [getArgs]
      rw [get_same hs hp h1 (hl a (List.mem_cons_self ..)), ih fun b hb => hl b (List.mem_cons_of_mem _ hb)]
  exact this args fun _ h => h

/-- The first handler whose arguments check. -/
def firstMatch (cfg : Cfg) (cells : List CtxCell) (id : Id) (ex : Option Exc) (H : List (List Arg)) : Option Nat := H.findIdx? (checkArgs cfg cells id ex)

theorem selectSome_first (cells : List CtxCell) (H : List (List Arg)) : selectSome cfg cells id ex H = firstMatch cfg cells id ex H := by
  unfold selectSome firstMatch
  rw [selectSomeFrom_eq]
  simp

theorem selectAll_first (cells : List CtxCell) {H : List (List Arg)} (h : ValidAll H) : selectAll cfg cells id ex H = firstMatch cfg cells id ex H := by
  unfold selectAll firstMatch
  rw [selectAllFrom_eq _ _ _ _ _ h]
  simp

theorem firstMatch_same {H : List (List Arg)} {c1 c2 : List CtxCell} (hs : SameObjs cfg id H c1 c2) : firstMatch cfg c1 id ex H = firstMatch cfg c2 id ex H := by
  unfold firstMatch
  have : ∀ l : List (List Arg), (∀ a ∈ l, a ∈ H) → l.findIdx? (checkArgs cfg c1 id ex) = l.findIdx? (checkArgs cfg c2 id ex) := by
    intro l
    induction l with
    | nil => intro _; rfl
    | cons a l ih =>
      intro hl
      rw [List.findIdx?_cons, List.findIdx?_cons, ih fun b hb => hl b (List.mem_cons_of_mem _ hb)]
      have : checkArgs cfg c1 id ex a = checkArgs cfg c2 id ex a := by
        unfold checkArgs
        have hm := hl a (List.mem_cons_self ..)
        rw [Bool.eq_iff_iff, List.all_eq_true, List.all_eq_true]
        exact ⟨fun h x hx => (check_same hs hm hx) ▸ h x hx, fun h x hx => (check_same hs hm hx) ▸ h x hx⟩
      rw [this]
  exact this H fun _ h => h

theorem firstMatch_append (cells : List CtxCell) (H1 H2 : List (List Arg)) :
    firstMatch cfg cells id ex (H1 ++ H2) = (firstMatch cfg cells id ex H1).or ((firstMatch cfg cells id ex H2).map (· + H1.length)) := by
  unfold firstMatch
  rw [List.findIdx?_append]

theorem firstMatch_valid (cells : List CtxCell) {H : List (List Arg)} (h : ValidAll H) : firstMatch cfg cells id ex H ≠ none := by
  obtain ⟨init, last, rfl, hl⟩ := h
  unfold firstMatch
  intro hn
  rw [List.findIdx?_eq_none_iff] at hn
  have := hn last (by simp)
  rw [matchesAny_check hl] at this
  cases this

theorem firstMatch_lt {cells : List CtxCell} {H : List (List Arg)} {i : Nat} (h : firstMatch cfg cells id ex H = some i) : i < H.length := by
  unfold firstMatch at h
  rw [List.findIdx?_eq_some_iff_getElem] at h
  exact h.1

theorem validAll_append (H1 : List (List Arg)) {H2 : List (List Arg)} (h : ValidAll H2) : ValidAll (H1 ++ H2) := by
  obtain ⟨init, last, rfl, hl⟩ := h
  exact ⟨H1 ++ init, last, by simp, hl⟩

/-! ## Unloading -/

/-- What `slot<E>::unload` does to the stack of frames. -/
def ul (id : Id) (t : Ty) (c : Cell) (fs : List (List CtxCell)) : List (List CtxCell) :=
  match c.hasValue id with
  | none => fs
  | some v => match boundCell t fs with
    | some p => if (p.hasValue id).isNone then setBound t (some (id, v)) fs else fs
    | none => fs

def uls (id : Id) : List CtxCell → List (List CtxCell) → List (List CtxCell)
  | [], fs => fs
  | .obj t c :: cs, fs => ul id t c (uls id cs fs)
  | .da _ _ :: cs, fs => uls id cs fs

theorem ul_da {t : Ty} {c : Cell} {fs : List (List CtxCell)} (h : boundDa fs = none) : boundDa (ul id t c fs) = none := by
  unfold ul
  split
  · exact h
  · split
    · split
      · exact boundDa_setBound _ _ h
      · exact h
    · exact h

theorem uls_da {cs : List CtxCell} {fs : List (List CtxCell)} (h : boundDa fs = none) : boundDa (uls id cs fs) = none := by
  induction cs with
  | nil => exact h
  | cons c cs ih =>
    cases c with
    | obj t x => exact ul_da ih
    | da k ns => exact ih

theorem slotUnload_ul (hid : id ≠ 0#32) (t : Ty) (c : Cell) (w : World AbsStore) (hd : boundDa w.mem.frames = none) :
    slotUnload cfg id t c w = some ((), { w with mem := ⟨ul id t c w.mem.frames⟩ }) := by
  unfold slotUnload ul
  simp only [hid, if_false]
  cases c.hasValue id with
  | none => rfl
  | some v =>
    simp only [bind_apply, slotGet, Store.slotGet, Option.map_some, Option.bind_some]
    cases hb : boundCell t w.mem.frames with
    | some p =>
      cases hp : (p.hasValue id).isNone with
      | true => simp [slotSet, Store.slotSet, hb, Option.isNone_iff_eq_none.mp hp]
      | false => simp [pure_apply, show p.hasValue id ≠ none by intro e; simp [e] at hp]
    | none =>
      cases cfg.capture with
      | false => rfl
      | true => simp [dynamicLoad, bind_apply, daKey, Store.daKey, hd, pure_apply]

theorem unloadCells_uls {cells : List CtxCell} (hp : PlainCells cells) (w : World AbsStore) (hd : boundDa w.mem.frames = none) :
    unloadCells cfg id cells w = if id = 0#32 ∧ cells ≠ [] then none else some ((), { w with mem := ⟨uls id cells w.mem.frames⟩ }) := by
  induction cells with
  | nil => simp [unloadCells, pure_apply, uls]
  | cons c cells ih =>
    obtain ⟨t, x, rfl⟩ := hp.head
    have ih := ih hp.tail
    rw [unloadCells, bind_apply, ih]
    by_cases hid : id = 0#32
    · simp only [hid, true_and]
      by_cases hc : cells = []
      · simp [hc, unloadCell, slotUnload, bind_apply, ub]
      · simp [hc]
    · simp only [hid, false_and, if_false, Option.bind_some, unloadCell]
      rw [slotUnload_ul hid _ _ _ (uls_da hd)]
      rfl

/-- Unloading the inner scope into the outer one. -/
theorem uls_split {J O : List CtxCell} {rest : List (List CtxCell)} (pJ : PlainCells J) (nd : (J.map CtxCell.cellTy).Nodup)
    (h : ∀ t, CellTy.obj t ∈ J.map CtxCell.cellTy → frameCell t O = some none ∨ (frameCell t O = none ∧ boundCell t rest = none)) :
    ∃ O', uls id J (O :: rest) = O' :: rest ∧ O'.map CtxCell.cellTy = O.map CtxCell.cellTy ∧ ∀ u, (frameCell u J = none → frameCell u O' = frameCell u O) ∧
      (∀ c, frameCell u J = some c → frameCell u O ≠ none → (frameCell u O').bind (Cell.hasValue · id) = c.hasValue id) := by
  induction J with
  | nil => exact ⟨O, rfl, rfl, fun u => ⟨fun _ => rfl, fun c hc => by cases hc⟩⟩
  | cons d J ih =>
    obtain ⟨t, c, rfl⟩ := pJ.head
    rw [List.map_cons, List.nodup_cons] at nd
    obtain ⟨O1, e1, s1, f1⟩ := ih pJ.tail nd.2 fun u hu => h u (List.mem_cons_of_mem _ hu)
    have htJ : frameCell t J = none := (frameCell_none_iff pJ.tail).mpr nd.1
    have ht1 := (f1 t).1 htJ
    have ht := h t (List.mem_cons_self ..)
    have stay : c.hasValue id = none ∨ frameCell t O = none → ∃ O', O1 :: rest = O' :: rest ∧ O'.map CtxCell.cellTy = O.map CtxCell.cellTy ∧
        ∀ u, (frameCell u (.obj t c :: J) = none → frameCell u O' = frameCell u O) ∧
        (∀ x, frameCell u (.obj t c :: J) = some x → frameCell u O ≠ none → (frameCell u O').bind (Cell.hasValue · id) = x.hasValue id) := by
      intro hs
      refine ⟨O1, rfl, s1, fun u => ?_⟩
      by_cases hu : t = u
      · subst hu
        simp only [frameCell, if_true]
        refine ⟨fun h => (by cases h), fun x hx hn => ?_⟩
        cases hx
        rcases hs with hs | hs
        · rcases ht with ht | ht
          · rw [ht1, ht, hs]; rfl
          · exact absurd ht.1 hn
        · exact absurd hs hn
      · simp only [frameCell, hu, if_false]
        exact f1 u
    simp only [uls, e1]
    unfold ul
    cases hv : c.hasValue id with
    | none => exact stay (.inl hv)
    | some v =>
      rcases ht with ht | ht
      · rw [ht] at ht1
        have hb : boundCell t (O1 :: rest) = some none := by simp [boundCell, ht1]
        simp only [hb, Cell.hasValue, Option.isNone_none, if_true]
        have hs : setBound t (some (id, v)) (O1 :: rest) = setFrame t (some (id, v)) O1 :: rest := by simp [setBound, ht1]
        rw [hs]
        refine ⟨_, rfl, by rw [setFrame_shape, s1], fun u => ?_⟩
        by_cases hu : t = u
        · subst hu
          rw [frameCell_setFrame_same ht1]
          simp only [frameCell, if_true]
          refine ⟨fun h => (by cases h), fun x hx _ => ?_⟩
          cases hx
          simp only [Cell.hasValue] at hv
          simp [hv]
        · rw [frameCell_setFrame_ne _ _ (Ne.symm hu)]
          simp only [frameCell, hu, if_false]
          exact f1 u
      · rw [ht.1] at ht1
        have hb : boundCell t (O1 :: rest) = none := by simp [boundCell, ht1, ht.2]
        simp only [hb]
        exact stay (.inr ht.1)

end

/-- The scopes' contents seen by the handlers. -/
theorem sameObjs_inner {cfg : Cfg} {id : Id} {H1 : List (List Arg)} {I O : List CtxCell} (h1 : I.map CtxCell.cellTy = deduce cfg H1) (pI : PlainCells I) (pO : PlainCells O) :
    SameObjs cfg id H1 I (I ++ others (deduce cfg H1) O) := by
  intro ty hty
  rw [findCell_plain pI, findCell_plain (append_plain pI (others_plain pO)), frameCell_append]
  cases hc : frameCell ty I with
  | some c => rfl
  | none => exact absurd (h1 ▸ hty) ((frameCell_none_iff pI).mp hc)

theorem sameObjs_outer {cfg : Cfg} {id : Id} {H2 : List (List Arg)} {S1 : List CellTy} {I O O' : List CtxCell} (h1 : I.map CtxCell.cellTy = S1) (h2 : O.map CtxCell.cellTy = deduce cfg H2)
    (h2' : O'.map CtxCell.cellTy = O.map CtxCell.cellTy) (pI : PlainCells I) (pO : PlainCells O)
    (hf : ∀ u, (frameCell u I = none → frameCell u O' = frameCell u O) ∧
      (∀ c, frameCell u I = some c → frameCell u O ≠ none → (frameCell u O').bind (Cell.hasValue · id) = c.hasValue id)) :
    SameObjs cfg id H2 O' (I ++ others S1 O) := by
  intro ty hty
  have pO' : PlainCells O' := by unfold PlainCells; rw [h2']; exact pO
  rw [findCell_plain pO', findCell_plain (append_plain pI (others_plain pO)), frameCell_append, frameCell_others pO]
  cases hc : frameCell ty I with
  | some c =>
    rw [(hf ty).2 c hc fun hn => (frameCell_none_iff pO).mp hn (h2 ▸ hty)]
    rfl
  | none =>
    have : CellTy.obj ty ∉ S1 := h1 ▸ (frameCell_none_iff pI).mp hc
    simp [(hf ty).1 hc, this]

theorem ctxLoc_plain {id : Id} {cells : List CtxCell} (hp : PlainCells cells) (h : CellTy.obj tySrcLoc ∉ cells.map CtxCell.cellTy) : (ctxLoc id cells : Comp AbsStore _) = pure none := by
  unfold ctxLoc
  rw [findCell_plain hp, (frameCell_none_iff hp).mpr h]

theorem callHandler_same {cfg : Cfg} {id : Id} {ex : Option Exc} {loc : Option Val} {H H' : List (List Arg)} {c1 c2 : List CtxCell} {b b' : Nat → List ArgVal → Comp AbsStore Out} {i j : Nat}
    (hH : H'[j]? = H[i]?) (hs : SameObjs cfg id H c1 c2) (hp : PlainSpecs H) {B : List (List CtxCell) → List (List CtxCell) → Prop} (hb : ∀ args, Same B 0 0 (b i args) (b' j args)) :
    Same B 0 0 (callHandler cfg H b c1 id ex loc i) (callHandler cfg H' b' c2 id ex loc j) := by
  unfold callHandler
  rw [hH]
  cases hi : H[i]? with
  | none => exact Same.ub _
  | some args =>
    simp only
    rw [getArgs_same hs hp (List.mem_of_getElem? hi)]
    cases getArgs cfg c2 id ex loc args with
    | none => exact Same.ub _
    | some vals => exact (same_handled _ _ _ _ _).bind fun _ => hb vals

theorem popCtx_run {w : World AbsStore} {f : List CtxCell} {fs : List (List CtxCell)} (h : w.mem.frames = f :: fs) : popCtx w = some (f, { w with mem := ⟨fs⟩ }) := by
  unfold popCtx
  simp [Store.pop, h]

theorem pushCtx_run {w : World AbsStore} {S : List CellTy} (h : S.Nodup) : pushCtx S w = some ((), { w with mem := ⟨S.map CellTy.empty :: w.mem.frames⟩ }) := by
  unfold pushCtx
  simp [Store.push, h]

/-- `unpack_error_id` as a function of the exception and the current id. -/
def unpackFn (e : Exc) (cur : Id) : Option (Id × Exc) :=
  if e.isStd then
    match e.idSrc with
    | .base id => some (id, { e with clear := false })
    | .plain id => some (id, e)
    | .none => if cur = 0#32 ∨ Id.Tagged cur then some (makeErrorId cur, e) else none
  else if cur = 0#32 ∨ Id.Tagged cur then some (makeErrorId cur, e) else none

theorem unpackId_run (e : Exc) (w : World AbsStore) : unpackId e w = (unpackFn e w.cur).map (·, w) := by
  have hc : (do return (← currentError, e) : Comp AbsStore (Id × Exc)) w = (if w.cur = 0#32 ∨ Id.Tagged w.cur then some (makeErrorId w.cur, e) else none).map (·, w) := by
    simp only [currentError, bind_apply, currentId]
    split
    · simp [pure_apply]
    · simp
  unfold unpackId unpackFn
  split
  · cases e.idSrc with
    | base id => rfl
    | plain id => rfl
    | none => exact hc
  · exact hc

theorem unpackFn_again {e e1 : Exc} {cur id : Id} (h : unpackFn e cur = some (id, e1)) : unpackFn e1 cur = some (id, e1) := by
  unfold unpackFn at h
  split at h
  · rename_i hs
    split at h
    · rename_i hi; cases h; simp [unpackFn, hs, hi]
    · rename_i hi; cases h; simp [unpackFn, hs, hi]
    · rename_i hi
      split at h
      · rename_i hg; cases h; simp [unpackFn, hs, hi, hg]
      · cases h
  · rename_i hs
    split at h
    · rename_i hg; cases h; simp [unpackFn, hs, hg]
    · cases h

/-- The current id after an exception object was destroyed. -/
def afterDestroy (e : Exc) (cur : Id) : Id :=
  match e.idSrc with
  | .base id => if e.clear ∧ cur = id then 0#32 else cur
  | _ => cur

theorem destroyExc_run (e : Exc) (w : World AbsStore) : destroyExc e w = some ((), { w with cur := afterDestroy e w.cur }) := by
  unfold destroyExc afterDestroy
  cases e.idSrc with
  | base id =>
    simp only [bind_apply, getCur, Option.bind_some]
    by_cases h : e.clear = true ∧ w.cur = id
    · simp [h, setCur]
    · simp only [h, if_false]; rfl
  | _ => rfl

/-- A result that was unloaded has no objects. -/
def NoNodes : ErrRes → Prop
  | .plain _ => True
  | .captured _ ns => ns = []

/-- The thread after such a result is unloaded (again). -/
def reCur (r : ErrRes) (w : World AbsStore) : World AbsStore :=
  match r with
  | .plain _ => w
  | .captured _ _ => { w with cur := r.errId }

theorem resultUnload_noNodes {cfg : Cfg} {r : ErrRes} (h : NoNodes r) (w : World AbsStore) : resultUnload cfg r w = some (.err r, reCur r w) := by
  cases r with
  | plain id => rfl
  | captured id ns => cases h; rfl

theorem unloadOut_unloaded {cfg : Cfg} {o : Out} {r : ErrRes} {w v : World AbsStore} (h : unloadOut cfg o w = some (.err r, v)) : NoNodes r := by
  cases o with
  | val x => cases h
  | exc e => cases h
  | err r' =>
    cases r' with
    | plain id => cases h; trivial
    | captured id ns =>
      simp only [unloadOut, resultUnload, bind_apply, setCur, Option.bind_some] at h
      cases hu : unloadNodes cfg (ErrRes.captured id ns).errId ns { w with cur := (ErrRes.captured id ns).errId } with
      | none => simp [hu] at h
      | some p =>
        obtain ⟨x, u⟩ := p
        rw [hu, Option.bind_some] at h
        cases x with
        | some e => cases h
        | none => cases h; rfl

theorem reCur_twice (r : ErrRes) (w : World AbsStore) : reCur r (reCur r w) = reCur r w := by
  cases r <;> rfl

theorem reCur_frames (r : ErrRes) (w : World AbsStore) : (reCur r w).mem = w.mem := by
  cases r <;> rfl

theorem reCur_mem (r : ErrRes) (w : World AbsStore) (m : AbsStore) : reCur r { w with mem := m } = { reCur r w with mem := m } := by
  cases r <;> rfl

/-! ## The two functions after the block -/

/-- What `try_handle_some` does with what the block returned. -/
def someTail (cfg : Cfg) (specs : List (List Arg)) (body : Nat → List ArgVal → Comp AbsStore Out) : Out → Comp AbsStore Out
  | .val v => do
    let _ ← popCtx
    return .val v
  | .err r => do
    let _ ← resultUnload cfg r
    let cells ← popCtx
    let loc ← ctxLoc r.errId cells
    let rr ← match selectSome cfg cells r.errId none specs with
      | some i => callHandler cfg specs body cells r.errId none loc i
      | none => pure (.err r)
    match rr with
    | .err r' => unloadCells cfg r'.errId cells
    | _ => pure ()
    return rr
  | .exc e => do
    let (o, cells) ← catchPath cfg specs body e
    match o with
    | .err r' => unloadCells cfg r'.errId cells
    | _ => pure ()
    return o

/-- What `try_handle_all` does with what the block returned. -/
def allTail (cfg : Cfg) (specs : List (List Arg)) (body : Nat → List ArgVal → Comp AbsStore Out) : Out → Comp AbsStore Out
  | .val v => do
    let _ ← popCtx
    return .val v
  | .err r => do
    let _ ← resultUnload cfg r
    let cells ← popCtx
    let loc ← ctxLoc r.errId cells
    match selectAll cfg cells r.errId none specs with
    | some i => noErr (← callHandler cfg specs body cells r.errId none loc i)
    | none => ub
  | .exc e => do
    let (o, _) ← catchPath cfg specs body e
    noErr o

theorem tryHandleSome_tail (cfg : Cfg) (specs : List (List Arg)) (block : Comp AbsStore Out) (body : Nat → List ArgVal → Comp AbsStore Out) :
    tryHandleSome cfg specs block body = pushCtx (deduce cfg specs) >>= fun _ => block >>= fun o => unloadOut cfg o >>= someTail cfg specs body := by
  unfold tryHandleSome
  rfl

theorem tryHandleAll_tail (cfg : Cfg) (specs : List (List Arg)) (block : Comp AbsStore Out) (body : Nat → List ArgVal → Comp AbsStore Out) :
    tryHandleAll cfg specs block body = pushCtx (deduce cfg specs) >>= fun _ => block >>= fun o => unloadOut cfg o >>= allTail cfg specs body := by
  unfold tryHandleAll
  rfl

theorem bind_run {α β : Type} {m : Comp AbsStore α} {f : α → Comp AbsStore β} {w v : World AbsStore} {a : α} (h : m w = some (a, v)) : (m >>= f) w = f a v := by
  rw [bind_apply, h, Option.bind_some]

/-- The exception handling of both functions. -/
theorem catchPath_run {cfg : Cfg} {specs : List (List Arg)} {body : Nat → List ArgVal → Comp AbsStore Out} {e e1 : Exc} {id : Id} {w : World AbsStore} {f : List CtxCell} {fs : List (List CtxCell)}
    (hf : w.mem.frames = f :: fs) (hp : PlainCells f) (hl : CellTy.obj tySrcLoc ∉ f.map CtxCell.cellTy) (hu : unpackFn e w.cur = some (id, e1)) :
    catchPath cfg specs body e w =
      (match firstMatch cfg f id (if e1.isStd then some e1 else none) specs with
       | some i => do
         let o ← callHandler cfg specs body f id (if e1.isStd then some e1 else none) none i
         popHandling
         destroyExc e1
         return (o, f)
       | none => do
         unloadCells cfg id f
         popHandling
         return (.exc e1, f)) { w with mem := ⟨fs⟩, handling := e1 :: w.handling } := by
  unfold catchPath
  rw [bind_run (popCtx_run hf), bind_run (by rw [unpackId_run, hu]; rfl)]
  simp only
  rw [bind_run (show pushHandling e1 _ = some ((), _) from rfl), ctxLoc_plain hp hl, bind_run (pure_apply _ _), selectSome_first]
  rfl

theorem catchPath_ub {cfg : Cfg} {specs : List (List Arg)} {body : Nat → List ArgVal → Comp AbsStore Out} {e : Exc} {w : World AbsStore} {f : List CtxCell} {fs : List (List CtxCell)}
    (hf : w.mem.frames = f :: fs) (hu : unpackFn e w.cur = none) : catchPath cfg specs body e w = none := by
  unfold catchPath
  rw [bind_run (popCtx_run hf), bind_apply, unpackId_run, hu]
  rfl

theorem callHandler_value {cfg : Cfg} {H : List (List Arg)} {b : Nat → List ArgVal → Comp AbsStore Out} {g : Nat → List ArgVal → Val} {cells : List CtxCell} {id : Id} {ex : Option Exc} {i : Nat}
    (hb : ∀ args, b i args = pure (.val (g i args))) {w v : World AbsStore} {o : Out} (h : callHandler cfg H b cells id ex none i w = some (o, v)) :
    ∃ args vals, H[i]? = some args ∧ getArgs cfg cells id ex none args = some vals ∧ o = .val (g i vals) ∧ v = { w with trace := .handled id ex i vals :: w.trace } := by
  unfold callHandler at h
  cases hi : H[i]? with
  | none => rw [hi] at h; cases h
  | some args =>
    rw [hi] at h
    simp only at h
    cases hg : getArgs cfg cells id ex none args with
    | none => rw [hg] at h; cases h
    | some vals =>
      rw [hg] at h
      simp only [hb] at h
      rw [bind_run (show emit _ w = some ((), _) from rfl)] at h
      cases h
      exact ⟨args, vals, rfl, hg, rfl, rfl⟩

theorem callHandler_value' {cfg : Cfg} {H : List (List Arg)} {b : Nat → List ArgVal → Comp AbsStore Out} {g : Nat → List ArgVal → Val} {cells : List CtxCell} {id : Id} {ex : Option Exc} {i : Nat}
    (hb : ∀ args, b i args = pure (.val (g i args))) {w : World AbsStore} {args : List Arg} {vals : List ArgVal} (hi : H[i]? = some args) (hg : getArgs cfg cells id ex none args = some vals) :
    callHandler cfg H b cells id ex none i w = some (.val (g i vals), { w with trace := .handled id ex i vals :: w.trace }) := by
  unfold callHandler
  rw [hi]
  simp only [hg, hb]
  rfl

section

variable {cfg : Cfg} {H1 H2 : List (List Arg)} {b1 b2 fb : Nat → List ArgVal → Comp AbsStore Out} {g : Nat → List ArgVal → Val}

/-- The threads when the block is done: one in two scopes, one in a single scope. -/
structure Mid (cfg : Cfg) (H1 H2 : List (List Arg)) (I O : List CtxCell) (rest : List (List CtxCell)) (w w' : World AbsStore) : Prop where
  cur : w'.cur = w.cur
  counter : w'.counter = w.counter
  ticks : w'.ticks = w.ticks
  handling : w'.handling = w.handling
  trace : w'.trace.map Event.anyIndex = w.trace.map Event.anyIndex
  frames : w.mem.frames = I :: O :: rest
  frames' : w'.mem.frames = (I ++ others (deduce cfg H1) O) :: rest
  tyI : I.map CtxCell.cellTy = deduce cfg H1
  tyO : O.map CtxCell.cellTy = deduce cfg H2
  pI : PlainCells I
  pO : PlainCells O
  empty : ∀ t c, CellTy.obj t ∈ deduce cfg H1 → frameCell t O = some c → c = none
  da : boundDa rest = none
  notIn : ∀ t, CellTy.obj t ∈ deduce cfg H1 → CellTy.obj t ∉ deduce cfg H2 → boundCell t rest = none
  p1 : PlainSpecs H1
  p2 : PlainSpecs H2

variable {I O : List CtxCell} {rest : List (List CtxCell)} {w w' : World AbsStore}

theorem Mid.flat (m : Mid cfg H1 H2 I O rest w w') : PlainCells (I ++ others (deduce cfg H1) O) := append_plain m.pI (others_plain m.pO)

theorem Mid.noLocI (m : Mid cfg H1 H2 I O rest w w') : CellTy.obj tySrcLoc ∉ I.map CtxCell.cellTy := by
  rw [m.tyI]; exact (deduce_plain m.p1).2

theorem Mid.noLocO (m : Mid cfg H1 H2 I O rest w w') : CellTy.obj tySrcLoc ∉ O.map CtxCell.cellTy := by
  rw [m.tyO]; exact (deduce_plain m.p2).2

theorem Mid.noLoc (m : Mid cfg H1 H2 I O rest w w') : CellTy.obj tySrcLoc ∉ (I ++ others (deduce cfg H1) O).map CtxCell.cellTy := by
  rw [List.map_append, List.mem_append]
  rintro (h | h)
  · exact m.noLocI h
  · obtain ⟨c, hc, e⟩ := List.mem_map.mp h
    exact m.noLocO (List.mem_map.mpr ⟨c, (List.mem_filter.mp hc).1, e⟩)

theorem Mid.reCur (m : Mid cfg H1 H2 I O rest w w') (r : ErrRes) : Mid cfg H1 H2 I O rest (reCur r w) (reCur r w') := by
  cases r with
  | plain id => exact m
  | captured id ns => exact { m with cur := rfl }

/-- Unloading the inner scope. -/
theorem Mid.unload (m : Mid cfg H1 H2 I O rest w w') (id : Id) :
    ∃ O', uls id I (O :: rest) = O' :: rest ∧ PlainCells O' ∧ O'.map CtxCell.cellTy = deduce cfg H2 ∧ SameObjs cfg id H2 O' (I ++ others (deduce cfg H1) O) := by
  obtain ⟨O', e, s, f⟩ := uls_split (id := id) (rest := rest) (O := O) m.pI (m.tyI ▸ deduce_nodup cfg H1) (by
    intro t ht
    rw [m.tyI] at ht
    cases hc : frameCell t O with
    | some c => exact .inl (by rw [m.empty t c ht hc])
    | none => exact .inr ⟨rfl, m.notIn t ht (m.tyO ▸ (frameCell_none_iff m.pO).mp hc)⟩)
  exact ⟨O', e, by unfold PlainCells; rw [s]; exact m.pO, s.trans m.tyO, sameObjs_outer m.tyI m.tyO s m.pI m.pO f⟩

/-- What is left after the inner scope. -/
structure Left (rest : List (List CtxCell)) (w w' : World AbsStore) : Prop where
  cur : w'.cur = w.cur
  counter : w'.counter = w.counter
  ticks : w'.ticks = w.ticks
  handling : w'.handling = w.handling
  trace : w'.trace.map Event.anyIndex = w.trace.map Event.anyIndex
  frames' : w'.mem.frames = rest

theorem Left.agree {rest : List (List CtxCell)} {w w' : World AbsStore} (h : Left rest w w') : AgreeBelow Eq 0 { w with mem := ⟨rest⟩ } w' :=
  ⟨h.cur, h.counter, h.ticks, h.handling, h.trace, [], rest, rest, rfl, rfl, h.frames', rfl⟩

/-- The inner scope is done with an error `r` returned to it. -/
theorem inner_err (m : Mid cfg H1 H2 I O rest w w') (hb1 : ∀ i args, b1 i args = pure (.val (g i args))) (hfb : ∀ i args, i < H1.length → fb i args = pure (.val (g i args)))
    (r : ErrRes) (hr : NoNodes r) {o : Out} {v : World AbsStore} (h : someTail cfg H1 b1 (.err r) w = some (o, v)) :
    (∃ x w2, o = .val x ∧ v.mem.frames = O :: rest ∧ (∃ i, firstMatch cfg (I ++ others (deduce cfg H1) O) r.errId none H1 = some i ∧ i < H1.length ∧
      callHandler cfg (H1 ++ H2) fb (I ++ others (deduce cfg H1) O) r.errId none none i { reCur r w' with mem := ⟨rest⟩ } = some (.val x, w2)) ∧ Left rest v w2) ∨
    (o = .err r ∧ firstMatch cfg (I ++ others (deduce cfg H1) O) r.errId none H1 = none ∧ ¬(r.errId = 0#32 ∧ I ≠ []) ∧
      v = { reCur r w with mem := ⟨uls r.errId I (O :: rest)⟩ }) := by
  rw [someTail] at h
  rw [bind_run (resultUnload_noNodes hr w), bind_run (popCtx_run (by rw [reCur_frames]; exact m.frames)), ctxLoc_plain m.pI m.noLocI, bind_run (pure_apply _ _), selectSome_first] at h
  have hs := sameObjs_inner (id := r.errId) m.tyI m.pI m.pO
  have hfm := firstMatch_same (ex := none) hs
  have hm := m.reCur r
  cases hi : firstMatch cfg I r.errId none H1 with
  | some i =>
    rw [hi] at h hfm
    simp only at h
    left
    rw [bind_apply] at h
    cases hc : callHandler cfg H1 b1 I r.errId none none i { reCur r w with mem := ⟨O :: rest⟩ } with
    | none => rw [hc] at h; cases h
    | some p =>
      obtain ⟨o1, v1⟩ := p
      rw [hc, Option.bind_some] at h
      obtain ⟨args, vals, ha, hg, rfl, rfl⟩ := callHandler_value (hb1 i) hc
      cases h
      have hlt := firstMatch_lt hi
      refine ⟨_, _, rfl, rfl, ⟨i, hfm.symm, hlt, callHandler_value' (g := g) (fun args => hfb i args hlt) (args := args) (vals := vals) ?_ ?_⟩, ?_⟩
      · rw [List.getElem?_append_left hlt]; exact ha
      · rw [← getArgs_same hs m.p1 (List.mem_of_getElem? ha)]; exact hg
      · exact ⟨hm.cur, hm.counter, hm.ticks, hm.handling, by simp only [List.map_cons]; rw [hm.trace], rfl⟩
  | none =>
    rw [hi] at h hfm
    simp only at h
    right
    rw [bind_run (pure_apply _ _)] at h
    simp only at h
    rw [bind_apply, unloadCells_uls m.pI _ (by simp only; rw [boundDa_plain m.pO]; exact m.da)] at h
    split at h
    · cases h
    · rename_i hn
      cases h
      exact ⟨rfl, hfm.symm, hn, rfl⟩

/-- The inner scope is done with an exception thrown in it. -/
theorem inner_exc (m : Mid cfg H1 H2 I O rest w w') (hb1 : ∀ i args, b1 i args = pure (.val (g i args))) (hfb : ∀ i args, i < H1.length → fb i args = pure (.val (g i args)))
    (e : Exc) {o : Out} {v : World AbsStore} (h : someTail cfg H1 b1 (.exc e) w = some (o, v)) :
    (∃ x w2, o = .val x ∧ v.mem.frames = O :: rest ∧ catchPath cfg (H1 ++ H2) fb e w' = some ((.val x, I ++ others (deduce cfg H1) O), w2) ∧ Left rest v w2) ∨
    (∃ id e1, unpackFn e w.cur = some (id, e1) ∧ o = .exc e1 ∧ firstMatch cfg (I ++ others (deduce cfg H1) O) id (if e1.isStd then some e1 else none) H1 = none ∧ ¬(id = 0#32 ∧ I ≠ []) ∧
      v = { w with mem := ⟨uls id I (O :: rest)⟩ }) := by
  rw [someTail] at h
  cases hu : unpackFn e w.cur with
  | none => rw [bind_apply, catchPath_ub m.frames hu] at h; cases h
  | some p =>
    obtain ⟨id, e1⟩ := p
    rw [bind_apply, catchPath_run m.frames m.pI m.noLocI hu] at h
    have hs := sameObjs_inner (id := id) m.tyI m.pI m.pO
    have hfm := firstMatch_same (ex := if e1.isStd then some e1 else none) hs
    cases hi : firstMatch cfg I id (if e1.isStd then some e1 else none) H1 with
    | some i =>
      rw [hi] at h hfm
      simp only at h
      left
      rw [bind_apply] at h
      cases hc : callHandler cfg H1 b1 I id (if e1.isStd then some e1 else none) none i { w with mem := ⟨O :: rest⟩, handling := e1 :: w.handling } with
      | none => rw [hc] at h; cases h
      | some p =>
        obtain ⟨o1, v1⟩ := p
        rw [hc, Option.bind_some] at h
        obtain ⟨args, vals, ha, hg, rfl, rfl⟩ := callHandler_value (hb1 i) hc
        simp only [popHandling, bind_apply, destroyExc_run, Option.bind_some, pure_apply, List.tail_cons] at h
        cases h
        have hlt := firstMatch_lt hi
        refine ⟨_, { w' with cur := afterDestroy e1 w'.cur, trace := .handled id (if e1.isStd then some e1 else none) i vals :: w'.trace, mem := ⟨rest⟩ }, rfl, rfl, ?_, ?_⟩
        · rw [catchPath_run m.frames' m.flat m.noLoc (m.cur ▸ hu), firstMatch_append, ← hfm]
          simp only [Option.some_or]
          rw [bind_run (callHandler_value' (g := g) (fun args => hfb i args hlt) (args := args) (vals := vals) (by rw [List.getElem?_append_left hlt]; exact ha)
            (by rw [← getArgs_same hs m.p1 (List.mem_of_getElem? ha)]; exact hg))]
          simp only [popHandling, bind_apply, destroyExc_run, Option.bind_some, pure_apply, List.tail_cons]
        · exact ⟨by simp only; rw [m.cur], m.counter, m.ticks, m.handling, by simp only [List.map_cons]; rw [m.trace], rfl⟩
    | none =>
      rw [hi] at h hfm
      simp only at h
      right
      rw [bind_apply, unloadCells_uls m.pI _ (by simp only; rw [boundDa_plain m.pO]; exact m.da)] at h
      split at h
      · cases h
      · rename_i hn
        cases h
        exact ⟨id, e1, rfl, rfl, hfm.symm, hn, rfl⟩

end

end Leaf
