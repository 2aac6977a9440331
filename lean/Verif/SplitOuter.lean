import Verif.SplitLemmas

/-!
# The outer one of two nested scopes

Lemmas for `Verif/PropSplit.lean`.
-/

namespace Leaf

/-! ## The order in which slots are unloaded makes no difference -/

theorem setNode_comm {t u : Ty} (h : t ≠ u) (x y : Cell) (ns : List (Ty × Cell)) : setNode t x (setNode u y ns) = setNode u y (setNode t x ns) := by
  induction ns with
  | nil => rfl
  | cons n ns ih =>
    obtain ⟨s, c⟩ := n
    by_cases h1 : s = t
    · subst h1; simp [setNode, h]
    · by_cases h2 : s = u
      · subst h2; simp [setNode, h1]
      · simp [setNode, h1, h2, ih]

theorem setFrame_comm {t u : Ty} (h : t ≠ u) (x y : Cell) (f : List CtxCell) : setFrame t x (setFrame u y f) = setFrame u y (setFrame t x f) := by
  induction f with
  | nil => rfl
  | cons c f ih =>
    cases c with
    | obj s c =>
      by_cases h1 : s = t
      · subst h1; simp [setFrame, h]
      · by_cases h2 : s = u
        · subst h2; simp [setFrame, h1]
        · simp [setFrame, h1, h2, ih]
    | da k ns =>
      cases h1 : nodeCell t ns with
      | some a =>
        cases h2 : nodeCell u ns with
        | some b => simp [setFrame, h1, h2, nodeCell_setNode_ne _ _ h, nodeCell_setNode_ne _ _ (Ne.symm h), setNode_comm h]
        | none => simp [setFrame, h1, h2, nodeCell_setNode_ne _ _ (Ne.symm h)]
      | none =>
        cases h2 : nodeCell u ns with
        | some b => simp [setFrame, h1, h2, nodeCell_setNode_ne _ _ h]
        | none => simp [setFrame, h1, h2, ih]

theorem setBound_comm {t u : Ty} (h : t ≠ u) (x y : Cell) (fs : List (List CtxCell)) : setBound t x (setBound u y fs) = setBound u y (setBound t x fs) := by
  induction fs with
  | nil => rfl
  | cons f fs ih =>
    cases h1 : frameCell t f with
    | some a =>
      cases h2 : frameCell u f with
      | some b => simp [setBound, h1, h2, frameCell_setFrame_ne _ _ h, frameCell_setFrame_ne _ _ (Ne.symm h), setFrame_comm h]
      | none => simp [setBound, h1, h2, frameCell_setFrame_ne _ _ (Ne.symm h)]
    | none =>
      cases h2 : frameCell u f with
      | some b => simp [setBound, h1, h2, frameCell_setFrame_ne _ _ h]
      | none => simp [setBound, h1, h2, ih]

/-- Unload the object `x` of type `t`, if any. -/
def ulv (id : Id) (t : Ty) (x : Option Val) (fs : List (List CtxCell)) : List (List CtxCell) :=
  match x with
  | none => fs
  | some v => match boundCell t fs with
    | some p => if (p.hasValue id).isNone then setBound t (some (id, v)) fs else fs
    | none => fs

theorem ulv_bound_ne {id : Id} {t u : Ty} {x : Option Val} {fs : List (List CtxCell)} (h : u ≠ t) : boundCell u (ulv id t x fs) = boundCell u fs := by
  unfold ulv
  split
  · rfl
  · split
    · split
      · exact boundCell_setBound_ne _ _ h
      · rfl
    · rfl

theorem ulv_comm {id : Id} {t u : Ty} {x y : Option Val} (h : t ≠ u) (fs : List (List CtxCell)) : ulv id t x (ulv id u y fs) = ulv id u y (ulv id t x fs) := by
  cases x with
  | none => rfl
  | some v =>
    cases y with
    | none => rfl
    | some z =>
      have e1 : ∀ y, boundCell t (setBound u y fs) = boundCell t fs := fun y => boundCell_setBound_ne _ _ h
      have e2 : ∀ y, boundCell u (setBound t y fs) = boundCell u fs := fun y => boundCell_setBound_ne _ _ (Ne.symm h)
      unfold ulv
      cases ht : boundCell t fs with
      | none => cases hu : boundCell u fs with
        | none => simp [ht]
        | some q => cases hq : (q.hasValue id).isNone <;> simp [hq, ht, e1]
      | some p => cases hu : boundCell u fs with
        | none => cases hp : (p.hasValue id).isNone <;> simp [hp, ht, hu, e2]
        | some q =>
          cases hp : (p.hasValue id).isNone <;> cases hq : (q.hasValue id).isNone <;> simp [hp, hq, ht, hu, e1, e2]
          exact setBound_comm h _ _ _

def ulc (id : Id) (g : Ty → Option Val) (c : CellTy) (fs : List (List CtxCell)) : List (List CtxCell) :=
  match c with
  | .obj t => ulv id t (g t) fs
  | .da => fs

theorem uls_fold {id : Id} {g : Ty → Option Val} {cells : List CtxCell} (h : ∀ t c, CtxCell.obj t c ∈ cells → g t = c.hasValue id) (fs : List (List CtxCell)) :
    uls id cells fs = (cells.map CtxCell.cellTy).foldr (ulc id g) fs := by
  induction cells with
  | nil => rfl
  | cons c cells ih =>
    have ih := ih fun t x hx => h t x (List.mem_cons_of_mem _ hx)
    cases c with
    | obj t x =>
      simp only [uls, List.map_cons, List.foldr_cons, ih]
      have := h t x (List.mem_cons_self ..)
      simp only [CtxCell.cellTy, ulc, this]
      rfl
    | da k ns => simp only [uls, List.map_cons, List.foldr_cons, ih]; rfl

theorem frameCell_plain_mem {t : Ty} {c : Cell} {f : List CtxCell} (hp : PlainCells f) (nd : (f.map CtxCell.cellTy).Nodup) (h : CtxCell.obj t c ∈ f) : frameCell t f = some c := by
  induction f with
  | nil => cases h
  | cons d f ih =>
    obtain ⟨u, x, rfl⟩ := hp.head
    rw [List.map_cons, List.nodup_cons] at nd
    cases h with
    | head => simp [frameCell]
    | tail _ h =>
      have : u ≠ t := by
        rintro rfl
        exact nd.1 (List.mem_map.mpr ⟨_, h, rfl⟩)
      simp [frameCell, this, ih hp.tail nd.2 h]

theorem fold_bound {id : Id} {g : Ty → Option Val} {t : Ty} {S : List CellTy} {fs : List (List CtxCell)} (h : boundCell t fs = none) : boundCell t (S.foldr (ulc id g) fs) = none := by
  induction S with
  | nil => exact h
  | cons c S ih =>
    rw [List.foldr_cons]
    cases c with
    | da => exact ih
    | obj u =>
      by_cases hu : t = u
      · subst hu
        simp only [ulc, ulv]
        split
        · exact ih
        · rw [ih]; exact ih
      · simp only [ulc]
        rw [ulv_bound_ne hu]
        exact ih

theorem fold_filter {id : Id} {g : Ty → Option Val} {S : List CellTy} {p : CellTy → Bool} {fs : List (List CtxCell)} (h : ∀ t, CellTy.obj t ∈ S → p (.obj t) = false → boundCell t fs = none) :
    S.foldr (ulc id g) fs = (S.filter p).foldr (ulc id g) fs := by
  induction S with
  | nil => rfl
  | cons c S ih =>
    have ih := ih fun t ht => h t (List.mem_cons_of_mem _ ht)
    rw [List.foldr_cons, List.filter_cons, ih]
    cases hp : p c with
    | true => simp
    | false =>
      simp only [Bool.false_eq_true, if_false]
      cases c with
      | da => rfl
      | obj t =>
        have := fold_bound (id := id) (g := g) (S := S.filter p) (h t (List.mem_cons_self ..) hp)
        simp only [ulc, ulv]
        split
        · rfl
        · rw [this]

theorem uls_flat {cfg : Cfg} {id : Id} {H1 H2 : List (List Arg)} {I O O' : List CtxCell} {rest : List (List CtxCell)} (h1 : I.map CtxCell.cellTy = deduce cfg H1)
    (h2 : O.map CtxCell.cellTy = deduce cfg H2) (h2' : O'.map CtxCell.cellTy = deduce cfg H2) (pI : PlainCells I) (pO : PlainCells O) (pO' : PlainCells O')
    (hs : SameObjs cfg id H2 O' (I ++ others (deduce cfg H1) O)) (hr : ∀ t, CellTy.obj t ∈ deduce cfg H1 → CellTy.obj t ∉ deduce cfg H2 → boundCell t rest = none) :
    uls id O' rest = uls id (I ++ others (deduce cfg H1) O) rest := by
  have pF := append_plain pI (others_plain (S := deduce cfg H1) pO)
  have tF : (I ++ others (deduce cfg H1) O).map CtxCell.cellTy = deduce cfg H1 ++ (deduce cfg H2).filter fun t => t ∉ deduce cfg H1 := by
    rw [List.map_append, h1]
    congr 1
    rw [← h2]
    unfold others
    rw [List.filter_map]
    rfl
  have nF : (deduce cfg H1 ++ (deduce cfg H2).filter fun t => t ∉ deduce cfg H1).Nodup := by
    rw [← deduce_append]; exact deduce_nodup _ _
  let g : Ty → Option Val := fun t => (frameCell t (I ++ others (deduce cfg H1) O)).bind (Cell.hasValue · id)
  rw [uls_fold (g := g) (cells := I ++ others (deduce cfg H1) O) (by
    intro t c hc
    simp only [g, frameCell_plain_mem pF (by rw [tF]; exact nF) hc]
    rfl), tF]
  rw [uls_fold (g := g) (cells := O') (by
    intro t c hc
    have hty : CellTy.obj t ∈ deduce cfg H2 := h2' ▸ List.mem_map.mpr ⟨_, hc, rfl⟩
    have := hs t hty
    rw [findCell_plain pO', findCell_plain pF, frameCell_plain_mem pO' (by rw [h2']; exact deduce_nodup _ _) hc] at this
    exact this.symm), h2']
  rw [fold_filter (S := deduce cfg H1 ++ _) (p := fun t => t ∈ deduce cfg H2) (by
    intro t ht hp
    rw [List.mem_append] at ht
    have hn : CellTy.obj t ∉ deduce cfg H2 := by simpa using hp
    rcases ht with ht | ht
    · exact hr t ht hn
    · exact absurd (List.mem_filter.mp ht).1 hn)]
  apply List.Perm.foldr_eq'
  · rw [List.perm_ext_iff_of_nodup (deduce_nodup _ _) (nF.filter _)]
    intro t
    simp only [List.mem_filter, List.mem_append, decide_eq_true_eq]
    by_cases h : t ∈ deduce cfg H1 <;> simp [h]
  · intro a _ b _ fs
    cases a with
    | da => rfl
    | obj t =>
      cases b with
      | da => rfl
      | obj u =>
        by_cases h : t = u
        · subst h; rfl
        · simp only [ulc]
          exact ulv_comm (Ne.symm h) fs

section

variable {cfg : Cfg} {H1 H2 : List (List Arg)} {b1 b2 fb : Nat → List ArgVal → Comp AbsStore Out} {g : Nat → List ArgVal → Val}
  {I O O' : List CtxCell} {rest : List (List CtxCell)} {w w' : World AbsStore}

/-- The two threads when the inner scope is done with an error that it did not handle. -/
structure Out2 (cfg : Cfg) (H2 : List (List Arg)) (O' F : List CtxCell) (rest : List (List CtxCell)) (id : Id) : Prop where
  p : PlainCells O'
  noLoc : CellTy.obj tySrcLoc ∉ O'.map CtxCell.cellTy
  same : SameObjs cfg id H2 O' F
  uls : uls id O' rest = uls id F rest
  nil : F ≠ [] → I ≠ [] ∨ O' ≠ []

theorem Mid.out2 (m : Mid cfg H1 H2 I O rest w w') (id : Id) :
    ∃ O', Leaf.uls id I (O :: rest) = O' :: rest ∧ Out2 (I := I) cfg H2 O' (I ++ others (deduce cfg H1) O) rest id := by
  obtain ⟨O', e, pO', s, hs⟩ := m.unload id
  refine ⟨O', e, pO', ?_, hs, uls_flat m.tyI m.tyO s m.pI m.pO pO' hs m.notIn, ?_⟩
  · rw [s]; exact (deduce_plain m.p2).2
  · intro h
    by_cases hI : I = []
    · right
      rintro rfl
      apply h
      have : O = [] := by
        have h1 := m.tyO
        rw [← s] at h1
        simpa using h1
      simp [hI, this, others]
    · exact .inl hI

theorem agree_mid (m : Mid cfg H1 H2 I O rest w w') : AgreeBelow Eq 0 { w with mem := ⟨rest⟩ } { w' with mem := ⟨rest⟩ } :=
  ⟨m.cur, m.counter, m.ticks, m.handling, m.trace, [], rest, rest, rfl, rfl, rfl, rfl⟩

theorem outer_call {ex : Option Exc} {id : Id} {F : List CtxCell} (hp : PlainSpecs H2) (hs : SameObjs cfg id H2 O' F) (hb2 : ∀ i args, Same Eq 0 0 (b2 i args) (fb (i + H1.length) args)) (i : Nat) :
    Same Eq 0 0 (callHandler cfg H2 b2 O' id ex none i) (callHandler cfg (H1 ++ H2) fb F id ex none (i + H1.length)) :=
  callHandler_same (by rw [List.getElem?_append_right (Nat.le_add_left ..), Nat.add_sub_cancel]) hs hp (hb2 i)

theorem outer_all_err (m : Mid cfg H1 H2 I O rest w w') (hv : ValidAll H2) (hb2 : ∀ i args, Same Eq 0 0 (b2 i args) (fb (i + H1.length) args)) (r : ErrRes) (hr : NoNodes r)
    (hn : firstMatch cfg (I ++ others (deduce cfg H1) O) r.errId none H1 = none) (q : Out2 (I := I) cfg H2 O' (I ++ others (deduce cfg H1) O) rest r.errId) {o : Out} {v : World AbsStore}
    (h : (unloadOut cfg (.err r) >>= allTail cfg H2 b2) { reCur r w with mem := ⟨O' :: rest⟩ } = some (o, v)) :
    ∃ v', allTail cfg (H1 ++ H2) fb (.err r) w' = some (o, v') ∧ AgreeBelow Eq 0 v v' := by
  rw [unloadOut, bind_run (resultUnload_noNodes hr _), reCur_mem, reCur_twice, allTail, bind_run (resultUnload_noNodes hr _), reCur_mem, reCur_twice, bind_run (popCtx_run rfl),
    ctxLoc_plain q.p q.noLoc, bind_run (pure_apply _ _), selectAll_first _ hv] at h
  rw [allTail, bind_run (resultUnload_noNodes hr _), bind_run (popCtx_run (by rw [reCur_frames]; exact m.frames')), ctxLoc_plain m.flat m.noLoc, bind_run (pure_apply _ _),
    selectAll_first _ (validAll_append _ hv), firstMatch_append, hn, ← firstMatch_same q.same]
  cases hi : firstMatch cfg O' r.errId none H2 with
  | none => exact absurd hi (firstMatch_valid _ hv)
  | some i =>
    rw [hi] at h
    exact ((outer_call m.p2 q.same hb2 i).bind fun o => keeps_noErr o) _ _ (agree_mid (m.reCur r)) o v h

theorem callHandler_noErr {cells : List CtxCell} {id : Id} {ex : Option Exc} {loc : Option Val} {i : Nat} {u u' : World AbsStore} {o : Out}
    (hne : ∀ i args u o u', b2 i args u = some (o, u') → ∀ r, o ≠ .err r) (h : callHandler cfg H2 b2 cells id ex loc i u = some (o, u')) : ∀ r, o ≠ .err r := by
  unfold callHandler at h
  cases hi : H2[i]? with
  | none => rw [hi] at h; cases h
  | some args =>
    rw [hi] at h
    simp only at h
    cases hg : getArgs cfg cells id ex loc args with
    | none => rw [hg] at h; cases h
    | some vals =>
      rw [hg] at h
      exact hne _ _ _ _ _ h

theorem outer_some_err (m : Mid cfg H1 H2 I O rest w w') (hb2 : ∀ i args, Same Eq 0 0 (b2 i args) (fb (i + H1.length) args)) (hne : ∀ i args u o u', b2 i args u = some (o, u') → ∀ r, o ≠ .err r)
    (r : ErrRes) (hr : NoNodes r) (h0 : ¬(r.errId = 0#32 ∧ I ≠ []))
    (hn : firstMatch cfg (I ++ others (deduce cfg H1) O) r.errId none H1 = none) (q : Out2 (I := I) cfg H2 O' (I ++ others (deduce cfg H1) O) rest r.errId) {o : Out} {v : World AbsStore}
    (h : (unloadOut cfg (.err r) >>= someTail cfg H2 b2) { reCur r w with mem := ⟨O' :: rest⟩ } = some (o, v)) :
    ∃ v', someTail cfg (H1 ++ H2) fb (.err r) w' = some (o, v') ∧ AgreeBelow Eq 0 v v' := by
  rw [unloadOut, bind_run (resultUnload_noNodes hr _), reCur_mem, reCur_twice, someTail, bind_run (resultUnload_noNodes hr _), reCur_mem, reCur_twice, bind_run (popCtx_run rfl),
    ctxLoc_plain q.p q.noLoc, bind_run (pure_apply _ _), selectSome_first] at h
  rw [someTail, bind_run (resultUnload_noNodes hr _), bind_run (popCtx_run (by rw [reCur_frames]; exact m.frames')), ctxLoc_plain m.flat m.noLoc, bind_run (pure_apply _ _),
    selectSome_first, firstMatch_append, hn, ← firstMatch_same q.same]
  have hm := m.reCur r
  cases hi : firstMatch cfg O' r.errId none H2 with
  | some i =>
    rw [hi] at h
    simp only [Option.none_or, Option.map_some] at h ⊢
    rw [bind_apply] at h
    cases hc : callHandler cfg H2 b2 O' r.errId none none i { reCur r w with mem := ⟨rest⟩ } with
    | none => rw [hc] at h; cases h
    | some p =>
      obtain ⟨o1, v1⟩ := p
      obtain ⟨v1', e1, a1⟩ := outer_call m.p2 q.same hb2 i _ _ (agree_mid hm) o1 v1 hc
      have hno : ∀ r, o1 ≠ .err r := by
        exact callHandler_noErr hne hc
      rw [hc, Option.bind_some] at h
      rw [bind_run e1]
      cases o1 with
      | err r => exact absurd rfl (hno r)
      | val x => cases h; exact ⟨v1', rfl, a1⟩
      | exc e => cases h; exact ⟨v1', rfl, a1⟩
  | none =>
    rw [hi] at h
    simp only [Option.none_or, Option.map_none] at h ⊢
    rw [bind_run (pure_apply _ _)] at h ⊢
    simp only at h ⊢
    rw [bind_apply, unloadCells_uls q.p _ m.da] at h
    rw [bind_apply, unloadCells_uls m.flat _ m.da]
    split at h
    · cases h
    · rename_i h1
      cases h
      rw [if_neg (by
        rintro ⟨hz, hF⟩
        rcases q.nil hF with hI | hO
        · exact h0 ⟨hz, hI⟩
        · exact h1 ⟨hz, hO⟩)]
      refine ⟨_, rfl, hm.cur, hm.counter, hm.ticks, hm.handling, hm.trace, [], _, _, rfl, rfl, rfl, ?_⟩
      exact q.uls

/-- The outer scope's handlers for an exception. -/
theorem outer_exc (m : Mid cfg H1 H2 I O rest w w') (hb2 : ∀ i args, Same Eq 0 0 (b2 i args) (fb (i + H1.length) args)) {e e1 : Exc} {id : Id} (hu : unpackFn e w.cur = some (id, e1))
    (h0 : ¬(id = 0#32 ∧ I ≠ []))
    (hn : firstMatch cfg (I ++ others (deduce cfg H1) O) id (if e1.isStd then some e1 else none) H1 = none) (q : Out2 (I := I) cfg H2 O' (I ++ others (deduce cfg H1) O) rest id)
    {p : Out × List CtxCell} {v : World AbsStore} (h : catchPath cfg H2 b2 e1 { w with mem := ⟨O' :: rest⟩ } = some (p, v)) :
    ∃ v', catchPath cfg (H1 ++ H2) fb e w' = some ((p.1, I ++ others (deduce cfg H1) O), v') ∧ AgreeBelow Eq 0 v v' := by
  rw [catchPath_run (w := { w with mem := ⟨O' :: rest⟩ }) (e1 := e1) (id := id) rfl q.p q.noLoc (unpackFn_again hu)] at h
  rw [catchPath_run m.frames' m.flat m.noLoc (m.cur ▸ hu), firstMatch_append, hn, ← firstMatch_same q.same]
  have ha : AgreeBelow Eq 0 { w with mem := ⟨rest⟩, handling := e1 :: w.handling } { w' with mem := ⟨rest⟩, handling := e1 :: w'.handling } :=
    ⟨m.cur, m.counter, m.ticks, by simp only; rw [m.handling], m.trace, [], rest, rest, rfl, rfl, rfl, rfl⟩
  cases hi : firstMatch cfg O' id (if e1.isStd then some e1 else none) H2 with
  | some i =>
    rw [hi] at h
    simp only [Option.none_or, Option.map_some] at h ⊢
    rw [bind_apply] at h
    cases hc : callHandler cfg H2 b2 O' id (if e1.isStd then some e1 else none) none i { w with mem := ⟨rest⟩, handling := e1 :: w.handling } with
    | none => rw [hc] at h; cases h
    | some p1 =>
      obtain ⟨o1, v1⟩ := p1
      obtain ⟨v1', e1', a1⟩ := outer_call m.p2 q.same hb2 i _ _ ha o1 v1 hc
      rw [hc, Option.bind_some] at h
      rw [bind_run e1']
      simp only [popHandling, bind_apply, destroyExc_run, Option.bind_some, pure_apply] at h ⊢
      cases h
      exact ⟨_, rfl, by simp only; rw [a1.cur], a1.counter, a1.ticks, by simp only; rw [a1.handling], a1.trace, a1.frames⟩
  | none =>
    rw [hi] at h
    simp only [Option.none_or, Option.map_none] at h ⊢
    rw [bind_apply, unloadCells_uls q.p _ m.da] at h
    rw [bind_apply, unloadCells_uls m.flat _ m.da]
    split at h
    · cases h
    · rename_i h1
      cases h
      rw [if_neg (by
        rintro ⟨hz, hF⟩
        rcases q.nil hF with hI | hO
        · exact h0 ⟨hz, hI⟩
        · exact h1 ⟨hz, hO⟩)]
      refine ⟨_, rfl, m.cur, m.counter, m.ticks, m.handling, m.trace, [], _, _, rfl, rfl, rfl, ?_⟩
      exact q.uls

end

end Leaf
