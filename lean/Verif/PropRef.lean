import Verif.RefModel
import Verif.PropFlow

/-!
# C50: changes a handler makes to error objects

leaf.adoc:432: "When an error handler takes arguments by mutable reference or pointer, changes to their state are preserved when the error is communicated
to the caller."
-/

namespace Leaf

/-! ## Specification -/

/-- The handler takes an argument `E &` or `E *` where `E` is the type `ty`, of which there are error objects. -/
def TakesRef (cfg : Cfg) (hd : List Arg) (ty : Ty) : Prop := cfg.isAbstract ty = false ∧ (Arg.req ty ∈ hd ∨ Arg.ptr ty ∈ hd)

/-- `s'` is the content `s` of a scope after the objects of error `id` the handler takes by reference were changed by `f`; nothing else differs. -/
structure Changed (cfg : Cfg) (hd : List Arg) (id : Id) (f : Ty → Val → Val) (s s' : Scope) : Prop where
  changed : ∀ ty, TakesRef cfg hd ty → available ty id [s'] = (available ty id [s]).map (f ty)
  types : ∀ ty, ¬ TakesRef cfg hd ty → ∀ k, available ty k [s'] = available ty k [s]
  errors : ∀ ty k, k ≠ id → available ty k [s'] = available ty k [s]

/-! ## Lemmas -/

theorem modifyCells_id (id : Id) (tys : List Ty) (cells : List CtxCell) : modifyCells id tys (fun _ v => v) cells = cells := by
  unfold modifyCells
  refine (List.map_congr_left (g := fun c => c) ?_).trans (List.map_id' _)
  intro c _
  cases c with
  | obj ty c =>
    cases c with
    | none => rfl
    | some p => simp
  | da k ns => rfl

/-- What happens to the content of one slot. -/
def modifyCell (id : Id) (tys : List Ty) (f : Ty → Val → Val) (ty : Ty) : Cell → Cell
  | some (k, v) => some (k, if k = id ∧ ty ∈ tys then f ty v else v)
  | none => none

theorem modifyCells_cons_obj (id : Id) (tys : List Ty) (f : Ty → Val → Val) (ty : Ty) (c : Cell) (s : List CtxCell) :
    modifyCells id tys f (.obj ty c :: s) = .obj ty (modifyCell id tys f ty c) :: modifyCells id tys f s := by
  cases c <;> rfl

theorem modifyCells_cons_da (id : Id) (tys : List Ty) (f : Ty → Val → Val) (k : Id) (ns : List (Ty × Cell)) (s : List CtxCell) :
    modifyCells id tys f (.da k ns :: s) = .da k ns :: modifyCells id tys f s := rfl

theorem modifyCells_tys (id : Id) (tys : List Ty) (f : Ty → Val → Val) (s : List CtxCell) : frameTys (modifyCells id tys f s) = frameTys s := by
  induction s with
  | nil => rfl
  | cons c s ih =>
    cases c with
    | obj ty c => rw [modifyCells_cons_obj]; simp only [frameTys, List.flatMap_cons, CtxCell.tys] at ih ⊢; rw [ih]
    | da k ns => rw [modifyCells_cons_da]; simp only [frameTys, List.flatMap_cons, CtxCell.tys] at ih ⊢; rw [ih]

theorem modifyCells_good {id : Id} {tys : List Ty} {f : Ty → Val → Val} {s : List CtxCell} (h : FramesGood [s]) :
    FramesGood [modifyCells id tys f s] := by
  intro g hg
  simp only [List.mem_singleton] at hg
  subst hg
  obtain ⟨h1, h2⟩ := h s (by simp)
  refine ⟨?_, by rw [modifyCells_tys]; exact h2⟩
  intro c hc
  simp only [modifyCells, List.mem_map] at hc
  obtain ⟨c0, h3, rfl⟩ := hc
  have := h1 c0 h3
  cases c0 with
  | obj ty c => cases c <;> exact this
  | da k ns => exact this

theorem available_one (ty : Ty) (k : Id) (s : Scope) : available ty k [s] =
    match (slotsOf ty s).head? with
    | some (some (j, v)) => if j = k then some v else none
    | _ => none := by
  have : [s].flatMap (slotsOf ty) = slotsOf ty s := by simp
  unfold available
  rw [this]
  cases (slotsOf ty s).head? with
  | none => rfl
  | some c => cases c <;> rfl

/-- Types without a slot in the tuple are not affected. -/
theorem slotsOf_modify_none {id : Id} {tys : List Ty} {f : Ty → Val → Val} {ty : Ty} {s : List CtxCell} (h : ∀ c, CtxCell.obj ty c ∉ s) :
    slotsOf ty (modifyCells id tys f s) = slotsOf ty s := by
  induction s with
  | nil => rfl
  | cons c s ih =>
    have ih := ih fun c hc => h c (List.mem_cons_of_mem _ hc)
    cases c with
    | obj t c =>
      have ht : t ≠ ty := fun e => h c (by simp [e])
      rw [modifyCells_cons_obj]
      simp only [slotsOf, List.flatMap_cons, ht, if_false] at ih ⊢
      rw [ih]
    | da k ns => rw [modifyCells_cons_da]; simp only [slotsOf, List.flatMap_cons] at ih ⊢; rw [ih]

theorem slotsOf_absent {ty : Ty} {s : List CtxCell} (h : ty ∉ frameTys s) : slotsOf ty s = [] := by
  rw [List.eq_nil_iff_forall_not_mem]
  intro c hc
  simp only [slotsOf, List.mem_flatMap] at hc
  obtain ⟨x, h1, h2⟩ := hc
  refine h (List.mem_flatMap.mpr ⟨x, h1, ?_⟩)
  cases x with
  | obj t c' =>
    by_cases ht : t = ty
    · simp [CtxCell.tys, ht]
    · simp [ht] at h2
  | da k ns =>
    simp only [List.mem_map, List.mem_filter, decide_eq_true_eq] at h2
    obtain ⟨n, ⟨h3, h4⟩, _⟩ := h2
    exact List.mem_map.mpr ⟨n, h3, h4⟩

/-- The slot of a type that has one in the tuple. -/
theorem slotsOf_own {ty : Ty} {c : Cell} {s : List CtxCell} (hn : (frameTys s).Nodup) (h : CtxCell.obj ty c ∈ s) : slotsOf ty s = [c] := by
  induction s with
  | nil => simp at h
  | cons x s ih =>
    have hn' : ((CtxCell.tys x) ++ frameTys s).Nodup := hn
    rw [List.nodup_append] at hn'
    obtain ⟨h1, h2, h3⟩ := hn'
    simp only [List.mem_cons] at h
    rcases h with rfl | h
    · have : ty ∉ frameTys s := fun hc => h3 ty (by simp [CtxCell.tys]) ty hc rfl
      have := slotsOf_absent this
      simp only [slotsOf, List.flatMap_cons, if_true] at this ⊢
      rw [this]; rfl
    · have hm : ty ∈ frameTys s := List.mem_flatMap.mpr ⟨_, h, by simp [CtxCell.tys]⟩
      have hx : ty ∉ CtxCell.tys x := fun hc => h3 ty hc ty hm rfl
      have hx' : slotsOf ty [x] = [] := slotsOf_absent (by simpa [frameTys] using hx)
      have ih := ih h2 h
      simp only [slotsOf, List.flatMap_cons, List.flatMap_nil, List.append_nil] at hx' ih ⊢
      rw [hx', ih]; rfl

theorem mem_modifyCells {id : Id} {tys : List Ty} {f : Ty → Val → Val} {ty : Ty} {c : Cell} {s : List CtxCell} (h : CtxCell.obj ty c ∈ s) :
    CtxCell.obj ty (modifyCell id tys f ty c) ∈ modifyCells id tys f s := by
  refine List.mem_map.mpr ⟨_, h, ?_⟩
  cases c <;> rfl

theorem mem_refTys {hd : List Arg} {ty : Ty} : ty ∈ hd.filterMap Arg.refTy ↔ Arg.req ty ∈ hd ∨ Arg.ptr ty ∈ hd := by
  simp only [List.mem_filterMap]
  constructor
  · rintro ⟨a, h1, h2⟩
    cases a <;> simp only [Arg.refTy, Option.some.injEq, reduceCtorEq] at h2
    · exact Or.inl (h2 ▸ h1)
    · exact Or.inr (h2 ▸ h1)
  · rintro (h | h)
    · exact ⟨_, h, rfl⟩
    · exact ⟨_, h, rfl⟩

theorem changed_modify {cfg : Cfg} {specs : List (List Arg)} {s : Scope} (hsl : s.map CtxCell.cellTy = deduce cfg specs) (hg : FramesGood [s])
    {hd : List Arg} (hhd : hd ∈ specs) (id : Id) (f : Ty → Val → Val) : Changed cfg hd id f s (modifyCells id (hd.filterMap Arg.refTy) f s) := by
  classical
  have hnd := (hg s (by simp)).2
  have hnd' : (frameTys (modifyCells id (hd.filterMap Arg.refTy) f s)).Nodup := by rw [modifyCells_tys]; exact hnd
  have key : ∀ ty k, available ty k [modifyCells id (hd.filterMap Arg.refTy) f s] =
      if k = id ∧ ty ∈ hd.filterMap Arg.refTy ∧ (∃ c, CtxCell.obj ty c ∈ s) then (available ty k [s]).map (f ty) else available ty k [s] := by
    intro ty k
    by_cases hc : ∃ c, CtxCell.obj ty c ∈ s
    · obtain ⟨c, hc⟩ := hc
      rw [available_one, available_one, slotsOf_own hnd hc, slotsOf_own hnd' (mem_modifyCells hc)]
      cases c with
      | none => simp [modifyCell]
      | some p =>
        obtain ⟨j, v⟩ := p
        simp only [modifyCell, List.head?_cons]
        by_cases h1 : j = k
        · subst h1
          by_cases h2 : j = id ∧ ty ∈ hd.filterMap Arg.refTy
          · rw [if_pos (show j = id ∧ ty ∈ hd.filterMap Arg.refTy ∧ (∃ c, CtxCell.obj ty c ∈ s) from ⟨h2.1, h2.2, _, hc⟩), if_pos h2]; simp
          · rw [if_neg (show ¬ (j = id ∧ ty ∈ hd.filterMap Arg.refTy ∧ (∃ c, CtxCell.obj ty c ∈ s)) from fun h => h2 ⟨h.1, h.2.1⟩), if_neg h2]
        · simp [h1]
    · rw [if_neg (fun h => hc h.2.2), available_one, available_one, slotsOf_modify_none fun c h => hc ⟨c, h⟩]
  have hob : ∀ ty, TakesRef cfg hd ty → ∃ c, CtxCell.obj ty c ∈ s := by
    intro ty ⟨h1, h2⟩
    have : CellTy.obj ty ∈ s.map CtxCell.cellTy := by
      rw [hsl, (C17_deduction cfg specs).1]
      rcases h2 with h2 | h2
      · exact ⟨hd, hhd, _, h2, .req ty h1⟩
      · exact ⟨hd, hhd, _, h2, .ptr ty h1⟩
    obtain ⟨c, hc, he⟩ := List.mem_map.mp this
    cases c with
    | obj t c => simp only [CtxCell.cellTy, CellTy.obj.injEq] at he; exact ⟨c, he ▸ hc⟩
    | da k ns => simp [CtxCell.cellTy] at he
  have hab : ∀ ty, (∃ c, CtxCell.obj ty c ∈ s) → cfg.isAbstract ty = false := fun ty ⟨c, hc⟩ => (scopeOk_deduced hsl).storable ty ⟨c, hc⟩
  refine ⟨fun ty ht => ?_, fun ty ht k => ?_, fun ty k hk => ?_⟩
  · rw [key, if_pos ⟨rfl, mem_refTys.mpr ht.2, hob ty ht⟩]
  · rw [key, if_neg]
    rintro ⟨_, h2, h3⟩
    exact ht ⟨hab ty h3, mem_refTys.mp h2⟩
  · rw [key, if_neg fun h => hk h.1]

/-! ## Equations -/

section
variable {M : Type} [Store M] {cfg : Cfg} {specs : List (List Arg)} {block : Comp M Out} {body : Nat → List ArgVal → Comp M Out} {upd : Changes}
  {w w1 w2 w3 w4 w5 : World M} {o : Out} {r : ErrRes} {e e' : Exc} {cells : List CtxCell}

/-- `tryHandleSomeRef` is `attempt` followed by this. -/
def afterSomeRef (cfg : Cfg) (specs : List (List Arg)) (body : Nat → List ArgVal → Comp M Out) (upd : Changes) (o : Out) : Comp M Out :=
  match o with
  | .val v => do
    let _ ← popCtx
    return .val v
  | .err r => do
    let _ ← resultUnload cfg r
    let cells ← popCtx
    let loc ← ctxLoc r.errId cells
    let (rr, cells) ← match selectSome cfg cells r.errId none specs with
      | some i => callHandlerRef cfg specs body upd cells r.errId none loc i
      | none => pure (.err r, cells)
    match rr with
    | .err r' => unloadCells cfg r'.errId cells
    | _ => pure ()
    return rr
  | .exc e => do
    let (o, cells) ← catchPathRef cfg specs body upd e
    match o with
    | .err r' => unloadCells cfg r'.errId cells
    | _ => pure ()
    return o

theorem tryHandleSomeRef_bind : tryHandleSomeRef cfg specs block body upd w =
    (attempt cfg (deduce cfg specs) block >>= afterSomeRef cfg specs body upd) w := by
  unfold tryHandleSomeRef attempt
  simp only [bind_apply]
  cases pushCtx (deduce cfg specs) w with
  | none => rfl
  | some p =>
    simp only [Option.bind_some]
    cases block p.2 with
    | none => rfl
    | some q => rfl

theorem tryHandleSomeRef_eq (h : attempt cfg (deduce cfg specs) block w = some (o, w1)) :
    tryHandleSomeRef cfg specs block body upd w = afterSomeRef cfg specs body upd o w1 := by
  rw [tryHandleSomeRef_bind, bind_apply, h]
  rfl

omit [Store M] in
theorem callHandlerRef_eq {args : List Arg} {id : Id} {ex : Option Exc} {loc : Option Val} {i : Nat} {vals : List ArgVal} (hi : specs[i]? = some args)
    (hg : getArgs cfg cells id ex loc args = some vals) (h4 : body i vals { w with trace := .handled id ex i vals :: w.trace } = some (o, w4)) :
    callHandlerRef cfg specs body upd cells id ex loc i w = some ((o, modifyCells id (args.filterMap Arg.refTy) (upd i vals o) cells), w4) := by
  unfold callHandlerRef
  simp only [hi, hg]
  show (emit _ >>= fun _ => body i vals >>= fun o => pure (o, modifyCells id (args.filterMap Arg.refTy) (upd i vals o) cells)) w = _
  rw [bind_apply]
  show (body i vals >>= fun o => pure (o, modifyCells id (args.filterMap Arg.refTy) (upd i vals o) cells)) _ = _
  rw [bind_apply, h4]
  rfl

theorem handleSomeRef_err_some (h : attempt cfg (deduce cfg specs) block w = some (.err r, w1))
    (h3 : popCtx w1 = some (cells, w3))
    {loc : Option Val} (hl : ctxLoc r.errId cells w3 = some (loc, w3)) {i : Nat}
    (hs : selectSome cfg cells r.errId none specs = some i) {args : List Arg} {vals : List ArgVal} (hi : specs[i]? = some args)
    (hg : getArgs cfg cells r.errId none loc args = some vals)
    (h4 : body i vals { w3 with trace := .handled r.errId none i vals :: w3.trace } = some (o, w4))
    (h5 : (match o with
      | .err r2 => unloadCells cfg r2.errId (modifyCells r.errId (args.filterMap Arg.refTy) (upd i vals o) cells)
      | _ => pure ()) w4 = some ((), w5)) :
    tryHandleSomeRef cfg specs block body upd w = some (o, w5) := by
  rw [tryHandleSomeRef_eq h]
  simp only [afterSomeRef]
  rw [bind_apply, attempt_err h, Option.bind_some, bind_apply, h3, Option.bind_some, bind_apply]
  simp only [hl, Option.bind_some]
  rw [hs]
  simp only [bind_apply]
  rw [callHandlerRef_eq hi hg h4, Option.bind_some]
  cases o with
  | val v => simp only [pure_apply, Option.some.injEq, Prod.mk.injEq, true_and] at h5; subst h5; rfl
  | exc v => simp only [pure_apply, Option.some.injEq, Prod.mk.injEq, true_and] at h5; subst h5; rfl
  | err r2 => simp only at h5; simp only [bind_apply, h5]; rfl

theorem handleSomeRef_exc_some (h : attempt cfg (deduce cfg specs) block w = some (.exc e, w2))
    {id : Id} (h3 : popCtx w2 = some (cells, w3)) (hu : unpackId e w3 = some ((id, e'), w3))
    {loc : Option Val} (hl : ctxLoc id cells { w3 with handling := e' :: w3.handling } = some (loc, { w3 with handling := e' :: w3.handling })) {i : Nat}
    (hs : selectSome cfg cells id (shown e') specs = some i) {args : List Arg} {vals : List ArgVal} (hi : specs[i]? = some args)
    (hg : getArgs cfg cells id (shown e') loc args = some vals)
    (h4 : body i vals { w3 with handling := e' :: w3.handling, trace := .handled id (shown e') i vals :: w3.trace } = some (o, w4))
    {wd : World M} (h5 : destroyExc e' { w4 with handling := w4.handling.tail } = some ((), wd))
    (h6 : (match o with
      | .err r2 => unloadCells cfg r2.errId (modifyCells id (args.filterMap Arg.refTy) (upd i vals o) cells)
      | _ => pure ()) wd = some ((), w5)) :
    tryHandleSomeRef cfg specs block body upd w = some (o, w5) := by
  have hc : catchPathRef cfg specs body upd e w2 = some ((o, modifyCells id (args.filterMap Arg.refTy) (upd i vals o) cells), wd) := by
    unfold catchPathRef
    rw [bind_apply, h3, Option.bind_some, bind_apply, hu, Option.bind_some]
    simp only [bind_apply, pushHandling, Option.bind_some, hl]
    unfold shown at hs hg h4
    rw [hs]
    simp only [bind_apply]
    rw [callHandlerRef_eq hi hg h4, Option.bind_some]
    simp only [popHandling, Option.bind_some, h5]
    rfl
  rw [tryHandleSomeRef_eq h]
  simp only [afterSomeRef]
  rw [bind_apply, hc, Option.bind_some]
  cases o with
  | val v => simp only [pure_apply, Option.some.injEq, Prod.mk.injEq, true_and] at h6; subst h6; rfl
  | exc v => simp only [pure_apply, Option.some.injEq, Prod.mk.injEq, true_and] at h6; subst h6; rfl
  | err r2 => simp only at h6; simp only [bind_apply, h6]; rfl

/-- If the handlers change nothing, this is `try_handle_some` as in `Prog`. -/
theorem C50_no_change (cfg : Cfg) (specs : List (List Arg)) (block : Comp M Out) (body : Nat → List ArgVal → Comp M Out) :
    tryHandleSomeRef cfg specs block body (fun _ _ _ _ v => v) = tryHandleSome cfg specs block body := by
  have hcall : ∀ cells id ex loc i, callHandlerRef cfg specs body (fun _ _ _ _ v => v) cells id ex loc i =
      (callHandler cfg specs body cells id ex loc i >>= fun o => pure (o, cells) : Comp M (Out × List CtxCell)) := by
    intro cells id ex loc i
    unfold callHandlerRef callHandler
    cases specs[i]? with
    | none => rfl
    | some args =>
      simp only
      cases getArgs cfg cells id ex loc args with
      | none => rfl
      | some vals => simp only [modifyCells_id, bind_assoc]
  have hcatch : ∀ e, catchPathRef cfg specs body (fun _ _ _ _ v => v) e = (catchPath cfg specs body e : Comp M (Out × List CtxCell)) := by
    intro e
    unfold catchPathRef catchPath
    simp only [hcall, bind_assoc, pure_bind]
    rfl
  have hafter : ∀ o, afterSomeRef cfg specs body (fun _ _ _ _ v => v) o = (afterSome cfg specs body o : Comp M Out) := by
    intro o
    cases o with
    | val v => rfl
    | exc e => simp only [afterSomeRef, afterSome, hcatch]; rfl
    | err r =>
      simp only [afterSomeRef, afterSome, hcall]
      congr 1; funext _
      congr 1; funext cells
      congr 1; funext loc
      cases selectSome cfg cells r.errId none specs with
      | none => rfl
      | some i => simp only [bind_assoc, pure_bind]; rfl
  funext w
  rw [tryHandleSomeRef_bind]
  have : tryHandleSome cfg specs block body w = (attempt cfg (deduce cfg specs) block >>= afterSome cfg specs body) w := by
    unfold tryHandleSome attempt
    simp only [bind_apply]
    cases pushCtx (deduce cfg specs) w with
    | none => rfl
    | some p =>
      simp only [Option.bind_some]
      cases block p.2 with
      | none => rfl
      | some q => rfl
  rw [this, show afterSomeRef cfg specs body (fun _ _ _ _ v => v) = (afterSome cfg specs body : Out → Comp M Out) from funext hafter]

end

/-! ## C50 -/

section
variable {cfg : Cfg} {specs : List (List Arg)} {block : Prog} {body : Nat → List ArgVal → Prog} {da : Bool} {w w1 : World PtrStore} {o1 : Out}
  {s : Scope} {ss : List Scope} {i : Nat} {id : Id} {ex : Option Exc} {hnd : List Exc}

/-- `try_handle_some(block, handlers...)` where the handlers modify error objects. -/
def handleSomeRef (cfg : Cfg) (specs : List (List Arg)) (block : Prog) (body : Nat → List ArgVal → Prog) (upd : Changes) : Comp PtrStore Out :=
  tryHandleSomeRef cfg specs (eval cfg block) (fun i args => eval cfg (body i args)) upd

/-- **C50.** The block failed with error `id` and handler number `i` is the first suitable one: it is called, and afterwards the scope's content is as
before, except for the changes the handler made to the objects of this error it takes by reference; then, if the handler returned an error, the objects of
that error propagate. -/
theorem C50_handled (hp : (Prog.handleSome specs block body).WF cfg da) (hw : ThreadOk w) (hda : da = false → NoCapturingScope w)
    (h : attempt cfg (deduce cfg specs) (eval cfg block) w = some (o1, w1)) (hs : scopes w1 = s :: ss) (hf : failure o1 w1 = some (id, ex, hnd))
    (hi : FirstSuitable s id ex specs i) (upd : Changes) :
    ∃ hd vals wh o wr w' s', specs[i]? = some hd ∧ ReceivesAll s id ex hd vals ∧ HandlerStarts w1 ss id ex hnd i vals wh ∧
      eval cfg (body i vals) wh = some (o, wr) ∧ handleSomeRef cfg specs block body upd w = some (o, w') ∧
      Changed cfg hd id (upd i vals o) s s' ∧ w'.trace = wr.trace ∧ ThreadOk w' ∧
      match o with
      | .err r => Propagated cfg r.errId s' (scopes wr) (scopes w')
      | _ => scopes w' = scopes wr := by
  obtain ⟨h1, h2, h3, h4, h5⟩ := attempt_state hp.1 hw hda h hs
  have hg := scopes_cons_good h1 hs
  cases o1 with
  | val v => simp [failure] at hf
  | err r =>
    simp only [failure, Option.some.injEq, Prod.mk.injEq] at hf
    obtain ⟨rfl, rfl, rfl⟩ := hf
    have hid := errId_tagged r
    obtain ⟨w3, hd, vals, wh, o, wr, e1, e2, e3, e4, e5, e6, e7, rfl, e8, e9, e10, e11, e12⟩ :=
      enter_handler hp.2 h1 hs h3 h4 hid (by simp) h1.good.3 rfl hi
    obtain ⟨w', f1, f2, f3, f4, _⟩ := afterHandler_ptr cfg (modifyCells_good (id := r.errId) (tys := hd.filterMap Arg.refTy) (f := upd i vals o) hg) o e11
    have hh : (absW w1).handling = w3.handling := by rw [e4]; rfl
    have hsel := ((C15_select_some (scopeOk_deduced h3) hid none specs).1 i).mpr hi
    refine ⟨hd, vals, _, o, wr, w', _, e5, e7, e8, e9, ?_, changed_modify h3 hg (List.mem_of_getElem? e5) r.errId (upd i vals o), f3, f2, f4⟩
    rw [hh] at e9
    exact handleSomeRef_err_some (body := fun i args => eval cfg (body i args)) h e1 (ctxLoc_eq hid s w3) hsel e5 e6 e9 f1
  | exc e =>
    simp only [failure, Option.some.injEq, Prod.mk.injEq] at hf
    obtain ⟨rfl, rfl, rfl⟩ := hf
    have hid := seenId_tagged h2 w1.cur
    have hex : ∀ x, shown e.examined = some x → x.Ok := by
      intro x hx
      unfold shown at hx
      split at hx
      · simp only [Option.some.injEq] at hx; subst hx; exact examined_ok h2
      · simp at hx
    have hh : ∀ x ∈ e.examined :: w1.handling, Exc.Ok x := by
      intro x hx
      simp only [List.mem_cons] at hx
      rcases hx with rfl | hx
      · exact examined_ok h2
      · exact h1.good.3 x hx
    obtain ⟨w3, hd, vals, wh, o, wr, e1, e2, e3, e4, e5, e6, e7, e8', e8, e9, e10, e11, e12⟩ :=
      enter_handler hp.2 h1 hs h3 h4 hid hex hh rfl hi
    have hu := unpackId_eq (M := PtrStore) (e := e) (w := w3) e2.good.1
    rw [e3] at hu
    have hsel := ((C15_select_some (scopeOk_deduced h3) hid (shown e.examined) specs).1 i).mpr hi
    have e9' := e9
    rw [e8', ← e4] at e9'
    have hd1 := destroyExc_eq e.examined { wr with handling := wr.handling.tail }
    obtain ⟨wd, hd2⟩ : ∃ wd, destroyExc e.examined { wr with handling := wr.handling.tail } = some ((), wd) := ⟨_, hd1⟩
    have hwd : ThreadOk wd ∧ scopes wd = scopes wr ∧ wd.trace = wr.trace := by
      rw [hd1] at hd2
      simp only [Option.some.injEq, Prod.mk.injEq, true_and] at hd2
      subst hd2
      refine ⟨⟨e11.inv, ?_, e11.good.2, ?_, e11.good.4⟩, rfl, rfl⟩
      · show Id.Ok (if e.examined.clear = true ∧ e.examined.idSrc = .base wr.cur then 0#32 else wr.cur)
        split
        · exact Or.inl rfl
        · exact e11.good.1
      · exact fun x hx => e11.good.3 x (List.mem_of_mem_tail hx)
    obtain ⟨hw1, hw2, hw3⟩ := hwd
    obtain ⟨w', f1, f2, f3, f4, _⟩ :=
      afterHandler_ptr cfg (modifyCells_good (id := e.seenId w1.cur) (tys := hd.filterMap Arg.refTy) (f := upd i vals o) hg) o hw1
    refine ⟨hd, vals, wh, o, wr, w', _, e5, e7, e8, e9, ?_, changed_modify h3 hg (List.mem_of_getElem? e5) (e.seenId w1.cur) (upd i vals o),
      by rw [f3, hw3], f2, ?_⟩
    · exact handleSomeRef_exc_some (body := fun i args => eval cfg (body i args)) h e1 hu (ctxLoc_eq hid s _) hsel e5 e6 e9' hd2 f1
    · unfold AfterHandler at f4
      cases o with
      | err r => simp only [hw2] at f4; exact f4
      | val v => simp only [hw2] at f4; exact f4
      | exc v => simp only [hw2] at f4; exact f4

/-- **C50 (partial).** If the handler returns the error it was called for, an object it took by reference, of a type wanted by the enclosing scopes, arrives
there with the changes, and the others without, except where the enclosing scopes have an object of the same type of this error already. -/
theorem C50_preserved_partial (hp : (Prog.handleSome specs block body).WF cfg da) (hw : ThreadOk w) (hda : da = false → NoCapturingScope w)
    (h : attempt cfg (deduce cfg specs) (eval cfg block) w = some (o1, w1)) (hs : scopes w1 = s :: ss) (hf : failure o1 w1 = some (id, ex, hnd))
    (hi : FirstSuitable s id ex specs i) (upd : Changes) :
    ∃ hd vals wh o wr w', specs[i]? = some hd ∧ ReceivesAll s id ex hd vals ∧ HandlerStarts w1 ss id ex hnd i vals wh ∧
      eval cfg (body i vals) wh = some (o, wr) ∧ handleSomeRef cfg specs block body upd w = some (o, w') ∧
      ∀ r, o = .err r → r.errId = id → ∀ ty, Wanted cfg ty (scopes wr) → available ty id (scopes wr) = none →
        (TakesRef cfg hd ty → available ty id (scopes w') = (available ty id [s]).map (upd i vals o ty)) ∧
        (¬ TakesRef cfg hd ty → available ty id (scopes w') = available ty id [s]) := by
  obtain ⟨hd, vals, wh, o, wr, w', s', h1, h2, h3, h4, h5, h6, h7, _, h8⟩ := C50_handled hp hw hda h hs hf hi upd
  refine ⟨hd, vals, wh, o, wr, w', h1, h2, h3, h4, h5, ?_⟩
  rintro r rfl rfl ty hwt hn
  have h8 : Propagated cfg r.errId s' (scopes wr) (scopes w') := h8
  have := h8.arrives ty hwt
  rw [hn, Option.none_or] at this
  exact ⟨fun ht => by rw [this, h6.changed ty ht], fun ht => by rw [this, h6.types ty ht]⟩

end

/-! ## Examples -/

/-- The handler takes `A &`, adds 10, and returns the error. -/
def exRefUpd : Changes := fun _ _ _ ty v => if ty = 10 then v + 10 else v

/-- In a scope with the given slots, on a new thread. -/
def runRef (spec : List CellTy) (specs : List (List Arg)) (block : Prog) (body : Nat → List ArgVal → Prog) : Option (Out × List Scope) :=
  ((pushCtx spec >>= fun _ => handleSomeRef exCfg specs block body exRefUpd : Comp PtrStore Out) (initThread 1#32)).map fun r => (r.1, scopes r.2)

/-- The changed object arrives, and the one taken by value unchanged. -/
example : runRef [.obj 10, .obj 11] [[.req 10, .info]] exFail (fun _ _ => .ret (.err (.plain 5#32))) =
    some (.err (.plain 5#32), [[.obj 10 (some (5#32, 11)), .obj 11 (some (5#32, 2))]]) := by decide +kernel

/-- Likewise if the block throws. -/
example : runRef [.obj 10, .obj 11] [[.ptr 10, .info]] exThrow (fun _ _ => .ret (.err (.plain 5#32))) =
    some (.err (.plain 5#32), [[.obj 10 (some (5#32, 11)), .obj 11 (some (5#32, 2))]]) := by decide +kernel

/-- Hypotheses of `C50_preserved_partial`. -/
example : (Prog.handleSome exSpecs exFail exBody).WF exCfg false ∧ ThreadOk (initThread 1#32) ∧ NoCapturingScope (initThread 1#32) ∧
    ∃ w1, attempt exCfg (deduce exCfg exSpecs) (eval exCfg exFail) (initThread 1#32) = some (.err (.plain 5#32), w1) ∧
      scopes w1 = [[.obj 12 none, .obj 10 (some (5#32, 1)), .obj 11 (some (5#32, 2))]] ∧
      failure (.err (.plain 5#32)) w1 = some (5#32, none, w1.handling) ∧
      FirstSuitable [.obj 12 none, .obj 10 (some (5#32, 1)), .obj 11 (some (5#32, 2))] 5#32 none exSpecs 1 := by
  refine ⟨⟨exFail_wf _, fun i args _ => exBody_wf _ i args⟩, threadOk_init (by decide), by intro c hc; simp [initThread, PtrStore.empty] at hc, ?_⟩
  obtain ⟨w1, h1, h2⟩ := exists_of_map (f := scopes) (x := attempt exCfg (deduce exCfg exSpecs) (eval exCfg exFail) (initThread 1#32))
    (a := .err (.plain 5#32)) (b := [[.obj 12 none, .obj 10 (some (5#32, 1)), .obj 11 (some (5#32, 2))]]) (by decide +kernel)
  refine ⟨w1, h1, h2, rfl, ?_⟩
  exact (findIdx_iff (cfg := exCfg) ⟨by decide, by intro ty _; rfl⟩ (by decide) none exSpecs 1).mp (by decide)

/-- **C50 refuted (older object).** An error is reported outside, with an object of type `A`; inside, an object of type `A` is loaded for it again. The
handler is called with the latter, changes it and returns the error: its caller sees the object first reported. -/
theorem C50_refuted_older : ((pushCtx [.obj 10] >>= fun _ => newError exCfg [.obj 10 1] >>= fun id =>
      handleSomeRef exCfg [[.req 10]] (.load id [.obj 10 2] (.ret (.err (.plain id)))) (fun _ _ => .ret (.err (.plain id))) exRefUpd : Comp PtrStore Out)
        (initThread 1#32)).map (fun r => (r.1, scopes r.2)) =
    some (.err (.plain 5#32), [[.obj 10 (some (5#32, 1))]]) := by decide +kernel

/-- **C50 refuted (rethrown).** The handler changes the object and rethrows the exception it was called for: the object does not reach the caller at all. -/
theorem C50_refuted_thrown : runRef [.obj 10, .obj 11] [[.req 10, .catch_ fun _ => true]] exThrow
      (fun _ vals => match vals with | [_, .exc e] => .ret (.exc e) | _ => .ret (.val 0)) =
    some (.exc ⟨0, true, .base 5#32, [(20, 7)], false⟩, [[.obj 10 none, .obj 11 (some (5#32, 2))]]) := by decide +kernel

end Leaf
