import Verif.UnwindKeep
import Verif.PropFlow

/-!
# Programs with destructors on pointer-level storage
-/

namespace Leaf

variable {cfg : Cfg} {old : Bool} {n : Nat} {da : Bool}

theorem evalU_ptr {p : UProg} (hp : p.WF cfg da) {w : World PtrStore} (hw : ThreadOk w) (hda : da = false → NoDa (shape (scopes w))) :
    ∃ o w', evalU cfg old n p w = some (o, w') ∧ evalU cfg old n p (absW w) = some (o, absW w') ∧ ThreadOk w' ∧ shape (scopes w') = shape (scopes w) ∧ o.Ok :=
  tot_ptr (sim_evalU (n := 0) cfg old n p) (tot_evalU cfg old n p hp _ hda) hw rfl

theorem attemptRawU_ptr {slots : List CellTy} (hslots : slots.Nodup) {block : UProg} {db : Bool}
    (hb : block.WF cfg db) {w : World PtrStore} (hw : ThreadOk w) (hda : db = false → NoDa (slots :: shape (scopes w))) :
    ∃ w0 o w1 s ss, pushCtx slots w = some ((), w0) ∧ ThreadOk w0 ∧ shape (scopes w0) = slots :: shape (scopes w) ∧
      evalU cfg old n block w0 = some (o, w1) ∧ attemptRaw slots (evalU cfg old n block) w = some (o, w1) ∧
      ThreadOk w1 ∧ o.Ok ∧ scopes w1 = s :: ss ∧ s.map CtxCell.cellTy = slots ∧ shape ss = shape (scopes w) := by
  obtain ⟨w0, h1, h1', h2, h3⟩ := push_ptr hw hslots
  have hsh : shape (scopes w0) = slots :: shape (scopes w) := by
    rw [h3]
    simp only [shape, List.map_cons, List.map_map, List.cons.injEq, and_true]
    have : ∀ t : CellTy, (CtxCell.cellTy ∘ CellTy.empty) t = t := fun t => by cases t <;> rfl
    rw [List.map_congr_left (fun t _ => this t)]
    simp
  obtain ⟨o, w1, e1, e2, e3, e4, e5⟩ := evalU_ptr (old := old) (n := n) hb h2 (by rw [hsh]; exact hda)
  rw [hsh] at e4
  cases hc : scopes w1 with
  | nil => simp [hc, shape] at e4
  | cons s ss =>
    rw [hc] at e4
    simp only [shape, List.map_cons, List.cons.injEq] at e4
    refine ⟨w0, o, w1, s, ss, h1, h2, hsh, e1, ?_, e3, e5, hc, e4.1, e4.2⟩
    unfold attemptRaw; rw [bind_apply, h1, Option.bind_some]; exact e1

theorem attemptU_state {specs : List (List Arg)} {block : UProg} (hb : block.WF cfg (da || capturing cfg specs))
    {w w1 : World PtrStore} (hw : ThreadOk w) (hda : da = false → NoCapturingScope w) {o : Out}
    (h : attempt cfg (deduce cfg specs) (evalU cfg old n block) w = some (o, w1)) {s : Scope} {ss : List Scope} (hs : scopes w1 = s :: ss) :
    ThreadOk w1 ∧ o.Ok ∧ s.map CtxCell.cellTy = deduce cfg specs ∧ (da = false → NoDa (shape ss)) ∧ shape ss = shape (scopes w) := by
  obtain ⟨w0, o', w1', s', ss', _, _, _, _, h1, h2, h3, h4, h5, h6⟩ := attemptRawU_ptr (old := old) (n := n) (deduce_nodup cfg specs) hb hw
    (noDa_push fun h => noDa_of (hda h))
  rw [attempt_of_raw h1] at h
  obtain ⟨o2, w2, e1, e2, e3, e4, e5⟩ := tot_ptr (sim_unloadOut (n := 0) cfg o') (tot_unloadOut _ cfg h3) h2 rfl
  rw [h] at e1
  simp only [Option.some.injEq, Prod.mk.injEq] at e1
  obtain ⟨rfl, rfl⟩ := e1
  rw [hs, h4] at e4
  simp only [shape, List.map_cons, List.cons.injEq] at e4
  have h7 : shape ss = shape (scopes w) := by rw [← h6]; exact e4.2
  exact ⟨e3, e5, by rw [e4.1, h5], noDa_of_shape hda h7, h7⟩

/-- As `enter_handler`. -/
theorem enter_handlerU {specs : List (List Arg)} {body : Nat → List ArgVal → UProg}
    (hb : ∀ i args, (∀ a ∈ args, ArgVal.Ok a) → (body i args).WF cfg da)
    {w1 : World PtrStore} (hw : ThreadOk w1) {s : Scope} {ss : List Scope} (hs : scopes w1 = s :: ss) (hsl : s.map CtxCell.cellTy = deduce cfg specs)
    (hda : da = false → NoDa (shape ss)) {id : Id} (hid : id.Tagged) {ex : Option Exc} (hex : ∀ e, ex = some e → e.Ok)
    {hnd : List Exc} (hh : ∀ e ∈ hnd, Exc.Ok e) {loc : Option Val}
    (hloc : loc = (findCell tySrcLoc s).bind (Cell.hasValue · id)) {i : Nat} (hi : FirstSuitable s id ex specs i) :
    ∃ w3 hd vals wh o wr, popCtx w1 = some (s, w3) ∧ ThreadOk w3 ∧ w3.cur = w1.cur ∧ w3.handling = w1.handling ∧
      specs[i]? = some hd ∧ getArgs cfg s id ex loc hd = some vals ∧ ReceivesAll s id ex hd vals ∧ (∀ v ∈ vals, v.Ok) ∧
      wh = { w3 with handling := hnd, trace := .handled id ex i vals :: w3.trace } ∧ HandlerStarts w1 ss id ex hnd i vals wh ∧
      evalU cfg old n (body i vals) wh = some (o, wr) ∧ o.Ok ∧ ThreadOk wr ∧ shape (scopes wr) = shape ss := by
  obtain ⟨w3, h1, h2, h3⟩ := popCtx_ptr hw hs
  obtain ⟨e1, e2, e3, e4, e5, e6⟩ := threadOk_of_absW h2
  obtain ⟨hd, vals, g1, g2, g3, g4⟩ := hi.get hsl (scopes_cons_good hw hs) hid hex hloc
  have hok : ThreadOk { w3 with handling := hnd, trace := .handled id ex i vals :: w3.trace } := threadOk_with h3 _ _ hh
  have hsc : scopes { w3 with handling := hnd, trace := .handled id ex i vals :: w3.trace } = ss := e6
  obtain ⟨o, wr, f1, f2, f3, f4, f5⟩ := evalU_ptr (old := old) (n := n) (hb i vals g4) hok (by rw [hsc]; exact hda)
  refine ⟨w3, hd, vals, _, o, wr, h1, h3, e2, e4, g1, g2, g3, g4, rfl, ⟨hok, hsc, ?_, e2, e3, rfl, e5⟩, f1, f5, f3, ?_⟩
  · show _ :: w3.trace = _
    rw [e1]; rfl
  · rw [f4, hsc]

/-- As `catch_some_ptr`. -/
theorem catch_some_ptrU {specs : List (List Arg)} {body : Nat → List ArgVal → UProg} {w1 : World PtrStore} {s : Scope} {ss : List Scope} {e : Exc} {i : Nat}
    (hb : ∀ i args, (∀ a ∈ args, ArgVal.Ok a) → (body i args).WF cfg da) (hw : ThreadOk w1) (hs : scopes w1 = s :: ss)
    (hsl : s.map CtxCell.cellTy = deduce cfg specs) (hda : da = false → NoDa (shape ss)) (he : e.Ok)
    (hi : FirstSuitable s (e.seenId w1.cur) (shown e.examined) specs i) :
    ∃ hd vals wh o wr wd, specs[i]? = some hd ∧ ReceivesAll s (e.seenId w1.cur) (shown e.examined) hd vals ∧ (∀ v ∈ vals, v.Ok) ∧
      getArgs cfg s (e.seenId w1.cur) (shown e.examined) ((findCell tySrcLoc s).bind (Cell.hasValue · (e.seenId w1.cur))) hd = some vals ∧
      HandlerStarts w1 ss (e.seenId w1.cur) (shown e.examined) (e.examined :: w1.handling) i vals wh ∧
      evalU cfg old n (body i vals) wh = some (o, wr) ∧ catchPath cfg specs (fun i args => evalU cfg old n (body i args)) e w1 = some ((o, s), wd) ∧
      wd.trace = wr.trace ∧ scopes wd = scopes wr ∧ wd.ticks = wr.ticks := by
  have hid := seenId_tagged he w1.cur
  have hex : ∀ x, shown e.examined = some x → x.Ok := by
    intro x hx
    unfold shown at hx
    split at hx
    · simp only [Option.some.injEq] at hx; subst hx; exact examined_ok he
    · simp at hx
  have hh : ∀ x ∈ e.examined :: w1.handling, Exc.Ok x := by
    intro x hx
    simp only [List.mem_cons] at hx
    rcases hx with rfl | hx
    · exact examined_ok he
    · exact hw.good.3 x hx
  obtain ⟨w3, hd, vals, wh, o, wr, e1, e2, e3, e4, e5, e6, e7, e7', e8', e8, e9, e10, e11, e12⟩ :=
    enter_handlerU (old := old) (n := n) hb hw hs hsl hda hid hex hh rfl hi
  have hu := unpackId_eq (M := PtrStore) (e := e) (w := w3) e2.good.1
  rw [e3] at hu
  have hsel := ((C15_select_some (scopeOk_deduced hsl) hid (shown e.examined) specs).1 i).mpr hi
  have e9' := e9
  rw [e8', ← e4] at e9'
  have hcp := catchPath_some (body := fun i args => evalU cfg old n (body i args)) (w2 := w1) (o := o) (w4 := wr) e1 hu (ctxLoc_eq hid s _) hsel e5 e6 e9'
    (destroyExc_eq e.examined _)
  exact ⟨hd, vals, wh, o, wr, _, e5, e7, e7', e6, e8, e9, hcp, rfl, rfl, rfl⟩

/-- `try_handle_all` around a block that failed. -/
theorem handleAll_ptrU {specs : List (List Arg)} {block : UProg} {body : Nat → List ArgVal → UProg} {w w1 : World PtrStore} {s : Scope} {ss : List Scope}
    (hp : (UProg.handleAll specs block body).WF cfg da) (hw : ThreadOk w) (hda : da = false → NoCapturingScope w) {o1 : Out}
    (h : attempt cfg (deduce cfg specs) (evalU cfg old n block) w = some (o1, w1)) (hs : scopes w1 = s :: ss)
    {id : Id} {ex : Option Exc} {hnd : List Exc} (hf : failure o1 w1 = some (id, ex, hnd)) :
    ∃ i hd vals wh o wr w', FirstSuitable s id ex specs i ∧ specs[i]? = some hd ∧ ReceivesAll s id ex hd vals ∧
      getArgs cfg s id ex ((findCell tySrcLoc s).bind (Cell.hasValue · id)) hd = some vals ∧
      HandlerStarts w1 ss id ex hnd i vals wh ∧
      evalU cfg old n (body i vals) wh = some (o, wr) ∧ evalU cfg old n (.handleAll specs block body) w = some (o, w') ∧
      w'.trace = wr.trace ∧ scopes w' = scopes wr ∧ w'.ticks = wr.ticks := by
  obtain ⟨h1, h2, h3, h4, h5⟩ := attemptU_state hp.2.1 hw hda h hs
  have hb : ∀ i args, (∀ a ∈ args, ArgVal.Ok a) → (body i args).WF cfg da := fun i args ha => (hp.2.2 i args ha).1
  have hso := scopeOk_deduced h3
  cases o1 with
  | val v => simp [failure] at hf
  | err r =>
    simp only [failure, Option.some.injEq, Prod.mk.injEq] at hf
    obtain ⟨rfl, rfl, rfl⟩ := hf
    have hid := errId_tagged r
    obtain ⟨i, hsel⟩ := (C15_select_all hso hid none hp.1).2
    have hi := ((C15_select_all hso hid none hp.1).1 i).mp hsel
    obtain ⟨w3, hd, vals, wh, o, wr, e1, e2, e3, e4, e5, e6, e7, e7', rfl, e8, e9, e10, e11, e12⟩ :=
      enter_handlerU (old := old) (n := n) hb h1 hs h3 h4 hid (by simp) h1.good.3 rfl hi
    have hh : (absW w1).handling = w3.handling := by rw [e4]; rfl
    refine ⟨i, hd, vals, _, o, wr, wr, hi, e5, e7, e6, e8, e9, ?_, rfl, rfl, rfl⟩
    rw [hh] at e9
    exact handleAll_err (body := fun i args => evalU cfg old n (body i args)) h e1 (ctxLoc_eq hid s w3) hsel e5 e6 e9
      (post_evalU cfg old n _ (hp.2.2 i vals e7').2 _ _ _ e9)
  | exc e =>
    simp only [failure, Option.some.injEq, Prod.mk.injEq] at hf
    obtain ⟨rfl, rfl, rfl⟩ := hf
    have hid := seenId_tagged h2 w1.cur
    obtain ⟨i, hsel⟩ := (C15_select_all hso hid (shown e.examined) hp.1).2
    have hi := ((C15_select_all hso hid (shown e.examined) hp.1).1 i).mp hsel
    obtain ⟨hd, vals, wh, o, wr, wd, e1, e2, e2', e2'', e3, e4, e5, e6, e7, e9⟩ := catch_some_ptrU (old := old) (n := n) hb h1 hs h3 h4 h2 hi
    exact ⟨i, hd, vals, wh, o, wr, wd, hi, e1, e2, e2'', e3, e4, handleAll_exc h e5 (post_evalU cfg old n _ (hp.2.2 i vals e2').2 _ _ _ e4), e6, e7, e9⟩

/-- What a destructor that keeps its errors to itself leaves of the scopes: everything. -/
theorem cleanup_keeps {p q : UProg} (hp : (UProg.cleanup p q).WF cfg da) (hq : q.Contained cfg []) {w : World PtrStore} (hw : ThreadOk w)
    (hda : da = false → NoDa (shape (scopes w))) :
    ∃ o w1 w2, evalU cfg old n p w = some (o, w1) ∧ evalU cfg old n (.cleanup p q) w = some (o, w2) ∧ scopes w2 = scopes w1 ∧ ThreadOk w1 ∧ ThreadOk w2 ∧ o.Ok := by
  obtain ⟨o, w1, h1, h2, h3, h4, h5⟩ := evalU_ptr (old := old) (n := n) hp.1 hw hda
  obtain ⟨o2, w2, g1, g2, g3, g4, g5⟩ := evalU_ptr (old := old) (n := n) hp hw hda
  have hk := within_evalU cfg old (o.flying n) (.cppCatch q fun _ => .ret (.val 0)) (s := []) ⟨hq, fun _ r hr => by cases hr⟩
  have hc : ∀ v : World AbsStore, evalU cfg old n (.cleanup p q) v = (evalU cfg old n p v).bind fun r =>
      (evalU cfg old (r.1.flying n) (.cppCatch q fun _ => .ret (.val 0)) r.2).bind fun r' => some (r.1, r'.2) := by
    intro v
    simp only [evalU]
    rw [bind_apply]
    congr 1
  rw [hc, h2, Option.bind_some] at g2
  cases hd : evalU cfg old (o.flying n) (.cppCatch q fun _ => .ret (.val 0)) (absW w1) with
  | none => rw [hd] at g2; cases g2
  | some r =>
    rw [hd, Option.bind_some] at g2
    simp only [Option.some.injEq, Prod.mk.injEq] at g2
    obtain ⟨rfl, g2⟩ := g2
    obtain ⟨_, inner, k1, k2⟩ := hk (absW w1) [] (scopes w1) r.1 r.2 rfl rfl hd
    have k3 : inner = [] := by cases inner with
      | nil => rfl
      | cons => simp [shape] at k2
    refine ⟨_, w1, w2, h1, g1, ?_, h3, g3, h5⟩
    unfold scopes
    rw [← g2, k1, k3]
    rfl

end Leaf
