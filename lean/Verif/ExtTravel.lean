import Verif.ExtLeaf
import Verif.PropDirect

/-!
# Lemmas for C55: error codes of foreign categories
-/

namespace Leaf

variable {cfg : Cfg} {c : Id} {n : Nat} {ec : ErrorCode}

/-- The objects of an error reported as the error code `ec`: the code itself. -/
def codeOnly (ec : ErrorCode) : Ty → Option Val := fun ty => if ty = tyErrorCode then some ec.toVal else none

/-- A non-zero code that is not of LEAF's category. -/
def ErrorCode.Foreign (ec : ErrorCode) : Prop := ec.value ≠ 0#32 ∧ ec.cat ≠ leafCat

theorem codeOnly_eq : objects cfg [.obj tyErrorCode ec.toVal] = codeOnly ec := by
  funext ty
  unfold objects codeOnly
  simp only [List.foldl, Item.step, Item.ty, eq_comm (a := tyErrorCode)]
  split <;> simp [Item.objFor]

/-- The state after an error code was imported. -/
structure Imported (cfg : Cfg) (c : Id) (n : Nat) (ec : ErrorCode) (w w1 : World AbsStore) : Prop where
  run : errorIdOf cfg ec w = some (errorNo cfg c w.ticks, w1)
  ticks : w1.ticks = w.ticks + 1
  inv : IdealInv cfg c (fun _ => True) 0 n w1
  calls : callsIn w1.trace = callsIn w.trace
  cur : w1.cur = errorNo cfg c w.ticks
  attached : Attached cfg (errorNo cfg c w.ticks) (codeOnly ec) w1.mem.frames
  same : shape w1.mem.frames = shape w.mem.frames
  handling : w1.handling = w.handling

theorem import_eq {w : World AbsStore} (he : ec.Foreign) (hw : w.Good) :
    errorIdOf cfg ec w = some (nextId cfg w, (w.gen cfg).put (itemEvents cfg false (nextId cfg w) (.obj tyErrorCode ec.toVal) w.mem.frames)
      (putItems cfg false (nextId cfg w) [.obj tyErrorCode ec.toVal] w.mem.frames)) := by
  have ht := nextId_tagged (cfg := cfg) hw
  have hl := loadItem_eq cfg false ht (.obj tyErrorCode ec.toVal) (w.gen cfg) hw.4 (by simp [Item.isAccum])
  unfold errorIdOf importCode importErrorCode
  simp only [ne_eq, he.1, not_false_eq_true, if_true, he.2, if_false]
  rw [bind_apply, newId_eq, Option.bind_some, bind_apply]
  have hl1 : loadItem cfg false (nextId cfg w) (.obj tyErrorCode ec.toVal) = (emit (.offered (nextId cfg w) tyErrorCode ec.toVal) >>= fun _ =>
      loadSlot cfg false (nextId cfg w) tyErrorCode ec.toVal : Comp AbsStore Unit) := rfl
  rw [hl1, bind_apply] at hl
  cases hx : emit (.offered (nextId cfg w) tyErrorCode ec.toVal) (w.gen cfg) with
  | none => rw [hx] at hl; cases hl
  | some x =>
    rw [hx, Option.bind_some] at hl
    rw [Option.bind_some, bind_apply, hl, Option.bind_some, makeErrorId_of_tagged ht]
    rfl

theorem import_abs {w : World AbsStore} (he : ec.Foreign) (hi : IdealInv cfg c (fun _ => True) 0 n w) (hf : Few cfg n (w.ticks + 1)) :
    ∃ w1, Imported cfg c n ec w w1 := by
  have hrun := import_eq (cfg := cfg) he hi.good
  rw [hi.nextId] at hrun
  refine ⟨_, hrun, rfl, hi.gen.put (Nat.zero_le _) (Nat.lt_succ_self _) _ _ _, ?_, hi.nextId, ?_, putItems_shape _ _ _ _ _, rfl⟩
  · show callsIn (_ ++ Event.gen _ :: w.trace) = _
    rw [callsIn_append, callsIn_quiet (itemEvents_quiet cfg _ _ _ _)]
    rfl
  · rw [← codeOnly_eq (cfg := cfg)]
    exact attached_putItems (attached_fresh (hi.fresh hf).2)

/-- The program returns the error code, no handler is called, and at most `k` ids are generated. -/
def Codes (cfg : Cfg) (c : Id) (n : Nat) (ec : ErrorCode) (k : Nat) (p : XProg) : Prop :=
  ∀ (da : Bool) (w : World AbsStore), p.WF cfg da → IdealInv cfg c (fun _ => True) 0 n w → (da = false → NoDa (shape w.mem.frames)) → Few cfg n (w.ticks + k) →
    ∃ w1, evalX cfg p w = some (.err ec, w1) ∧ w.ticks ≤ w1.ticks ∧ w1.ticks ≤ w.ticks + k ∧ IdealInv cfg c (fun _ => True) 0 n w1 ∧
      callsIn w1.trace = callsIn w.trace ∧ (w1.cur = w.cur ∨ ∃ t, t < w1.ticks ∧ w1.cur = errorNo cfg c t) ∧
      shape w1.mem.frames = shape w.mem.frames ∧ w1.handling = w.handling

theorem codes_ret : Codes cfg c n ec 0 (.ret (.err ec)) := by
  intro da w _ hi _ _
  exact ⟨w, rfl, Nat.le_refl _, Nat.le_refl _, hi, rfl, Or.inl rfl, rfl, rfl⟩

/-- The block returned the error code, the scope is still active. -/
structure CodeIn (cfg : Cfg) (c : Id) (n k : Nat) (ec : ErrorCode) (specs : List (List Arg)) (w w1 : World AbsStore) (s : List CtxCell) (ss : List (List CtxCell)) : Prop where
  lo : w.ticks ≤ w1.ticks
  hi : w1.ticks ≤ w.ticks + k
  inv : IdealInv cfg c (fun _ => True) 0 n w1
  calls : callsIn w1.trace = callsIn w.trace
  now : w1.cur = w.cur ∨ ∃ t, t < w1.ticks ∧ w1.cur = errorNo cfg c t
  frames : w1.mem.frames = s :: ss
  slots : s.map CtxCell.cellTy = deduce cfg specs
  same : shape ss = shape w.mem.frames
  handling : w1.handling = w.handling

theorem Codes.scope {k : Nat} {p : XProg} (h : Codes cfg c n ec k p) {specs : List (List Arg)} {da : Bool} {w : World AbsStore}
    (hb : p.WF cfg (da || capturing cfg specs)) (hi : IdealInv cfg c (fun _ => True) 0 n w) (hda : da = false → NoDa (shape w.mem.frames))
    (hf : Few cfg n (w.ticks + k)) :
    ∃ w0 w1 s ss, pushCtx (deduce cfg specs) w = some ((), w0) ∧ evalX cfg p w0 = some (.err ec, w1) ∧ CodeIn cfg c n k ec specs w w1 s ss := by
  have hn := deduce_nodup cfg specs
  have hda0 : (da || capturing cfg specs) = false → NoDa (shape (setMem w ((deduce cfg specs).map CellTy.empty :: w.mem.frames)).mem.frames) := by
    show _ → NoDa (shape (_ :: _))
    rw [shape_push]
    exact noDa_push hda
  obtain ⟨w1, h1, h2, h3, h4, h5, h6, h7, h8⟩ := h _ _ hb (hi.push hn) hda0 hf
  have e3' : shape w1.mem.frames = deduce cfg specs :: shape w.mem.frames := by
    rw [h7]; exact shape_push _ _
  cases hc : w1.mem.frames with
  | nil => simp [hc, shape] at e3'
  | cons s ss =>
    rw [hc] at e3'
    simp only [shape, List.map_cons, List.cons.injEq] at e3'
    exact ⟨_, w1, s, ss, push_abs hn, h1, h2, h3, h4, h5, h6, hc, e3'.1, e3'.2, h8⟩

/-- The code was imported into the scope, which then was left. -/
theorem CodeIn.import {k : Nat} {specs : List (List Arg)} {w w1 : World AbsStore} {s : List CtxCell} {ss : List (List CtxCell)} (he : ec.Foreign)
    (h : CodeIn cfg c n k ec specs w w1 s ss) (hf : Few cfg n (w1.ticks + 1)) :
    ∃ w2 s2 ss2, Imported cfg c n ec w1 w2 ∧ w2.mem.frames = s2 :: ss2 ∧ popCtx w2 = some (s2, setMem w2 ss2) ∧
      s2.map CtxCell.cellTy = deduce cfg specs ∧ shape ss2 = shape w.mem.frames ∧ FramesGood [s2] ∧
      Attached cfg (errorNo cfg c w1.ticks) (codeOnly ec) (s2 :: ss2) ∧ IdealInv cfg c (fun _ => True) 0 n (setMem w2 ss2) := by
  obtain ⟨w2, g⟩ := import_abs he h.inv hf
  have hs := g.same
  rw [h.frames] at hs
  cases hc : w2.mem.frames with
  | nil => simp [hc, shape] at hs
  | cons s2 ss2 =>
    rw [hc] at hs
    simp only [shape, List.map_cons, List.cons.injEq] at hs
    refine ⟨w2, s2, ss2, g, hc, pop_abs hc, hs.1.trans h.slots, hs.2.trans h.same, ?_, hc ▸ g.attached, g.inv.pop hc⟩
    intro f hf
    simp only [List.mem_singleton] at hf
    subst hf
    exact g.inv.good.4 f (by rw [hc]; simp)

/-- A `try_handle_some` without a suitable handler. -/
theorem codes_handle {k : Nat} {p : XProg} (he : ec.Foreign) (h : Codes cfg c n ec k p) {specs : List (List Arg)} {body : Nat → List ArgVal → XProg}
    (hn : ∀ hd ∈ specs, ¬ SuitableOf cfg (codeOnly ec) none hd) : Codes cfg c n ec (k + 2) (.handleSome specs p body) := by
  intro da w hp hi hda hf
  obtain ⟨w0, w1, s, ss, a1, a2, a3⟩ := h.scope hp.1 hi hda (hf.le (by omega))
  have hf1 : Few cfg n (w1.ticks + 2) := hf.le (by have := a3.hi; omega)
  obtain ⟨w2, s2, ss2, b1, b2, b3, b4, b5, b6, b7, b8⟩ := a3.import he (hf1.le (by omega))
  have hid : (errorNo cfg c w1.ticks).Tagged := errorNo_tagged hi
  obtain ⟨w4, d⟩ := import_abs he b8 (hf1.le (by show w2.ticks + 1 ≤ _; rw [b1.ticks]; exact Nat.le_refl _))
  have hid2 : (errorNo cfg c w2.ticks).Tagged := errorNo_tagged hi
  have hsel : selectSome cfg s2 (errorNo cfg c w1.ticks) none specs = none :=
    ((C15_select_some (scopeOk_deduced b4) hid none specs).2).mpr fun hd hm hs => hn hd hm ((suitable_of b4 b6 b7 hm).mp hs)
  have hno : ∀ ty v, (ty, some (errorNo cfg c w2.ticks, v)) ∉ slotsIn s2 := by
    intro ty v hv
    exact (b1.inv.stored ty _ v (by rw [b2]; exact stored_cons.mpr (Or.inl hv))) w2.ticks (Nat.le_refl _)
      (Nat.lt_of_lt_of_le (by rw [b1.ticks]; omega) hf1.1) rfl
  have hun : unloadCells cfg (errorNo cfg c w2.ticks) s2 w4 = some ((), w4) := by
    rw [unloadCells_eq cfg (tagged_ne_zero hid2) s2 w4 d.inv.good.4 (b6 s2 (by simp)).1]
    have h1 : unloadCur (errorNo cfg c w2.ticks) s2 w4.cur = w4.cur := by rw [d.cur]; exact unloadCur_self _ _
    simp only [setCurMem, unloadFs_none hno, h1]
  refine ⟨w4, ?_, ?_, ?_, d.inv, ?_, Or.inr ⟨w2.ticks, ?_, d.cur⟩, ?_, ?_⟩
  · show tryHandleSomeX _ _ _ _ _ = _
    unfold tryHandleSomeX
    rw [bind_apply, a1, Option.bind_some, bind_apply, a2, Option.bind_some]
    simp only
    rw [bind_apply, b1.run, Option.bind_some, bind_apply, b3, Option.bind_some, bind_apply, ctxLoc_eq hid, Option.bind_some]
    simp only [hsel]
    rw [bind_apply, pure_apply, Option.bind_some, bind_apply]
    simp only [unloadFailed]
    rw [bind_apply, d.run, Option.bind_some]
    show (unloadCells cfg (errorNo cfg c w2.ticks) s2 w4).bind _ = _
    rw [hun]
    rfl
  · have : w4.ticks = w2.ticks + 1 := d.ticks
    have := b1.ticks
    have := a3.lo
    omega
  · have : w4.ticks = w2.ticks + 1 := d.ticks
    have := b1.ticks
    have := a3.hi
    omega
  · rw [d.calls]
    show callsIn w2.trace = _
    rw [b1.calls, a3.calls]
  · rw [d.ticks]; exact Nat.lt_succ_self _
  · rw [d.same]; exact b5
  · rw [d.handling]
    show w2.handling = _
    rw [b1.handling, a3.handling]

/-- `try_catch` lets results pass. -/
theorem codes_catch {k : Nat} {p : XProg} (h : Codes cfg c n ec k p) {specs : List (List Arg)} {body : Nat → List ArgVal → XProg} :
    Codes cfg c n ec k (.tryCatch specs p body) := by
  intro da w hp hi hda hf
  obtain ⟨w0, w1, s, ss, a1, a2, a3⟩ := h.scope hp.1 hi hda hf
  refine ⟨setMem w1 ss, ?_, a3.lo, a3.hi, a3.inv.pop a3.frames, a3.calls, a3.now, a3.same, a3.handling⟩
  show tryCatchX _ _ _ _ _ = _
  unfold tryCatchX
  rw [bind_apply, a1, Option.bind_some, bind_apply, a2, Option.bind_some]
  simp only
  rw [bind_apply, pop_abs a3.frames]
  rfl

theorem codes_forward {k : Nat} {p : XProg} (h : Codes cfg c n ec k p) {onValue : Val → XProg} : Codes cfg c n ec k (.bind p onValue (fun e => .ret (.err e))) := by
  intro da w hp hi hda hf
  obtain ⟨w1, a1, a2⟩ := h da w hp.1 hi hda hf
  refine ⟨w1, ?_, a2⟩
  rw [evalX, bind_apply, a1, Option.bind_some]
  rfl

theorem codes_guard {k : Nat} {p : XProg} (h : Codes cfg c n ec k p) {items : List OnItem} : Codes cfg c n ec k (.onError items p) := by
  intro da w hp hi hda hf
  obtain ⟨w1, a1, a2, a3, a4, a5, a6, a7, a8⟩ := h da w hp.2 hi hda hf
  have hda1 : da = false → NoDa (shape w1.mem.frames) := by rw [a7]; exact hda
  have hrun : evalX cfg (.onError items p) w = (checkId cfg w.cur false >>= fun id =>
      if id ≠ 0#32 then (do assertTagged id; triggerItems cfg id items; pure (XOut.err ec)) else pure (XOut.err ec)) w1 := by
    show onErrorX _ _ _ _ = _
    unfold onErrorX
    rw [bind_apply, currentId_abs hi.good, Option.bind_some, bind_apply, a1, Option.bind_some]
  rw [hrun, bind_apply]
  by_cases hne : w1.cur = w.cur
  · have hck : checkId cfg w.cur false w1 = some (0#32, w1) := by
      simp [checkId, bind_apply, currentId_abs a4.good, hne, pure_apply]
    rw [hck, Option.bind_some]
    exact ⟨w1, rfl, a2, a3, a4, a5, a6, a7, a8⟩
  · have hck : checkId cfg w.cur false w1 = some (w1.cur, w1) := by
      unfold checkId
      rw [bind_apply, currentId_abs a4.good, Option.bind_some]
      simp only [hne, ne_eq, not_false_eq_true, if_true]
      rfl
    rcases a6 with a6 | ⟨t, ht, hc⟩
    · exact absurd a6 hne
    · have htag : Id.Tagged w1.cur := by rw [hc]; exact errorNo_tagged hi
      refine ⟨w1.put (onEvents cfg w1.cur items w1.mem.frames) (putItems cfg true w1.cur (onItems items) w1.mem.frames), ?_, a2, a3, ?_, ?_, Or.inr ⟨t, ht, hc⟩, ?_, a8⟩
      · rw [hck, Option.bind_some]
        simp only [tagged_ne_zero htag, ne_eq, not_false_eq_true, if_true, bind_apply, assertTagged, htag, Option.bind_some,
          triggerItems_eq cfg htag items w1 a4.good.4 (accOk_of_noDa (onItems_ok hp.1) hda1 _), pure_apply]
      · rw [hc]; exact a4.put (Nat.zero_le _) ht _ _ _
      · show callsIn (_ ++ w1.trace) = _
        rw [callsIn_append, callsIn_on, a5]
        rfl
      · exact (putItems_shape _ _ _ _ _).trans a7

/-! ## A handler is called -/

/-- Unloading the scope for the error a handler returned calls no handler. -/
theorem unloadFailed_ptr {o : XOut} (ho : o.Ok) {s : List CtxCell} (hs : FramesGood [s]) {w : World PtrStore} (hw : ThreadOk w) :
    ∃ w', unloadFailed cfg s o w = some ((), w') ∧ ThreadOk w' ∧ callsIn w'.trace = callsIn w.trace := by
  cases o with
  | val v => exact ⟨w, rfl, hw, rfl⟩
  | exc e => exact ⟨w, rfl, hw, rfl⟩
  | err ec =>
    by_cases hc : ec.cat = leafCat
    · obtain ⟨w', h1, h2, h3⟩ := unload_ptr cfg (ho.2 hc) hs hw
      refine ⟨w', ?_, h2, by rw [(threadOk_of_absW h3).1]; rfl⟩
      simp only [unloadFailed]
      rw [errorIdOf_leaf cfg hc (ho.2 hc), bind_apply, pure_apply, Option.bind_some]
      exact h1
    · have ht := nextId_tagged (cfg := cfg) hw.good
      obtain ⟨w1, e1, e2, e3⟩ := run_abs (sim_errorIdOf (n := 0) cfg ec) hw (import_eq ⟨ho.1, hc⟩ hw.good)
        (put_good (gen_good hw.good) (putItems_good (tagged_ne_zero ht) hw.good.4))
      obtain ⟨w', h1, h2, h3⟩ := unload_ptr cfg ht hs e3
      refine ⟨w', ?_, h2, ?_⟩
      · simp only [unloadFailed]
        rw [bind_apply, e1, Option.bind_some]
        exact h1
      · rw [(threadOk_of_absW h3).1]
        show callsIn (absW w1).trace = _
        rw [e2]
        show callsIn (_ ++ Event.gen _ :: w.trace) = _
        rw [callsIn_append, callsIn_quiet (itemEvents_quiet cfg _ _ _ _)]
        rfl

/-- The block returned the error code; the scope is left, and the first suitable handler starts in state `wh`. -/
structure Enters (cfg : Cfg) (c : Id) (n : Nat) (ec : ErrorCode) (specs : List (List Arg)) (p : XProg) (body : Nat → List ArgVal → XProg) (i : Nat) (w : World PtrStore)
    (id : Id) (vals : List ArgVal) (s : List CtxCell) (wh : World PtrStore) : Prop where
  gets : Gets cfg specs (codeOnly ec) id none i vals
  ok : ThreadOk wh
  inv : IdealInv cfg c (fun _ => True) 0 n (absW wh)
  shape : shape (scopes wh) = shape (scopes w)
  handling : wh.handling = w.handling
  calls : callsIn wh.trace = (id, none, i, vals) :: callsIn w.trace
  cur : wh.cur = id
  args : ∀ v ∈ vals, ArgVal.Ok v
  scope : FramesGood [s]
  all : ValidAll specs → evalX cfg (.handleAll specs p body) w = (evalX cfg (body i vals) >>= noErrX) wh
  some : evalX cfg (.handleSome specs p body) w = (evalX cfg (body i vals) >>= fun o => unloadFailed cfg s o >>= fun _ => pure o) wh

theorem Codes.enter {k : Nat} {p : XProg} (he : ec.Foreign) (h : Codes cfg c n ec k p) {specs : List (List Arg)} {da : Bool} {w : World PtrStore} (hw : ThreadOk w)
    (hb : p.WF cfg (da || capturing cfg specs)) (hi : IdealInv cfg c (fun _ => True) 0 n (absW w)) (hda : da = false → NoDa (shape (scopes w)))
    (hf : Few cfg n (w.ticks + k + 1)) {i : Nat} (hs : FirstSuitableOf cfg (codeOnly ec) none specs i) (body : Nat → List ArgVal → XProg) :
    ∃ id vals s wh, Enters cfg c n ec specs p body i w id vals s wh := by
  obtain ⟨v0, v1, s, ss, a1, a2, a3⟩ := h.scope hb hi hda (hf.le (Nat.le_succ _))
  obtain ⟨v2, s2, ss2, b1, b2, b3, b4, b5, b6, b7, b8⟩ := a3.import he (hf.le (Nat.succ_le_succ a3.hi))
  have hid : (errorNo cfg c v1.ticks).Tagged := errorNo_tagged hi
  obtain ⟨w0, c1, c2, c3, _⟩ := push_ptr hw (deduce_nodup cfg specs)
  rw [c2] at a1
  cases a1
  obtain ⟨w1, d1, rfl, d3⟩ := run_abs (sim_evalX (n := 0) cfg p) c3 a2 a3.inv.good
  obtain ⟨w2, e1, rfl, e3⟩ := run_abs (sim_errorIdOf (n := 0) cfg ec) d3 b1.run b1.inv.good
  obtain ⟨w3, f1, f2, f3⟩ := popCtx_ptr e3 b2
  have hfs := (firstSuitable_of (ex := none) b4 b6 b7).mpr hs
  obtain ⟨hd, vals, g1, g2, g3, g4⟩ := hfs.get b4 b6 hid (by simp) rfl
  have hsel := ((C15_select_some (scopeOk_deduced b4) hid none specs).1 i).mpr hfs
  obtain ⟨q1, q2, q3, q4, q5, q6⟩ := threadOk_of_absW f2
  have hcall : ∀ loc, loc = (findCell tySrcLoc s2).bind (Cell.hasValue · (errorNo cfg c (absW w1).ticks)) →
      callHandlerX cfg specs (fun i args => evalX cfg (body i args)) s2 (errorNo cfg c (absW w1).ticks) none loc i w3 =
      evalX cfg (body i vals) { w3 with trace := .handled (errorNo cfg c (absW w1).ticks) none i vals :: w3.trace } := by
    intro loc hl
    unfold callHandlerX
    rw [hl]
    simp only [g1, g2]
    rfl
  refine ⟨errorNo cfg c (absW w1).ticks, vals, s2, { w3 with trace := .handled (errorNo cfg c (absW w1).ticks) none i vals :: w3.trace },
    ⟨hd, ss2, g1, g3.1, fun j a x ha hx => receives_of b4 b6 b7 (List.mem_of_getElem? g1) (List.mem_of_getElem? ha) (g3.2 j a x ha hx)⟩,
    threadOk_with f3 _ _ f3.good.3, ?_, ?_, ?_, ?_, ?_, g4, b6, fun hv => ?_, ?_⟩
  · have := b8.handled (hs := w3.handling) f3.good.3 (.handled (errorNo cfg c (absW w1).ticks) none i vals :: w3.trace)
    rw [← f2] at this
    exact this
  · show shape (scopes w3) = _
    rw [q6]
    exact b5
  · show w3.handling = _
    rw [q4]
    show (absW w2).handling = _
    rw [b1.handling, a3.handling]
    rfl
  · show _ :: callsIn w3.trace = _
    rw [q1]
    show _ :: callsIn (absW w2).trace = _
    rw [b1.calls, a3.calls]
    rfl
  · show w3.cur = _
    rw [q2]
    exact b1.cur
  · have hsel := ((C15_select_all (scopeOk_deduced b4) hid none hv).1 i).mpr hfs
    show tryHandleAllX _ _ _ _ _ = _
    unfold tryHandleAllX
    rw [bind_apply, c1, Option.bind_some, bind_apply, d1, Option.bind_some]
    simp only
    rw [bind_apply, e1, Option.bind_some, bind_apply, f1, Option.bind_some, bind_apply, ctxLoc_eq hid, Option.bind_some]
    simp only [hsel]
    rw [bind_apply, hcall _ rfl, bind_apply]
  · show tryHandleSomeX _ _ _ _ _ = _
    unfold tryHandleSomeX
    rw [bind_apply, c1, Option.bind_some, bind_apply, d1, Option.bind_some]
    simp only
    rw [bind_apply, e1, Option.bind_some, bind_apply, f1, Option.bind_some, bind_apply, ctxLoc_eq hid, Option.bind_some]
    simp only [hsel]
    rw [bind_apply, hcall _ rfl, bind_apply]

end Leaf
