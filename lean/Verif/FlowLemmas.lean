import Verif.Flow
import Verif.Stored

/-!
# Error handling scopes on pointer-level storage
-/

namespace Leaf

/-! ## Examining exceptions -/

/-- The error id LEAF uses for a caught exception when the current error id of the thread is `cur`. -/
def Exc.seenId (e : Exc) (cur : Id) : Id :=
  if e.isStd then
    match e.idSrc with
    | .base id => id
    | .plain id => id
    | .none => makeErrorId cur
  else makeErrorId cur

/-- The exception object after LEAF looked at its id: it no longer resets the current error when it is destroyed. -/
def Exc.examined (e : Exc) : Exc :=
  if e.isStd then
    match e.idSrc with
    | .base _ => { e with clear := false }
    | _ => e
  else e

theorem currentError_eq {M : Type} {w : World M} (h : Id.Ok w.cur) : currentError w = some (makeErrorId w.cur, w) := by
  unfold currentError
  rw [bind_apply]
  have : currentId w = some (w.cur, w) := by
    unfold currentId
    have h2 : w.cur = 0#32 ∨ Id.Tagged w.cur := h
    simp only [h2, if_true]
  rw [this]
  rfl

theorem unpackId_eq {M : Type} {e : Exc} {w : World M} (h : Id.Ok w.cur) : unpackId e w = some ((e.seenId w.cur, e.examined), w) := by
  unfold unpackId Exc.seenId Exc.examined
  by_cases hs : e.isStd = true
  · simp only [hs, if_true]
    cases e.idSrc with
    | base id => rfl
    | plain id => rfl
    | none => simp only [bind_apply, currentError_eq h]; rfl
  · have hs : e.isStd = false := by simpa using hs
    simp only [hs, Bool.false_eq_true, if_false, bind_apply, currentError_eq h]; rfl

theorem seenId_tagged {e : Exc} (he : e.Ok) (cur : Id) : (e.seenId cur).Tagged := by
  unfold Exc.seenId
  split
  · unfold Exc.Ok at he
    split <;> rename_i h <;> simp only [h] at he
    · exact he
    · exact he
    · exact makeErrorId_tagged _
  · exact makeErrorId_tagged _

theorem examined_ok {e : Exc} (he : e.Ok) : e.examined.Ok := by
  unfold Exc.examined
  split
  · split
    · rename_i h; simpa [Exc.Ok, h] using he
    · exact he
  · exact he

theorem ctxLoc_eq {M : Type} {id : Id} (hid : id.Tagged) (s : List CtxCell) (w : World M) :
    ctxLoc id s w = some ((findCell tySrcLoc s).bind (Cell.hasValue · id), w) := by
  unfold ctxLoc
  cases findCell tySrcLoc s with
  | none => rfl
  | some c => simp only [tagged_ne_zero hid, if_false]; rfl

/-! ## Entering, leaving, unloading -/

theorem scopes_cons_good {w : World PtrStore} (hw : ThreadOk w) {s : Scope} {ss : List Scope} (h : scopes w = s :: ss) : FramesGood [s] := by
  intro f hf
  simp only [List.mem_singleton] at hf
  subst hf
  exact hw.good.4 f (by have : (absW w).mem.frames = f :: ss := h; rw [this]; simp)

theorem push_ptr {w : World PtrStore} (hw : ThreadOk w) {spec : List CellTy} (hs : spec.Nodup) :
    ∃ w', pushCtx spec w = some ((), w') ∧ pushCtx spec (absW w) = some ((), absW w') ∧ ThreadOk w' ∧
      scopes w' = spec.map CellTy.empty :: scopes w := by
  obtain ⟨w', h1, h2, h3⟩ := threadOk_push hw hs
  refine ⟨w', h1, ?_, h2, h3⟩
  have hx : pushCtx spec (absW w) = some ((), { absW w with mem := ⟨spec.map CellTy.empty :: (absW w).mem.frames⟩ }) := by
    simp [pushCtx, Store.push, hs]
  rw [hx]
  congr 2
  have hm : (absW w').mem = ⟨spec.map CellTy.empty :: (absW w).mem.frames⟩ := by
    have : (absW w').mem.frames = _ := h3
    cases h : (absW w').mem
    rw [h] at this
    simp only at this
    rw [this]
    rfl
  unfold pushCtx at h1
  cases hp : Store.push spec w.mem with
  | none => simp [hp] at h1
  | some m =>
    simp only [hp, Option.map_some, Option.some.injEq, Prod.mk.injEq, true_and] at h1
    subst h1
    simp only [absW] at hm ⊢
    rw [hm]

/-- Entering a scope and running a well-formed block in it. -/
theorem attemptRaw_ptr {cfg : Cfg} {slots : List CellTy} (hslots : slots.Nodup) {block : Prog} {db : Bool}
    (hb : block.WF cfg db) {w : World PtrStore} (hw : ThreadOk w) (hda : db = false → NoDa (slots :: shape (scopes w))) :
    ∃ o w1 s ss, attemptRaw slots (eval cfg block) w = some (o, w1) ∧ attemptRaw slots (eval cfg block) (absW w) = some (o, absW w1) ∧ 
      ThreadOk w1 ∧ o.Ok ∧ scopes w1 = s :: ss ∧ s.map CtxCell.cellTy = slots ∧ shape ss = shape (scopes w) := by
  obtain ⟨w0, h1, h1', h2, h3⟩ := push_ptr hw hslots
  have hsh : shape (scopes w0) = slots :: shape (scopes w) := by
    rw [h3]
    simp only [shape, List.map_cons, List.map_map, List.cons.injEq, and_true]
    have : ∀ t : CellTy, (CtxCell.cellTy ∘ CellTy.empty) t = t := fun t => by cases t <;> rfl
    rw [List.map_congr_left (fun t _ => this t)]
    simp
  obtain ⟨o, w1, e1, e2, e3, e4, e5⟩ := tot_ptr (sim_eval (n := 0) cfg block) (tot_eval cfg block hb _ (by rw [hsh]; exact hda)) h2 rfl
  rw [hsh] at e4
  cases hc : scopes w1 with
  | nil => simp [hc, shape] at e4
  | cons s ss =>
    rw [hc] at e4
    simp only [shape, List.map_cons, List.cons.injEq] at e4
    refine ⟨o, w1, s, ss, ?_, ?_, e3, e5, hc, e4.1, e4.2⟩
    · unfold attemptRaw; rw [bind_apply, h1, Option.bind_some]; exact e1
    · unfold attemptRaw; rw [bind_apply, h1', Option.bind_some]; exact e2

theorem attempt_ptr {cfg : Cfg} {slots : List CellTy} (hslots : slots.Nodup) {block : Prog} {db : Bool}
    (hb : block.WF cfg db) {w : World PtrStore} (hw : ThreadOk w) (hda : db = false → NoDa (slots :: shape (scopes w))) :
    ∃ o w1 s ss, attempt cfg slots (eval cfg block) w = some (o, w1) ∧ attempt cfg slots (eval cfg block) (absW w) = some (o, absW w1) ∧ 
      ThreadOk w1 ∧ o.Ok ∧ scopes w1 = s :: ss ∧ s.map CtxCell.cellTy = slots ∧ shape ss = shape (scopes w) := by
  obtain ⟨o, w1, s, ss, h1, h1', h2, h3, h4, h5, h6⟩ := attemptRaw_ptr hslots hb hw hda
  rw [attempt_of_raw h1, attempt_of_raw h1']
  obtain ⟨o', w2, e1, e2, e3, e4, e5⟩ := tot_ptr (sim_unloadOut (n := 0) cfg o) (tot_unloadOut _ cfg h3) h2 rfl
  cases hc : scopes w2 with
  | nil => simp [h4, hc, shape] at e4
  | cons s' ss' =>
    rw [hc, h4] at e4
    simp only [shape, List.map_cons, List.cons.injEq] at e4
    exact ⟨o', w2, s', ss', e1, e2, e3, e5, hc, by rw [e4.1, h5], by rw [← h6]; exact e4.2⟩

theorem unload_ptr (cfg : Cfg) {id : Id} (hid : id.Tagged) {s : Scope} (hs : FramesGood [s]) {w : World PtrStore} (hw : ThreadOk w) :
    ∃ w', unloadCells cfg id s w = some ((), w') ∧ ThreadOk w' ∧
      absW w' = setCurMem (absW w) (unloadCur id s w.cur) (unloadFs cfg id s (scopes w)) := by
  have h0 := hs s (by simp)
  have h := unloadCells_eq cfg (tagged_ne_zero hid) s (absW w) hw.good.4 h0.1
  have hcur : Id.Ok (unloadCur id s (absW w).cur) := by
    have := hw.good.1
    generalize (absW w).cur = c at this
    clear h0 h hs
    induction s with
    | nil => exact this
    | cons x s ih =>
      cases x with
      | obj t c => exact ih
      | da k ns =>
        simp only [unloadCur]
        split
        · exact Or.inr hid
        · exact ih
  obtain ⟨w', h1, h2, h3⟩ := run_abs (sim_unloadCells cfg id s) hw h
    ⟨hcur, hw.good.2, hw.good.3, unloadFs_good (tagged_ne_zero hid) hw.good.4⟩
  exact ⟨w', h1, h3, h2⟩

/-- Other changes of the world keep it consistent. -/
theorem threadOk_with {w : World PtrStore} (hw : ThreadOk w) (t : List Event) (hs : List Exc) (hh : ∀ e ∈ hs, Exc.Ok e) :
    ThreadOk { w with trace := t, handling := hs } := ⟨hw.inv, hw.good.1, hw.good.2, hh, hw.good.4⟩

theorem threadOk_cur {w : World PtrStore} (hw : ThreadOk w) {id : Id} (hid : id.Ok) : ThreadOk { w with cur := id } :=
  ⟨hw.inv, hid, hw.good.2, hw.good.3, hw.good.4⟩

theorem destroyExc_eq {M : Type} (e : Exc) (w : World M) :
    destroyExc e w = some ((), { w with cur := if e.clear = true ∧ e.idSrc = .base w.cur then 0#32 else w.cur }) := by
  unfold destroyExc
  cases h : e.idSrc with
  | base id =>
    simp only [bind_apply]
    show (if e.clear = true ∧ w.cur = id then setCur 0#32 else pure ()) w = _
    by_cases hc : e.clear = true ∧ w.cur = id
    · rw [if_pos hc, if_pos ⟨hc.1, by rw [hc.2]⟩]; rfl
    · rw [if_neg hc, if_neg]
      · rfl
      · rintro ⟨h1, h2⟩
        simp only [ExcId.base.injEq] at h2
        exact hc ⟨h1, h2.symm⟩
  | plain id => simp; rfl
  | none => simp; rfl

end Leaf
