import Verif.DirectLemmas

/-!
# Lemmas for C48: handling scopes
-/

namespace Leaf

variable {cfg : Cfg} {c : Id} {K : Id → Prop} {lo n : Nat}

/-! ## Entering and leaving -/

theorem push_abs {w : World AbsStore} {spec : List CellTy} (hs : spec.Nodup) :
    pushCtx spec w = some ((), setMem w (spec.map CellTy.empty :: w.mem.frames)) := by
  simp [pushCtx, Store.push, hs, setMem]

theorem pop_abs {w : World AbsStore} {s : List CtxCell} {ss : List (List CtxCell)} (h : w.mem.frames = s :: ss) :
    popCtx w = some (s, setMem w ss) := by
  simp [popCtx, Store.pop, h, setMem]

theorem shape_push (spec : List CellTy) (fs : List (List CtxCell)) : shape (spec.map CellTy.empty :: fs) = spec :: shape fs := by
  have : ∀ t : CellTy, (CtxCell.cellTy ∘ CellTy.empty) t = t := fun t => by cases t <;> rfl
  simp only [shape, List.map_cons, List.map_map, List.cons.injEq, and_true]
  rw [List.map_congr_left (fun t _ => this t), List.map_id']

theorem IdealInv.push {w : World AbsStore} (h : IdealInv cfg c K lo n w) {spec : List CellTy} (hs : spec.Nodup) :
    IdealInv cfg c K lo n (setMem w (spec.map CellTy.empty :: w.mem.frames)) := by
  obtain ⟨_, w', e1, e2, _⟩ := tot_pushCtx _ hs w h.good rfl
  rw [push_abs hs] at e1
  cases e1
  refine h.less e2 rfl rfl (Or.inr rfl) (fun ty id v hv => ?_) fun k hk => ?_
  · rcases stored_cons.mp hv with hv | hv
    · exact absurd hv stored_empty
    · exact h.stored ty id v hv
  · rcases keyed_cons.mp hk with ⟨ns, hk⟩ | hk
    · rw [List.mem_map] at hk
      obtain ⟨t, _, ht⟩ := hk
      cases t <;> cases ht
      exact Or.inl h.zero
    · exact h.keys k hk

theorem IdealInv.pop {w : World AbsStore} (h : IdealInv cfg c K lo n w) {s : List CtxCell} {ss : List (List CtxCell)} (hs : w.mem.frames = s :: ss) :
    IdealInv cfg c K lo n (setMem w ss) := by
  refine h.less ⟨h.good.1, h.good.2, h.good.3, fun f hf => h.good.4 f (by rw [hs]; exact List.mem_cons_of_mem _ hf)⟩ rfl rfl (Or.inr rfl)
    (fun ty id v hv => h.stored ty id v ?_) fun k hk => h.keys k ?_
  · rw [hs]
    exact stored_cons.mpr (Or.inr hv)
  · rw [hs]
    exact keyed_cons.mpr (Or.inr hk)

/-- Unloading a scope that holds nothing of the error. -/
theorem unloadFs_none {id : Id} {s : List CtxCell} {fs : List (List CtxCell)} (h : ∀ ty v, (ty, some (id, v)) ∉ slotsIn s) : unloadFs cfg id s fs = fs := by
  have hobj : ∀ ty (cl : Cell) gs, (∀ v, cl ≠ some (id, v)) → unloadObj cfg id ty cl gs = gs := by
    intro ty cl gs hc
    unfold unloadObj
    cases hv : cl.hasValue id with
    | none => rfl
    | some v => exact absurd (hasValue_eq_some.mp hv) (hc v)
  induction s with
  | nil => rfl
  | cons x s ih =>
    have ih' : unloadFs cfg id s fs = fs := ih fun ty v hv => h ty v (by cases x <;> simp [slotsIn_obj, slotsIn_da, hv])
    rw [unloadFs, ih']
    cases x with
    | obj t cl => exact hobj t cl fs fun v hv => h t v (by simp [slotsIn_obj, hv])
    | da k ns =>
      have hn : ∀ ty v, (ty, some (id, v)) ∉ ns := fun ty v hv => h ty v (by simp [slotsIn_da, hv])
      show unloadDaFs cfg id ns fs = fs
      clear h ih ih'
      induction ns with
      | nil => rfl
      | cons n ns ih =>
        obtain ⟨t, cl⟩ := n
        rw [unloadDaFs, hobj t cl fs fun v hv => hn t v (by simp [hv])]
        exact ih fun ty v hv => hn ty v (List.mem_cons_of_mem _ hv)

/-! ## Running the block in a scope -/

/-- The state after the block, the scope still active. -/
structure Ran (cfg : Cfg) (c : Id) (K : Id → Prop) (lo n : Nat) (specs : List (List Arg)) (p : Direct) (w : World AbsStore) (io : Outcome) (l : List Call) (o : Out) (w1 : World AbsStore)
    (s : List CtxCell) (ss : List (List CtxCell)) : Prop where
  ideal : Ideal cfg c p w.ticks io w1.ticks l
  achieves : Achieves cfg c K lo n w.ticks w.cur w.trace io l o w1
  raw : attemptRaw (deduce cfg specs) (eval cfg p.prog) w = some (o, w1)
  att : attempt cfg (deduce cfg specs) (eval cfg p.prog) w = some (o, w1)
  frames : w1.mem.frames = s :: ss
  slots : s.map CtxCell.cellTy = deduce cfg specs
  same : shape ss = shape w.mem.frames
  ok : o.Ok
  mono : w.ticks ≤ w1.ticks
  low : lo ≤ w.ticks

theorem run_scope {specs : List (List Arg)} {p : Direct} (ih : Implements cfg c K lo n p) {da : Bool} {w : World AbsStore}
    (hb : p.prog.WF cfg (da || capturing cfg specs)) (hd : p.Ok) (hi : IdealInv cfg c K lo n w) (hda : da = false → NoDa (shape w.mem.frames)) :
    ∃ o w1 s ss, attemptRaw (deduce cfg specs) (eval cfg p.prog) w = some (o, w1) ∧ w1.mem.frames = s :: ss ∧
      (∃ o' w1', attempt cfg (deduce cfg specs) (eval cfg p.prog) w = some (o', w1') ∧ w1.ticks ≤ w1'.ticks) ∧
      (Few cfg n w1.ticks → ∃ io l, Ran cfg c K lo n specs p w io l o w1 s ss) := by
  have hn := deduce_nodup cfg specs
  have hda0 : (da || capturing cfg specs) = false → NoDa (shape (setMem w ((deduce cfg specs).map CellTy.empty :: w.mem.frames)).mem.frames) := by
    show _ → NoDa (shape (_ :: _))
    rw [shape_push]
    exact noDa_push hda
  obtain ⟨o, w1, e1, e2, e3, e4⟩ := tot_eval cfg p.prog hb _ hda0 _ (hi.push hn).good rfl
  have hraw : attemptRaw (deduce cfg specs) (eval cfg p.prog) w = some (o, w1) := by
    unfold attemptRaw
    rw [bind_apply, push_abs hn, Option.bind_some]
    exact e1
  have e3' : shape w1.mem.frames = deduce cfg specs :: shape w.mem.frames := by
    rw [e3]; exact shape_push _ _
  cases hc : w1.mem.frames with
  | nil => simp [hc, shape] at e3'
  | cons s ss =>
    rw [hc] at e3'
    simp only [shape, List.map_cons, List.cons.injEq] at e3'
    refine ⟨o, w1, s, ss, hraw, hc, ?_, fun hf => ?_⟩
    · obtain ⟨o', w1', d1, _⟩ := tot_unloadOut _ cfg e4 w1 e2 rfl
      exact ⟨o', w1', by rw [attempt_of_raw hraw]; exact d1, Mono.of_den (den_unloadOut cfg o) _ _ _ d1⟩
    · obtain ⟨io, l, f1, f2⟩ := ih _ _ hb hd (hi.push hn) hda0 o w1 e1 hf
      have hm : (setMem w ((deduce cfg specs).map CellTy.empty :: w.mem.frames)).ticks ≤ w1.ticks := Mono.eval _ _ _ _ e1
      refine ⟨io, l, f1, f2, hraw, ?_, hc, e3'.1, e3'.2, e4, hm, hi.low⟩
      rw [attempt_of_raw hraw]
      cases io with
      | ok v => have h := f2.is; cases h; rfl
      | failed id A ex => cases ex <;> obtain ⟨_, h, _⟩ := f2.is <;> cases h <;> rfl

/-- Taking the scope away keeps what was achieved, if the block succeeded. -/
theorem Ran.pop_ok {specs : List (List Arg)} {p : Direct} {w w1 : World AbsStore} {v : Val} {l : List Call} {o : Out} {s : List CtxCell}
    {ss : List (List CtxCell)} (h : Ran cfg c K lo n specs p w (.ok v) l o w1 s ss) : Achieves cfg c K lo n w.ticks w.cur w.trace (.ok v) l o (setMem w1 ss) :=
  ⟨h.achieves.inv.pop h.frames, h.achieves.calls, h.achieves.is, h.achieves.now, by simp⟩

/-! ## The error leaves the scope -/

theorem step_last {items : List Item} {ty : Ty} (hn : ∀ x ∈ items, x.isAccum = false) :
    (∃ v, ∀ x, items.foldl (Item.step cfg false ty) x = some v) ∨ ∀ x, items.foldl (Item.step cfg false ty) x = x := by
  induction items with
  | nil => exact Or.inr fun _ => rfl
  | cons i is ih =>
    rcases ih fun x hx => hn x (List.mem_cons_of_mem _ hx) with ⟨v, hv⟩ | hv
    · exact Or.inl ⟨v, fun x => by rw [List.foldl_cons]; exact hv _⟩
    · by_cases ht : i.ty = ty
      · refine Or.inl ⟨i.objFor cfg none, fun x => ?_⟩
        rw [List.foldl_cons, hv]
        have := hn i (by simp)
        cases i <;> simp [Item.step, ht, Item.objFor, Item.isAccum] at this ⊢
      · refine Or.inr fun x => ?_
        rw [List.foldl_cons, hv]
        simp [Item.step, ht]

section
variable {specs : List (List Arg)} {p : Direct} {w w1 : World AbsStore} {id : Id} {A : Ty → Option Val} {ex : Option Exc} {l : List Call} {o : Out}
  {s : List CtxCell} {ss : List (List CtxCell)}

theorem Ran.scope_good {io : Outcome} (h : Ran cfg c K lo n specs p w io l o w1 s ss) : FramesGood [s] := by
  intro f hf
  simp only [List.mem_singleton] at hf
  subst hf
  exact h.achieves.inv.good.4 f (by rw [h.frames]; simp)

theorem Ran.tagged (h : Ran cfg c K lo n specs p w (.failed id A ex) l o w1 s ss) : id.Tagged := by
  obtain ⟨_, ⟨t, _, _, h4⟩, _⟩ := h.achieves.failed id A ex rfl
  rw [h4]
  exact errorNo_tagged h.achieves.inv

theorem Ran.attached (h : Ran cfg c K lo n specs p w (.failed id A ex) l o w1 s ss) : Attached cfg id A (s :: ss) := by
  have := (h.achieves.failed id A ex rfl).2.2.1
  rw [h.frames] at this
  exact this

/-- Objects loaded by a handler, other than by modifying them in place, take precedence over those moved out of the scope. -/
theorem attached_leave_put {items : List Item} {id : Id} {A : Ty → Option Val} {s : List CtxCell} {ss : List (List CtxCell)} (hs : (frameTys s).Nodup)
    (hn : ∀ x ∈ items, x.isAccum = false) (h : Attached cfg id A (s :: ss)) :
    Attached cfg id (attach cfg false items A) (unloadFs cfg id s (putItems cfg false id items ss)) := by
  have hl := attached_leave hs h
  constructor
  · intro ty hw
    rw [wanted_unloadFs, wanted_putItems] at hw
    have h1 := hl.1 ty (by rw [wanted_unloadFs]; exact hw)
    rw [avail_unloadFs cfg id s hs hw] at h1
    rw [avail_unloadFs cfg id s hs (by rw [wanted_putItems]; exact hw), avail_putItems cfg false id items hw]
    rcases step_last (cfg := cfg) (ty := ty) hn with ⟨v, hv⟩ | hv
    · unfold attach
      rw [hv, hv]; rfl
    · unfold attach
      rw [hv, hv, h1]
  · apply topOnly_unloadFs
    refine (attached_putItems (cfg := cfg) (keep := false) (A := fun ty => avail ty id ss) (items := items) ⟨fun _ _ => rfl, ?_⟩).2
    intro ty c hc
    apply h.2 ty c
    rw [cellsOf_cons]
    cases hl : slotsOf ty s with
    | nil => simpa using hc
    | cons d l => simp only [List.cons_append, List.tail_cons, List.mem_append]; exact Or.inr (List.mem_of_mem_tail hc)

/-- The handler may have loaded objects; then the objects are moved to the enclosing scopes. -/
theorem Ran.leaveWith {items : List Item} (hn : ∀ x ∈ items, x.isAccum = false) (h : Ran cfg c K lo n specs p w (.failed id A ex) l o w1 s ss)
    {hs : List Exc} (hh : ∀ e ∈ hs, Exc.Ok e) (tr : List Event) :
    unloadCells cfg id s { setMem w1 (putItems cfg false id items ss) with handling := hs, trace := tr } =
      some ((), { setMem w1 (unloadFs cfg id s (putItems cfg false id items ss)) with handling := hs, trace := tr }) ∧
    IdealInv cfg c K lo n { setMem w1 (unloadFs cfg id s (putItems cfg false id items ss)) with handling := hs, trace := tr } ∧
    Attached cfg id (attach cfg false items A) (unloadFs cfg id s (putItems cfg false id items ss)) := by
  have hinv := h.achieves.inv
  have ht := tagged_ne_zero h.tagged
  obtain ⟨hcur, ⟨t, b2, b3, b4⟩, _⟩ := h.achieves.failed id A ex rfl
  have hpop : IdealInv cfg c K lo n ((setMem w1 ss).put [] (putItems cfg false id items ss)) := by
    rw [b4]
    exact (hinv.pop h.frames).put (Nat.le_trans h.low b2) b3 _ _ _
  refine ⟨?_, ?_, attached_leave_put (h.scope_good s (by simp)).2 hn h.attached⟩
  · rw [unloadCells_eq cfg ht s { setMem w1 (putItems cfg false id items ss) with handling := hs, trace := tr } hpop.good.4 (h.scope_good s (by simp)).1]
    have : unloadCur id s w1.cur = w1.cur := by rw [hcur, unloadCur_self]
    simp only [setCurMem, setMem, this]
  · refine hinv.less ⟨hinv.good.1, hinv.good.2, hh, unloadFs_good ht hpop.good.4⟩ rfl rfl (Or.inr rfl) (fun ty k v hv => ?_) fun k hk => ?_
    · rcases stored_unloadFs hv with hv | ⟨rfl, hv⟩
      · exact hpop.stored ty k v hv
      · refine hinv.stored ty k v ?_
        rw [h.frames]
        obtain ⟨f, hf, hm⟩ := hv
        simp only [List.mem_singleton] at hf
        subst hf
        exact stored_cons.mpr (Or.inl hm)
    · rcases keyed_unloadFs hk with hk | rfl
      · exact hpop.keys k hk
      · exact Or.inr ⟨t, Nat.le_trans h.low b2, b3, b4⟩

/-- The objects are moved to the enclosing scopes. -/
theorem Ran.leave (h : Ran cfg c K lo n specs p w (.failed id A ex) l o w1 s ss) {hs : List Exc} (hh : ∀ e ∈ hs, Exc.Ok e) (tr : List Event) :
    unloadCells cfg id s { setMem w1 ss with handling := hs, trace := tr } =
      some ((), { setMem w1 (unloadFs cfg id s ss) with handling := hs, trace := tr }) ∧
    IdealInv cfg c K lo n { setMem w1 (unloadFs cfg id s ss) with handling := hs, trace := tr } ∧ Attached cfg id A (unloadFs cfg id s ss) :=
  h.leaveWith (items := []) (by simp) hh tr

theorem Ran.left (h : Ran cfg c K lo n specs p w (.failed id A ex) l o w1 s ss) {hs : List Exc} (hh : ∀ e ∈ hs, Exc.Ok e) {o' : Out} (ho : FailsWith id ex o') :
    Achieves cfg c K lo n w.ticks w.cur w.trace (.failed id A ex) l o' { setMem w1 (unloadFs cfg id s ss) with handling := hs } := by
  obtain ⟨_, h2, h3⟩ := h.leave hh w1.trace
  obtain ⟨b1, b2, _, b4⟩ := h.achieves.failed id A ex rfl
  refine ⟨h2, h.achieves.calls, ho, h.achieves.now, fun id' A' ex' h0 => ?_⟩
  cases h0
  exact ⟨b1, b2, h3, b4⟩

/-! ## A handler is called -/

/-- The state in which the handler starts. -/
def startState (w1 : World AbsStore) (ss : List (List CtxCell)) (hs : List Exc) (id : Id) (ex : Option Exc) (i : Nat) (vals : List ArgVal) : World AbsStore :=
  { setMem w1 ss with handling := hs, trace := .handled id ex i vals :: w1.trace }

theorem Ran.call (h : Ran cfg c K lo n specs p w (.failed id A ex) l o w1 s ss) {hs : List Exc} (hh : ∀ e ∈ hs, Exc.Ok e) {i : Nat}
    (hi : FirstSuitable s id (visible ex) specs i) (hv : ∀ e, visible ex = some e → e.Ok) :
    ∃ hd vals, specs[i]? = some hd ∧ getArgs cfg s id (visible ex) ((findCell tySrcLoc s).bind (Cell.hasValue · id)) hd = some vals ∧
      (∀ v ∈ vals, v.Ok) ∧ FirstSuitableOf cfg A (visible ex) specs i ∧ Gets cfg specs A id (visible ex) i vals ∧
      IdealInv cfg c K lo n (startState w1 ss hs id (visible ex) i vals) := by
  obtain ⟨hd, vals, g1, g2, g3, g4⟩ := hi.get h.slots h.scope_good h.tagged hv rfl
  refine ⟨hd, vals, g1, g2, g4, (firstSuitable_of h.slots h.scope_good h.attached).mp hi, ⟨hd, ss, g1, g3.1, fun j a x ha hx => ?_⟩, ?_⟩
  · exact receives_of h.slots h.scope_good h.attached (List.mem_of_getElem? g1) (List.mem_of_getElem? ha) (g3.2 j a x ha hx)
  · exact (h.achieves.inv.pop h.frames).handled hh _

/-- What the handler achieves is what the scope achieves. -/
theorem Ran.called (h : Ran cfg c K lo n specs p w (.failed id A ex) l o w1 s ss) {hs' : List Exc} {i : Nat} {vals : List ArgVal} {io2 : Outcome} {l2 : List Call}
    {o2 : Out} {w2 : World AbsStore} (h2 : Achieves cfg c K lo n w1.ticks w1.cur (.handled id (visible ex) i vals :: w1.trace) io2 l2 o2 w2) (hm : w1.ticks ≤ w2.ticks)
    (hh : ∀ e ∈ hs', Exc.Ok e) :
    Achieves cfg c K lo n w.ticks w.cur w.trace io2 (l ++ (id, visible ex, i, vals) :: l2) o2 { w2 with handling := hs' } := by
  refine ⟨h2.inv.handled hh _, ?_, h2.is, ?_, fun id' A' ex' h0 => ?_⟩
  · show callsIn w2.trace = _
    rw [h2.calls]
    show _ ++ (id, visible ex, i, vals) :: callsIn w1.trace = _
    rw [h.achieves.calls]
    simp
  · rcases h2.now with h0 | h0 | ⟨t, a2, a3, a4⟩
    · exact Or.inl h0
    · show w2.cur = _ ∨ w2.cur = _ ∨ ∃ t, _ ∧ _ ∧ w2.cur = _
      rw [h0]
      rcases h.achieves.now with h0 | h0 | ⟨t, a2, a3, a4⟩
      · exact Or.inl h0
      · exact Or.inr (Or.inl h0)
      · exact Or.inr (Or.inr ⟨t, a2, Nat.lt_of_lt_of_le a3 hm, a4⟩)
    · exact Or.inr (Or.inr ⟨t, Nat.le_trans h.mono a2, a3, a4⟩)
  · obtain ⟨a1, ⟨t, a2, a3, a4⟩, a5⟩ := h2.failed id' A' ex' h0
    exact ⟨a1, ⟨t, Nat.le_trans h.mono a2, a3, a4⟩, a5⟩

/-- The scope holds nothing of an error reported by the handler. -/
theorem Ran.nothing (h : Ran cfg c K lo n specs p w (.failed id A ex) l o w1 s ss) {cur0 : Id} {tr : List Event} {id2 : Id} {A2 : Ty → Option Val} {ex2 : Option Exc}
    {l2 : List Call} {o2 : Out} {w2 : World AbsStore} (h2 : Achieves cfg c K lo n w1.ticks cur0 tr (.failed id2 A2 ex2) l2 o2 w2) (hf : Few cfg n w2.ticks) (hs : List Exc) :
    unloadCells cfg id2 s { w2 with handling := hs } = some ((), { w2 with handling := hs }) := by
  obtain ⟨a1, ⟨t, a2, a3, a4⟩, a5⟩ := h2.failed id2 A2 ex2 rfl
  have hid : id2 ≠ 0#32 := by rw [a4]; exact tagged_ne_zero (errorNo_tagged h2.inv)
  rw [unloadCells_eq cfg hid s { w2 with handling := hs } h2.inv.good.4 (h.scope_good s (by simp)).1]
  have hno : ∀ ty v, (ty, some (id2, v)) ∉ slotsIn s := by
    intro ty v hv
    exact (h.achieves.inv.stored ty id2 v (by rw [h.frames]; exact stored_cons.mpr (Or.inl hv))) t a2 (Nat.lt_of_lt_of_le a3 hf.1) a4
  have h1 : unloadCur id2 s w2.cur = w2.cur := by rw [a1, unloadCur_self]
  simp only [setCurMem, unloadFs_none hno, h1]

end

/-! ## A handler returns the same error -/

theorem errorId_of {specs : List (List Arg)} {outer : List Scope} {A : Ty → Option Val} {id k : Id} {ex : Option Exc} {a : Arg} {x : ArgVal}
    (h : ReceivesOf cfg specs outer A id ex a x) (hk : x.errorId = some k) : k = id := by
  cases x with
  | info => cases a <;> simp only [ReceivesOf] at h; simp only [ArgVal.errorId, Option.some.injEq] at hk; rw [← hk]; exact h.1
  | diag => cases a <;> simp only [ReceivesOf] at h; simp only [ArgVal.errorId, Option.some.injEq] at hk; rw [← hk]; exact h.1
  | details => cases a <;> simp only [ReceivesOf] at h; simp only [ArgVal.errorId, Option.some.injEq] at hk; rw [← hk]; exact h.1
  | _ => simp [ArgVal.errorId] at hk

theorem returnSame_eq {items : List Item} {specs : List (List Arg)} {A : Ty → Option Val} {id : Id} {ex : Option Exc} {i : Nat} {vals : List ArgVal} {w : World AbsStore}
    (hg : Gets cfg specs A id ex i vals) (hw : w.Good) (hcur : w.cur = id) (hid : id.Tagged) (hn : ∀ x ∈ items, x.isAccum = false) :
    eval cfg (returnSame items vals) w =
      some (.err (.plain id), w.put (itemsEvents cfg false id items w.mem.frames) (putItems cfg false id items w.mem.frames)) := by
  have hl : eval cfg (.load id items (.ret (.err (.plain id)))) w =
      some (.err (.plain id), w.put (itemsEvents cfg false id items w.mem.frames) (putItems cfg false id items w.mem.frames)) := by
    simp only [eval, bind_apply]
    unfold errorIdLoad
    rw [if_pos (tagged_ne_zero hid), loadItems_eq cfg false hid items w hw.4 (fun ⟨i, hi, hx⟩ => by rw [hn i hi] at hx; cases hx), Option.bind_some]
    rfl
  unfold returnSame
  cases hs : vals.findSome? ArgVal.errorId with
  | none =>
    simp only [eval, bind_apply, currentError_eq hw.1, Option.bind_some, hcur, makeErrorId_of_tagged hid]
    exact hl
  | some k =>
    obtain ⟨x, hx, hk⟩ := List.exists_of_findSome?_eq_some hs
    obtain ⟨hd, outer, h1, h2, h3⟩ := hg
    obtain ⟨j, hj, he⟩ := List.mem_iff_getElem.mp hx
    have := errorId_of (h3 j (hd[j]'(by omega)) x (List.getElem?_eq_getElem _) (by rw [← he]; exact List.getElem?_eq_getElem _)) hk
    subst this
    exact hl

/-! ## Exceptions -/

section
variable {specs : List (List Arg)} {p : Direct} {w w1 : World AbsStore} {id : Id} {A : Ty → Option Val} {e e' : Exc} {l : List Call}
  {s : List CtxCell} {ss : List (List CtxCell)} {body : Nat → List ArgVal → Prog}

theorem Ran.exc (h : Ran cfg c K lo n specs p w (.failed id A (some e)) l (.exc e') w1 s ss) :
    (∀ hs : List Exc, unpackId e' { setMem w1 ss with handling := hs } = some ((id, e'.examined), { setMem w1 ss with handling := hs })) ∧
      shown e'.examined = visible (some e) ∧ (∀ x, visible (some e) = some x → x.Ok) ∧ e'.Carries id ∧ e'.examined.Ok := by
  obtain ⟨_, hx, hex⟩ := h.achieves.is
  cases hx
  have hcar := ((h.achieves.failed id A (some e) rfl).2.2.2 e rfl).same hex
  have hok : e'.examined.Ok := examined_ok (hcar.ok h.tagged)
  have hv : shown e'.examined = visible (some e) := by rw [hex]; rfl
  refine ⟨fun hs => ?_, hv, fun x hx => ?_, hcar, hok⟩
  · rw [unpackId_eq (w := { setMem w1 ss with handling := hs }) h.achieves.inv.good.1, hcar.seen]
  · rw [← hv] at hx
    unfold shown at hx
    split at hx
    · cases hx; exact hok
    · cases hx

theorem Ran.catch_none (h : Ran cfg c K lo n specs p w (.failed id A (some e)) l (.exc e') w1 s ss)
    (hs : selectSome cfg s id (visible (some e)) specs = none) :
    catchPath cfg specs (fun i a => eval cfg (body i a)) e' w1 =
      some ((.exc e'.examined, s), { setMem w1 (unloadFs cfg id s ss) with handling := w1.handling }) := by
  obtain ⟨a1, a2, _, _, a5⟩ := h.exc
  have hh : ∀ x ∈ e'.examined :: w1.handling, Exc.Ok x := by
    intro x hx
    simp only [List.mem_cons] at hx
    rcases hx with rfl | hx
    · exact a5
    · exact h.achieves.inv.good.3 x hx
  exact catchPath_none (pop_abs h.frames) (a1 w1.handling) (ctxLoc_eq h.tagged s _) (by rw [a2]; exact hs) (h.leave hh w1.trace).1

theorem Ran.catch_some (h : Ran cfg c K lo n specs p w (.failed id A (some e)) l (.exc e') w1 s ss) {i : Nat}
    (hs : selectSome cfg s id (visible (some e)) specs = some i) {hd : List Arg} {vals : List ArgVal} (h1 : specs[i]? = some hd)
    (h2 : getArgs cfg s id (visible (some e)) ((findCell tySrcLoc s).bind (Cell.hasValue · id)) hd = some vals) {o2 : Out} {w2 : World AbsStore}
    (h3 : eval cfg (body i vals) (startState w1 ss (e'.examined :: w1.handling) id (visible (some e)) i vals) = some (o2, w2)) :
    catchPath cfg specs (fun i a => eval cfg (body i a)) e' w1 = some ((o2, s), { w2 with handling := w2.handling.tail }) := by
  obtain ⟨a1, a2, _, a4, _⟩ := h.exc
  refine catchPath_some (body := fun i a => eval cfg (body i a)) (pop_abs h.frames) (a1 w1.handling) (ctxLoc_eq h.tagged s _) (by rw [a2]; exact hs) h1
    (by rw [a2]; exact h2) (by rw [a2]; exact h3) ?_
  rw [destroyExc_eq, if_neg]
  rintro ⟨b1, b2⟩
  rcases a4.examined with h0 | h0
  · rw [h0] at b1; cases b1
  · exact h0 _ b2

theorem Ran.handling_ok (h : Ran cfg c K lo n specs p w (.failed id A (some e)) l (.exc e') w1 s ss) : ∀ x ∈ e'.examined :: w1.handling, Exc.Ok x := by
  intro x hx
  simp only [List.mem_cons] at hx
  rcases hx with rfl | hx
  · exact h.exc.2.2.2.2
  · exact h.achieves.inv.good.3 x hx

end

/-! ## `try_handle_some` -/

theorem implements_handleSome {specs : List (List Arg)} {p : Direct} {again : Nat → List ArgVal → Option (List Item)} {body : Nat → List ArgVal → Direct}
    (ihp : Implements cfg c K lo n p) (ihb : ∀ i vals, Implements cfg c K lo n (body i vals)) : Implements cfg c K lo n (.handleSome specs p again body) := by
  intro da w hp hd hi hda o wf he hf
  obtain ⟨o1, w1, s, ss, hraw, hfr, ⟨o', w1', hatt, hm'⟩, hran⟩ := run_scope (specs := specs) ihp hp.1 hd.1 hi hda
  have he' : tryHandleSome cfg specs (eval cfg p.prog)
      (fun i args => eval cfg (match again i args with | some items => returnSame items args | none => (body i args).prog)) w = some (o, wf) := he
  have hm : w1.ticks ≤ wf.ticks := by
    rw [tryHandleSome_eq hatt] at he'
    exact Nat.le_trans hm' (Mono.afterSome specs _ o' _ _ _ he')
  obtain ⟨io, l, h⟩ := hran (hf.le hm)
  cases io with
  | ok v =>
    have hv := h.achieves.is
    cases hv
    rw [handleSome_val h.att (pop_abs h.frames)] at he'
    cases he'
    exact ⟨.ok v, l, .some_ok h.ideal, h.pop_ok⟩
  | failed id A ex =>
    have hso := scopeOk_deduced h.slots
    have hsel := C15_select_some hso h.tagged (visible ex) specs
    cases hs : selectSome cfg s id (visible ex) specs with
    | none =>
      have hn : ∀ hd ∈ specs, ¬ SuitableOf cfg A (visible ex) hd := fun hd hm =>
        mt (suitable_of h.slots h.scope_good h.attached hm).mpr (hsel.2.mp hs hd hm)
      cases ex with
      | none =>
        obtain ⟨k, rfl, hk⟩ := h.achieves.is
        have hk' : (ErrRes.plain k).errId = id := hk
        have hl := (h.leave h.achieves.inv.good.3 w1.trace).1
        rw [handleSome_err_none (w4 := { setMem w1 (unloadFs cfg id s ss) with handling := w1.handling, trace := w1.trace }) h.att (pop_abs h.frames)
          (by rw [hk']; exact ctxLoc_eq h.tagged s _) (by rw [hk']; exact hs) (by rw [hk']; exact hl)] at he'
        cases he'
        exact ⟨_, l, .some_unhandled h.ideal hn, h.left h.achieves.inv.good.3 ⟨k, rfl, hk⟩⟩
      | some e =>
        obtain ⟨e', rfl, hex⟩ := h.achieves.is
        rw [handleSome_exc h.att (h.catch_none hs) rfl] at he'
        cases he'
        exact ⟨_, l, .some_unhandled h.ideal hn, h.left h.achieves.inv.good.3 ⟨_, rfl, by rw [examined_twice, hex]⟩⟩
    | some i =>
      have hfs := (hsel.1 i).mp hs
      -- the handler runs in `startState`, and its result passes through
      have main : ∀ (hs : List Exc), (∀ x ∈ hs, Exc.Ok x) → (∀ x, visible ex = some x → x.Ok) →
          (∀ hd vals o2 w2, specs[i]? = some hd → getArgs cfg s id (visible ex) ((findCell tySrcLoc s).bind (Cell.hasValue · id)) hd = some vals →
            eval cfg (match again i vals with | some items => returnSame items vals | none => (body i vals).prog) (startState w1 ss hs id (visible ex) i vals) = some (o2, w2) →
            ∃ hs' : List Exc, (∀ x ∈ hs', Exc.Ok x) ∧ o = o2 ∧
              (match o2 with | .err r2 => unloadCells cfg r2.errId s | _ => pure ()) { w2 with handling := hs' } = some ((), wf)) →
          ∃ io l, Ideal cfg c (.handleSome specs p again body) w.ticks io wf.ticks l ∧ Achieves cfg c K lo n w.ticks w.cur w.trace io l o wf := by
        intro hs hh hv hrun
        obtain ⟨hd', vals, g1, g2, g3, g4, g5, g6⟩ := h.call hh hfs hv
        cases ha : again i vals with
        | some items =>
          have hacc := hd.2.1 i vals items ha
          have hr := returnSame_eq g5 g6.good (h.achieves.failed id A ex rfl).1 h.tagged hacc
          obtain ⟨hs', hh', rfl, hu⟩ := hrun hd' vals _ _ g1 g2 (by simp only [ha]; exact hr)
          have hid : (ErrRes.plain id).errId = id := makeErrorId_of_tagged h.tagged
          have hu' : unloadCells cfg (ErrRes.plain id).errId s { setMem w1 (putItems cfg false id items ss) with
              handling := hs', trace := itemsEvents cfg false id items ss ++ .handled id (visible ex) i vals :: w1.trace } = some ((), wf) := hu
          obtain ⟨c1, c2, c3⟩ := h.leaveWith hacc hh' (itemsEvents cfg false id items ss ++ .handled id (visible ex) i vals :: w1.trace)
          rw [hid, c1] at hu'
          cases hu'
          obtain ⟨b1, b2, _, _⟩ := h.achieves.failed id A ex rfl
          refine ⟨.failed id (attach cfg false items A) none, _, .some_again h.ideal g4 g5 ha, c2, ?_, ⟨id, rfl, hid⟩, h.achieves.now, ?_⟩
          · show callsIn (_ ++ _) = _
            rw [callsIn_append, callsIn_items]
            show (id, visible ex, i, vals) :: callsIn w1.trace = _
            rw [h.achieves.calls]
            simp
          · intro id' A' ex' h0
            cases h0
            exact ⟨b1, b2, c3, by simp⟩
        | none =>
          have hwf := hp.2 i vals g3
          simp only [ha] at hwf hrun
          have hsh : da = false → NoDa (shape (startState w1 ss hs id (visible ex) i vals).mem.frames) := by
            show _ → NoDa (shape ss)
            rw [h.same]; exact hda
          obtain ⟨o2, w2, d1, d2, d3, d4⟩ := tot_eval cfg _ hwf _ hsh _ g6.good rfl
          obtain ⟨hs', hh', rfl, hu⟩ := hrun hd' vals o2 w2 g1 g2 (by simpa only [ha] using d1)
          have hm2 : w2.ticks ≤ wf.ticks := Mono.unloadErr s o { w2 with handling := hs' } () wf hu
          obtain ⟨io2, l2, f1, f2⟩ := ihb i vals da _ hwf (hd.2.2 i vals) g6 hsh o w2 d1 (hf.le hm2)
          have f2' : Achieves cfg c K lo n w1.ticks w1.cur (.handled id (visible ex) i vals :: w1.trace) io2 l2 o w2 := f2
          have f1' : Ideal cfg c (body i vals) w1.ticks io2 w2.ticks l2 := f1
          suffices hwf : wf = { w2 with handling := hs' } by
            subst hwf
            exact ⟨io2, _, .some_handled h.ideal g4 g5 ha f1', h.called f2' (Mono.eval _ (startState w1 ss hs id (visible ex) i vals) _ _ d1) hh'⟩
          cases o with
          | val v => cases hu; rfl
          | exc v => cases hu; rfl
          | err r2 =>
            cases io2 with
            | ok v => have := f2.is; cases this
            | failed id2 A2 ex2 =>
              cases ex2 with
              | some e => obtain ⟨_, hx, _⟩ := f2.is; cases hx
              | none =>
                obtain ⟨k, hx, hk⟩ := f2.is
                cases hx
                have hk' : (ErrRes.plain k).errId = id2 := hk
                have hu' : unloadCells cfg (ErrRes.plain k).errId s { w2 with handling := hs' } = some ((), wf) := hu
                rw [hk', h.nothing f2' (hf.le hm2) hs'] at hu'
                cases hu'
                rfl
      cases ex with
      | none =>
        obtain ⟨k, rfl, hk⟩ := h.achieves.is
        have hk' : (ErrRes.plain k).errId = id := hk
        refine main w1.handling h.achieves.inv.good.3 (by intro x hx; cases hx) fun hd vals o2 w2 g1 g2 g3 => ?_
        have hg2 : w2.Good := by
          obtain ⟨hd', vals', k1, k2, k3, _, _, k6⟩ := h.call h.achieves.inv.good.3 hfs (by intro x hx; cases hx)
          rw [g1] at k1; cases k1
          rw [g2] at k2; cases k2
          exact (eval_keeps (hp.2 i vals k3) k6.good (by show _ → NoDa (shape ss); rw [h.same]; exact hda) g3).1
        have hun : ∃ w5, (match o2 with | .err r2 => unloadCells cfg r2.errId s | _ => pure ()) w2 = some ((), w5) := by
          cases o2 with
          | err r => exact ⟨_, unloadCells_eq cfg (tagged_ne_zero (errId_tagged r)) s w2 hg2.4 (h.scope_good s (by simp)).1⟩
          | _ => exact ⟨_, rfl⟩
        obtain ⟨w5, hw5⟩ := hun
        rw [handleSome_err_some (body := fun i args => eval cfg (match again i args with | some items => returnSame items args | none => (body i args).prog))
          h.att (pop_abs h.frames) (by rw [hk']; exact ctxLoc_eq h.tagged s _) (by rw [hk']; exact hs) g1 (by rw [hk']; exact g2)
          (by rw [hk']; exact g3) hw5] at he'
        cases he'
        exact ⟨w2.handling, hg2.3, rfl, hw5⟩
      | some e =>
        obtain ⟨e', rfl, hex⟩ := h.achieves.is
        refine main (e'.examined :: w1.handling) h.handling_ok h.exc.2.2.1 fun hd vals o2 w2 g1 g2 g3 => ?_
        have hg2 : w2.Good := by
          obtain ⟨hd', vals', k1, k2, k3, _, _, k6⟩ := h.call h.handling_ok hfs h.exc.2.2.1
          rw [g1] at k1; cases k1
          rw [g2] at k2; cases k2
          exact (eval_keeps (hp.2 i vals k3) k6.good (by show _ → NoDa (shape ss); rw [h.same]; exact hda) g3).1
        have hun : ∃ w5, (match o2 with | .err r2 => unloadCells cfg r2.errId s | _ => pure ()) { w2 with handling := w2.handling.tail } = some ((), w5) := by
          cases o2 with
          | err r => exact ⟨_, unloadCells_eq cfg (tagged_ne_zero (errId_tagged r)) s { w2 with handling := w2.handling.tail } hg2.4 (h.scope_good s (by simp)).1⟩
          | _ => exact ⟨_, rfl⟩
        obtain ⟨w5, hw5⟩ := hun
        rw [handleSome_exc h.att (h.catch_some (body := fun i args => match again i args with | some items => returnSame items args | none => (body i args).prog) hs g1 g2 g3) hw5] at he'
        cases he'
        exact ⟨w2.handling.tail, tail_ok hg2.3, rfl, hw5⟩

/-! ## `try_handle_all` -/

section
variable {specs : List (List Arg)} {p : Direct} {body : Nat → List ArgVal → Direct} {w w1 w2 : World AbsStore} {id : Id} {A : Ty → Option Val}
  {ex : Option Exc} {l : List Call} {o o2 : Out} {s : List CtxCell} {ss : List (List CtxCell)}

/-- A handler runs: what it achieves. -/
theorem Ran.handler (h : Ran cfg c K lo n specs p w (.failed id A ex) l o w1 s ss) {da : Bool} (hda : da = false → NoDa (shape w.mem.frames))
    (ihb : ∀ i vals, Implements cfg c K lo n (body i vals)) (hok : ∀ i args, (body i args).Ok)
    (hwf : ∀ i args, (∀ a ∈ args, ArgVal.Ok a) → (body i args).prog.WF cfg da) {hs : List Exc} (hh : ∀ e ∈ hs, Exc.Ok e) {i : Nat}
    (hi : FirstSuitable s id (visible ex) specs i) (hv : ∀ e, visible ex = some e → e.Ok) :
    ∃ hd vals o2 w2, specs[i]? = some hd ∧ getArgs cfg s id (visible ex) ((findCell tySrcLoc s).bind (Cell.hasValue · id)) hd = some vals ∧
      (∀ v ∈ vals, v.Ok) ∧ FirstSuitableOf cfg A (visible ex) specs i ∧ Gets cfg specs A id (visible ex) i vals ∧
      eval cfg (body i vals).prog (startState w1 ss hs id (visible ex) i vals) = some (o2, w2) ∧ w2.Good ∧
      (Few cfg n w2.ticks → ∃ io2 l2, Ideal cfg c (body i vals) w1.ticks io2 w2.ticks l2 ∧
        ∀ hs' : List Exc, (∀ x ∈ hs', Exc.Ok x) →
          Achieves cfg c K lo n w.ticks w.cur w.trace io2 (l ++ (id, visible ex, i, vals) :: l2) o2 { w2 with handling := hs' }) := by
  obtain ⟨hd, vals, g1, g2, g3, g4, g5, g6⟩ := h.call hh hi hv
  have hsh : da = false → NoDa (shape (startState w1 ss hs id (visible ex) i vals).mem.frames) := by
    show _ → NoDa (shape ss)
    rw [h.same]; exact hda
  obtain ⟨o2, w2, d1, d2, d3, d4⟩ := tot_eval cfg _ (hwf i vals g3) _ hsh _ g6.good rfl
  refine ⟨hd, vals, o2, w2, g1, g2, g3, g4, g5, d1, d2, fun hf => ?_⟩
  obtain ⟨io2, l2, f1, f2⟩ := ihb i vals da _ (hwf i vals g3) (hok i vals) g6 hsh o2 w2 d1 hf
  have f2' : Achieves cfg c K lo n w1.ticks w1.cur (.handled id (visible ex) i vals :: w1.trace) io2 l2 o2 w2 := f2
  exact ⟨io2, l2, f1, fun hs' hh' => h.called f2' (Mono.eval _ (startState w1 ss hs id (visible ex) i vals) _ _ d1) hh'⟩

theorem implements_handleAll (ihp : Implements cfg c K lo n p) (ihb : ∀ i vals, Implements cfg c K lo n (body i vals)) : Implements cfg c K lo n (.handleAll specs p body) := by
  intro da w hp hd hi hda o wf he hf
  obtain ⟨o1, w1, s, ss, hraw, hfr, ⟨o', w1', hatt, hm'⟩, hran⟩ := run_scope (specs := specs) ihp hp.2.1 hd.1 hi hda
  have he' : tryHandleAll cfg specs (eval cfg p.prog) (fun i args => eval cfg (body i args).prog) w = some (o, wf) := he
  have hm : w1.ticks ≤ wf.ticks := by
    rw [tryHandleAll_eq hatt] at he'
    exact Nat.le_trans hm' (Mono.afterAll specs (fun i args => (body i args).prog) o' _ _ _ he')
  obtain ⟨io, l, h⟩ := hran (hf.le hm)
  cases io with
  | ok v =>
    have hv := h.achieves.is
    cases hv
    rw [handleAll_val h.att (pop_abs h.frames)] at he'
    cases he'
    exact ⟨.ok v, l, .all_ok h.ideal, h.pop_ok⟩
  | failed id A ex =>
    have hso := scopeOk_deduced h.slots
    obtain ⟨hsel, i, hs⟩ := C15_select_all hso h.tagged (visible ex) hp.1
    have hfs := (hsel i).mp hs
    cases ex with
    | none =>
      obtain ⟨k, rfl, hk⟩ := h.achieves.is
      have hk' : (ErrRes.plain k).errId = id := hk
      obtain ⟨hd', vals, o2, w2, g1, g2, g3, g4, g5, g6, g7, g8⟩ :=
        h.handler hda ihb hd.2 (fun i args ha => (hp.2.2 i args ha).1) h.achieves.inv.good.3 hfs (by intro x hx; cases hx)
      rw [handleAll_err (body := fun i args => eval cfg (body i args).prog) h.att (pop_abs h.frames) (by rw [hk']; exact ctxLoc_eq h.tagged s _)
        (by rw [hk']; exact hs) g1 (by rw [hk']; exact g2) (by rw [hk']; exact g6) (eval_noErr cfg _ (hp.2.2 i vals g3).2 _ _ _ g6)] at he'
      cases he'
      obtain ⟨io2, l2, f1, f2⟩ := g8 hf
      exact ⟨io2, _, .all_handled h.ideal g4 g5 f1, f2 wf.handling g7.3⟩
    | some e =>
      obtain ⟨e', rfl, hex⟩ := h.achieves.is
      have hs' : selectSome cfg s id (visible (some e)) specs = some i := ((C15_select_some hso h.tagged _ specs).1 i).mpr hfs
      obtain ⟨hd', vals, o2, w2, g1, g2, g3, g4, g5, g6, g7, g8⟩ :=
        h.handler hda ihb hd.2 (fun i args ha => (hp.2.2 i args ha).1) h.handling_ok hfs h.exc.2.2.1
      rw [handleAll_exc h.att (h.catch_some (body := fun i args => (body i args).prog) hs' g1 g2 g6)
        (eval_noErr cfg _ (hp.2.2 i vals g3).2 _ _ _ g6)] at he'
      cases he'
      obtain ⟨io2, l2, f1, f2⟩ := g8 hf
      exact ⟨io2, _, .all_handled h.ideal g4 g5 f1, f2 _ (tail_ok g7.3)⟩

/-! ## `try_catch` -/

theorem mono_tryCatch {block : Comp AbsStore Out} {bp : Nat → List ArgVal → Prog} {o1 : Out} {wf : World AbsStore}
    (h : attemptRaw (deduce cfg specs) block w = some (o1, w1)) (he : tryCatch cfg specs block (fun i a => eval cfg (bp i a)) w = some (o, wf)) :
    w1.ticks ≤ wf.ticks := by
  unfold attemptRaw at h
  unfold tryCatch at he
  rw [bind_apply] at h he
  cases h0 : pushCtx (deduce cfg specs) w with
  | none => simp [h0] at h
  | some q =>
    simp only [h0, Option.bind_some] at h he
    rw [bind_apply, h, Option.bind_some] at he
    cases o1 with
    | val v => exact Mono.bind (.of_den (cfg := cfg) den_popCtx) (fun _ => .pure _) _ _ _ he
    | err r => exact Mono.bind (.of_den (cfg := cfg) den_popCtx) (fun _ => .pure _) _ _ _ he
    | exc e => exact Mono.bind (.catchPath specs bp e) (fun _ => .pure _) _ _ _ he

theorem implements_tryCatch (ihp : Implements cfg c K lo n p) (ihb : ∀ i vals, Implements cfg c K lo n (body i vals)) : Implements cfg c K lo n (.tryCatch specs p body) := by
  intro da w hp hd hi hda o wf he hf
  obtain ⟨o1, w1, s, ss, hraw, hfr, _, hran⟩ := run_scope (specs := specs) ihp hp.1 hd.1 hi hda
  have he' : tryCatch cfg specs (eval cfg p.prog) (fun i args => eval cfg (body i args).prog) w = some (o, wf) := he
  have hm : w1.ticks ≤ wf.ticks := mono_tryCatch (bp := fun i args => (body i args).prog) hraw he'
  obtain ⟨io, l, h⟩ := hran (hf.le hm)
  cases io with
  | ok v =>
    have hv := h.achieves.is
    cases hv
    rw [tryCatch_val h.raw (by simp) (pop_abs h.frames)] at he'
    cases he'
    exact ⟨.ok v, l, .catch_scope_ok h.ideal, h.pop_ok⟩
  | failed id A ex =>
    have hso := scopeOk_deduced h.slots
    have hsel := C15_select_some hso h.tagged (visible ex) specs
    cases ex with
    | none =>
      obtain ⟨k, rfl, hk⟩ := h.achieves.is
      have hr := h.raw
      unfold attemptRaw at hr
      rw [bind_apply, push_abs (deduce_nodup cfg specs), Option.bind_some] at hr
      exact absurd rfl (eval_noErr cfg _ hd.2.1 _ _ _ hr _)
    | some e =>
      obtain ⟨e', rfl, hex⟩ := h.achieves.is
      cases hs : selectSome cfg s id (visible (some e)) specs with
      | none =>
        have hn : ∀ hd ∈ specs, ¬ SuitableOf cfg A (visible (some e)) hd := fun hd hm =>
          mt (suitable_of h.slots h.scope_good h.attached hm).mpr (hsel.2.mp hs hd hm)
        rw [tryCatch_exc h.raw (h.catch_none (body := fun i args => (body i args).prog) hs)] at he'
        cases he'
        exact ⟨_, l, .catch_scope_unhandled h.ideal hn, h.left h.achieves.inv.good.3 ⟨_, rfl, by rw [examined_twice, hex]⟩⟩
      | some i =>
        have hfs := (hsel.1 i).mp hs
        obtain ⟨hd', vals, o2, w2, g1, g2, g3, g4, g5, g6, g7, g8⟩ := h.handler hda ihb hd.2.2 hp.2 h.handling_ok hfs h.exc.2.2.1
        rw [tryCatch_exc h.raw (h.catch_some (body := fun i args => (body i args).prog) hs g1 g2 g6)] at he'
        cases he'
        obtain ⟨io2, l2, f1, f2⟩ := g8 hf
        exact ⟨io2, _, .catch_scope_handled h.ideal g4 g5 f1, f2 _ (tail_ok g7.3)⟩

end

/-! ## All programs -/

theorem implements_all (p : Direct) : Implements cfg c K lo n p := by
  induction p with
  | ret v => exact implements_ret v
  | fail items thrown => exact implements_fail items thrown
  | failCode ec v => exact implements_failCode ec v
  | seq p k ihp ihk => exact implements_seq ihp ihk
  | next p k ihp ihk => exact implements_next ihp ihk
  | orElse p k h ihp ihk ihh => exact implements_orElse ihp ihk ihh
  | catch_ p h ihp ihh => exact implements_catch ihp ihh
  | guard items p ihp => exact implements_guard ihp
  | load items p ihp => exact implements_load ihp
  | monitor items p ihp => exact implements_monitor ihp
  | value tag p ihp => exact implements_value ihp
  | toResult tys p ihp => exact implements_toResult ihp
  | handleAll specs p body ihp ihb => exact implements_handleAll ihp ihb
  | handleSome specs p again body ihp ihb => exact implements_handleSome ihp ihb
  | tryCatch specs p body ihp ihb => exact implements_tryCatch ihp ihb

end Leaf
