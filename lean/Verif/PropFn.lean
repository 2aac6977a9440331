import Verif.FnModel
import Verif.PropFlow

/-!
# C49: functions passed to `new_error`, `load` and `on_error` may use LEAF
-/

namespace Leaf

/-! ## Specification -/

/-- Nobody handles objects of type `ty`, and none was captured. -/
def Unbound (ty : Ty) (ss : List Scope) : Prop := ∀ s ∈ ss, ¬ Handles ty s ∧ ¬ HasCaptured ty s

/-- The program returns a value, whenever it is run. -/
def Returns (cfg : Cfg) (p : Prog) : Prop :=
  ∀ (w w' : World PtrStore) (o : Out), ThreadOk w → eval cfg p w = some (o, w') → ∃ v, o = .val v

/-- The program does not make a capturing scope capture an object of type `ty` for the first time. -/
def LeavesUnbound (cfg : Cfg) (ty : Ty) (p : Prog) : Prop :=
  ∀ (w w' : World PtrStore) (o : Out), ThreadOk w → eval cfg p w = some (o, w') → Unbound ty (scopes w) → Unbound ty (scopes w')

/-- Items the theorems are about. `da`: a capturing scope may be active. -/
def FnItem.Ok (cfg : Cfg) (da : Bool) : FnItem → Prop
  | .item i => i.Ok cfg da
  | .fn ty p => p.WF cfg da ∧ Returns cfg p ∧ (cfg.capture = true → da = true → LeavesUnbound cfg ty p)
  | .act p => p.WF cfg da ∧ Returns cfg p

/-- The state after an id was generated. -/
structure JustReported (cfg : Cfg) (w w0 : World PtrStore) : Prop where
  mem : w0.mem = w.mem
  handling : w0.handling = w.handling
  cur : w0.cur = nextId cfg w
  counter : w0.counter = nextId cfg w

/-- One after the other, the objects are delivered and the functions called; what a function returns is delivered where it belongs when the function
returns. -/
inductive Loaded (cfg : Cfg) (keep : Bool) (id : Id) : List FnItem → World PtrStore → World PtrStore → Prop
  | nil (w : World PtrStore) : Loaded cfg keep id [] w w
  | item {i : Item} {is : List FnItem} {w w1 w2 : World PtrStore} (hd : Delivered cfg id i.ty (i.new cfg keep id) (scopes w) (scopes w1))
      (hs : SameOtherwise w w1) (h : Loaded cfg keep id is w1 w2) : Loaded cfg keep id (.item i :: is) w w2
  /-- the function is called -/
  | call {ty : Ty} {p : Prog} {v : Val} {is : List FnItem} {w w1 w2 w3 : World PtrStore}
      (hk : keep = true → available ty id (scopes w) = none) (hc : cfg.capture = true ∨ Wanted cfg ty (scopes w))
      (hp : eval cfg p w = some (.val v, w1)) (hd : Delivered cfg id ty (fun _ => some (id, v)) (scopes w1) (scopes w2))
      (hs : SameOtherwise w1 w2) (h : Loaded cfg keep id is w2 w3) : Loaded cfg keep id (.fn ty p :: is) w w3
  /-- the object is not needed: the function is not called -/
  | skip {ty : Ty} {p : Prog} {is : List FnItem} {w w1 : World PtrStore}
      (hk : (keep = true ∧ available ty id (scopes w) ≠ none) ∨ (cfg.capture = false ∧ ¬ Wanted cfg ty (scopes w)))
      (h : Loaded cfg keep id is w w1) : Loaded cfg keep id (.fn ty p :: is) w w1
  | act {p : Prog} {v : Val} {is : List FnItem} {w w1 w2 : World PtrStore} (hp : eval cfg p w = some (.val v, w1))
      (h : Loaded cfg keep id is w1 w2) : Loaded cfg keep id (.act p :: is) w w2

/-! ## Lemmas -/

theorem assertTagged_any {M : Type} {id : Id} (h : id.Tagged) (w : World M) : assertTagged id w = some ((), w) := by simp [assertTagged, h]

theorem unbound_iff {ty : Ty} {ss : List Scope} : Unbound ty ss ↔ boundCell ty ss = none :=
  ⟨fun h => boundCell_eq_none fun s hs => not_mem_frameTys.mpr (h s hs), fun h s hs => not_mem_frameTys.mp (boundCell_none h s hs)⟩

theorem tls_none_iff {w : World PtrStore} (hw : ThreadOk w) (ty : Ty) : w.mem.tls ty = none ↔ Unbound ty (scopes w) := by
  rw [unbound_iff]
  have h := PtrStore.slotGet_ok hw.inv ty
  unfold PtrStore.slotGet at h
  show _ ↔ boundCell ty (PtrStore.abs w.mem).frames = none
  cases ht : w.mem.tls ty with
  | none => rw [ht] at h; simp only [Option.some.injEq] at h; simp [← h]
  | some a =>
    rw [ht] at h
    dsimp only at h
    cases hm : w.mem.mem a with
    | none => rw [hm] at h; simp at h
    | some s => rw [hm] at h; simp only [Option.some.injEq] at h; simp [← h]

/-- The slot `tls` points to, and its content. -/
theorem tls_some {w : World PtrStore} (hw : ThreadOk w) {ty : Ty} {a : Addr} (h : w.mem.tls ty = some a) :
    ∃ s, w.mem.mem a = some s ∧ boundCell ty (scopes w) = some s.cell := by
  have h0 := PtrStore.slotGet_ok hw.inv ty
  unfold PtrStore.slotGet at h0
  rw [h] at h0
  dsimp only at h0
  cases hm : w.mem.mem a with
  | none => rw [hm] at h0; simp at h0
  | some s => rw [hm] at h0; simp only [Option.some.injEq] at h0; exact ⟨s, rfl, h0.symm⟩

theorem evalFn_keeps {cfg : Cfg} {p : Prog} {da : Bool} (hp : p.WF cfg da) {w : World PtrStore} (hw : ThreadOk w)
    (hda : da = false → NoCapturingScope w) :
    ∃ o w', eval cfg p w = some (o, w') ∧ ThreadOk w' ∧ (da = false → NoCapturingScope w') ∧
      (∀ ty, binding w' ty = binding w ty ∨ (binding w ty = none ∧ (da = false → False))) ∧
      ∀ ty, Wanted cfg ty (scopes w) → Wanted cfg ty (scopes w') := by
  obtain ⟨o, w', h1, h2, h3, h4, h5⟩ := C10_bindings_restored cfg p hp w hw hda
  obtain ⟨o', w'', e1, e2, e3, e4, e5⟩ := tot_ptr (sim_eval (n := 0) cfg p) (tot_eval cfg p hp (shape (scopes w))
    (fun h => (noCapturing_iff w).mp (hda h))) hw rfl
  rw [h1] at e1
  simp only [Option.some.injEq, Prod.mk.injEq] at e1
  obtain ⟨rfl, rfl⟩ := e1
  have hn : da = false → NoCapturingScope w' := fun h => (noCapturing_iff w').mpr (e4 ▸ (noCapturing_iff w).mp (hda h))
  refine ⟨o, w', h1, h2, hn, fun ty => ?_, fun ty hwa => ?_⟩
  · rcases h5 ty with h | ⟨h, a, ha, ctx, hc, d, _, hd, _⟩
    · exact Or.inl h
    · exact Or.inr ⟨h, fun h0 => hn h0 ctx hc d hd⟩
  · have hb : boundCell ty (scopes w) ≠ none → boundCell ty (scopes w') ≠ none := by
      intro h h'
      have e1 := (tls_none_iff h2 ty).mpr (unbound_iff.mpr h')
      have e2 : w.mem.tls ty ≠ none := fun e => h (unbound_iff.mp ((tls_none_iff hw ty).mp e))
      rcases h5 ty with h6 | ⟨h6, _⟩
      · exact e2 (h6.symm.trans e1)
      · exact e2 h6
    have hd : (boundDa (scopes w')).isSome = (boundDa (scopes w)).isSome := by
      have e1 := PtrStore.daKey_ok h2.inv
      have e2 := PtrStore.daKey_ok hw.inv
      unfold PtrStore.daKey at e1 e2
      rw [h4] at e1
      show (boundDa (PtrStore.abs w'.mem).frames).isSome = (boundDa (PtrStore.abs w.mem).frames).isSome
      cases ht : w.mem.tlsDa with
      | none =>
        rw [ht] at e1 e2
        simp only [Option.some.injEq] at e1 e2
        rw [Option.map_eq_none_iff.mp e1.symm, Option.map_eq_none_iff.mp e2.symm]
      | some d =>
        rw [ht] at e1 e2
        dsimp only at e1 e2
        revert e1 e2
        cases w'.mem.dmem d <;> cases w.mem.dmem d <;> cases boundDa (PtrStore.abs w'.mem).frames <;>
          cases boundDa (PtrStore.abs w.mem).frames <;> simp
    rw [← wanted_iff] at hwa ⊢
    unfold wanted at hwa ⊢
    rw [hd]
    cases h7 : boundCell ty (scopes w) with
    | none => rw [h7] at hwa; simp only [Option.isSome_none, Bool.false_or] at hwa; simp [hwa]
    | some c =>
      cases h8 : boundCell ty (scopes w') with
      | none => exact absurd h8 (hb (by simp [h7]))
      | some c' => simp

/-- Storing an object. -/
theorem loadSlot_ptr (cfg : Cfg) {id : Id} (hid : id.Tagged) (ty : Ty) (v : Val) {w : World PtrStore} (hw : ThreadOk w) :
    ∃ w', loadSlot cfg false id ty v w = some ((), w') ∧ ThreadOk w' ∧
      Delivered cfg id ty (fun _ => some (id, v)) (scopes w) (scopes w') ∧ SameOtherwise w w' ∧ shape (scopes w') = shape (scopes w) ∧
      (∀ ty', Wanted cfg ty' (scopes w) → Wanted cfg ty' (scopes w')) ∧ (Wanted cfg ty (scopes w) → available ty id (scopes w') = some v) := by
  have h := loadSlot_eq cfg false hid ty v (absW w) hw.good.4
  obtain ⟨w', h1, h2, h3⟩ := run_abs (sim_loadSlot cfg false id ty v) hw h (put_good (es := []) hw.good (putObj_good (tagged_ne_zero hid) hw.good.4))
  have hs : scopes w' = putObj cfg false id ty v (scopes w) := by unfold scopes; rw [h2]; rfl
  have hd := putItem_delivered cfg false id (.obj ty v) (scopes w)
  refine ⟨w', h1, h3, ?_, sameOtherwise_put (es := []) (fs := putObj cfg false id ty v (scopes w)) h2, ?_, ?_, ?_⟩
  · rw [hs]
    have : Item.new cfg false id (.obj ty v) = fun _ => some (id, v) := by funext c; simp [Item.new]
    rw [this] at hd
    exact hd
  · rw [hs]; exact putObj_shape _ _ _ _ _ _
  · intro ty' h; rw [hs, ← wanted_iff, wanted_putObj, wanted_iff]; exact h
  · intro h; rw [hs, ← avail_eq, avail_putObj_same, if_pos ((wanted_iff _ _ _).mpr h)]; simp

theorem loadAt_eq {cfg : Cfg} {id : Id} (hid : id.Tagged) {ty : Ty} (v : Val) {w : World PtrStore} (hw : ThreadOk w) {a : Addr} (h : w.mem.tls ty = some a) :
    loadAt a id v w = loadSlot cfg false id ty v w := by
  obtain ⟨s, hm, _⟩ := tls_some hw h
  have hg : slotGet ty w = some (some s.cell, w) := by
    unfold slotGet
    show (PtrStore.slotGet ty w.mem).map _ = _
    simp [PtrStore.slotGet, h, hm]
  unfold loadSlot
  rw [bind_apply, assertTagged_any hid, Option.bind_some, bind_apply, hg, Option.bind_some]
  simp only [Bool.not_false, Bool.true_or, if_true]
  unfold loadAt slotSet
  show _ = (PtrStore.slotSet ty id v w.mem).map _
  simp [PtrStore.slotSet, h, hm]

theorem dynamicLoad_eq_loadSlot {cfg : Cfg} (hc : cfg.capture = true) {id : Id} (hid : id.Tagged) {ty : Ty} (v : Val) {w : World PtrStore}
    (h : w.mem.tls ty = none) : dynamicLoad id ty v w = loadSlot cfg false id ty v w := by
  have hg : slotGet ty w = some (none, w) := by
    unfold slotGet
    show (PtrStore.slotGet ty w.mem).map _ = _
    simp [PtrStore.slotGet, h]
  unfold loadSlot
  rw [bind_apply, assertTagged_any hid, Option.bind_some, bind_apply, hg, Option.bind_some]
  simp only [hc, if_true]

theorem callFn_eq {cfg : Cfg} {p : Prog} {w w1 : World PtrStore} {v : Val} (h : eval cfg p w = some (.val v, w1)) : callFn cfg p w = some (v, w1) := by
  unfold callFn
  rw [bind_apply, h]
  rfl

theorem wanted_of_bound {cfg : Cfg} {ty : Ty} {ss : List Scope} {c : Cell} (h : boundCell ty ss = some c) : Wanted cfg ty ss := by
  rw [← wanted_iff]; simp [wanted, h]

theorem available_of_bound {ty : Ty} {ss : List Scope} {c : Cell} (h : boundCell ty ss = some c) (id : Id) : available ty id ss = c.hasValue id := by
  rw [← avail_eq]; simp [avail, h]

theorem available_of_unbound {ty : Ty} {ss : List Scope} (h : boundCell ty ss = none) (id : Id) : available ty id ss = none := by
  rw [← avail_eq]; simp [avail, h]

theorem loadFnItem_loaded {cfg : Cfg} {da keep : Bool} {id : Id} (hid : id.Tagged) {x : FnItem} (hx : x.Ok cfg da) {w : World PtrStore} (hw : ThreadOk w)
    (hda : da = false → NoCapturingScope w) :
    ∃ w1, loadFnItem cfg keep id x w = some ((), w1) ∧ ThreadOk w1 ∧ (da = false → NoCapturingScope w1) ∧
      (∀ is w2, Loaded cfg keep id is w1 w2 → Loaded cfg keep id (x :: is) w w2) ∧
      (∀ ty, Wanted cfg ty (scopes w) → Wanted cfg ty (scopes w1)) ∧
      ∀ ty p, x = .fn ty p → keep = false → Wanted cfg ty (scopes w) →
        ∃ v we, eval cfg p w = some (.val v, we) ∧ available ty id (scopes w1) = some v := by
  cases x with
  | item i =>
    have hacc : i.isAccum = true → AccOk cfg id (absW w).mem.frames := by
      intro hi hc k ns hb
      cases i with
      | accum ty tag f =>
        rcases hx with h | h
        · rw [h] at hc; cases hc
        · have hn : NoDa (shape (scopes w)) := (noCapturing_iff w).mp (hda h)
          obtain ⟨inner, pre, post, outer, e, _⟩ := setBoundDa_split hb
          exfalso
          refine hn ((pre ++ .da k ns :: post).map CtxCell.cellTy) ?_ ?_
          · have hs : scopes w = inner ++ (pre ++ .da k ns :: post) :: outer := e
            rw [hs]
            exact List.mem_map.mpr ⟨_, by simp, rfl⟩
          · exact List.mem_map.mpr ⟨.da k ns, by simp, rfl⟩
      | obj _ _ => simp [Item.isAccum] at hi
      | deferred _ _ _ => simp [Item.isAccum] at hi
    have h := loadItem_eq cfg keep hid i (absW w) hw.good.4 hacc
    obtain ⟨w1, h1, h2, h3⟩ := run_abs (sim_loadItem cfg keep id i) hw h (put_good hw.good (putItem_good (tagged_ne_zero hid) hw.good.4))
    have hs : scopes w1 = putItem cfg keep id i (scopes w) := by unfold scopes; rw [h2]; rfl
    refine ⟨w1, h1, h3, fun h0 => (noCapturing_iff w1).mpr ?_, fun is w2 hl => .item ?_ (sameOtherwise_put h2) hl, ?_, by simp⟩
    · rw [hs, putItem_shape]; exact (noCapturing_iff w).mp (hda h0)
    · rw [hs]; exact putItem_delivered cfg keep id i (scopes w)
    · intro ty h; rw [hs, ← wanted_iff, wanted_putItem, wanted_iff]; exact h
  | act p =>
    obtain ⟨hp, hr⟩ := hx
    obtain ⟨o, w1, h1, h2, h3, _, h5⟩ := evalFn_keeps hp hw hda
    obtain ⟨v, rfl⟩ := hr _ _ _ hw h1
    refine ⟨w1, ?_, h2, h3, fun is w2 hl => .act h1 hl, h5, by simp⟩
    show (callFn cfg p >>= fun _ => pure ()) w = _
    rw [bind_apply, callFn_eq h1]
    rfl
  | fn ty p =>
    obtain ⟨hp, hr, hl⟩ := hx
    show ∃ w1, loadSlotFn cfg keep id ty p w = some ((), w1) ∧ _
    unfold loadSlotFn
    rw [bind_apply, assertTagged_any hid, Option.bind_some, bind_apply, show readTls ty w = some (w.mem.tls ty, w) from rfl, Option.bind_some]
    obtain ⟨o, w1, h1, h2, h3, h4, h5⟩ := evalFn_keeps hp hw hda
    obtain ⟨v, rfl⟩ := hr _ _ _ hw h1
    obtain ⟨w2, g1, g2, g3, g4, g5, g6, g7⟩ := loadSlot_ptr cfg hid ty v h2
    have hav : ∀ ty' p', FnItem.fn ty p = .fn ty' p' → keep = false → Wanted cfg ty' (scopes w) →
        ∃ v we, eval cfg p' w = some (.val v, we) ∧ available ty' id (scopes w2) = some v := by
      intro ty' p' e _ hwa
      simp only [FnItem.fn.injEq] at e
      obtain ⟨rfl, rfl⟩ := e
      exact ⟨v, w1, h1, g7 (h5 _ hwa)⟩
    have hn2 : da = false → NoCapturingScope w2 := fun h => (noCapturing_iff w2).mpr (g5 ▸ (noCapturing_iff w1).mp (h3 h))
    cases ht : w.mem.tls ty with
    | some a =>
      obtain ⟨s, hm, hb⟩ := tls_some hw ht
      have ht1 : w1.mem.tls ty = some a := by
        rcases h4 ty with h | ⟨h, _⟩
        · exact h.trans ht
        · exact absurd (ht.symm.trans h) (by simp)
      have hrs : readSlotAt a w = some (s.cell, w) := by simp [readSlotAt, hm]
      simp only [bind_apply, hrs, Option.bind_some]
      cases hk : (!keep || (s.cell.hasValue id).isNone) with
      | true =>
        rw [if_pos rfl]
        refine ⟨w2, ?_, g2, hn2, fun is w3 hl' => .call ?_ (Or.inr (wanted_of_bound hb)) h1 g3 g4 hl',
          fun ty' h => g6 ty' (h5 ty' h), hav⟩
        · rw [bind_apply, callFn_eq h1, Option.bind_some, loadAt_eq (cfg := cfg) hid v h2 ht1, g1]
        · intro e
          rw [available_of_bound hb]
          simpa [e] using hk
      | false =>
        refine ⟨w, rfl, hw, hda, fun is w3 hl' => .skip (Or.inl ?_) hl', fun _ h => h, ?_⟩
        · rw [available_of_bound hb]
          simp only [Bool.or_eq_false_iff, Bool.not_eq_false', Option.isNone_eq_false_iff] at hk
          exact ⟨hk.1, by intro e; simp [e] at hk⟩
        · intro _ _ _ e; simp [e] at hk
    | none =>
      have hu := (tls_none_iff hw ty).mp ht
      have hb := unbound_iff.mp hu
      dsimp only
      by_cases hc : cfg.capture = true
      · have ht1 : w1.mem.tls ty = none := by
          rcases h4 ty with h | ⟨_, h⟩
          · exact h.trans ht
          · cases hd : da with
            | false => exact (h hd).elim
            | true => exact (tls_none_iff h2 ty).mpr (hl hc hd _ _ _ hw h1 hu)
        rw [if_pos hc]
        refine ⟨w2, ?_, g2, hn2, fun is w3 hl' => .call (fun _ => available_of_unbound hb id) (Or.inl hc) h1 g3 g4 hl',
          fun ty' h => g6 ty' (h5 ty' h), hav⟩
        rw [bind_apply, callFn_eq h1, Option.bind_some, dynamicLoad_eq_loadSlot hc hid v ht1, g1]
      · refine ⟨w, by rw [if_neg hc]; rfl, hw, hda, fun is w3 hl' => .skip (Or.inr ⟨by simpa using hc, ?_⟩) hl',
          fun _ h => h, ?_⟩
        · rw [← wanted_iff]
          simp [wanted, hb, hc]
        · intro ty' p' e _ h
          simp only [FnItem.fn.injEq] at e
          rw [← e.1, ← wanted_iff] at h
          simp [wanted, hb, hc] at h

theorem loadFnItems_loaded {cfg : Cfg} {da keep : Bool} {id : Id} (hid : id.Tagged) (items : List FnItem) (hi : ∀ i ∈ items, i.Ok cfg da)
    (w : World PtrStore) (hw : ThreadOk w) (hda : da = false → NoCapturingScope w) :
    ∃ w', loadFnItems cfg keep id items w = some ((), w') ∧ ThreadOk w' ∧ (da = false → NoCapturingScope w') ∧ Loaded cfg keep id items w w' ∧
      ∀ ty, Wanted cfg ty (scopes w) → Wanted cfg ty (scopes w') := by
  induction items generalizing w with
  | nil => exact ⟨w, rfl, hw, hda, .nil w, fun _ h => h⟩
  | cons x xs ih =>
    obtain ⟨w1, h1, h2, h3, h4, h5, _⟩ := loadFnItem_loaded (keep := keep) hid (hi x (by simp)) hw hda
    obtain ⟨w', e1, e2, e3, e4, e5⟩ := ih (fun i h => hi i (by simp [h])) w1 h2 h3
    refine ⟨w', ?_, e2, e3, h4 _ _ e4, fun ty h => e5 ty (h5 ty h)⟩
    show (loadFnItem cfg keep id x >>= fun _ => loadFnItems cfg keep id xs) w = _
    rw [bind_apply, h1]
    exact e1

theorem loadFnItems_append {cfg : Cfg} {keep : Bool} {id : Id} (xs ys : List FnItem) :
    loadFnItems cfg keep id (xs ++ ys) = (do loadFnItems cfg keep id xs; loadFnItems cfg keep id ys) := by
  induction xs with
  | nil => simp [loadFnItems]
  | cons x xs ih => simp only [List.cons_append, loadFnItems, ih, bind_assoc]

theorem gen_ptr (cfg : Cfg) {w : World PtrStore} (hw : ThreadOk w) :
    ∃ w0, newId cfg w = some (nextId cfg w, w0) ∧ ThreadOk w0 ∧ JustReported cfg w w0 :=
  ⟨{ w with counter := nextId cfg w, cur := nextId cfg w, ticks := w.ticks + 1, trace := .gen (nextId cfg w) :: w.trace }, rfl,
    ⟨hw.inv, gen_good hw.good⟩, ⟨rfl, rfl, rfl, rfl⟩⟩

/-! ## Theorems -/

/-- **C49 (partial).** If the functions return (see `callFn`), and, where a capturing scope may be active, a function does not make it capture an object
of the type it returns: nothing undefined happens, and the functions and objects take effect one after the other. -/
theorem C49_in_order_partial {cfg : Cfg} {da keep : Bool} {id : Id} (hid : id.Tagged) (items : List FnItem) (hi : ∀ i ∈ items, i.Ok cfg da)
    (w : World PtrStore) (hw : ThreadOk w) (hda : da = false → NoCapturingScope w) :
    ∃ w', loadFnItems cfg keep id items w = some ((), w') ∧ ThreadOk w' ∧ Loaded cfg keep id items w w' := by
  obtain ⟨w', h1, h2, _, h3, _⟩ := loadFnItems_loaded hid items hi w hw hda
  exact ⟨w', h1, h2, h3⟩

/-- **C49 (partial), `new_error`.** It returns the id it generated first; the items take effect, in order, in a state that differs only in that this is the
current error. If the last one is a function, and its result is wanted, its result is available afterwards. -/
theorem C49_new_error_partial {cfg : Cfg} {da : Bool} (items : List FnItem) (hi : ∀ i ∈ items, i.Ok cfg da)
    (w : World PtrStore) (hw : ThreadOk w) (hda : da = false → NoCapturingScope w) :
    ∃ w0 w', newErrorFn cfg items w = some (nextId cfg w, w') ∧ ThreadOk w' ∧ JustReported cfg w w0 ∧
      Loaded cfg false (nextId cfg w) items w0 w' ∧
      ∀ ty p, items.getLast? = some (.fn ty p) → Wanted cfg ty (scopes w) →
        ∃ v wb we, Loaded cfg false (nextId cfg w) items.dropLast w0 wb ∧ eval cfg p wb = some (.val v, we) ∧
          available ty (nextId cfg w) (scopes w') = some v := by
  have ht : (nextId cfg w).Tagged := nextId_tagged (w := absW w) hw.good
  let w0 : World PtrStore := { w with counter := nextId cfg w, cur := nextId cfg w, ticks := w.ticks + 1, trace := .gen (nextId cfg w) :: w.trace }
  have hw0 : ThreadOk w0 := ⟨hw.inv, gen_good hw.good⟩
  have hda0 : da = false → NoCapturingScope w0 := hda
  have hn : ∀ w', loadFnItems cfg false (nextId cfg w) items w0 = some ((), w') → newErrorFn cfg items w = some (nextId cfg w, w') := by
    intro w' h
    unfold newErrorFn
    rw [bind_apply, show newId cfg w = some (nextId cfg w, w0) from rfl, Option.bind_some]
    simp only
    rw [makeErrorId_of_tagged ht, bind_apply, h]
    rfl
  obtain ⟨w', e1, e2, e3⟩ := C49_in_order_partial (keep := false) ht items hi w0 hw0 hda0
  refine ⟨w0, w', hn w' e1, e2, ⟨rfl, rfl, rfl, rfl⟩, e3, fun ty p hl hwa => ?_⟩
  have hsplit : items = items.dropLast ++ [.fn ty p] := by
    obtain ⟨h1, h2⟩ := List.getLast?_eq_some_iff.mp hl
    rw [h2]; simp
  have hsub : ∀ x ∈ items.dropLast, x.Ok cfg da := fun x hx => hi x (List.dropLast_subset _ hx)
  obtain ⟨wb, b1, b2, b3, b4, b5⟩ := loadFnItems_loaded (keep := false) ht items.dropLast hsub w0 hw0 hda0
  obtain ⟨wc, c1, _, _, _, _, c2⟩ := loadFnItem_loaded (keep := false) ht (hi (.fn ty p) (by rw [hsplit]; simp)) b2 b3
  obtain ⟨v, we, d1, d2⟩ := c2 ty p rfl rfl (b5 ty hwa)
  have hcw : wc = w' := by
    rw [hsplit, loadFnItems_append, bind_apply, b1, Option.bind_some] at e1
    have : loadFnItems cfg false (nextId cfg w) [.fn ty p] wb = some ((), wc) := by
      show (loadFnItem cfg false _ _ >>= fun _ => pure ()) wb = _
      rw [bind_apply, c1]; rfl
    rw [this] at e1
    simpa using e1
  exact ⟨v, wb, we, b4, d1, hcw ▸ d2⟩

/-- **C49 (partial), `on_error`.** The items take effect, in order, for the error the guard detects; see C24. -/
theorem C49_on_error_partial {cfg : Cfg} {da : Bool} (items : List FnItem) (hi : ∀ i ∈ items, i.Ok cfg da) (body : Prog) (hb : body.WF cfg da)
    (w : World PtrStore) (hw : ThreadOk w) (hda : da = false → NoCapturingScope w) :
    ∃ o w1 w', eval cfg body w = some (o, w1) ∧ onErrorFn cfg items (eval cfg body) w = some (o, w') ∧ ThreadOk w' ∧
      (w1.cur ≠ w.cur → w1.cur ≠ 0#32 → Loaded cfg true w1.cur items w1 w') ∧
      (w1.cur ≠ w.cur → w1.cur = 0#32 → w' = w1) ∧
      (w1.cur = w.cur → (∃ e, o = .exc e) → ∃ w0, JustReported cfg w1 w0 ∧ Loaded cfg true (nextId cfg w1) items w0 w') ∧
      (w1.cur = w.cur → (∀ e, o ≠ .exc e) → w' = w1) := by
  classical
  obtain ⟨o, w1, h1, h2, h3, _, _⟩ := evalFn_keeps hb hw hda
  have hcur : ∀ {v : World PtrStore}, ThreadOk v → currentId v = some (v.cur, v) := fun {v} hv => if_pos hv.good.1
  have hstart : ∀ (b : Bool), ((∃ e, o = .exc e) ↔ b = true) → onErrorFn cfg items (eval cfg body) w = (do
      let id ← checkId cfg w.cur b
      if id ≠ 0#32 then do
        assertTagged id
        loadFnItems cfg true id items
      return o : Comp PtrStore Out) w1 := by
    intro b hbb
    unfold onErrorFn
    rw [bind_apply, hcur hw, Option.bind_some, bind_apply, h1, Option.bind_some]
    clear h1
    cases o <;> cases b <;> first | rfl | (exfalso; simp at hbb)
  by_cases hc : w1.cur = w.cur
  · by_cases he : ∃ e, o = .exc e
    · obtain ⟨e, rfl⟩ := he
      obtain ⟨w0, g1, g2, g3⟩ := gen_ptr cfg h2
      have ht : (nextId cfg w1).Tagged := nextId_tagged (w := absW w1) h2.good
      have hda0 : da = false → NoCapturingScope w0 := by
        intro h; have := h3 h; unfold NoCapturingScope at this ⊢; rw [g3.mem]; exact this
      obtain ⟨w', k1, k2, _, k3, _⟩ := loadFnItems_loaded (keep := true) ht items hi w0 g2 hda0
      refine ⟨_, w1, w', h1, ?_, k2, fun h => absurd hc h, fun h => absurd hc h, fun _ _ => ⟨w0, g3, k3⟩, fun _ h => absurd rfl (h e)⟩
      rw [hstart true (by simp), bind_apply]
      have : checkId cfg w.cur true w1 = some (nextId cfg w1, w0) := by
        unfold checkId
        rw [bind_apply, hcur h2, Option.bind_some]
        simp only [hc, ne_eq, not_true_eq_false, if_false, if_true]
        exact g1
      rw [this, Option.bind_some]
      simp only [ne_eq, tagged_ne_zero ht, not_false_eq_true, if_true]
      rw [bind_apply, assertTagged_any ht, Option.bind_some, bind_apply, k1]
      rfl
    · have he' : ∀ e, o ≠ .exc e := fun e h => he ⟨e, h⟩
      refine ⟨o, w1, w1, h1, ?_, h2, fun h => absurd hc h, fun h => absurd hc h, fun _ h => absurd h he, fun _ _ => rfl⟩
      rw [hstart false (by simp only [Bool.false_eq_true, iff_false]; exact he), bind_apply]
      have : checkId cfg w.cur false w1 = some (0#32, w1) := by
        unfold checkId
        rw [bind_apply, hcur h2, Option.bind_some]
        simp only [hc, ne_eq, not_true_eq_false, if_false]
        rfl
      rw [this]
      rfl
  · have hck : ∀ b, checkId cfg w.cur b w1 = some (w1.cur, w1) := by
      intro b
      unfold checkId
      rw [bind_apply, hcur h2, Option.bind_some]
      simp only [ne_eq, hc, not_false_eq_true, if_true]
      rfl
    by_cases h0 : w1.cur = 0#32
    · refine ⟨o, w1, w1, h1, ?_, h2, fun _ h => absurd h0 h, fun _ _ => rfl, fun h => absurd h hc, fun h => absurd h hc⟩
      rw [hstart _ (Iff.symm decide_eq_true_iff), bind_apply, hck, Option.bind_some]
      simp only [h0, ne_eq, not_true_eq_false, if_false]
      rfl
    · have ht : w1.cur.Tagged := h2.good.1.resolve_left h0
      obtain ⟨w', k1, k2, _, k3, _⟩ := loadFnItems_loaded (keep := true) ht items hi w1 h2 h3
      refine ⟨o, w1, w', h1, ?_, k2, fun _ _ => k3, fun _ h => absurd h h0, fun h => absurd h hc, fun h => absurd h hc⟩
      rw [hstart _ (Iff.symm decide_eq_true_iff), bind_apply, hck, Option.bind_some]
      simp only [ne_eq, h0, not_false_eq_true, if_true]
      rw [bind_apply, assertTagged_any ht, Option.bind_some, bind_apply, k1]
      rfl

/-! ## Examples -/

/-- A function that reports an error, with an object of type 10, and handles it, and then returns the object 5. -/
def exFn : Prog := .handleAll [[.req 10], []] (.newError [.obj 10 2] fun id => .ret (.err (.plain id))) fun _ _ => .ret (.val 5)

/-- The outcome and the scopes left of a computation run on a new thread in a scope with the given slots; and the current error. -/
def runScoped {α : Type} (spec : List CellTy) (x : Comp PtrStore α) : Option (α × List Scope × Id) :=
  ((pushCtx spec >>= fun _ => x : Comp PtrStore α) (initThread 1#32)).map fun r => (r.1, scopes r.2, r.2.cur)

/-- Both objects arrive. -/
example : runScoped [.obj 10, .obj 11] (newErrorFn exCfg [.item (.obj 10 1), .fn 11 exFn]) =
    some (5#32, [[.obj 10 (some (5#32, 1)), .obj 11 (some (5#32, 5))]], 9#32) := by decide +kernel

/-- A function that reports an error, with an object of type 10, abandons it, and returns the object 5. -/
def exFn2 : Prog := .newError [.obj 10 2] fun _ => .ret (.val 5)

/-- The items `A{1}, exFn2` satisfy the hypotheses, where no capturing scope is active. -/
example : ∀ i ∈ [FnItem.item (.obj 10 1), .fn 11 exFn2, .act exFn2], i.Ok exCfg false := by
  have h1 : exFn2.WF exCfg false := ⟨by simp [Item.Ok], fun _ _ => trivial⟩
  have h2 : Returns exCfg exFn2 := by
    intro w w' o _ h
    simp only [exFn2, eval, bind_apply] at h
    cases hn : newError exCfg [Item.obj 10 2] w with
    | none => rw [hn] at h; simp at h
    | some q => rw [hn] at h; simp only [Option.bind_some, pure_apply, Option.some.injEq, Prod.mk.injEq] at h; exact ⟨5, h.1.symm⟩
  intro i hi
  simp only [List.mem_cons, List.not_mem_nil, or_false] at hi
  rcases hi with rfl | rfl | rfl
  · trivial
  · exact ⟨h1, h2, fun _ h => by cases h⟩
  · exact ⟨h1, h2⟩

/-- Likewise in a capturing scope: a function that loads nothing. -/
example : (FnItem.fn 11 (.currentError fun _ => .ret (.val 5))).Ok exCfg true := by
  refine ⟨fun _ _ => trivial, fun w w' o _ h => ?_, fun _ _ w w' o _ h hu => ?_⟩ <;>
  · simp only [eval, bind_apply] at h
    cases hn : currentError w with
    | none => rw [hn] at h; simp at h
    | some q =>
      rw [hn] at h
      simp only [Option.bind_some, pure_apply, Option.some.injEq, Prod.mk.injEq] at h
      first
        | exact ⟨5, h.1.symm⟩
        | have : q.2 = w := by
            unfold currentError currentId at hn
            rw [bind_apply] at hn
            split at hn <;> simp [pure_apply] at hn
            rw [← hn]
          rw [← h.2, this]; exact hu

/-- **C49 refuted (objects lost).** `new_error(A{1}, f)` where `f` reports another error with an object of the same type `A` as an object already passed:
this object is lost. -/
theorem C49_refuted_lost : runScoped [.obj 10, .obj 11] (newErrorFn exCfg [.item (.obj 10 1), .fn 11 exFn2]) =
    some (5#32, [[.obj 10 (some (9#32, 2)), .obj 11 (some (5#32, 5))]], 9#32) := by decide +kernel

/-- **C49 refuted (current error).** The current error after `new_error(f)` is the one reported by `f`, not the one returned; an enclosing `on_error` guard
attaches its object to the former, even if `f` has handled it. -/
theorem C49_refuted_current :
    runScoped [.obj 11, .obj 12] (onErrorFn exCfg [.item (.obj 12 3)] (do return .err (.plain (← newErrorFn exCfg [.fn 11 exFn])))) =
      some (.err (.plain 5#32), [[.obj 11 (some (5#32, 5)), .obj 12 (some (9#32, 3))]], 9#32) := by decide +kernel

/-- **C49 refuted (capturing).** In a capturing scope, `new_error(f)` where `f` itself reports an error with an object of the type it returns:
the assertion in `dynamic_allocator::dynamic_load` (error.hpp:284) is violated. -/
theorem C49_refuted_capture :
    runScoped [.da] (newErrorFn exCfg [.fn 10 exFn2]) = none ∧ runScoped [.da] (newErrorFn exCfg [.fn 11 exFn2]) ≠ none := by
  decide +kernel

end Leaf
