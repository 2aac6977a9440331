import Verif.AllocBase

/-!
# Programs that run out of memory: no undefined behaviour
-/

namespace Leaf

/-- From every good state of shape `s`: no undefined behaviour, a good state, and, unless the program was terminated, shape `s'` and `Q`. -/
def TotT {α : Type} (s s' : List (List CellTy)) (x : CompT AbsStore α) (Q : α → Prop) : Prop :=
  ∀ (n : Nat) (w : World AbsStore), w.Good → shape w.mem.frames = s →
    ∃ r w', x n w = some (r, w') ∧ w'.Good ∧ ∀ a n', r = some (a, n') → shape w'.mem.frames = s' ∧ Q a

theorem TotT.pure {α : Type} {s : List (List CellTy)} {a : α} {Q : α → Prop} (h : Q a) : TotT s s (Pure.pure a) Q :=
  fun n w hg hs => ⟨some (a, n), w, rfl, hg, fun b m e => by cases e; exact ⟨hs, h⟩⟩

theorem TotT.bind {α β : Type} {s s' s'' : List (List CellTy)} {x : CompT AbsStore α} {f : α → CompT AbsStore β} {P : α → Prop}
    {Q : β → Prop} (hx : TotT s s' x P) (hf : ∀ a, P a → TotT s' s'' (f a) Q) : TotT s s'' (x >>= f) Q := by
  intro n w hg hs
  obtain ⟨r, w1, e1, g1, h1⟩ := hx n w hg hs
  rw [bindT_apply, e1]
  cases r with
  | none => exact ⟨none, w1, rfl, g1, by simp⟩
  | some a =>
    obtain ⟨a, m⟩ := a
    obtain ⟨s1, p1⟩ := h1 a m rfl
    exact hf a p1 m w1 g1 s1

theorem TotT.mono {α : Type} {s s' : List (List CellTy)} {x : CompT AbsStore α} {P Q : α → Prop} (hx : TotT s s' x P)
    (h : ∀ a, P a → Q a) : TotT s s' x Q := by
  intro n w hg hs
  obtain ⟨r, w1, e1, g1, h1⟩ := hx n w hg hs
  exact ⟨r, w1, e1, g1, fun a m e => ⟨(h1 a m e).1, h a (h1 a m e).2⟩⟩

theorem TotT.lift {α : Type} {s s' : List (List CellTy)} {x : Comp AbsStore α} {Q : α → Prop} (h : Tot s s' x Q) : TotT s s' (Leaf.lift x) Q := by
  intro n w hg hs
  obtain ⟨a, w1, e1, g1, s1, p1⟩ := h w hg hs
  exact ⟨some (a, n), w1, by rw [lift_apply, e1]; rfl, g1, fun b m e => by cases e; exact ⟨s1, p1⟩⟩

theorem TotT.terminate {α : Type} {s s' : List (List CellTy)} {Q : α → Prop} : TotT s s' Leaf.terminate Q :=
  fun _ w hg _ => ⟨none, w, rfl, hg, by simp⟩

abbrev TB : Bool → Prop := fun _ => True

theorem totT_allocate (s : List (List CellTy)) (mem : Nat → Bool) : TotT s s (allocate mem) TB :=
  fun n w hg hs => ⟨some (mem n, n + 1), w, rfl, hg, fun _ _ e => by cases e; exact ⟨hs, trivial⟩⟩

theorem totT_noexcept {s : List (List CellTy)} {x : CompT AbsStore Bool} (h : TotT s s x TB) : TotT s s (noexcept x) T := by
  refine TotT.bind h (fun b _ => ?_)
  cases b
  · exact TotT.terminate
  · exact TotT.pure trivial

theorem totT_dynamicT {s : List (List CellTy)} (b : Bool) {x : CompT AbsStore Bool} (h : TotT s s x TB) : TotT s s (dynamicT b x) TB := by
  cases b
  · exact h
  · exact TotT.bind (P := T) (TotT.bind h (fun _ _ => TotT.pure trivial)) (fun _ _ => TotT.pure trivial)

theorem dynamicT_congr {M : Type} (b : Bool) {x y : CompT M Bool} {n : Nat} {w : World M} (h : x n w = y n w) : dynamicT b x n w = dynamicT b y n w := by
  cases b
  · exact h
  · simp only [dynamicT, if_true, swallow]
    rw [bindT_apply, bindT_apply, bindT_apply, bindT_apply, h]

/-- `dynamic_load` from a state where the type has no slot. -/
theorem dynamicLoadT_ok (mem : Nat → Bool) (n : Nat) {w : World AbsStore} {id : Id} (hid : id ≠ 0#32) (ty : Ty) (v : Val) (hg : w.Good)
    (hb : boundCell ty w.mem.frames = none) :
    ∃ b n' w', dynamicLoadT mem id ty v n w = some (some (b, n'), w') ∧ w'.Good ∧ shape w'.mem.frames = shape w.mem.frames := by
  have hl := tot_dynamicLoad hid ty v hg hb
  unfold dynamicLoad at hl
  unfold dynamicLoadT daAppendT
  simp only [bindT_apply, lift_apply, bind_apply, daKey, Store.daKey, Option.map_some, Option.bind_some] at hl ⊢
  cases h : boundDa w.mem.frames with
  | none => exact ⟨true, n, w, rfl, hg, rfl⟩
  | some d =>
    obtain ⟨k, ns⟩ := d
    simp only [h, Option.map_some] at hl ⊢
    by_cases hk : k = 0#32
    · subst hk
      have hn := boundDa_good hg.4 h rfl
      subst hn
      simp only [ne_eq, not_true_eq_false, if_false, bind_apply, bindT_apply, lift_apply, allocate_apply, daReset, Store.daReset, h,
        Option.map_some, Option.bind_some] at hl ⊢
      cases hm : mem n with
      | false =>
        refine ⟨false, n + 1, _, rfl, ⟨hg.1, hg.2, hg.3, ?_⟩, ?_⟩
        · exact setBoundDa_good h (fun e => absurd e hid) (Or.inl (by simp)) hg.4
        · simp only [setBoundDa_shape]
      | true =>
        obtain ⟨w', h1, h2, h3⟩ := hl
        refine ⟨true, n + 1, w', ?_, h2, h3⟩
        simp only [if_true, bindT_apply, lift_apply, h1, Option.map_some, Option.bind_some, pureT_apply]
    · simp only [ne_eq, hk, not_false_eq_true, if_true, bindT_apply, allocate_apply, Option.bind_some] at hl ⊢
      cases hm : mem n with
      | false => exact ⟨false, n + 1, w, rfl, hg, rfl⟩
      | true =>
        obtain ⟨w', h1, h2, h3⟩ := hl
        refine ⟨true, n + 1, w', ?_, h2, h3⟩
        simp only [if_true, bindT_apply, lift_apply, h1, Option.map_some, Option.bind_some, pureT_apply]

theorem totT_slotGet_bind {α : Type} {s s' : List (List CellTy)} (ty : Ty) {f : Option Cell → CompT AbsStore α} {Q : α → Prop}
    (h : ∀ c, TotT s s' (fun n w => if boundCell ty w.mem.frames = c then f c n w else some (none, w)) Q) :
    TotT s s' (lift (slotGet ty) >>= f) Q := by
  intro n w hg hs
  have := h (boundCell ty w.mem.frames) n w hg hs
  simp only [if_true] at this
  exact this

/-- An object that goes to the capturing scope, if there is one. -/
theorem totT_dynamic (s : List (List CellTy)) (mem : Nat → Bool) (cfg : Cfg) (b : Bool) {id : Id} (hid : id ≠ 0#32) (ty : Ty) (v : Val) :
    TotT s s (fun n w => if boundCell ty w.mem.frames = none then
      (if cfg.capture then dynamicT b (dynamicLoadT mem id ty v) else pure true : CompT AbsStore Bool) n w else some (none, w)) TB := by
  by_cases hc : cfg.capture = true
  · simp only [hc, if_true]
    intro n w hg hs
    by_cases hb : boundCell ty w.mem.frames = none
    · simp only [hb, if_true]
      have h := totT_dynamicT b (s := s) (x := fun n w => if boundCell ty w.mem.frames = none then dynamicLoadT mem id ty v n w else some (none, w)) (by
        intro n w hg hs
        by_cases hb : boundCell ty w.mem.frames = none
        · simp only [hb, if_true]
          obtain ⟨c, n', w', h1, h2, h3⟩ := dynamicLoadT_ok mem n hid ty v hg hb
          exact ⟨_, w', h1, h2, fun a m e => ⟨h3.trans hs, trivial⟩⟩
        · simp only [hb, if_false]; exact ⟨none, w, rfl, hg, by simp⟩) n w hg hs
      have hd := dynamicT_congr b (x := fun n w => if boundCell ty w.mem.frames = none then dynamicLoadT mem id ty v n w else some (none, w))
        (y := dynamicLoadT mem id ty v) (n := n) (w := w) (by simp only [hb, if_true])
      rw [← hd]
      exact h
    · simp only [hb, if_false]; exact ⟨none, w, rfl, hg, by simp⟩
  · simp only [hc]
    intro n w hg hs
    by_cases hb : boundCell ty w.mem.frames = none
    · simp only [hb, if_true]; exact ⟨_, w, rfl, hg, fun a m e => by cases e; exact ⟨hs, trivial⟩⟩
    · simp only [hb, if_false]; exact ⟨none, w, rfl, hg, by simp⟩

/-- Storing an object in the slot just found. -/
theorem totT_slotSet (s : List (List CellTy)) (ty : Ty) (id : Id) (v : Val) (p : Cell) (b : Bool) :
    TotT s s (fun n w => if boundCell ty w.mem.frames = some p then
      (if b then (lift (slotSet ty id v) >>= fun _ => pure true) else pure true : CompT AbsStore Bool) n w else some (none, w)) TB := by
  intro n w hg hs
  by_cases hb : boundCell ty w.mem.frames = some p
  · simp only [hb, if_true]
    cases b with
    | false => exact ⟨_, w, rfl, hg, fun a m e => by cases e; exact ⟨hs, trivial⟩⟩
    | true =>
      simp only [if_true, bindT_apply, lift_apply, slotSet_eq ty id v w hb, Option.map_some, Option.bind_some, pureT_apply]
      exact ⟨_, _, rfl, good_setBound hg _ _, fun a m e => by cases e; exact ⟨by simp only [setBound_shape]; exact hs, trivial⟩⟩
  · simp only [hb, if_false]; exact ⟨none, w, rfl, hg, by simp⟩

theorem totT_slotUnloadT (mem : Nat → Bool) (s : List (List CellTy)) (cfg : Cfg) {id : Id} (hid : id ≠ 0#32) (ty : Ty) (c : Cell) :
    TotT s s (slotUnloadT mem cfg id ty c) TB := by
  unfold slotUnloadT
  simp only [hid, if_false]
  cases hc : c.hasValue id with
  | none => exact TotT.pure trivial
  | some v =>
    refine totT_slotGet_bind ty (fun p => ?_)
    cases p with
    | none => exact totT_dynamic s mem cfg false hid ty v
    | some p => exact totT_slotSet s ty id v p _

theorem totT_loadSlotT (mem : Nat → Bool) (s : List (List CellTy)) (cfg : Cfg) (b : Bool) {id : Id} (hid : id.Tagged) (ty : Ty) (v : Val) :
    TotT s s (loadSlotT mem cfg b id ty v) TB := by
  unfold loadSlotT
  refine TotT.bind (TotT.lift (tot_assertTagged s hid)) (fun _ _ => ?_)
  refine totT_slotGet_bind ty (fun p => ?_)
  cases p with
  | none => exact totT_dynamic s mem cfg b (tagged_ne_zero hid) ty v
  | some p => exact totT_slotSet s ty id v p _

theorem totT_loadSlotDeferredT (mem : Nat → Bool) (s : List (List CellTy)) (cfg : Cfg) (b : Bool) {id : Id} (hid : id.Tagged) (ty : Ty) (tag : Nat)
    (v : Val) : TotT s s (loadSlotDeferredT mem cfg b id ty tag v) TB := by
  unfold loadSlotDeferredT
  refine TotT.bind (TotT.lift (tot_assertTagged s hid)) (fun _ _ => ?_)
  refine totT_slotGet_bind ty (fun p => ?_)
  cases p with
  | none =>
    by_cases hc : cfg.capture = true
    · have h := totT_dynamic s mem cfg b (tagged_ne_zero hid) ty v
      simp only [hc, if_true] at h ⊢
      intro n w hg hs
      have h := h n { w with trace := .offered id ty v :: .called tag :: w.trace } ⟨hg.1, hg.2, hg.3, hg.4⟩ hs
      by_cases hb : boundCell ty w.mem.frames = none
      · simpa only [hb, if_true, bindT_apply, lift_apply, emit, Option.map_some, Option.bind_some] using h
      · simp only [hb, if_false]; exact ⟨none, w, rfl, hg, by simp⟩
    · have h := totT_dynamic s mem cfg b (tagged_ne_zero hid) ty v
      simp only [hc] at h ⊢
      exact h
  | some p =>
    dsimp only
    by_cases hc : (!b || (p.hasValue id).isNone) = true
    · have h := totT_slotSet s ty id v p true
      simp only [hc, if_true] at h ⊢
      intro n w hg hs
      have h := h n { w with trace := .offered id ty v :: .called tag :: w.trace } ⟨hg.1, hg.2, hg.3, hg.4⟩ hs
      by_cases hb : boundCell ty w.mem.frames = some p
      · simpa only [hb, if_true, bindT_apply, lift_apply, emit, Option.map_some, Option.bind_some] using h
      · simp only [hb, if_false]; exact ⟨none, w, rfl, hg, by simp⟩
    · have h := totT_slotSet s ty id v p false
      simp only [hc] at h ⊢
      exact h

theorem totT_loadSlotAccumulateT (mem : Nat → Bool) (s : List (List CellTy)) (cfg : Cfg) (b : Bool) (hc : cfg.capture = false ∨ NoDa s) {id : Id} (hid : id.Tagged)
    (ty : Ty) (tag : Nat) (f : Val → Val) : TotT s s (loadSlotAccumulateT mem cfg b id ty tag f) TB := by
  unfold loadSlotAccumulateT
  refine TotT.bind (TotT.lift (tot_assertTagged s hid)) (fun _ _ => ?_)
  refine totT_slotGet_bind ty (fun p => ?_)
  intro n w hg hs
  by_cases hb : boundCell ty w.mem.frames = p
  · simp only [hb, if_true]
    cases p with
    | none =>
      rcases hc with hc | hc
      · simp only [hc]; exact ⟨_, w, rfl, hg, fun a m e => by cases e; exact ⟨hs, trivial⟩⟩
      · refine ⟨some (true, n), w, ?_, hg, fun a m e => by cases e; exact ⟨hs, trivial⟩⟩
        by_cases h : cfg.capture = true
        · cases b <;>
          simp [h, dynamicT, swallow, dynamicAccumulateT, bindT_apply, lift_apply, daKey, Store.daKey, boundDa_none (hs ▸ hc), pureT_apply]
        · simp [h, pureT_apply]
    | some p =>
      simp only [bindT_apply, lift_apply, slotSet_eq ty id _ w hb, emit, Option.bind_some, Option.map_some, pureT_apply]
      refine ⟨_, _, rfl, ⟨hg.1, hg.2, hg.3, setBound_good _ _ hg.4⟩, fun a m e => ⟨?_, trivial⟩⟩
      simp only [setBound_shape]; exact hs
  · simp only [hb, if_false]; exact ⟨none, w, rfl, hg, by simp⟩

theorem totT_loadItemT (mem : Nat → Bool) (s : List (List CellTy)) (cfg : Cfg) (b : Bool) {id : Id} (hid : id.Tagged) {da : Bool} (hda : da = false → NoDa s) {i : Item} (hi : i.Ok cfg da) :
    TotT s s (loadItemT mem cfg b id i) TB := by
  cases i with
  | obj ty v => exact TotT.bind (TotT.lift (tot_emit s _)) (fun _ _ => totT_loadSlotT mem s cfg b hid ty v)
  | deferred ty tag v => exact totT_loadSlotDeferredT mem s cfg b hid ty tag v
  | accum ty tag f => exact totT_loadSlotAccumulateT mem s cfg b (hi.imp_right hda) hid ty tag f

theorem totT_loadItemsT (mem : Nat → Bool) (s : List (List CellTy)) (cfg : Cfg) {id : Id} (hid : id.Tagged) {da : Bool} (hda : da = false → NoDa s) {is : List Item}
    (hi : ∀ i ∈ is, i.Ok cfg da) : TotT s s (loadItemsT mem cfg id is) TB := by
  induction is with
  | nil => exact TotT.pure trivial
  | cons i is ih =>
    refine TotT.bind (totT_loadItemT mem s cfg false hid hda (hi i (by simp))) (fun b _ => ?_)
    cases b
    · exact TotT.pure trivial
    · exact ih (fun j hj => hi j (by simp [hj]))

theorem totT_errorIdLoadT (mem : Nat → Bool) (s : List (List CellTy)) (cfg : Cfg) {id : Id} (hid : id.Ok) {da : Bool} (hda : da = false → NoDa s) {is : List Item}
    (hi : ∀ i ∈ is, i.Ok cfg da) : TotT s s (errorIdLoadT mem cfg id is) T := by
  unfold errorIdLoadT
  rcases hid with h | h
  · simp only [h, ne_eq, not_true_eq_false, if_false]; exact TotT.pure trivial
  · simp only [tagged_ne_zero h, ne_eq, not_false_eq_true, if_true]; exact totT_noexcept (totT_loadItemsT mem s cfg h hda hi)

theorem totT_newErrorT (mem : Nat → Bool) (s : List (List CellTy)) (cfg : Cfg) {da : Bool} (hda : da = false → NoDa s) {is : List Item}
    (hi : ∀ i ∈ is, i.Ok cfg da) : TotT s s (newErrorT mem cfg is) Id.Tagged := by
  unfold newErrorT
  refine TotT.bind (TotT.lift (tot_newId s cfg)) (fun id _ => ?_)
  exact TotT.bind (totT_errorIdLoadT mem s cfg (Or.inr (makeErrorId_tagged id)) hda hi) (fun _ _ => TotT.pure (makeErrorId_tagged id))

theorem totT_triggerItemsT (mem : Nat → Bool) (s : List (List CellTy)) (cfg : Cfg) {id : Id} (hid : id.Tagged) {da : Bool} (hda : da = false → NoDa s) {is : List OnItem}
    (hi : ∀ i ∈ is, i.Ok cfg da) : TotT s s (triggerItemsT mem cfg id is) T := by
  induction is with
  | nil => exact TotT.pure trivial
  | cons i is ih =>
    have h2 := ih (fun j hj => hi j (by simp [hj]))
    cases i with
    | item i => exact TotT.bind (totT_noexcept (totT_loadItemT mem s cfg true hid hda (hi (.item i) (by simp)))) (fun _ _ => h2)
    | action t => exact TotT.bind (TotT.lift (tot_emit s _)) (fun _ _ => h2)

theorem totT_importCodeT (mem : Nat → Bool) (s : List (List CellTy)) (cfg : Cfg) {ec : ErrorCode} (he : ec.cat = leafCat → Id.Ok ec.value) (v : Val) :
    TotT s s (importCodeT mem cfg ec v) Id.Ok := by
  unfold importCodeT importErrorCode
  by_cases h1 : ec.value = 0#32
  · simp only [h1, ne_eq, not_true_eq_false, if_false]; exact TotT.pure (Or.inl rfl)
  · simp only [h1, ne_eq, not_false_eq_true, if_true]
    by_cases h2 : ec.cat = leafCat
    · have h3 : Id.Tagged ec.value := (he h2).resolve_left h1
      simp only [h2, h3, if_true]; exact TotT.pure (Or.inr (makeErrorId_tagged ec.value))
    · simp only [h2, if_false]
      refine TotT.bind (TotT.lift (tot_newId s cfg)) (fun id hid => ?_)
      refine TotT.bind (TotT.lift (tot_emit s _)) (fun _ _ => ?_)
      exact TotT.bind (totT_noexcept (totT_loadSlotT mem s cfg false hid _ _)) (fun _ _ => TotT.pure (Or.inr (makeErrorId_tagged id)))

theorem totT_unloadNodesT (mem : Nat → Bool) (s : List (List CellTy)) (cfg : Cfg) {id : Id} (hid : id.Tagged) {ns : List CapNode} (hn : ∀ n ∈ ns, n.Ok) :
    TotT s s (unloadNodesT mem cfg id ns) (fun o => ∀ e, o = some e → e.Ok) := by
  induction ns with
  | nil => exact TotT.pure (by simp)
  | cons n ns ih =>
    cases n with
    | obj ty c =>
      unfold unloadNodesT
      have hr := TotT.bind (totT_slotUnloadT mem s cfg (tagged_ne_zero hid) ty c) (f := fun b => if b = true then unloadNodesT mem cfg id ns else pure (some badAlloc))
        (Q := fun o => ∀ e, o = some e → e.Ok) (fun b _ => by
          cases b
          · exact TotT.pure (by intro e he; cases he; trivial)
          · exact ih (fun m hm => hn m (by simp [hm])))
      cases c.hasValue id with
      | none => exact hr
      | some v => exact TotT.bind (TotT.lift (tot_emit s _)) (fun _ _ => hr)
    | exc e =>
      unfold unloadNodesT
      refine TotT.pure ?_
      intro e' he
      simp only [Option.some.injEq] at he
      subst he
      exact hn (.exc e) (by simp)

theorem totT_resultUnloadT (mem : Nat → Bool) (s : List (List CellTy)) (cfg : Cfg) {r : ErrRes} (hr : r.Ok) : TotT s s (resultUnloadT mem cfg r) Out.Ok := by
  cases r with
  | plain id => exact TotT.pure trivial
  | captured id ns =>
    unfold resultUnloadT
    refine TotT.bind (TotT.lift (tot_setCur s (Or.inr (errId_tagged _)))) (fun _ _ => ?_)
    refine TotT.bind (totT_unloadNodesT mem s cfg (errId_tagged _) hr) (fun o ho => ?_)
    cases o with
    | none => exact TotT.pure (by simp [Out.Ok, ErrRes.Ok])
    | some e => exact TotT.pure (ho e rfl)

theorem totT_unloadDaNodesT (mem : Nat → Bool) (s : List (List CellTy)) (cfg : Cfg) {id : Id} (hid : id.Tagged) (ns : List (Ty × Cell)) :
    TotT s s (unloadDaNodesT mem cfg id ns) TB := by
  induction ns with
  | nil => exact TotT.pure trivial
  | cons n ns ih =>
    obtain ⟨ty, c⟩ := n
    refine TotT.bind (totT_slotUnloadT mem s cfg (tagged_ne_zero hid) ty c) (fun b _ => ?_)
    cases b
    · exact TotT.pure trivial
    · exact ih

theorem totT_unloadCellsT (mem : Nat → Bool) (s : List (List CellTy)) (cfg : Cfg) {id : Id} (hid : id.Tagged) (cs : List CtxCell) :
    TotT s s (unloadCellsT mem cfg id cs) T := by
  induction cs with
  | nil => exact TotT.pure trivial
  | cons c cs ih =>
    refine TotT.bind ih (fun _ _ => totT_noexcept ?_)
    cases c with
    | obj ty c => exact totT_slotUnloadT mem s cfg (tagged_ne_zero hid) ty c
    | da k ns =>
      unfold unloadCellT
      simp only [tagged_ne_zero hid, if_false]
      by_cases h : k = 0#32
      · simp only [h, ne_eq, not_true_eq_false, if_false]; exact TotT.pure trivial
      · simp only [h, ne_eq, not_false_eq_true, if_true]
        exact TotT.bind (TotT.lift (tot_setCur s (Or.inr hid))) (fun _ _ => totT_unloadDaNodesT mem s cfg hid ns)

theorem totT_callHandlerT (s : List (List CellTy)) (cfg : Cfg) {specs : List (List Arg)} {body : Nat → List ArgVal → CompT AbsStore Out}
    {Q : Out → Prop}
    (hb : ∀ i args, (∀ a ∈ args, ArgVal.Ok a) → TotT s s (body i args) Q) {cells : List CtxCell} {id : Id} {ex : Option Exc}
    {loc : Option Val} {i : Nat} (hid : id.Tagged) (hex : ∀ e, ex = some e → e.Ok) {args : List Arg} (hi : specs[i]? = some args)
    (hc : matchesAny args = true ∨ checkArgs cfg cells id ex args = true) :
    TotT s s (callHandlerT cfg specs body cells id ex loc i) Q := by
  unfold callHandlerT
  obtain ⟨vs, hv⟩ := getArgs_some cfg cells id ex loc hc
  simp only [hi, hv]
  exact TotT.bind (TotT.lift (tot_emit s _)) (fun _ _ => hb i vs (getArgs_ok hid hex hv))

theorem totT_catchPathT (mem : Nat → Bool) (c : List CellTy) (s : List (List CellTy)) (cfg : Cfg) {specs : List (List Arg)}
    {body : Nat → List ArgVal → CompT AbsStore Out} {Q : Out → Prop}
    (hb : ∀ i args, (∀ a ∈ args, ArgVal.Ok a) → TotT s s (body i args) Q) (hQ : ∀ e, Exc.Ok e → Q (.exc e)) {e : Exc} (he : e.Ok) :
    TotT (c :: s) s (catchPathT mem cfg specs body e) (fun p => Q p.1) := by
  unfold catchPathT
  refine TotT.bind (TotT.lift (tot_popCtx c s)) (fun cells _ => ?_)
  refine TotT.bind (TotT.lift (tot_unpackId s he)) (fun p hp => ?_)
  obtain ⟨id, e'⟩ := p
  refine TotT.bind (TotT.lift (tot_pushHandling s hp.2)) (fun _ _ => ?_)
  refine TotT.bind (TotT.lift (tot_ctxLoc s hp.1 cells)) (fun loc _ => ?_)
  have hex : ∀ x, (if e'.isStd = true then some e' else none) = some x → x.Ok := by
    intro x hx
    by_cases h : e'.isStd = true <;> simp [h] at hx
    exact hx ▸ hp.2
  split
  · rename_i i hi
    obtain ⟨j, args, h1, h2, h3⟩ := selectSomeFrom_spec hi
    have hij : i = j := by omega
    subst hij
    refine TotT.bind (totT_callHandlerT s cfg hb hp.1 hex h2 h3) (fun o ho => ?_)
    refine TotT.bind (TotT.lift (tot_popHandling s)) (fun _ _ => ?_)
    exact TotT.bind (TotT.lift (tot_destroyExc s e')) (fun _ _ => TotT.pure ho)
  · refine TotT.bind (totT_unloadCellsT mem s cfg hp.1 cells) (fun _ _ => ?_)
    exact TotT.bind (TotT.lift (tot_popHandling s)) (fun _ _ => TotT.pure (hQ _ hp.2))

theorem totT_unloadOutT (mem : Nat → Bool) (s : List (List CellTy)) (cfg : Cfg) {o : Out} (ho : o.Ok) : TotT s s (unloadOutT mem cfg o) Out.Ok := by
  cases o with
  | val v => exact TotT.pure ho
  | err r => exact totT_resultUnloadT mem s cfg ho
  | exc e => exact TotT.pure ho

theorem totT_extractCapturedT (mem : Nat → Bool) (s : List (List CellTy)) {id : Id} (hid : id.Tagged) (cells : List CtxCell) {ex : Option Exc}
    (hex : ∀ e, ex = some e → e.Ok) : TotT s s (extractCapturedT mem id cells ex) Out.Ok := by
  unfold extractCapturedT
  cases ex with
  | none => exact TotT.lift (tot_extractCaptured s hid cells hex)
  | some e => exact TotT.bind (totT_noexcept (totT_allocate s mem)) (fun _ _ => TotT.lift (tot_extractCaptured s hid cells hex))

theorem totT_extractErrT (mem : Nat → Bool) (s : List (List CellTy)) {id : Id} (hid : id.Tagged) (cells : List CtxCell) {ex : Option Exc}
    (hex : ∀ e, ex = some e → e.Ok) : TotT s s (extractErrT mem id cells ex) Out.Ok := by
  unfold extractErrT
  cases ex with
  | none => exact TotT.lift (tot_extractCaptured s hid cells hex)
  | some e =>
    refine TotT.bind (totT_allocate s mem) (fun b _ => ?_)
    cases b with
    | true => exact TotT.lift (tot_extractCaptured s hid cells hex)
    | false =>
      refine TotT.bind (TotT.lift (tot_unpackId s (e := badAlloc) trivial)) (fun p hp => ?_)
      exact totT_extractCapturedT mem s hp.1 _ (fun x hx => by cases hx; exact hp.2)

theorem totT_catchHelperT (mem : Nat → Bool) (s : List (List CellTy)) (cfg : Cfg) (e : Exc) (tys : List Ty) : TotT s s (catchHelperT mem cfg e tys) Id.Tagged := by
  induction tys with
  | nil => exact totT_newErrorT mem s cfg (da := true) (by simp) (by simp [Item.Ok])
  | cons t ts ih =>
    refine TotT.bind ih (fun id hid => ?_)
    cases e.cast t with
    | none => exact TotT.pure hid
    | some v =>
      exact TotT.bind (totT_errorIdLoadT mem s cfg (Or.inr hid) (da := true) (by simp) (is := [.obj t v]) (by simp [Item.Ok])) (fun _ _ => TotT.pure hid)

theorem totT_resultValueT (mem : Nat → Bool) (s : List (List CellTy)) (cfg : Cfg) {r : ErrRes} (hr : r.Ok) (tag : Nat) :
    TotT s s (resultValueT mem cfg r tag) Out.Ok := by
  unfold resultValueT
  refine TotT.bind (totT_resultUnloadT mem s cfg hr) (fun o ho => ?_)
  cases o with
  | val v => exact TotT.pure (errId_tagged r)
  | err r' => exact TotT.pure (errId_tagged r)
  | exc e => exact TotT.pure ho

/-! ## Programs that return no error state -/

def PostT {M α : Type} (x : CompT M α) (Q : α → Prop) : Prop := ∀ n w a n' w', x n w = some (some (a, n'), w') → Q a

theorem PostT.pure {M α : Type} {a : α} {Q : α → Prop} (h : Q a) : PostT (Pure.pure a : CompT M α) Q := by
  intro n w b n' w' e
  rw [pureT_apply] at e
  cases e
  exact h

theorem PostT.bind {M α β : Type} {x : CompT M α} {f : α → CompT M β} {P : α → Prop} {Q : β → Prop} (hx : PostT x P)
    (hf : ∀ a, P a → PostT (f a) Q) : PostT (x >>= f) Q := by
  intro n w b n' w' e
  rw [bindT_apply] at e
  cases h : x n w with
  | none => simp [h] at e
  | some p =>
    obtain ⟨r, w1⟩ := p
    simp only [h, Option.bind_some] at e
    cases r with
    | none => simp at e
    | some a => exact hf a.1 (hx n w a.1 a.2 w1 h) a.2 w1 b n' w' e

theorem PostT.bind' {M α β : Type} {x : CompT M α} {f : α → CompT M β} {Q : β → Prop}
    (hf : ∀ a, PostT (f a) Q) : PostT (x >>= f) Q :=
  PostT.bind (P := fun _ => True) (fun _ _ _ _ _ _ => trivial) (fun a _ => hf a)

theorem PostT.ub {M α : Type} {Q : α → Prop} : PostT (lift ub : CompT M α) Q := by
  intro n w a n' w' e
  simp [lift_apply, ub_apply] at e

theorem postT_noErr {M : Type} (o : Out) : PostT (lift (noErr o) : CompT M Out) Out.NoErr := by
  intro n w a n' w' e
  rw [lift_apply] at e
  cases h : noErr o w with
  | none => simp [h] at e
  | some p =>
    simp only [h, Option.map_some, Option.some.injEq, Prod.mk.injEq] at e
    exact e.1.1 ▸ post_noErr o w p.1 p.2 h

theorem postT_callHandlerT {M : Type} (cfg : Cfg) {specs : List (List Arg)} {body : Nat → List ArgVal → CompT M Out} {Q : Out → Prop}
    (hb : ∀ i args, PostT (body i args) Q) (cells : List CtxCell) (id : Id) (ex : Option Exc) (loc : Option Val) (i : Nat) :
    PostT (callHandlerT cfg specs body cells id ex loc i) Q := by
  unfold callHandlerT
  cases specs[i]? with
  | none => exact PostT.ub
  | some args =>
    dsimp only
    cases getArgs cfg cells id ex loc args with
    | none => exact PostT.ub
    | some vs => exact PostT.bind' (fun _ => hb _ _)

theorem postT_catchPathT {M : Type} [Store M] (mem : Nat → Bool) (cfg : Cfg) {specs : List (List Arg)} {body : Nat → List ArgVal → CompT M Out} {Q : Out → Prop}
    (hb : ∀ i args, PostT (body i args) Q) (hQ : ∀ e, Q (.exc e)) (e : Exc) :
    PostT (catchPathT mem cfg specs body e) (fun p => Q p.1) := by
  unfold catchPathT
  refine PostT.bind' (fun cells => PostT.bind' (fun p => ?_))
  obtain ⟨id, e'⟩ := p
  refine PostT.bind' (fun _ => PostT.bind' (fun loc => ?_))
  split
  · refine PostT.bind (postT_callHandlerT cfg hb _ _ _ _ _) (fun o ho => ?_)
    exact PostT.bind' (fun _ => PostT.bind' (fun _ => PostT.pure ho))
  · exact PostT.bind' (fun _ => PostT.bind' (fun _ => PostT.pure (hQ _)))

theorem postT_evalT (mem : Nat → Bool) {M : Type} [Store M] (cfg : Cfg) (p : Prog) (hp : p.NoErr) : PostT (evalT (M := M) mem cfg p) Out.NoErr := by
  induction p with
  | ret o => exact PostT.pure hp
  | newError items k ih => exact PostT.bind' (fun id => ih id (hp id))
  | load id items k ih => exact PostT.bind' (fun _ => ih hp)
  | importCode ec v k ih => exact PostT.bind' (fun id => ih id (hp id))
  | currentError k ih => exact PostT.bind' (fun id => ih id (hp id))
  | bind p k ke ih1 ih2 ih3 =>
    unfold evalT
    refine PostT.bind' (fun o => ?_)
    cases o with
    | val v => exact ih2 v (hp.1 v)
    | err r => exact ih3 r (hp.2 r)
    | exc e => exact PostT.pure (by simp [Out.NoErr])
  | onError items body ih =>
    unfold evalT onErrorGuardT
    refine PostT.bind' (fun saved => PostT.bind (ih hp) (fun o ho => PostT.bind' (fun id => ?_)))
    by_cases h : id = 0#32
    · simp only [h, ne_eq, not_true_eq_false, if_false]; exact PostT.pure ho
    · simp only [h, ne_eq, not_false_eq_true, if_true]
      exact PostT.bind' (fun _ => PostT.bind' (fun _ => PostT.pure ho))
  | monNew k ih => exact PostT.bind' (fun id => ih id (hp id))
  | monCheck m k ih => exact PostT.bind' (fun id => ih _ (hp _))
  | monAssigned m k ih => exact PostT.bind' (fun id => ih _ (hp _))
  | handleAll specs block body ih1 ih2 =>
    unfold evalT tryHandleAllT
    refine PostT.bind' (fun _ => PostT.bind' (fun o => PostT.bind' (fun o2 => ?_)))
    cases o2 with
    | val v => exact PostT.bind' (fun _ => PostT.pure (by simp [Out.NoErr]))
    | err r =>
      refine PostT.bind' (fun _ => PostT.bind' (fun cells => PostT.bind' (fun loc => ?_)))
      split
      · exact PostT.bind' (fun o => postT_noErr o)
      · exact PostT.ub
    | exc e => exact PostT.bind' (fun p => postT_noErr p.1)
  | handleSome specs block body ih1 ih2 => exact absurd hp (by simp [Prog.NoErr])
  | tryCatch specs block body ih1 ih2 =>
    unfold evalT tryCatchT
    refine PostT.bind' (fun _ => PostT.bind (ih1 hp.1) (fun o ho => ?_))
    cases o with
    | val v => exact PostT.bind' (fun _ => PostT.pure ho)
    | err r => exact PostT.bind' (fun _ => PostT.pure ho)
    | exc e =>
      exact PostT.bind (postT_catchPathT mem cfg (fun i a => ih2 i a (hp.2 i a)) (by simp [Out.NoErr]) e) (fun p hp => PostT.pure hp)
  | captureAll block ih => exact absurd hp (by simp [Prog.NoErr])
  | captureAllVoid block ih => exact absurd hp (by simp [Prog.NoErr])
  | excToResult tys block ih => exact absurd hp (by simp [Prog.NoErr])
  | cppCatch block h ih1 ih2 =>
    unfold evalT cppCatchT
    refine PostT.bind (ih1 hp.1) (fun o ho => ?_)
    cases o with
    | val v => exact PostT.pure ho
    | err r => exact PostT.pure ho
    | exc e =>
      refine PostT.bind' (fun _ => PostT.bind (ih2 e (hp.2 e)) (fun o2 ho2 => ?_))
      exact PostT.bind' (fun _ => PostT.bind' (fun _ => PostT.pure ho2))
  | cppRethrow block h ih1 ih2 =>
    unfold evalT cppRethrowT
    refine PostT.bind (ih1 hp) (fun o ho => ?_)
    cases o with
    | val v => exact PostT.pure ho
    | err r => exact PostT.pure ho
    | exc e =>
      refine PostT.bind' (fun _ => PostT.bind' (fun o2 => PostT.bind' (fun _ => ?_)))
      cases o2 with
      | val v => exact PostT.pure ho
      | err r => exact PostT.pure ho
      | exc e' => exact PostT.bind' (fun _ => PostT.pure (by simp [Out.NoErr]))
  | unload r => exact absurd hp (by simp [Prog.NoErr])
  | value r tag =>
    unfold evalT resultValueT
    refine PostT.bind' (fun o => ?_)
    cases o <;> exact PostT.pure (by simp [Out.NoErr])

theorem totT_of_noErr {mem : Nat → Bool} {s s' : List (List CellTy)} {cfg : Cfg} {p : Prog} (h : TotT s s' (evalT mem cfg p) Out.Ok) (hp : p.NoErr) :
    TotT s s' (evalT mem cfg p) (fun o => o.Ok ∧ ∀ r, o ≠ .err r) := by
  intro n w hg hs
  obtain ⟨r, w', h1, h2, h3⟩ := h n w hg hs
  refine ⟨r, w', h1, h2, fun a m e => ⟨(h3 a m e).1, (h3 a m e).2, ?_⟩⟩
  subst e
  exact postT_evalT mem cfg p hp n w a m w' h1

/-- Every well-formed program runs without undefined behaviour, whatever memory there is; unless it is terminated, it leaves the stack of contexts as it found it. -/
theorem totT_evalT (mem : Nat → Bool) (cfg : Cfg) (p : Prog) {da : Bool} (hp : p.WF cfg da) (s : List (List CellTy)) (hda : da = false → NoDa s) :
    TotT s s (evalT mem cfg p) Out.Ok := by
  induction p generalizing s da with
  | ret o => exact TotT.pure hp
  | newError items k ih => exact TotT.bind (totT_newErrorT mem s cfg hda hp.1) (fun id hid => ih id (hp.2 id hid) s hda)
  | load id items k ih => exact TotT.bind (totT_errorIdLoadT mem s cfg hp.1 hda hp.2.1) (fun _ _ => ih hp.2.2 s hda)
  | importCode ec v k ih => exact TotT.bind (totT_importCodeT mem s cfg hp.1 v) (fun id hid => ih id (hp.2 id hid) s hda)
  | currentError k ih => exact TotT.bind (TotT.lift (tot_currentError s)) (fun id hid => ih id (hp id hid) s hda)
  | bind p k ke ih1 ih2 ih3 =>
    unfold evalT
    refine TotT.bind (ih1 hp.1 s hda) (fun o ho => ?_)
    cases o with
    | val v => exact ih2 v (hp.2.1 v) s hda
    | err r => exact ih3 r (hp.2.2 r ho) s hda
    | exc e => exact TotT.pure ho
  | onError items body ih =>
    unfold evalT onErrorGuardT
    refine TotT.bind (TotT.lift (tot_currentId s)) (fun saved _ => ?_)
    refine TotT.bind (ih hp.2 s hda) (fun o ho => ?_)
    refine TotT.bind (TotT.lift (tot_checkId s cfg saved _)) (fun id hid => ?_)
    by_cases h : id = 0#32
    · simp only [h, ne_eq, not_true_eq_false, if_false]; exact TotT.pure ho
    · simp only [h, ne_eq, not_false_eq_true, if_true]
      have ht : id.Tagged := hid.resolve_left h
      exact TotT.bind (TotT.lift (tot_assertTagged s ht)) (fun _ _ => TotT.bind (totT_triggerItemsT mem s cfg ht hda hp.1) (fun _ _ => TotT.pure ho))
  | monNew k ih => exact TotT.bind (TotT.lift (tot_currentId s)) (fun id hid => ih id (hp id hid) s hda)
  | monCheck m k ih => exact TotT.bind (TotT.lift (tot_checkId s cfg m false)) (fun id _ => ih _ (hp _ (makeErrorId_tagged id)) s hda)
  | monAssigned m k ih => exact TotT.bind (TotT.lift (tot_getId s cfg m)) (fun id _ => ih _ (hp _ (makeErrorId_tagged id)) s hda)
  | handleAll specs block body ih1 ih2 =>
    unfold evalT tryHandleAllT
    refine TotT.bind (TotT.lift (tot_pushCtx s (deduce_nodup cfg specs))) (fun _ _ => ?_)
    refine TotT.bind (ih1 hp.2.1 _ (noDa_push hda)) (fun o ho => ?_)
    refine TotT.bind (totT_unloadOutT mem _ cfg ho) (fun o2 ho2 => ?_)
    have hb : ∀ i args, (∀ a ∈ args, ArgVal.Ok a) → TotT s s (evalT mem cfg (body i args)) (fun o => o.Ok ∧ ∀ r, o ≠ .err r) :=
      fun i args ha => totT_of_noErr (ih2 i args (hp.2.2 i args ha).1 s hda) (hp.2.2 i args ha).2
    cases o2 with
    | val v => exact TotT.bind (TotT.lift (tot_popCtx _ s)) (fun _ _ => TotT.pure trivial)
    | err r =>
      refine TotT.bind (TotT.lift (tot_resultUnload _ cfg ho2)) (fun _ _ => ?_)
      refine TotT.bind (TotT.lift (tot_popCtx _ s)) (fun cells _ => ?_)
      refine TotT.bind (TotT.lift (tot_ctxLoc s (errId_tagged r) cells)) (fun loc _ => ?_)
      obtain ⟨i, hi⟩ := selectAllFrom_total cfg cells r.errId none 0 hp.1
      obtain ⟨j, args, h1, h2, h3⟩ := selectAllFrom_spec hi
      have hij : i = j := by omega
      subst hij
      simp only [selectAll, hi]
      exact TotT.bind (totT_callHandlerT s cfg hb (errId_tagged r) (by simp) h2 h3) (fun o ho => TotT.lift (tot_noErr s ho))
    | exc e =>
      refine TotT.bind (totT_catchPathT mem _ s cfg hb (fun e he => ⟨he, by simp⟩) ho2) (fun p hp => ?_)
      exact TotT.lift (tot_noErr s hp)
  | handleSome specs block body ih1 ih2 =>
    unfold evalT tryHandleSomeT
    refine TotT.bind (TotT.lift (tot_pushCtx s (deduce_nodup cfg specs))) (fun _ _ => ?_)
    refine TotT.bind (ih1 hp.1 _ (noDa_push hda)) (fun o ho => ?_)
    refine TotT.bind (totT_unloadOutT mem _ cfg ho) (fun o2 ho2 => ?_)
    have hb : ∀ i args, (∀ a ∈ args, ArgVal.Ok a) → TotT s s (evalT mem cfg (body i args)) Out.Ok :=
      fun i args ha => ih2 i args (hp.2 i args ha) s hda
    cases o2 with
    | val v => exact TotT.bind (TotT.lift (tot_popCtx _ s)) (fun _ _ => TotT.pure trivial)
    | err r =>
      refine TotT.bind (TotT.lift (tot_resultUnload _ cfg ho2)) (fun _ _ => ?_)
      refine TotT.bind (TotT.lift (tot_popCtx _ s)) (fun cells _ => ?_)
      refine TotT.bind (TotT.lift (tot_ctxLoc s (errId_tagged r) cells)) (fun loc _ => ?_)
      have hr : ∀ o : Out, o.Ok → TotT s s (do
          match o with
          | .err r' => unloadCellsT mem cfg r'.errId cells
          | _ => pure ()
          return o) Out.Ok := by
        intro o ho
        cases o with
        | val v => exact TotT.pure ho
        | err r' => exact TotT.bind (totT_unloadCellsT mem s cfg (errId_tagged r') cells) (fun _ _ => TotT.pure ho)
        | exc e => exact TotT.pure ho
      cases hi : selectSome cfg cells r.errId none specs with
      | none => exact hr _ ho2
      | some i =>
        obtain ⟨j, args, h1, h2, h3⟩ := selectSomeFrom_spec hi
        have hij : i = j := by omega
        subst hij
        exact TotT.bind (totT_callHandlerT s cfg hb (errId_tagged r) (by simp) h2 h3) (fun o ho => hr o ho)
    | exc e =>
      refine TotT.bind (totT_catchPathT mem _ s cfg hb (fun e he => he) ho2) (fun p hp => ?_)
      obtain ⟨o, cells⟩ := p
      cases o with
      | val v => exact TotT.pure hp
      | err r' => exact TotT.bind (totT_unloadCellsT mem s cfg (errId_tagged r') cells) (fun _ _ => TotT.pure hp)
      | exc e => exact TotT.pure hp
  | tryCatch specs block body ih1 ih2 =>
    unfold evalT tryCatchT
    refine TotT.bind (TotT.lift (tot_pushCtx s (deduce_nodup cfg specs))) (fun _ _ => ?_)
    refine TotT.bind (ih1 hp.1 _ (noDa_push hda)) (fun o ho => ?_)
    have hb : ∀ i args, (∀ a ∈ args, ArgVal.Ok a) → TotT s s (evalT mem cfg (body i args)) Out.Ok :=
      fun i args ha => ih2 i args (hp.2 i args ha) s hda
    cases o with
    | val v => exact TotT.bind (TotT.lift (tot_popCtx _ s)) (fun _ _ => TotT.pure ho)
    | err r => exact TotT.bind (TotT.lift (tot_popCtx _ s)) (fun _ _ => TotT.pure ho)
    | exc e => exact TotT.bind (totT_catchPathT mem _ s cfg hb (fun e he => he) ho) (fun p hp => TotT.pure hp)
  | captureAll block ih =>
    unfold evalT tryCaptureAllT
    simp only [hp.1, Bool.not_true, Bool.false_eq_true, if_false]
    refine TotT.bind (TotT.lift (tot_pushCtx s (by simp))) (fun _ _ => ?_)
    refine TotT.bind (ih hp.2 _ (by simp)) (fun o ho => ?_)
    cases o with
    | val v => exact TotT.bind (TotT.lift (tot_popCtx _ s)) (fun _ _ => TotT.pure ho)
    | err r =>
      refine TotT.bind (TotT.lift (tot_popCtx _ s)) (fun cells _ => ?_)
      exact TotT.bind (TotT.lift (tot_currentException s)) (fun ex hex => totT_extractErrT mem s (errId_tagged r) cells hex)
    | exc e =>
      refine TotT.bind (TotT.lift (tot_popCtx _ s)) (fun cells _ => ?_)
      refine TotT.bind (TotT.lift (tot_unpackId s ho)) (fun p hp => ?_)
      exact totT_extractCapturedT mem s hp.1 cells (fun x hx => by cases hx; exact hp.2)
  | captureAllVoid block ih => exact absurd hp (by simp [Prog.WF])
  | excToResult tys block ih =>
    unfold evalT exceptionToResultT
    refine TotT.bind (ih hp s hda) (fun o ho => ?_)
    cases o with
    | val v => exact TotT.pure ho
    | err r => exact TotT.pure ho
    | exc e => exact TotT.bind (totT_catchHelperT mem s cfg e _) (fun _ _ => TotT.pure trivial)
  | cppCatch block h ih1 ih2 =>
    unfold evalT cppCatchT
    refine TotT.bind (ih1 hp.1 s hda) (fun o ho => ?_)
    cases o with
    | val v => exact TotT.pure ho
    | err r => exact TotT.pure ho
    | exc e =>
      refine TotT.bind (TotT.lift (tot_pushHandling s ho)) (fun _ _ => ?_)
      refine TotT.bind (ih2 e (hp.2 e ho) s hda) (fun o2 ho2 => ?_)
      exact TotT.bind (TotT.lift (tot_popHandling s)) (fun _ _ => TotT.bind (TotT.lift (tot_destroyExc s e)) (fun _ _ => TotT.pure ho2))
  | cppRethrow block h ih1 ih2 =>
    unfold evalT cppRethrowT
    refine TotT.bind (ih1 hp.1 s hda) (fun o ho => ?_)
    cases o with
    | val v => exact TotT.pure ho
    | err r => exact TotT.pure ho
    | exc e =>
      refine TotT.bind (TotT.lift (tot_pushHandling s ho)) (fun _ _ => ?_)
      refine TotT.bind (ih2 e (hp.2 e ho) s hda) (fun o2 ho2 => ?_)
      refine TotT.bind (TotT.lift (tot_popHandling s)) (fun _ _ => ?_)
      cases o2 with
      | val v => exact TotT.pure ho
      | err r => exact TotT.pure ho
      | exc e' => exact TotT.bind (TotT.lift (tot_destroyExc s e)) (fun _ _ => TotT.pure ho2)
  | unload r => exact totT_resultUnloadT mem s cfg hp
  | value r tag => exact totT_resultValueT mem s cfg hp tag

end Leaf
