import Verif.MemModel
import Verif.PropLoad

/-!
# C60: `on_error` when memory runs out
-/

namespace Leaf

/-! ## Specification -/

/-- What happens to an item, `ok` telling if there is memory for a node. -/
inductive StoredOrLost (cfg : Cfg) (id : Id) (i : Item) : Bool → List Scope → List Scope → Prop
  /-- as with enough memory; without memory, only if the item needs no node: a scope handles its type or has captured one, or nobody wants it -/
  | stored {ok : Bool} {s0 s1 : List Scope} (h : Delivered cfg id i.ty (i.new cfg true id) s0 s1)
      (hok : ok = true ∨ (∃ s ∈ s0, Handles i.ty s ∨ HasCaptured i.ty s) ∨ cfg.capture = false ∨ ∀ s ∈ s0, ¬ Captures s) : StoredOrLost cfg id i ok s0 s1
  /-- the item needs a node of the innermost capturing scope, and there is no memory: it is lost, the objects in all scopes stay as they are (the list of captured objects may
  become associated with this error, if it is empty) -/
  | lost (inner : List Scope) (pre : Scope) (k k' : Id) (ns : List (Ty × Cell)) (post : Scope) (outer : List Scope) (hcap : cfg.capture = true)
      (h : ∀ s ∈ inner ++ (pre ++ .da k ns :: post) :: outer, ¬ Handles i.ty s ∧ ¬ HasCaptured i.ty s) (hin : ∀ s ∈ inner, ¬ Captures s)
      (hk : k' = k ∨ (k' = id ∧ ns = [])) :
      StoredOrLost cfg id i false (inner ++ (pre ++ .da k ns :: post) :: outer) (inner ++ (pre ++ .da k' ns :: post) :: outer)

/-- The items one after the other; functions returning `void` store nothing. -/
inductive StoredOrLostAll (cfg : Cfg) (id : Id) : List (OnItem × Bool) → List Scope → List Scope → Prop
  | nil (ss : List Scope) : StoredOrLostAll cfg id [] ss ss
  | item {i : Item} {ok : Bool} {is : List (OnItem × Bool)} {s0 s1 s2 : List Scope} (h : StoredOrLost cfg id i ok s0 s1) (hs : StoredOrLostAll cfg id is s1 s2) :
      StoredOrLostAll cfg id ((.item i, ok) :: is) s0 s2
  | action {tag : Nat} {ok : Bool} {is : List (OnItem × Bool)} {s0 s1 : List Scope} (hs : StoredOrLostAll cfg id is s0 s1) :
      StoredOrLostAll cfg id ((.action tag, ok) :: is) s0 s1

/-! ## The functions -/

theorem dynamicLoadM_ok {M : Type} [Store M] (id : Id) (ty : Ty) (v : Val) : (dynamicLoadM true id ty v : Comp M Unit) = dynamicLoad id ty v := by
  unfold dynamicLoadM dynamicLoad
  refine congrArg (fun g => daKey >>= g) ?_
  funext k
  cases k with
  | none => rfl
  | some k => simp

theorem dynamicAccumulateM_ok {M : Type} [Store M] (cfg : Cfg) (id : Id) (ty : Ty) (tag : Nat) (f : Val → Val) :
    (dynamicAccumulateM cfg true id ty tag f : Comp M Unit) = dynamicAccumulate cfg id ty tag f := by
  unfold dynamicAccumulateM dynamicAccumulate
  refine congrArg (fun g => daKey >>= g) ?_
  funext k
  cases k with
  | none => rfl
  | some k => by_cases h : k = id <;> simp [h]

/-- With memory for everything, this is the guard modelled before. -/
theorem loadItemM_ok {M : Type} [Store M] (cfg : Cfg) (id : Id) (i : Item) : (loadItemM cfg true id i : Comp M Unit) = loadItem cfg true id i := by
  cases i <;> simp [loadItemM, loadItem, loadSlotM, loadSlot, loadSlotDeferredM, loadSlotDeferred, loadSlotAccumulateM, loadSlotAccumulate, dynamicLoadM_ok, dynamicAccumulateM_ok] <;> rfl

theorem sim_dynamicLoadM {n : Nat} (ok : Bool) (id : Id) (ty : Ty) (v : Val) : Sim n n (dynamicLoadM ok id ty v) (dynamicLoadM ok id ty v) := by
  unfold dynamicLoadM; sim
theorem sim_dynamicAccumulateM {n : Nat} (cfg : Cfg) (ok : Bool) (id : Id) (ty : Ty) (tag : Nat) (f : Val → Val) :
    Sim n n (dynamicAccumulateM cfg ok id ty tag f) (dynamicAccumulateM cfg ok id ty tag f) := by
  unfold dynamicAccumulateM; sim
macro_rules | `(tactic| simstep) => `(tactic| with_reducible first | exact sim_dynamicLoadM _ _ _ _ | exact sim_dynamicAccumulateM _ _ _ _ _ _)
theorem sim_loadItemM {n : Nat} (cfg : Cfg) (ok : Bool) (id : Id) (i : Item) : Sim n n (loadItemM cfg ok id i) (loadItemM cfg ok id i) := by
  cases i <;> simp only [loadItemM]
  · unfold loadSlotM; sim
  · unfold loadSlotDeferredM; sim
  · unfold loadSlotAccumulateM; sim
macro_rules | `(tactic| simstep) => `(tactic| with_reducible exact sim_loadItemM _ _ _ _)
theorem sim_triggerItemsM {n : Nat} (cfg : Cfg) (id : Id) (is : List (OnItem × Bool)) : Sim n n (triggerItemsM cfg id is) (triggerItemsM cfg id is) := by
  induction is with
  | nil => unfold triggerItemsM; sim
  | cons x is ih => obtain ⟨x, ok⟩ := x; cases x <;> (unfold triggerItemsM; sim)

/-- If no node is needed, the available memory does not matter. -/
theorem loadItemM_eq (cfg : Cfg) (ok : Bool) {id : Id} (hid : id.Tagged) (i : Item) (w : World AbsStore)
    (h : ok = true ∨ (boundCell i.ty w.mem.frames).isSome = true ∨ cfg.capture = false ∨ boundDa w.mem.frames = none) :
    loadItemM cfg ok id i w = loadItem cfg true id i w := by
  cases ok with
  | true => rw [loadItemM_ok]
  | false =>
    simp only [Bool.false_eq_true, false_or] at h
    cases hb : boundCell i.ty w.mem.frames with
    | some p =>
      cases i <;> simp only [Item.ty] at hb <;> simp [loadItemM, loadItem, loadSlotM, loadSlot, loadSlotDeferredM, loadSlotDeferred, loadSlotAccumulateM, loadSlotAccumulate,
        bind_apply, assertTagged_apply hid, slotGet_apply, emit, hb]
      rfl
    | none =>
      have h := h.resolve_left (by simp [hb])
      by_cases hc : cfg.capture = true
      · have hd := h.resolve_left (by simp [hc])
        cases i <;> simp only [Item.ty] at hb <;> simp [loadItemM, loadItem, loadSlotM, loadSlot, loadSlotDeferredM, loadSlotDeferred, loadSlotAccumulateM, loadSlotAccumulate,
          dynamicLoadM, dynamicLoad, dynamicAccumulateM, dynamicAccumulate, daKey, Store.daKey, hd,
          bind_apply, assertTagged_apply hid, slotGet_apply, emit, hb, hc]
      · cases i <;> simp only [Item.ty] at hb <;> simp [loadItemM, loadItem, loadSlotM, loadSlot, loadSlotDeferredM, loadSlotDeferred, loadSlotAccumulateM, loadSlotAccumulate,
          bind_apply, assertTagged_apply hid, slotGet_apply, emit, hb, hc]

/-- A node is needed and there is no memory. -/
theorem loadItemM_lost (cfg : Cfg) {id : Id} (hid : id.Tagged) (i : Item) (w : World AbsStore) (hg : FramesGood w.mem.frames)
    (hacc : i.isAccum = true → AccOk cfg id w.mem.frames) (hb : boundCell i.ty w.mem.frames = none) (hc : cfg.capture = true) {k : Id} {ns : List (Ty × Cell)}
    (hd : boundDa w.mem.frames = some (k, ns)) :
    ∃ es, loadItemM cfg false id i w = some ((), w.put es (setBoundDa (if k = 0#32 then id else k) ns w.mem.frames)) := by
  have hself : setBoundDa k ns w.mem.frames = w.mem.frames := by
    obtain ⟨inner, pre, post, outer, h1, _, h3⟩ := setBoundDa_split hd
    rw [h3, ← h1]
  by_cases hk : k = 0#32
  · have hn := boundDa_good hg hd hk
    subst hk hn
    simp only [if_true]
    cases i with
    | obj ty v =>
      simp only [Item.ty] at hb
      exact ⟨[.offered id ty v], by simp [loadItemM, loadSlotM, dynamicLoadM, daKey, Store.daKey, daReset, Store.daReset, hd, bind_apply, assertTagged_apply hid, slotGet_apply,
        emit, hb, hc, World.put]⟩
    | deferred ty tag v =>
      simp only [Item.ty] at hb
      exact ⟨[.offered id ty v, .called tag], by simp [loadItemM, loadSlotDeferredM, dynamicLoadM, daKey, Store.daKey, daReset, Store.daReset, hd, bind_apply,
        assertTagged_apply hid, slotGet_apply, emit, hb, hc, World.put]⟩
    | accum ty tag f =>
      simp only [Item.ty] at hb
      have h0 : ¬ (0#32 = id) := fun e => tagged_ne_zero hid e.symm
      exact ⟨[], by simp [loadItemM, loadSlotAccumulateM, dynamicAccumulateM, daKey, Store.daKey, daReset, Store.daReset, hd, bind_apply, assertTagged_apply hid, slotGet_apply,
        hb, hc, World.put, h0]⟩
  · rw [if_neg hk, hself]
    cases i with
    | obj ty v =>
      simp only [Item.ty] at hb
      exact ⟨[.offered id ty v], by simp [loadItemM, loadSlotM, dynamicLoadM, daKey, Store.daKey, hd, bind_apply, assertTagged_apply hid, slotGet_apply,
        emit, hb, hc, World.put, hk]; rfl⟩
    | deferred ty tag v =>
      simp only [Item.ty] at hb
      exact ⟨[.offered id ty v, .called tag], by simp [loadItemM, loadSlotDeferredM, dynamicLoadM, daKey, Store.daKey, hd, bind_apply,
        assertTagged_apply hid, slotGet_apply, emit, hb, hc, World.put, hk]; rfl⟩
    | accum ty tag f =>
      simp only [Item.ty] at hb
      have h0 : k = id := (hacc rfl hc k ns hd).resolve_left hk
      exact ⟨[], by simp [loadItemM, loadSlotAccumulateM, dynamicAccumulateM, daKey, Store.daKey, hd, bind_apply, assertTagged_apply hid, slotGet_apply,
        hb, hc, World.put, h0]; rfl⟩

/-- One item. -/
theorem loadItemM_storedOrLost (cfg : Cfg) (ok : Bool) {id : Id} (hid : id.Tagged) (i : Item) (w : World AbsStore) (hg : FramesGood w.mem.frames)
    (hacc : i.isAccum = true → AccOk cfg id w.mem.frames) :
    ∃ es fs, loadItemM cfg ok id i w = some ((), w.put es fs) ∧ StoredOrLost cfg id i ok w.mem.frames fs ∧ FramesGood fs ∧
      (AccOk cfg id w.mem.frames → AccOk cfg id fs) := by
  by_cases h : ok = true ∨ (boundCell i.ty w.mem.frames).isSome = true ∨ cfg.capture = false ∨ boundDa w.mem.frames = none
  · refine ⟨_, _, (loadItemM_eq cfg ok hid i w h).trans (loadItem_eq cfg true hid i w hg hacc), ?_, putItem_good (tagged_ne_zero hid) hg, fun ha => ha.putObj _ _ _⟩
    refine .stored (putItem_delivered _ _ _ _ _) (h.imp_right (Or.imp (fun hb => ?_) (Or.imp_right fun hd => ?_)))
    · obtain ⟨p, hb'⟩ := Option.isSome_iff_exists.mp hb
      obtain ⟨inner, f, outer, h1, _, h3, _⟩ := setBound_split hb'
      refine ⟨f, by rw [h1]; simp, ?_⟩
      rcases setFrame_split h3 with ⟨pre, post, e1, e2⟩ | ⟨pre, k, n1, n2, post, e1, e2⟩
      · exact Or.inl ⟨p, by rw [e1]; simp⟩
      · exact Or.inr ⟨k, _, p, by rw [e1]; exact List.mem_append_right _ (List.mem_cons_self ..), by simp⟩
    · exact fun s hs => not_captures.mp ((boundDa_none_iff _).mp hd s hs)
  · simp only [not_or] at h
    obtain ⟨h1, h2, h3, h4⟩ := h
    have hok : ok = false := by simpa using h1
    have hb : boundCell i.ty w.mem.frames = none := by simpa using h2
    have hc : cfg.capture = true := by simpa using h3
    subst hok
    cases hd : boundDa w.mem.frames with
    | none => exact absurd hd h4
    | some d =>
      obtain ⟨k, ns⟩ := d
      obtain ⟨es, he⟩ := loadItemM_lost cfg hid i w hg hacc hb hc hd
      refine ⟨es, _, he, ?_, ?_, ?_⟩
      · obtain ⟨inner, pre, post, outer, e1, e2, e3⟩ := setBoundDa_split hd
        have hn := fun s hs => not_mem_frameTys.mp (boundCell_none hb s hs)
        have hnil := boundDa_good hg hd
        rw [e3]
        rw [e1] at hn ⊢
        refine .lost inner pre k _ ns post outer hc hn (fun s hs => not_captures.mp (e2 s hs)) ?_
        by_cases hk : k = 0#32
        · exact Or.inr ⟨by simp [hk], hnil hk⟩
        · exact Or.inl (by simp [hk])
      · have := setBoundDa_good (k' := if k = 0#32 then id else k) (add := []) hd (fun hk => ?_) (Or.inl rfl) hg
        · simpa using this
        · rw [List.append_nil]
          by_cases h0 : k = 0#32
          · exact boundDa_good hg hd h0
          · rw [if_neg h0] at hk; exact absurd hk h0
      · intro ha hc' k2 ns2 hd2
        rw [boundDa_setBoundDa hd] at hd2
        simp only [Option.some.injEq, Prod.mk.injEq] at hd2
        rw [← hd2.1]
        by_cases hk : k = 0#32
        · simp [hk]
        · rw [if_neg hk]; exact ha hc k ns hd

theorem triggerItemsM_storedOrLost (cfg : Cfg) {id : Id} (hid : id.Tagged) (is : List (OnItem × Bool)) (w : World AbsStore) (hg : FramesGood w.mem.frames)
    (hacc : (∃ i ∈ onItems (is.map Prod.fst), i.isAccum = true) → AccOk cfg id w.mem.frames) :
    ∃ es fs, triggerItemsM cfg id is w = some ((), w.put es fs) ∧ StoredOrLostAll cfg id is w.mem.frames fs ∧ FramesGood fs := by
  induction is generalizing w with
  | nil => exact ⟨[], w.mem.frames, rfl, .nil _, hg⟩
  | cons x is ih =>
    obtain ⟨x, ok⟩ := x
    cases x with
    | item i =>
      obtain ⟨es, fs, h1, h2, h3, h4⟩ := loadItemM_storedOrLost cfg ok hid i w hg (fun h => hacc ⟨i, by simp [onItems], h⟩)
      obtain ⟨es', fs', g1, g2, g3⟩ := ih (w.put es fs) h3 (fun ⟨j, hj, h⟩ => h4 (hacc ⟨j, by simp only [List.map_cons, onItems, List.filterMap_cons, List.mem_cons]; exact Or.inr hj, h⟩))
      refine ⟨es' ++ es, fs', ?_, .item h2 g2, g3⟩
      show (loadItemM cfg ok id i >>= fun _ => triggerItemsM cfg id is) w = _
      rw [bind_apply, h1, Option.bind_some, g1]
      simp [World.put]
    | action tag =>
      obtain ⟨es', fs', g1, g2, g3⟩ := ih { w with trace := .called tag :: w.trace } hg (by simpa [onItems] using hacc)
      refine ⟨es' ++ [.called tag], fs', ?_, .action g2, g3⟩
      show (emit (.called tag) >>= fun _ => triggerItemsM cfg id is) w = _
      rw [bind_apply]
      simp only [emit, Option.bind_some]
      rw [g1]
      simp [World.put]

/-! ## The properties -/

/-- **C60 (partial), the items.** Memory may be short for any of the items of an `on_error` guard, in any consistent state of the thread: the guard stores its items, without
undefined behaviour, and the storage remains consistent. Each item is stored as with enough memory, or, if it needs a node and there is no memory for it, is lost; storage is
otherwise unchanged, and so are the current error id, the id counter and the exceptions being handled. *Missing*: items that modify an object of type `E`, when the innermost
capturing scope has captured objects of another error first (`AccumulateOk`; see `C11_refuted_accumulate`). -/
theorem C60_items_partial (cfg : Cfg) {id : Id} (hid : id.Tagged) (items : List (OnItem × Bool)) (w : World PtrStore) (hw : ThreadOk w)
    (ha : AccumulateOk cfg id (onItems (items.map Prod.fst)) (scopes w)) :
    ∃ w', triggerItemsM cfg id items w = some ((), w') ∧ ThreadOk w' ∧ StoredOrLostAll cfg id items (scopes w) (scopes w') ∧ SameOtherwise w w' := by
  obtain ⟨es, fs, h1, h2, h3⟩ := triggerItemsM_storedOrLost cfg hid items (absW w) hw.good.4 ha.acc
  obtain ⟨w', e1, e2, e3⟩ := run_abs (sim_triggerItemsM cfg id items) hw h1 (put_good hw.good h3)
  refine ⟨w', e1, e3, ?_, sameOtherwise_put e2⟩
  have : scopes w' = fs := by unfold scopes; rw [e2]; rfl
  rw [this]
  exact h2

/-- The guarded code ended with an exception. -/
def threw : Out → Bool
  | .exc _ => true
  | _ => false

/-- The error id for which an `on_error` guard stores its items; `saved`: the current id when it was created; `w`: the state at its end. -/
def guardedId (cfg : Cfg) (saved : Id) (o : Out) (w : World PtrStore) : Id :=
  if w.cur ≠ saved then w.cur else match o with
    | .exc _ => nextId cfg w
    | _ => 0#32

/-- **C60 (partial), the guard.** The guarded code ends in any way (`o`: a result, an error or an exception). Whatever the available memory, the guard ends in the same way:
the error or exception is passed on unchanged, and the items are stored or lost as above. -/
theorem C60_guard_partial (cfg : Cfg) (items : List (OnItem × Bool)) (body : Comp PtrStore Out) {w w1 : World PtrStore} {o : Out} (hw : ThreadOk w)
    (hb : body w = some (o, w1)) (hw1 : ThreadOk w1) (ha : AccumulateOk cfg (guardedId cfg w.cur o w1) (onItems (items.map Prod.fst)) (scopes w1)) :
    ∃ w', onErrorGuardM cfg items body w = some (o, w') ∧ ThreadOk w' ∧
      (if guardedId cfg w.cur o w1 = 0#32 then w' = w1 else StoredOrLostAll cfg (guardedId cfg w.cur o w1) items (scopes w1) (scopes w')) ∧ w'.handling = w1.handling := by
  have hcur : (currentId : Comp PtrStore Id) w = some (w.cur, w) := by
    have h : w.cur = 0#32 ∨ w.cur.Tagged := hw.good.1
    unfold currentId
    rw [if_pos h]
  have hcur1 : (currentId : Comp PtrStore Id) w1 = some (w1.cur, w1) := by
    have h : w1.cur = 0#32 ∨ w1.cur.Tagged := hw1.good.1
    unfold currentId
    rw [if_pos h]
  have hrun : ∀ (id : Id) (w2 : World PtrStore), (checkId cfg w.cur (threw o) : Comp PtrStore Id) w1 = some (id, w2) →
      onErrorGuardM cfg items body w = ((if id ≠ 0#32 then do assertTagged id; triggerItemsM cfg id items else pure ()) >>= fun _ => pure o : Comp PtrStore Out) w2 := by
    intro id w2 h
    unfold onErrorGuardM
    rw [bind_apply, hcur, Option.bind_some]
    simp only
    rw [bind_apply, hb, Option.bind_some]
    simp only
    cases o <;> (simp only [threw] at h; simp only; rw [bind_apply, h, Option.bind_some]; by_cases hid : id = 0#32 <;> simp [hid])
  have hitems : ∀ (id : Id) (w2 : World PtrStore), id.Tagged → ThreadOk w2 → scopes w2 = scopes w1 → w2.handling = w1.handling →
      id = guardedId cfg w.cur o w1 → (checkId cfg w.cur (threw o) : Comp PtrStore Id) w1 = some (id, w2) →
      ∃ w', onErrorGuardM cfg items body w = some (o, w') ∧ ThreadOk w' ∧ StoredOrLostAll cfg id items (scopes w1) (scopes w') ∧ w'.handling = w1.handling := by
    intro id w2 hid h2 hs hh he hck
    subst he
    obtain ⟨w', e1, e2, e3, e4⟩ := C60_items_partial cfg hid items w2 h2 (by rw [hs]; exact ha)
    refine ⟨w', ?_, e2, by rw [← hs]; exact e3, by rw [e4.2.2, hh]⟩
    rw [hrun _ _ hck, if_pos (tagged_ne_zero hid), bind_apply, bind_apply]
    simp only [assertTagged, hid, if_true, Option.bind_some, e1]
    rfl
  by_cases hne : w1.cur ≠ w.cur
  · have hck : (checkId cfg w.cur (threw o) : Comp PtrStore Id) w1 = some (w1.cur, w1) := by
      unfold checkId
      rw [bind_apply, hcur1, Option.bind_some]
      simp only [hne, ne_eq, not_false_eq_true, if_true]
      rfl
    have hgid : guardedId cfg w.cur o w1 = w1.cur := by simp [guardedId, hne]
    have hok : w1.cur = 0#32 ∨ w1.cur.Tagged := hw1.good.1
    rcases hok with h0 | ht
    · refine ⟨w1, ?_, hw1, by rw [hgid, if_pos h0], rfl⟩
      rw [hrun _ _ hck, if_neg (by simp [h0])]
      rfl
    · obtain ⟨w', e1, e2, e3, e4⟩ := hitems w1.cur w1 ht hw1 rfl rfl hgid.symm hck
      exact ⟨w', e1, e2, by rw [hgid, if_neg (tagged_ne_zero ht)]; exact e3, e4⟩
  · have heq : w1.cur = w.cur := by simpa using hne
    by_cases hx : ∃ e, o = .exc e
    · obtain ⟨e, rfl⟩ := hx
      have hgid : guardedId cfg w.cur (.exc e) w1 = nextId cfg w1 := by simp [guardedId, heq]
      have ht : (nextId cfg w1).Tagged := nextId_tagged (cfg := cfg) (w := absW w1) hw1.good
      have hck : (checkId cfg w.cur (threw (.exc e)) : Comp PtrStore Id) w1 = some (nextId cfg w1,
          { w1 with counter := nextId cfg w1, cur := nextId cfg w1, ticks := w1.ticks + 1, trace := .gen (nextId cfg w1) :: w1.trace }) := by
        unfold checkId
        rw [bind_apply, hcur1, Option.bind_some]
        simp only [heq, ne_eq, not_true_eq_false, if_false, if_true, threw]
        rfl
      have hok2 : ThreadOk { w1 with counter := nextId cfg w1, cur := nextId cfg w1, ticks := w1.ticks + 1, trace := .gen (nextId cfg w1) :: w1.trace } :=
        ⟨hw1.inv, gen_good (cfg := cfg) hw1.good⟩
      obtain ⟨w', e1, e2, e3, e4⟩ := hitems _ _ ht hok2 rfl rfl hgid.symm hck
      exact ⟨w', e1, e2, by rw [hgid, if_neg (tagged_ne_zero ht)]; exact e3, e4⟩
    · have hgid : guardedId cfg w.cur o w1 = 0#32 := by
        cases o with
        | exc e => exact absurd ⟨e, rfl⟩ hx
        | _ => simp [guardedId, heq]
      have hck : (checkId cfg w.cur (threw o) : Comp PtrStore Id) w1 = some (0#32, w1) := by
        unfold checkId
        rw [bind_apply, hcur1, Option.bind_some]
        have ht : threw o = false := by
          cases o with
          | exc e => exact absurd ⟨e, rfl⟩ hx
          | _ => rfl
        simp only [heq, ht, ne_eq, not_true_eq_false, if_false, Bool.false_eq_true]
        rfl
      refine ⟨w1, ?_, hw1, by rw [hgid, if_pos rfl], rfl⟩
      rw [hrun _ _ hck]
      rfl

/-- **C60, enough memory.** If there is memory for all items, this is the guard of the other properties. -/
theorem C60_enough {M : Type} [Store M] (cfg : Cfg) (items : List OnItem) (body : Comp M Out) :
    onErrorGuardM cfg (items.map (·, true)) body = onErrorGuard cfg items body := by
  have h : ∀ id, (triggerItemsM cfg id (items.map (·, true)) : Comp M Unit) = triggerItems cfg id items := by
    intro id
    induction items with
    | nil => rfl
    | cons x is ih => cases x <;> simp [triggerItemsM, triggerItems, ih, loadItemM_ok]
  unfold onErrorGuardM onErrorGuard
  simp only [h]
  rfl

/-! ## The hypotheses can be met -/

/-- A capturing scope inside a scope that handles type 10. -/
def memScopes : Comp PtrStore Unit := do
  pushCtx [.obj 10]
  pushCtx [.da]

/-- Items of types 10 (a slot exists), 11 (memory), 12 (no memory), 12 again (memory), and a function modifying an object of type 13 (no memory). -/
def memItems : List (OnItem × Bool) :=
  [(.item (.obj 10 1), false), (.item (.obj 11 2), true), (.item (.deferred 12 7 3), false), (.item (.obj 12 4), true), (.item (.accum 13 8 (· + 1)), false), (.action 9, false)]

/-- An error is reported inside the guard; the objects of types 10, 11 and the second one of type 12 arrive. -/
example : ((memScopes >>= fun _ => onErrorGuardM exCfg memItems (eval exCfg (.newError [] (fun id => .ret (.err (.plain id)))))) (initThread 1#32)).map (fun r => (r.1, scopes r.2)) =
    some (.err (.plain 5#32), [[.da 5#32 [(11, some (5#32, 2)), (12, some (5#32, 4))]], [.obj 10 (some (5#32, 1))]]) := by
  decide +kernel

/-- No memory at all: the error is passed on without the objects. -/
example : ((memScopes >>= fun _ => onErrorGuardM exCfg [(.item (.obj 11 2), false), (.item (.accum 13 8 (· + 1)), false)]
    (eval exCfg (.newError [] (fun id => .ret (.err (.plain id)))))) (initThread 1#32)).map (fun r => (r.1, scopes r.2)) =
    some (.err (.plain 5#32), [[.da 5#32 []], [.obj 10 none]]) := by
  decide +kernel

end Leaf
