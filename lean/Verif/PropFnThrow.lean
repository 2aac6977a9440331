import Verif.FnThrowModel
import Verif.PropAlloc
import Verif.PropFn

/-!
# C68: functions passed to `new_error`, `load` and `on_error` that throw
-/

namespace Leaf

/-! ## Specification -/

/-- The type of the object an argument is or makes. -/
def FnArg.ty : FnArg → Option Ty
  | .obj ty _ | .deferred ty _ _ | .accum ty _ _ => some ty
  | .action _ _ => none

/-- The argument is a function taking `E &`. -/
def FnArg.isAccum : FnArg → Bool
  | .accum _ _ _ => true
  | _ => false

/-- The exception of the argument gets out of the code that loads it. A function returning an object is called if there is a slot for the object (in `on_error`: one that does not have an
object of this error), else if capturing is enabled, even if no scope captures. A function taking `E &` gets the object in the slot, else a default one; if that is captured in
`on_error`, its exception does not get out. -/
def FnArg.Throws (cfg : Cfg) (onError : Bool) (id : Id) (ss : List Scope) : FnArg → Prop
  | .obj _ _ => False
  | .deferred ty _ r => r = none ∧ ((¬ NoPlace ty ss ∧ (onError = true → available ty id ss = none)) ∨ (NoPlace ty ss ∧ cfg.capture = true))
  | .accum ty _ f =>
    (¬ NoPlace ty ss ∧ (f ((available ty id ss).getD (cfg.dflt ty))).2 = true) ∨
      (onError = false ∧ NoPlace ty ss ∧ cfg.capture = true ∧ (∃ s ∈ ss, Captures s) ∧ (f (cfg.dflt ty)).2 = true)
  | .action _ throws => throws = true

/-- The argument an item is: it does not throw. -/
def Item.arg : Item → FnArg
  | .obj ty v => .obj ty v
  | .deferred ty tag v => .deferred ty tag (some v)
  | .accum ty tag f => .accum ty tag fun v => (f v, false)
def OnItem.arg : OnItem → FnArg
  | .item i => i.arg
  | .action tag => .action tag false

/-! ## Lemmas -/

section
variable {M : Type} [Store M]

theorem loadArgX_item (mem : Nat → Bool) (cfg : Cfg) (onError : Bool) (id : Id) (i : Item) :
    (loadArgX mem cfg onError id i.arg : CompT M Bool) = loadItemT mem cfg onError id i := by
  cases i with
  | obj ty v => rfl
  | deferred ty tag v =>
    simp only [Item.arg, loadArgX, loadItemT, loadSlotDeferredX, loadSlotDeferredT]
    congr 1
  | accum ty tag f =>
    simp only [Item.arg, loadArgX, loadItemT, loadSlotAccumulateX, loadSlotAccumulateT, dynamicAccumulateX, dynamicAccumulateT]
    congr 1; funext _; congr 1; funext p
    cases p with
    | none => rfl
    | some p =>
      dsimp only
      cases p.hasValue id <;> rfl

/-- If `x` does not terminate the program, its result has `Q`. -/
def EndsT {α : Type} (x : CompT M α) (Q : α → Prop) : Prop := ∀ n w a n' w', x n w = some (some (a, n'), w') → Q a

omit [Store M] in
theorem EndsT.pure {α : Type} {a : α} {Q : α → Prop} (h : Q a) : EndsT (Pure.pure a : CompT M α) Q := by
  intro n w b n' w' e
  rw [pureT_apply] at e
  cases e
  exact h

omit [Store M] in
theorem EndsT.bind {α β : Type} {x : CompT M α} {f : α → CompT M β} {Q : β → Prop} (hf : ∀ a, EndsT (f a) Q) : EndsT (x >>= f) Q := by
  intro n w b n' w' e
  rw [bindT_apply] at e
  cases hx : x n w with
  | none => simp [hx] at e
  | some q =>
    obtain ⟨_ | ⟨a, m⟩, w1⟩ := q
    · simp [hx] at e
    · rw [hx] at e
      exact hf a m w1 b n' w' e

end

/-- What the innermost capturing scope captured first is the same as before, or of error `id`. -/
def KeyTo (id : Id) (fs fs' : List Scope) : Prop := ∀ k', (boundDa fs').map Prod.fst = some k' → (boundDa fs).map Prod.fst = some k' ∨ k' = id

theorem KeyTo.refl (id : Id) (fs : List Scope) : KeyTo id fs fs := fun _ h => Or.inl h

theorem KeyTo.trans {id : Id} {f g h : List Scope} (h1 : KeyTo id f g) (h2 : KeyTo id g h) : KeyTo id f h := by
  intro k hk
  rcases h2 k hk with h | h
  · exact h1 k h
  · exact Or.inr h

theorem KeyTo.acc {cfg : Cfg} {id : Id} {f g : List Scope} (h : KeyTo id f g) (ha : AccOk cfg id f) : AccOk cfg id g := by
  intro hc k ns hd
  rcases h k (by simp [hd]) with h | h
  · cases hf : boundDa f with
    | none => simp [hf] at h
    | some d =>
      obtain ⟨k', ns'⟩ := d
      simp only [hf, Option.map_some, Option.some.injEq] at h
      subst h
      exact ha hc _ _ hf
  · exact Or.inr h

theorem keyTo_setBound (id : Id) (ty : Ty) (c : Cell) (fs : List Scope) : KeyTo id fs (setBound ty c fs) := by
  intro k h
  rw [boundDa_key_setBound] at h
  exact Or.inl h

theorem keyTo_daAppendT {mem : Nat → Bool} {ty : Ty} {id : Id} {v : Val} {n : Nat} {w w' : World AbsStore} {r : Option (Bool × Nat)} (h : daAppendT mem ty id v n w = some (r, w')) :
    KeyTo id w.mem.frames w'.mem.frames := by
  simp only [daAppendT, bindT_apply, allocate_apply, Option.bind_some] at h
  cases hm : mem n with
  | false =>
    simp only [hm, Bool.false_eq_true, if_false, pureT_apply, Option.some.injEq, Prod.mk.injEq] at h
    rw [← h.2]
    exact .refl _ _
  | true =>
    simp only [hm, if_true, bindT_apply, lift_apply, daAppend, Store.daAppend] at h
    cases hd : boundDa w.mem.frames with
    | none => simp [hd] at h
    | some d =>
      obtain ⟨k, ns⟩ := d
      simp only [hd] at h
      split at h
      · simp at h
      · split at h
        · simp at h
        · simp only [Option.map_some, Option.bind_some, pureT_apply, Option.some.injEq, Prod.mk.injEq] at h
          rw [← h.2]
          intro k' hk
          rw [boundDa_setBoundDa hd] at hk
          simp only [hd]
          exact Or.inl hk

theorem keyTo_dynamicLoadT {mem : Nat → Bool} {ty : Ty} {id : Id} {v : Val} {n : Nat} {w w' : World AbsStore} {r : Option (Bool × Nat)} (h : dynamicLoadT mem id ty v n w = some (r, w')) :
    KeyTo id w.mem.frames w'.mem.frames := by
  simp only [dynamicLoadT, bindT_apply, lift_apply, daKey, Store.daKey, Option.map_some, Option.bind_some] at h
  cases hd : boundDa w.mem.frames with
  | none =>
    simp only [hd, Option.map_none, pureT_apply, Option.some.injEq, Prod.mk.injEq] at h
    rw [← h.2]
    exact .refl _ _
  | some d =>
    obtain ⟨k, ns⟩ := d
    simp only [hd, Option.map_some] at h
    split at h
    · exact keyTo_daAppendT h
    · rw [bindT_apply, lift_apply] at h
      cases hr : (daReset id : Comp AbsStore Unit) w with
      | none => simp [hr] at h
      | some q =>
        obtain ⟨⟨⟩, w1⟩ := q
        rw [hr] at h
        refine KeyTo.trans (g := w1.mem.frames) ?_ (keyTo_daAppendT h)
        simp only [daReset, Store.daReset, hd] at hr
        cases ns with
        | cons _ _ => simp at hr
        | nil =>
          simp only [Option.map_some, Option.some.injEq, Prod.mk.injEq, true_and] at hr
          rw [← hr]
          intro k' hk
          rw [boundDa_setBoundDa hd] at hk
          simp only [Option.map_some, Option.some.injEq] at hk
          exact Or.inr hk.symm

/-- A good state with the same scopes as `w`. -/
def KeptX (id : Id) (w w' : World PtrStore) : Prop := ThreadOk w' ∧ shape (scopes w') = shape (scopes w) ∧ KeyTo id (scopes w) (scopes w')

theorem KeptX.emit {id : Id} {w w' : World PtrStore} (hw : KeptX id w w') (e : Event) : KeptX id w { w' with trace := e :: w'.trace } :=
  ⟨⟨hw.1.inv, ⟨hw.1.good.1, hw.1.good.2, hw.1.good.3, hw.1.good.4⟩⟩, hw.2⟩

theorem KeptX.refl {id : Id} {w w' : World PtrStore} (hw : ThreadOk w') (h : scopes w' = scopes w) : KeptX id w w' := ⟨hw, by rw [h], by rw [h]; exact .refl _ _⟩

/-- `x` ends, with an exception exactly if `P`. -/
def RunsX (id : Id) (x : CompT PtrStore Bool) (n : Nat) (w : World PtrStore) (P : Prop) : Prop :=
  ∃ b n' w', x n w = some (some (b, n'), w') ∧ KeptX id w w' ∧ (b = false ↔ P)

theorem RunsX.iff {id : Id} {x : CompT PtrStore Bool} {n : Nat} {w : World PtrStore} {P Q : Prop} (h : RunsX id x n w P) (e : P ↔ Q) : RunsX id x n w Q := by
  obtain ⟨b, n', w', h1, h2, h3⟩ := h
  exact ⟨b, n', w', h1, h2, h3.trans e⟩

theorem ThreadOk.emit {w : World PtrStore} (hw : ThreadOk w) (e : Event) : ThreadOk { w with trace := e :: w.trace } :=
  ⟨hw.inv, ⟨hw.good.1, hw.good.2, hw.good.3, hw.good.4⟩⟩

theorem slotSet_run {cfg : Cfg} {id : Id} (hid : id.Tagged) {ty : Ty} (v : Val) {w : World PtrStore} (hw : ThreadOk w) {c : Cell} (hb : boundCell ty (scopes w) = some c) :
    ∃ w', slotSet ty id v w = some ((), w') ∧ KeptX id w w' := by
  obtain ⟨r, v', h1, h2, h3⟩ := totT_loadSlotT (fun _ => true) (shape (absW w).mem.frames) cfg false hid ty v 0 (absW w) hw.good rfl
  obtain ⟨w', he, e2, e3, _⟩ := simT_run (simT_loadSlotT (n := 0) (fun _ => true) cfg false id ty v) hw.inv (.refl _) h1
  have hg := PtrStore.slotGet_ok hw.inv ty
  have hs : (PtrStore.abs w.mem).frames = scopes w := rfl
  rw [hs, hb] at hg
  simp only [loadSlotT, bindT_apply, lift_apply, assertTagged, hid, if_true, Option.map_some, Option.bind_some, slotGet, Store.slotGet, hg, Bool.not_false, Bool.true_or] at he
  cases hss : (slotSet ty id v : Comp PtrStore Unit) w with
  | none => simp [hss] at he
  | some q =>
    obtain ⟨⟨⟩, w1⟩ := q
    simp only [hss, Option.map_some, Option.bind_some, pureT_apply, Option.some.injEq, Prod.mk.injEq] at he
    obtain ⟨m', s1, s2, _⟩ := PtrStore.slotSet_ok hw.inv ty id v (x := ⟨setBound ty (some (id, v)) (scopes w)⟩) (by simp only [Store.slotSet, hs, hb])
    have hw1 : w1 = { w with mem := m' } := by
      simp only [slotSet, Store.slotSet, s1, Option.map_some, Option.some.injEq, Prod.mk.injEq, true_and] at hss
      exact hss.symm
    refine ⟨w1, rfl, by rw [he.2]; exact ⟨e3, e2 ▸ h2⟩, by rw [he.2]; unfold scopes; rw [e2]; exact (h3 _ _ he.1.symm).1, ?_⟩
    have : scopes w1 = setBound ty (some (id, v)) (scopes w) := by
      rw [hw1]
      show (PtrStore.abs m').frames = _
      rw [s2]
    rw [this]
    exact keyTo_setBound id ty _ _

theorem dynamicLoadT_run (mem : Nat → Bool) {id : Id} (hid : id.Tagged) {ty : Ty} (v : Val) (n : Nat) {w : World PtrStore} (hw : ThreadOk w) (hb : boundCell ty (scopes w) = none) :
    RunsX id (dynamicLoadT mem id ty v) n w ((∃ s ∈ scopes w, Captures s) ∧ mem n = false) := by
  obtain ⟨b, n', v', h1, h2, h3⟩ := dynamicLoadT_ok mem n (tagged_ne hid) ty v hw.good hb
  obtain ⟨w', he, e2, e3, _⟩ := simT_run (simT_dynamicLoadT (n := 0) mem id ty v) hw.inv (.refl _) h1
  obtain ⟨b', n'', e, hx⟩ := dynamicLoadT_mem hw.inv he
  cases e
  exact ⟨b, n', w', he, ⟨⟨e3, e2 ▸ h2⟩, by unfold scopes; rw [e2]; exact h3, by unfold scopes; rw [e2]; exact keyTo_dynamicLoadT h1⟩, hx⟩

theorem RunsX.swallow {id : Id} {x : CompT PtrStore Bool} {n : Nat} {w : World PtrStore} {P : Prop} (b : Bool) (h : RunsX id x n w P) : RunsX id (dynamicT b x) n w (b = false ∧ P) := by
  cases b with
  | false => exact h.iff (by simp)
  | true =>
    obtain ⟨b, n', w', h1, h2, h3⟩ := h
    exact ⟨true, n', w', by simp [dynamicT, Leaf.swallow, bindT_apply, h1, pureT_apply], h2, by simp⟩

theorem dynamicAccumulateX_run (mem : Nat → Bool) (cfg : Cfg) (hc : cfg.capture = true) {id : Id} (hid : id.Tagged) {ty : Ty} (tag : Nat) (f : Val → Val × Bool) (n : Nat) {w : World PtrStore}
    (hw : ThreadOk w) (hb : boundCell ty (scopes w) = none) (ha : AccOk cfg id (scopes w)) :
    RunsX id (dynamicAccumulateX mem cfg id ty tag f) n w ((∃ s ∈ scopes w, Captures s) ∧ (mem n = false ∨ (f (cfg.dflt ty)).2 = true)) := by
  obtain ⟨b, n', w', h1, h2, h3⟩ := dynamicLoadT_run mem hid (f (cfg.dflt ty)).1 n hw hb
  have hk := PtrStore.daKey_ok hw.inv
  have hs : (PtrStore.abs w.mem).frames = scopes w := rfl
  rw [hs] at hk
  cases hd : boundDa (scopes w) with
  | none =>
    have hx : ¬ ∃ s ∈ scopes w, Captures s := fun h => by have := (boundDa_isSome _).mpr h; simp [hd] at this
    rw [hd] at hk
    refine ⟨true, n, w, ?_, .refl hw rfl, by simp [hx]⟩
    simp only [dynamicAccumulateX, bindT_apply, lift_apply, daKey, Store.daKey, hk, Option.map_none, Option.map_some, Option.bind_some, pureT_apply]
  | some d =>
    obtain ⟨k, ns⟩ := d
    have hx : ∃ s ∈ scopes w, Captures s := (boundDa_isSome _).mp (by simp [hd])
    have hkk := ha hc k ns hd
    rw [hd] at hk
    have key : dynamicAccumulateX mem cfg id ty tag f n w = (dynamicLoadT mem id ty (f (cfg.dflt ty)).1 >>= fun b => if b then do
        lift (emit (.called tag)); lift (emit (.offered id ty (f (cfg.dflt ty)).1))
        return !(f (cfg.dflt ty)).2
      else return false : CompT PtrStore Bool) n w := by
      unfold dynamicAccumulateX dynamicLoadT
      simp only [bindT_apply, lift_apply, daKey, Store.daKey, hk, Option.map_some, Option.bind_some]
      rcases hkk with rfl | rfl
      · have h0 : ¬ (0#32 = id) := fun e => tagged_ne hid e.symm
        simp only [h0, if_false, ne_eq, not_true_eq_false, bindT_apply, lift_apply]
        cases (daReset id : Comp PtrStore Unit) w with
        | none => rfl
        | some q =>
          simp only [Option.map_some, Option.bind_some]
      · simp only [if_true, ne_eq, tagged_ne hid, not_false_eq_true, bindT_apply]
    rw [bindT_apply, h1] at key
    simp only [hx, true_and] at h3 ⊢
    cases b with
    | false =>
      refine ⟨false, n', w', key, h2, ?_⟩
      simp [h3.mp rfl]
    | true =>
      have hm : mem n = true := by
        cases hm : mem n
        · exact absurd (h3.mpr hm) (by simp)
        · rfl
      refine ⟨!(f (cfg.dflt ty)).2, n', _, key, (h2.emit _).emit _, ?_⟩
      simp [hm]

theorem loadArgX_run (mem : Nat → Bool) (cfg : Cfg) (onError : Bool) {id : Id} (hid : id.Tagged) (a : FnArg) (n : Nat) {w : World PtrStore} (hw : ThreadOk w)
    (ha : a.isAccum = true → AccOk cfg id (scopes w)) :
    RunsX id (loadArgX mem cfg onError id a) n w (a.Throws cfg onError id (scopes w) ∨ (onError = false ∧ ∃ ty, a.ty = some ty ∧ NoMemoryFor mem cfg ty n w)) := by
  have hs : (PtrStore.abs w.mem).frames = scopes w := rfl
  cases a with
  | obj ty v =>
    have hg := PtrStore.slotGet_ok (hw.emit (.offered id ty v)).inv ty
    change PtrStore.slotGet ty w.mem = some (boundCell ty (scopes w)) at hg
    simp only [FnArg.Throws, false_or, FnArg.ty, Option.some.injEq, exists_eq_left']
    unfold NoMemoryFor
    rw [← bound_none_iff]
    have hstart : ∀ P, RunsX id (match boundCell ty (scopes w) with
        | some p => do
          if !onError || (p.hasValue id).isNone then lift (slotSet ty id v)
          return true
        | none => if cfg.capture then dynamicT onError (dynamicLoadT mem id ty v) else return true) n { w with trace := .offered id ty v :: w.trace } P →
        RunsX id (loadArgX mem cfg onError id (.obj ty v)) n w P := by
      rintro P ⟨b, n', w', h1, h2⟩
      refine ⟨b, n', w', ?_, h2⟩
      simp only [loadArgX, loadSlotT, bindT_apply, lift_apply, emit, assertTagged, hid, if_true, Option.map_some, Option.bind_some, slotGet, Store.slotGet, hg]
      exact h1
    refine hstart _ ?_
    have hw1 := hw.emit (.offered id ty v)
    cases hb : boundCell ty (scopes w) with
    | some c =>
      dsimp only
      split
      · obtain ⟨w', h1, h2⟩ := slotSet_run (cfg := cfg) hid v hw1 hb
        exact ⟨true, n, w', by simp only [bindT_apply, lift_apply, h1, Option.map_some, Option.bind_some, pureT_apply], h2, by simp⟩
      · exact ⟨true, n, _, rfl, .refl hw1 rfl, by simp⟩
    | none =>
      dsimp only
      by_cases hc : cfg.capture = true
      · simp only [hc, if_true]
        exact ((dynamicLoadT_run mem hid v n hw1 hb).swallow onError).iff (by simp only [true_and]; rfl)
      · simp only [hc, Bool.false_eq_true, if_false]
        exact ⟨true, n, _, rfl, .refl hw1 rfl, by simp⟩
  | deferred ty tag r =>
    have hg := PtrStore.slotGet_ok hw.inv ty
    rw [hs] at hg
    simp only [FnArg.Throws, FnArg.ty, Option.some.injEq, exists_eq_left']
    unfold NoMemoryFor
    rw [← bound_none_iff]
    cases hb : boundCell ty (scopes w) with
    | some c =>
      rw [hb] at hg
      rw [available_of_bound hb]
      by_cases hx : (!onError || (c.hasValue id).isNone) = true
      · have hx' : onError = true → c.hasValue id = none := by
          intro e
          subst e
          simpa using hx
        cases r with
        | none =>
          refine ⟨false, n, _, ?_, .refl (hw.emit (.called tag)) rfl, by simpa using hx'⟩
          simp only [loadArgX, loadSlotDeferredX, bindT_apply, lift_apply, assertTagged, hid, if_true, Option.map_some, Option.bind_some, slotGet, Store.slotGet, hg, hx, emit,
            pureT_apply]
        | some v =>
          obtain ⟨w', h1, h2⟩ := slotSet_run (cfg := cfg) hid v ((hw.emit (.called tag)).emit (.offered id ty v)) hb
          refine ⟨true, n, w', ?_, h2, by simp⟩
          simp only [loadArgX, loadSlotDeferredX, bindT_apply, lift_apply, assertTagged, hid, if_true, Option.map_some, Option.bind_some, slotGet, Store.slotGet, hg, hx, emit,
            pureT_apply, h1]
      · refine ⟨true, n, w, ?_, .refl hw rfl, ?_⟩
        · simp only [loadArgX, loadSlotDeferredX, bindT_apply, lift_apply, assertTagged, hid, if_true, Option.map_some, Option.bind_some, slotGet, Store.slotGet, hg, hx]
          rfl
        · cases onError <;> simp at hx ⊢
          intro _ e
          simp [e] at hx
    | none =>
      rw [hb] at hg
      by_cases hc : cfg.capture = true
      · cases r with
        | none =>
          refine ⟨false, n, _, ?_, .refl (hw.emit (.called tag)) rfl, by simp [hc]⟩
          simp only [loadArgX, loadSlotDeferredX, bindT_apply, lift_apply, assertTagged, hid, if_true, Option.map_some, Option.bind_some, slotGet, Store.slotGet, hg, hc, emit,
            pureT_apply]
        | some v =>
          obtain ⟨b, n', w', h1, h2, h3⟩ := (dynamicLoadT_run mem hid v n ((hw.emit (.called tag)).emit (.offered id ty v)) hb).swallow onError
          refine ⟨b, n', w', ?_, h2, h3.trans (by simp only [hc, reduceCtorEq, false_and, false_or, true_and]; rfl)⟩
          simp only [loadArgX, loadSlotDeferredX, bindT_apply, lift_apply, assertTagged, hid, if_true, Option.map_some, Option.bind_some, slotGet, Store.slotGet, hg, hc, emit]
          exact h1
      · refine ⟨true, n, w, ?_, .refl hw rfl, by simp [hc]⟩
        simp only [loadArgX, loadSlotDeferredX, bindT_apply, lift_apply, assertTagged, hid, if_true, Option.map_some, Option.bind_some, slotGet, Store.slotGet, hg, hc]
        rfl
  | accum ty tag f =>
    have hg := PtrStore.slotGet_ok hw.inv ty
    rw [hs] at hg
    simp only [FnArg.Throws, FnArg.ty, Option.some.injEq, exists_eq_left']
    unfold NoMemoryFor
    rw [← bound_none_iff]
    cases hb : boundCell ty (scopes w) with
    | some c =>
      rw [hb] at hg
      rw [available_of_bound hb]
      obtain ⟨w', h1, h2⟩ := slotSet_run (cfg := cfg) hid (f ((c.hasValue id).getD (cfg.dflt ty))).1 hw hb
      refine ⟨!(f ((c.hasValue id).getD (cfg.dflt ty))).2, n, _, ?_, (h2.emit (.called tag)).emit (.offered id ty (f ((c.hasValue id).getD (cfg.dflt ty))).1), by simp⟩
      simp only [loadArgX, loadSlotAccumulateX, bindT_apply, lift_apply, assertTagged, hid, if_true, Option.map_some, Option.bind_some, slotGet, Store.slotGet, hg]
      cases hv : c.hasValue id <;> simp only [hv, Option.getD] at h1 ⊢ <;> simp only [h1, Option.map_some, Option.bind_some, emit, pureT_apply]
    | none =>
      rw [hb] at hg
      by_cases hc : cfg.capture = true
      · obtain ⟨b, n', w', h1, h2, h3⟩ := (dynamicAccumulateX_run mem cfg hc hid tag f n hw hb (ha rfl)).swallow onError
        refine ⟨b, n', w', ?_, h2, h3.trans ?_⟩
        · simp only [loadArgX, loadSlotAccumulateX, bindT_apply, lift_apply, assertTagged, hid, if_true, Option.map_some, Option.bind_some, slotGet, Store.slotGet, hg, hc]
          exact h1
        · simp only [hc, not_true_eq_false, false_and, false_or, true_and]
          constructor
          · rintro ⟨h1, h2, h3 | h3⟩
            · exact Or.inr ⟨h1, h2, h3⟩
            · exact Or.inl ⟨h1, h2, h3⟩
          · rintro (⟨h1, h2, h3⟩ | ⟨h1, h2, h3⟩)
            · exact ⟨h1, h2, Or.inr h3⟩
            · exact ⟨h1, h2, Or.inl h3⟩
      · refine ⟨true, n, w, ?_, .refl hw rfl, by simp [hc]⟩
        simp only [loadArgX, loadSlotAccumulateX, bindT_apply, lift_apply, assertTagged, hid, if_true, Option.map_some, Option.bind_some, slotGet, Store.slotGet, hg, hc]
        rfl
  | action tag t =>
    refine ⟨!t, n, _, ?_, .refl (hw.emit (.called tag)) rfl, by simp [FnArg.Throws, FnArg.ty]⟩
    simp only [loadArgX, bindT_apply, lift_apply, emit, Option.map_some, Option.bind_some, pureT_apply]

/-- If a function taking `E &` is among the arguments, the innermost capturing scope, if any, has captured nothing, or first captured an object of this same error (otherwise loading destroys
storage in use, see `C11_refuted_accumulate`). -/
def AccumArgsOk (cfg : Cfg) (id : Id) (args : List FnArg) (ss : List Scope) : Prop :=
  (∃ a ∈ args, a.isAccum = true) → cfg.capture = true →
    ∀ inner pre k ns post outer, ss = inner ++ (pre ++ .da k ns :: post) :: outer → (∀ s ∈ inner, ¬ Captures s) → k = 0#32 ∨ k = id

theorem AccumArgsOk.acc {cfg : Cfg} {id : Id} {args : List FnArg} {ss : List Scope} (h : AccumArgsOk cfg id args ss) : (∃ a ∈ args, a.isAccum = true) → AccOk cfg id ss := by
  intro hx hc k ns hd
  obtain ⟨inner, pre, post, outer, h1, h2, _⟩ := setBoundDa_split hd
  exact h hx hc inner pre k ns post outer h1 (fun s hs => not_captures.mp (h2 s hs))

theorem loadArgsX_cons (mem : Nat → Bool) (cfg : Cfg) (onError : Bool) {id : Id} (hid : id.Tagged) (a : FnArg) (as : List FnArg) (n : Nat) {w : World PtrStore} (hw : ThreadOk w)
    (ha : a.isAccum = true → AccOk cfg id (scopes w)) :
    ∃ n' w', KeptX id w w' ∧
      (((a.Throws cfg onError id (scopes w) ∨ (onError = false ∧ ∃ ty, a.ty = some ty ∧ NoMemoryFor mem cfg ty n w)) ∧ loadArgsX mem cfg onError id (a :: as) n w = some (none, w')) ∨
      (¬ (a.Throws cfg onError id (scopes w) ∨ (onError = false ∧ ∃ ty, a.ty = some ty ∧ NoMemoryFor mem cfg ty n w)) ∧
        (∀ bs, loadArgsX mem cfg onError id (a :: bs) n w = loadArgsX mem cfg onError id bs n' w'))) := by
  obtain ⟨b, n', w', h1, h2, h3⟩ := loadArgX_run mem cfg onError hid a n hw ha
  refine ⟨n', w', h2, ?_⟩
  have hx : ∀ bs, loadArgsX mem cfg onError id (a :: bs) n w = if b then loadArgsX mem cfg onError id bs n' w' else some (none, w') := by
    intro bs
    simp only [loadArgsX, noexcept, bindT_apply, h1, Option.bind_some]
    cases b <;> simp [pureT_apply, terminate_apply]
  cases b with
  | false => exact Or.inl ⟨h3.mp rfl, hx as⟩
  | true => exact Or.inr ⟨fun h => absurd (h3.mpr h) (by simp), hx⟩

/-! ## Theorems -/

/-- **C68 (functions that do not throw), `new_error`.** -/
theorem C68_new_error_same {M : Type} [Store M] (mem : Nat → Bool) (cfg : Cfg) (items : List Item) : (newErrorX mem cfg (items.map Item.arg) : CompT M Id) = newErrorT mem cfg items := by
  have key : ∀ id, (loadArgsX mem cfg false id (items.map Item.arg) : CompT M Unit) = noexcept (loadItemsT mem cfg id items) := by
    intro id
    funext n w
    induction items generalizing n w with
    | nil => simp [loadArgsX, loadItemsT, noexcept, bindT_apply, pureT_apply]
    | cons i is ih =>
      simp only [List.map_cons, loadArgsX, loadItemsT, loadArgX_item]
      unfold noexcept at ih ⊢
      simp only [bindT_apply] at ih ⊢
      cases loadItemT mem cfg false id i n w with
      | none => rfl
      | some q =>
        obtain ⟨r, w1⟩ := q
        cases r with
        | none => rfl
        | some r =>
          obtain ⟨b, n1⟩ := r
          simp only [Option.bind_some]
          cases b with
          | false => simp [pureT_apply, terminate_apply]
          | true => simpa [pureT_apply] using ih n1 w1
  unfold newErrorX newErrorT errorIdLoadT
  congr 1
  funext i
  dsimp only
  rw [if_pos (tagged_ne (makeErrorId_tagged i)), key]

/-- **C68 (functions that do not throw), `on_error`.** -/
theorem C68_on_error_same {M : Type} [Store M] (mem : Nat → Bool) (cfg : Cfg) (items : List OnItem) (body : CompT M Out) :
    onErrorGuardX mem cfg (items.map OnItem.arg) body = onErrorGuardT mem cfg items body := by
  have key : ∀ id, (loadArgsX mem cfg true id (items.map OnItem.arg) : CompT M Unit) = triggerItemsT mem cfg id items := by
    intro id
    induction items with
    | nil => rfl
    | cons i is ih =>
      cases i with
      | item i => simp only [List.map_cons, OnItem.arg, loadArgsX, triggerItemsT, loadArgX_item, ih]
      | action tag =>
        simp only [List.map_cons, OnItem.arg, loadArgsX, triggerItemsT, loadArgX, ih]
        funext n w
        simp [noexcept, bindT_apply, lift_apply, emit, pureT_apply]
  simp only [onErrorGuardX, onErrorGuardT, key]
  rfl

/-- **C68 (one argument).** Loading an argument terminates the program exactly if its function throws and the exception gets out, or, in `new_error` and `load`, there is no memory for
the object. -/
theorem C68_argument (mem : Nat → Bool) (cfg : Cfg) (onError : Bool) {id : Id} (hid : id.Tagged) (a : FnArg) (n : Nat) (w : World PtrStore) (hw : ThreadOk w)
    (ha : AccumArgsOk cfg id [a] (scopes w)) :
    (∃ w', loadArgsX mem cfg onError id [a] n w = some (none, w')) ↔
      a.Throws cfg onError id (scopes w) ∨ (onError = false ∧ ∃ ty, a.ty = some ty ∧ NoMemoryFor mem cfg ty n w) := by
  obtain ⟨n', w', hk, ⟨h1, h2⟩ | ⟨h1, h2⟩⟩ := loadArgsX_cons mem cfg onError hid a [] n hw (fun h => ha.acc ⟨a, List.mem_singleton.mpr rfl, h⟩)
  · exact ⟨fun _ => h1, fun _ => ⟨w', h2⟩⟩
  · refine ⟨fun ⟨w2, h⟩ => ?_, fun h => absurd h h1⟩
    rw [h2] at h
    simp [loadArgsX, pureT_apply] at h

/-- **C68 (all arguments).** Loading arguments is never undefined; it terminates the program exactly if, for some argument, all before it could be loaded and, in the state they leave, its
function throws and the exception gets out or (not in `on_error`) there is no memory for its object. -/
theorem C68_arguments (mem : Nat → Bool) (cfg : Cfg) (onError : Bool) {id : Id} (hid : id.Tagged) (args : List FnArg) (n : Nat) (w : World PtrStore) (hw : ThreadOk w)
    (ha : AccumArgsOk cfg id args (scopes w)) :
    (∃ r w', loadArgsX mem cfg onError id args n w = some (r, w') ∧ ThreadOk w' ∧ shape (scopes w') = shape (scopes w)) ∧
    ((∃ w', loadArgsX mem cfg onError id args n w = some (none, w')) ↔
      ∃ pre a post n1 w1, args = pre ++ a :: post ∧ loadArgsX mem cfg onError id pre n w = some (some ((), n1), w1) ∧
        (a.Throws cfg onError id (scopes w1) ∨ (onError = false ∧ ∃ ty, a.ty = some ty ∧ NoMemoryFor mem cfg ty n1 w1))) := by
  replace ha := ha.acc
  induction args generalizing n w with
  | nil => exact ⟨⟨_, w, rfl, hw, rfl⟩, ⟨fun ⟨w', h⟩ => by simp [loadArgsX, pureT_apply] at h, fun ⟨pre, a, post, _, _, h, _⟩ => by simp at h⟩⟩
  | cons a as ih =>
    obtain ⟨n', w', hk, ⟨h1, h2⟩ | ⟨h1, h2⟩⟩ := loadArgsX_cons mem cfg onError hid a as n hw (fun h => ha ⟨a, List.mem_cons_self .., h⟩)
    · exact ⟨⟨none, w', h2, hk.1, hk.2.1⟩, ⟨fun _ => ⟨[], a, as, n, w, rfl, rfl, h1⟩, fun _ => ⟨w', h2⟩⟩⟩
    · obtain ⟨⟨r, w2, i1, i2, i3⟩, i4⟩ := ih n' w' hk.1 (fun ⟨b, hb, hx⟩ => hk.2.2.acc (ha ⟨b, List.mem_cons_of_mem _ hb, hx⟩))
      refine ⟨⟨r, w2, (h2 as).trans i1, i2, i3.trans hk.2.1⟩, ?_⟩
      rw [h2 as, i4]
      constructor
      · rintro ⟨pre, b, post, n1, w1, rfl, e2, e3⟩
        exact ⟨a :: pre, b, post, n1, w1, rfl, (h2 pre).trans e2, e3⟩
      · rintro ⟨pre, b, post, n1, w1, e1, e2, e3⟩
        cases pre with
        | nil =>
          simp only [List.nil_append, List.cons.injEq] at e1
          obtain ⟨rfl, rfl⟩ := e1
          simp only [loadArgsX, pureT_apply, Option.some.injEq, Prod.mk.injEq, true_and] at e2
          obtain ⟨rfl, rfl⟩ := e2
          exact absurd e3 h1
        | cons c pre =>
          simp only [List.cons_append, List.cons.injEq] at e1
          obtain ⟨rfl, e1⟩ := e1
          exact ⟨pre, b, post, n1, w1, e1, (h2 pre) ▸ e2, e3⟩

/-- **C68 (`on_error`, exception swallowed).** A function taking `E &`, passed to `on_error`, throws when no active scope has a place for `E`: the guard goes on as if it had returned;
the object, as modified before the exception, is captured. -/
theorem C68_swallowed (mem : Nat → Bool) (cfg : Cfg) (id : Id) (ty : Ty) (tag : Nat) (f : Val → Val × Bool) (n : Nat) (w : World PtrStore) (hw : ThreadOk w)
    (hp : NoPlace ty (scopes w)) : loadArgX mem cfg true id (.accum ty tag f) n w = loadItemT mem cfg true id (.accum ty tag fun v => (f v).1) n w := by
  have hg := PtrStore.slotGet_ok hw.inv ty
  have hs : (PtrStore.abs w.mem).frames = scopes w := rfl
  rw [hs, (bound_none_iff ty _).mpr hp] at hg
  simp only [loadArgX, loadItemT, loadSlotAccumulateX, loadSlotAccumulateT, bindT_apply, lift_apply, assertTagged]
  by_cases hid : id.Tagged
  · simp only [hid, if_true, Option.map_some, Option.bind_some, slotGet, Store.slotGet, hg]
    by_cases hc : cfg.capture = true
    · simp only [hc, if_true, dynamicT, Leaf.swallow, bindT_apply, dynamicAccumulateX, dynamicAccumulateT, lift_apply]
      cases (daKey : Comp PtrStore (Option Id)) w with
      | none => rfl
      | some q =>
        obtain ⟨k, w1⟩ := q
        simp only [Option.map_some, Option.bind_some]
        cases k with
        | none => rfl
        | some k =>
          dsimp only
          by_cases hk : k = id
          · simp only [hk, if_true, bindT_apply]
            cases daAppendT mem ty id (f (cfg.dflt ty)).1 n w1 with
            | none => rfl
            | some q =>
              obtain ⟨_ | ⟨b, m⟩, w2⟩ := q
              · rfl
              · cases b <;> rfl
          · simp only [hk, if_false, bindT_apply, lift_apply]
            cases (daReset id : Comp PtrStore Unit) w1 with
            | none => rfl
            | some q =>
              simp only [Option.map_some, Option.bind_some]
              cases daAppendT mem ty id (f (cfg.dflt ty)).1 n q.2 with
              | none => rfl
              | some q =>
                obtain ⟨_ | ⟨b, m⟩, w2⟩ := q
                · rfl
                · cases b <;> rfl
    · simp only [hc, Bool.false_eq_true, if_false]
  · simp only [hid, if_false]
    rfl

/-- **C68 (`on_error`, outcome).** A guard that does not terminate the program ends like its block. -/
theorem C68_guard {M : Type} [Store M] (mem : Nat → Bool) (cfg : Cfg) (args : List FnArg) (body : CompT M Out) (n : Nat) (w : World M) (o : Out) (n' : Nat) (w' : World M)
    (h : onErrorGuardX mem cfg args body n w = some (some (o, n'), w')) : ∃ n1 w1, body n w = some (some (o, n1), w1) := by
  unfold onErrorGuardX at h
  rw [bindT_apply, lift_apply] at h
  cases h0 : (currentId : Comp M Id) w with
  | none => simp [h0] at h
  | some p =>
    obtain ⟨saved, w0⟩ := p
    have hw0 : w0 = w := by
      simp only [currentId] at h0
      split at h0 <;> simp at h0
      exact h0.2.symm
    subst hw0
    rw [h0] at h
    simp only [Option.map_some, Option.bind_some] at h
    rw [bindT_apply] at h
    cases hb : body n w0 with
    | none => simp [hb] at h
    | some p =>
      obtain ⟨r1, w1⟩ := p
      rw [hb] at h
      cases r1 with
      | none => simp at h
      | some p =>
        obtain ⟨o1, n1⟩ := p
        refine ⟨n1, w1, ?_⟩
        have hq : ∀ b, EndsT (do
            let id ← lift (checkId cfg saved b)
            if id ≠ 0#32 then do
              lift (assertTagged id)
              loadArgsX mem cfg true id args
            return o1 : CompT M Out) (· = o1) := by
          intro b
          refine EndsT.bind (fun id => ?_)
          dsimp only
          split
          · exact EndsT.bind (fun _ => EndsT.bind (fun _ => EndsT.pure rfl))
          · exact EndsT.pure rfl
        simp only [Option.bind_some] at h
        rw [hq _ _ _ _ _ _ h]

/-! ## The finding -/

/-- **Finding.** The same guard, with a function taking `E &` that throws: the program is terminated if an active scope handles `E`, and the exception is ignored, the object captured, if one
is capturing. -/
theorem C68_inconsistent :
    let guard : CompT PtrStore Out := onErrorGuardX (fun _ => true) exCfg [.accum 10 0 fun v => (v + 1, true)] (do let id ← newErrorX (fun _ => true) exCfg []; return .err (.plain id))
    ((lift (pushCtx [.obj 10]) >>= fun _ => guard) 0 (initThread 1#32)).map (fun r => r.1) = some none ∧
    ((lift (pushCtx [.da]) >>= fun _ => guard) 0 (initThread 1#32)).map (fun r => (r.1, scopes r.2)) =
      some (some (.err (.plain 5#32), 1), [[.da 5#32 [(10, some (5#32, exCfg.dflt 10 + 1))]]]) := by
  constructor <;> decide +kernel

/-! ## The hypotheses can be met -/

/-- Two nested scopes, the outer one capturing; the inner one has an object of type 11. The hypotheses of `C68_argument`, `C68_arguments` and `C68_swallowed` hold, and functions that throw
are told apart: the last column is the value of `Throws`, in `load` and in `on_error`. -/
example : ∃ w : World PtrStore, (do pushCtx [.da]; pushCtx [.obj 10, .obj 11]; slotSet 11 5#32 7 : Comp PtrStore Unit) (initThread 1#32) = some ((), w) ∧
    ∀ x ∈ [(FnArg.obj 10 1, true, true), (.deferred 10 0 none, false, false), (.deferred 11 0 none, false, true), (.deferred 12 0 none, false, false), (.deferred 12 0 (some 1), true, true),
        (.accum 11 0 fun v => (v + 1, v == 7), false, false), (.accum 11 0 fun v => (v + 1, v != 7), true, true), (.accum 12 0 fun v => (v + 1, true), false, true),
        (.action 0 true, false, false)],
      ((loadArgsX (fun _ => true) exCfg false 5#32 [x.1] 0 w).map fun r => r.1.isSome) = some x.2.1 ∧
      ((loadArgsX (fun _ => true) exCfg true 5#32 [x.1] 0 w).map fun r => r.1.isSome) = some x.2.2 := by
  refine ⟨_, rfl, ?_⟩
  intro x hx
  simp only [List.mem_cons, List.not_mem_nil, or_false] at hx
  rcases hx with rfl | rfl | rfl | rfl | rfl | rfl | rfl | rfl | rfl <;> constructor <;> decide +kernel

/-- No scope is capturing, but capturing is enabled: a function that returns an object nobody takes is called; if it throws, the program is terminated (`C68_argument`). -/
example : (∃ w', loadArgsX (fun _ => true) exCfg true 5#32 [.deferred 12 0 none] 0 (initThread 1#32) = some (none, w')) ∧ ThreadOk (initThread 1#32) ∧
    AccumArgsOk exCfg 5#32 [.deferred 12 0 none] (scopes (initThread 1#32)) ∧ NoPlace 12 (scopes (initThread 1#32)) :=
  ⟨(C68_argument _ _ true (by decide) _ 0 _ (threadOk_init (by decide)) (by rintro ⟨a, h, h2⟩; simp at h; subst h; simp [FnArg.isAccum] at h2)).mpr
    (Or.inl ⟨rfl, Or.inr ⟨(by intro s hs; cases hs), rfl⟩⟩), threadOk_init (by decide), (by rintro ⟨a, h, h2⟩; simp at h; subst h; simp [FnArg.isAccum] at h2), by intro s hs; cases hs⟩

/-- A list whose second function throws (`C68_arguments`), and a guard that does not change the outcome of its block (`C68_guard`). -/
example : ((loadArgsX (fun _ => true) exCfg true 5#32 [.action 1 false, .deferred 12 0 none, .action 2 false] 0 (initThread 1#32)).map fun r => (r.1, r.2.trace)) =
      some (none, [.called 0, .called 1]) ∧
    ((onErrorGuardX (fun _ => true) exCfg [.action 1 false, .deferred 12 0 (some 4)] (pure (.val 3)) 0 (initThread 1#32)).map fun r => r.1) = some (some (.val 3, 0)) := by
  constructor <;> decide +kernel

end Leaf
