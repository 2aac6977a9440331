import Verif.Wf
import Verif.IdsLemmas
import Verif.Sim

/-!
# Well-formed programs have no undefined behaviour (abstract storage)
-/

namespace Leaf

/-! ## Frames -/

theorem setFrame_shape (ty : Ty) (c : Cell) (f : List CtxCell) : (setFrame ty c f).map CtxCell.cellTy = f.map CtxCell.cellTy := by
  induction f with
  | nil => rfl
  | cons x f ih =>
    cases x with
    | obj t d => by_cases h : t = ty <;> simp [setFrame, h, CtxCell.cellTy, ih]
    | da k ns => cases h : nodeCell ty ns <;> simp [setFrame, h, CtxCell.cellTy, ih]

theorem setBound_shape (ty : Ty) (c : Cell) (fs : List (List CtxCell)) : shape (setBound ty c fs) = shape fs := by
  induction fs with
  | nil => rfl
  | cons f fs ih =>
    unfold shape at ih
    cases h : frameCell ty f <;> simp [setBound, h, shape, ih, setFrame_shape]

theorem setFrameDa_shape (k : Id) (ns : List (Ty × Cell)) (f : List CtxCell) :
    (setFrameDa k ns f).map CtxCell.cellTy = f.map CtxCell.cellTy := by
  induction f with
  | nil => rfl
  | cons x f ih => cases x <;> simp [setFrameDa, CtxCell.cellTy, ih]

theorem setBoundDa_shape (k : Id) (ns : List (Ty × Cell)) (fs : List (List CtxCell)) : shape (setBoundDa k ns fs) = shape fs := by
  induction fs with
  | nil => rfl
  | cons f fs ih =>
    unfold shape at ih
    cases h : frameDa f <;> simp [setBoundDa, h, shape, ih, setFrameDa_shape]

theorem setNode_nil {ty : Ty} {c : Cell} {ns : List (Ty × Cell)} (h : ns = []) : setNode ty c ns = [] := by subst h; rfl

theorem setFrame_good (ty : Ty) (c : Cell) {f : List CtxCell} (h : ∀ x ∈ f, x.Good) : ∀ x ∈ setFrame ty c f, x.Good := by
  induction f with
  | nil => intro x hx; simp [setFrame] at hx
  | cons x f ih =>
    have h1 := h x (by simp)
    have h2 := ih (fun y hy => h y (by simp [hy]))
    cases x with
    | obj t d =>
      by_cases ht : t = ty
      · simp only [setFrame, ht, if_true, List.mem_cons, forall_eq_or_imp]
        exact ⟨trivial, fun y hy => h y (by simp [hy])⟩
      · simp only [setFrame, ht, if_false, List.mem_cons, forall_eq_or_imp]
        exact ⟨trivial, h2⟩
    | da k ns =>
      cases hn : nodeCell ty ns with
      | none =>
        simp only [setFrame, hn, List.mem_cons, forall_eq_or_imp]
        exact ⟨h1, h2⟩
      | some d =>
        simp only [setFrame, hn, List.mem_cons, forall_eq_or_imp]
        exact ⟨fun e => setNode_nil (h1 e), fun y hy => h y (by simp [hy])⟩

theorem setNode_tys (ty : Ty) (c : Cell) (ns : List (Ty × Cell)) : (setNode ty c ns).map Prod.fst = ns.map Prod.fst := by
  induction ns with
  | nil => rfl
  | cons n ns ih =>
    obtain ⟨t, d⟩ := n
    by_cases ht : t = ty <;> simp [setNode, ht, ih]

theorem frameTys_cons (c : CtxCell) (f : List CtxCell) : frameTys (c :: f) = c.tys ++ frameTys f := by simp [frameTys]

theorem setFrame_tys (ty : Ty) (c : Cell) (f : List CtxCell) : frameTys (setFrame ty c f) = frameTys f := by
  induction f with
  | nil => rfl
  | cons x f ih =>
    cases x with
    | obj t d => by_cases ht : t = ty <;> simp [setFrame, ht, frameTys_cons, CtxCell.tys, ih]
    | da k ns => cases hn : nodeCell ty ns <;> simp [setFrame, hn, frameTys_cons, CtxCell.tys, ih, setNode_tys]

theorem setBound_good (ty : Ty) (c : Cell) {fs : List (List CtxCell)} (h : FramesGood fs) : FramesGood (setBound ty c fs) := by
  induction fs with
  | nil => exact h
  | cons f fs ih =>
    have h2 := ih (fun g hg => h g (by simp [hg]))
    intro g hg
    cases hf : frameCell ty f with
    | none =>
      simp only [setBound, hf, List.mem_cons] at hg
      rcases hg with rfl | hg
      · exact h _ (by simp)
      · exact h2 _ hg
    | some d =>
      simp only [setBound, hf, List.mem_cons] at hg
      rcases hg with rfl | hg
      · exact ⟨setFrame_good ty c (h f (by simp)).1, by rw [setFrame_tys]; exact (h f (by simp)).2⟩
      · exact h _ (by simp [hg])

theorem setFrameDa_good {k : Id} {ns : List (Ty × Cell)} (hk : k = 0#32 → ns = []) {f : List CtxCell} (h : ∀ x ∈ f, x.Good) :
    ∀ x ∈ setFrameDa k ns f, x.Good := by
  induction f with
  | nil => intro x hx; simp [setFrameDa] at hx
  | cons x f ih =>
    cases x with
    | obj t d =>
      simp only [setFrameDa, List.mem_cons, forall_eq_or_imp]
      exact ⟨trivial, ih (fun y hy => h y (by simp [hy]))⟩
    | da k' ns' =>
      simp only [setFrameDa, List.mem_cons, forall_eq_or_imp]
      exact ⟨hk, fun y hy => h y (by simp [hy])⟩

theorem nodeCell_none {ty : Ty} {ns : List (Ty × Cell)} (h : nodeCell ty ns = none) : ty ∉ ns.map Prod.fst := by
  induction ns with
  | nil => simp
  | cons n ns ih =>
    obtain ⟨t, d⟩ := n
    by_cases ht : t = ty
    · simp [nodeCell, ht] at h
    · simp only [nodeCell, ht, if_false] at h
      simp only [List.map_cons, List.mem_cons, not_or]
      exact ⟨Ne.symm ht, ih h⟩

theorem frameCell_none {ty : Ty} {f : List CtxCell} (h : frameCell ty f = none) : ty ∉ frameTys f := by
  induction f with
  | nil => simp [frameTys]
  | cons x f ih =>
    rw [frameTys_cons, List.mem_append, not_or]
    cases x with
    | obj t d =>
      by_cases ht : t = ty
      · simp [frameCell, ht] at h
      · simp only [frameCell, ht, if_false] at h
        exact ⟨by simpa [CtxCell.tys] using Ne.symm ht, ih h⟩
    | da k ns =>
      cases hn : nodeCell ty ns with
      | some d => simp [frameCell, hn] at h
      | none =>
        simp only [frameCell, hn] at h
        exact ⟨nodeCell_none hn, ih h⟩

theorem nodup_append_mid {l₁ l₂ : List Ty} {x : Ty} (h : (l₁ ++ l₂).Nodup) (hx : x ∉ l₁ ++ l₂) : (l₁ ++ [x] ++ l₂).Nodup := by
  simp only [List.nodup_append, List.mem_append, List.mem_singleton, not_or] at *
  refine ⟨⟨h.1, by simp, ?_⟩, h.2.1, ?_⟩
  · intro a ha b hb e; subst hb; subst e; exact hx.1 ha
  · intro a ha b hb e
    rcases ha with ha | rfl
    · exact h.2.2 a ha b hb e
    · subst e; exact hx.2 hb

/-- Types after resetting an empty allocator, or appending a node for a new type. -/
theorem setFrameDa_nodup {k k' : Id} {ns : List (Ty × Cell)} {f : List CtxCell} (hd : frameDa f = some (k, ns)) {add : List (Ty × Cell)}
    (hadd : add = [] ∨ ∃ ty c, add = [(ty, c)] ∧ ty ∉ frameTys f) (h : (frameTys f).Nodup) :
    (frameTys (setFrameDa k' (ns ++ add) f)).Nodup := by
  have key : ∃ l₁ l₂, frameTys f = l₁ ++ l₂ ∧ frameTys (setFrameDa k' (ns ++ add) f) = l₁ ++ add.map Prod.fst ++ l₂ := by
    clear h hadd
    induction f with
    | nil => simp [frameDa] at hd
    | cons x f ih =>
      cases x with
      | obj t d =>
        obtain ⟨l₁, l₂, h1, h2⟩ := ih (by simpa [frameDa] using hd)
        exact ⟨t :: l₁, l₂, by simp [frameTys_cons, CtxCell.tys, h1], by simp [setFrameDa, frameTys_cons, CtxCell.tys, h2]⟩
      | da k0 ns0 =>
        simp only [frameDa, Option.some.injEq, Prod.mk.injEq] at hd
        obtain ⟨rfl, rfl⟩ := hd
        exact ⟨ns0.map Prod.fst, frameTys f, by simp [frameTys_cons, CtxCell.tys], by simp [setFrameDa, frameTys_cons, CtxCell.tys]⟩
  obtain ⟨l₁, l₂, h1, h2⟩ := key
  rcases hadd with rfl | ⟨ty, c, rfl, hx⟩
  · rw [h2]; rw [h1] at h; simpa using h
  · rw [h2]; rw [h1] at h hx
    exact nodup_append_mid h hx

theorem setBoundDa_good {k k' : Id} {ns add : List (Ty × Cell)} {fs : List (List CtxCell)} (hd : boundDa fs = some (k, ns))
    (hk : k' = 0#32 → ns ++ add = [])
    (hadd : add = [] ∨ ∃ ty c, add = [(ty, c)] ∧ boundCell ty fs = none) (h : FramesGood fs) :
    FramesGood (setBoundDa k' (ns ++ add) fs) := by
  induction fs with
  | nil => exact h
  | cons f fs ih =>
    intro g hg
    cases hf : frameDa f with
    | none =>
      have hadd' : add = [] ∨ ∃ ty c, add = [(ty, c)] ∧ boundCell ty fs = none := by
        rcases hadd with h | ⟨ty, c, h1, h2⟩
        · exact Or.inl h
        · refine Or.inr ⟨ty, c, h1, ?_⟩
          cases hc : frameCell ty f <;> simp [boundCell, hc] at h2
          exact h2
      have h2 := ih (by simpa [boundDa, hf] using hd) hadd' (fun g hg => h g (by simp [hg]))
      simp only [setBoundDa, hf, List.mem_cons] at hg
      rcases hg with rfl | hg
      · exact h _ (by simp)
      · exact h2 _ hg
    | some d =>
      simp only [boundDa, hf, Option.some.injEq] at hd
      subst hd
      simp only [setBoundDa, hf, List.mem_cons] at hg
      rcases hg with rfl | hg
      · refine ⟨setFrameDa_good hk (h f (by simp)).1, setFrameDa_nodup hf ?_ (h f (by simp)).2⟩
        rcases hadd with h | ⟨ty, c, h1, h2⟩
        · exact Or.inl h
        · refine Or.inr ⟨ty, c, h1, frameCell_none ?_⟩
          cases hc : frameCell ty f <;> simp [boundCell, hc] at h2
          rfl
      · exact h _ (by simp [hg])

theorem frameDa_good {f : List CtxCell} (h : ∀ x ∈ f, x.Good) {k : Id} {ns : List (Ty × Cell)} (hd : frameDa f = some (k, ns)) :
    k = 0#32 → ns = [] := by
  induction f with
  | nil => simp [frameDa] at hd
  | cons x f ih =>
    cases x with
    | obj t d => exact ih (fun y hy => h y (by simp [hy])) (by simpa [frameDa] using hd)
    | da k' ns' =>
      simp only [frameDa, Option.some.injEq, Prod.mk.injEq] at hd
      obtain ⟨rfl, rfl⟩ := hd
      exact h (.da k' ns') (by simp)

theorem boundDa_good {fs : List (List CtxCell)} (h : FramesGood fs) {k : Id} {ns : List (Ty × Cell)}
    (hd : boundDa fs = some (k, ns)) : k = 0#32 → ns = [] := by
  induction fs with
  | nil => simp [boundDa] at hd
  | cons f fs ih =>
    cases hf : frameDa f with
    | none => exact ih (fun g hg => h g (by simp [hg])) (by simpa [boundDa, hf] using hd)
    | some d =>
      simp only [boundDa, hf, Option.some.injEq] at hd
      exact frameDa_good (h f (by simp)).1 (by rw [hf, hd])

/-- Storing under the innermost allocator and reading back. -/
theorem frameDa_setFrameDa {k k' : Id} {ns ns' : List (Ty × Cell)} {f : List CtxCell} (h : frameDa f = some (k, ns)) :
    frameDa (setFrameDa k' ns' f) = some (k', ns') := by
  induction f with
  | nil => simp [frameDa] at h
  | cons x f ih =>
    cases x with
    | obj t d => simpa [frameDa, setFrameDa] using ih (by simpa [frameDa] using h)
    | da a b => simp [frameDa, setFrameDa]

theorem boundDa_setBoundDa {k k' : Id} {ns ns' : List (Ty × Cell)} {fs : List (List CtxCell)} (h : boundDa fs = some (k, ns)) :
    boundDa (setBoundDa k' ns' fs) = some (k', ns') := by
  induction fs with
  | nil => simp [boundDa] at h
  | cons f fs ih =>
    cases hf : frameDa f with
    | none => simpa [boundDa, setBoundDa, hf] using ih (by simpa [boundDa, hf] using h)
    | some d => simp [setBoundDa, hf, boundDa, frameDa_setFrameDa (k := d.1) (ns := d.2) hf]

theorem setFrameDa_twice (k k' : Id) (ns ns' : List (Ty × Cell)) (f : List CtxCell) :
    setFrameDa k ns (setFrameDa k' ns' f) = setFrameDa k ns f := by
  induction f with
  | nil => rfl
  | cons x f ih => cases x <;> simp [setFrameDa, ih]

theorem setBoundDa_twice (k k' : Id) (ns ns' : List (Ty × Cell)) (fs : List (List CtxCell)) :
    setBoundDa k ns (setBoundDa k' ns' fs) = setBoundDa k ns fs := by
  induction fs with
  | nil => rfl
  | cons f fs ih =>
    cases hf : frameDa f with
    | none => simp [setBoundDa, hf, ih]
    | some d => simp [setBoundDa, hf, frameDa_setFrameDa (k := d.1) (ns := d.2) hf, setFrameDa_twice]

theorem frameCell_setFrameDa_nil (ty : Ty) (k k' : Id) {f : List CtxCell} (h : frameDa f = some (k, [])) :
    frameCell ty (setFrameDa k' [] f) = frameCell ty f := by
  induction f with
  | nil => rfl
  | cons x f ih =>
    cases x with
    | obj t d => simp [setFrameDa, frameCell, ih (by simpa [frameDa] using h)]
    | da a b =>
      simp only [frameDa, Option.some.injEq, Prod.mk.injEq] at h
      simp [setFrameDa, frameCell, h.2]

theorem boundCell_setBoundDa_nil (ty : Ty) (k k' : Id) {fs : List (List CtxCell)} (h : boundDa fs = some (k, [])) :
    boundCell ty (setBoundDa k' [] fs) = boundCell ty fs := by
  induction fs with
  | nil => rfl
  | cons f fs ih =>
    cases hf : frameDa f with
    | none => simp [setBoundDa, hf, boundCell, ih (by simpa [boundDa, hf] using h)]
    | some d =>
      simp only [boundDa, hf, Option.some.injEq] at h
      simp [setBoundDa, hf, boundCell, frameCell_setFrameDa_nil ty k k' (by rw [hf, h])]

/-! ## Total correctness triples -/

def Tot {α : Type} (s s' : List (List CellTy)) (x : Comp AbsStore α) (Q : α → Prop) : Prop :=
  ∀ w : World AbsStore, w.Good → shape w.mem.frames = s →
    ∃ a w', x w = some (a, w') ∧ w'.Good ∧ shape w'.mem.frames = s' ∧ Q a

theorem Tot.pure {α : Type} {s : List (List CellTy)} {a : α} {Q : α → Prop} (h : Q a) : Tot s s (Pure.pure a) Q :=
  fun w hg hs => ⟨a, w, rfl, hg, hs, h⟩

theorem Tot.bind {α β : Type} {s s' s'' : List (List CellTy)} {x : Comp AbsStore α} {f : α → Comp AbsStore β} {P : α → Prop}
    {Q : β → Prop} (hx : Tot s s' x P) (hf : ∀ a, P a → Tot s' s'' (f a) Q) : Tot s s'' (x >>= f) Q := by
  intro w hg hs
  obtain ⟨a, w1, e1, g1, s1, p1⟩ := hx w hg hs
  obtain ⟨b, w2, e2, g2, s2, p2⟩ := hf a p1 w1 g1 s1
  exact ⟨b, w2, by rw [bind_apply, e1]; exact e2, g2, s2, p2⟩

theorem Tot.mono {α : Type} {s s' : List (List CellTy)} {x : Comp AbsStore α} {P Q : α → Prop} (hx : Tot s s' x P)
    (h : ∀ a, P a → Q a) : Tot s s' x Q := by
  intro w hg hs
  obtain ⟨a, w1, e1, g1, s1, p1⟩ := hx w hg hs
  exact ⟨a, w1, e1, g1, s1, h a p1⟩

abbrev T : Unit → Prop := fun _ => True

theorem tot_emit (s : List (List CellTy)) (e : Event) : Tot s s (emit e) T :=
  fun _ hg hs => ⟨(), _, rfl, ⟨hg.1, hg.2, hg.3, hg.4⟩, hs, trivial⟩

theorem tot_getCur (s : List (List CellTy)) : Tot s s getCur Id.Ok :=
  fun w hg hs => ⟨w.cur, w, rfl, hg, hs, hg.1⟩

theorem tot_currentId (s : List (List CellTy)) : Tot s s currentId Id.Ok := by
  intro w hg hs
  refine ⟨w.cur, w, ?_, hg, hs, hg.1⟩
  have := hg.1
  unfold Id.Ok at this
  simp [currentId, this]

theorem tot_assertTagged (s : List (List CellTy)) {id : Id} (h : Id.Tagged id) : Tot s s (assertTagged id) T :=
  fun w hg hs => ⟨(), w, by simp [assertTagged, h], hg, hs, trivial⟩

theorem tot_setCur (s : List (List CellTy)) {id : Id} (h : Id.Ok id) : Tot s s (setCur id) T :=
  fun _ hg hs => ⟨(), _, rfl, ⟨h, hg.2, hg.3, hg.4⟩, hs, trivial⟩

theorem add4k_tagged {a : Id} (h : a.Tagged) (k : Nat) : (a + BitVec.ofNat 32 (4 * k)).Tagged := by
  rw [tagged_iff] at h ⊢
  rw [BitVec.toNat_add, BitVec.toNat_ofNat]
  omega

theorem tot_newId (s : List (List CellTy)) (cfg : Cfg) : Tot s s (newId cfg) Id.Tagged := by
  intro w hg hs
  have h : Id.Tagged (w.counter + BitVec.ofNat 32 (4 * cfg.interf w.ticks) + 4#32) := add4_tagged (add4k_tagged hg.2 _)
  exact ⟨_, _, rfl, ⟨Or.inr h, h, hg.3, hg.4⟩, hs, h⟩

theorem tot_currentError (s : List (List CellTy)) : Tot s s currentError Id.Tagged :=
  Tot.bind (tot_currentId s) (fun _ _ => Tot.pure (makeErrorId_tagged _))

theorem tot_pushHandling (s : List (List CellTy)) {e : Exc} (h : e.Ok) : Tot s s (pushHandling e) T :=
  fun _ hg hs => ⟨(), _, rfl, ⟨hg.1, hg.2, by
    intro x hx; simp only [List.mem_cons] at hx; rcases hx with rfl | hx; exact h; exact hg.3 x hx, hg.4⟩, hs, trivial⟩

theorem tot_popHandling (s : List (List CellTy)) : Tot s s popHandling T :=
  fun _ hg hs => ⟨(), _, rfl, ⟨hg.1, hg.2, fun x hx => hg.3 x (List.mem_of_mem_tail hx), hg.4⟩, hs, trivial⟩

theorem tot_currentException (s : List (List CellTy)) : Tot s s currentException (fun o => ∀ e, o = some e → e.Ok) :=
  fun w hg hs => ⟨_, w, rfl, hg, hs, fun e he => hg.3 e (List.mem_of_head? he)⟩

/-- Storing one object, where the slot is looked up first. -/
theorem tot_slotGet_bind {α : Type} {s s' : List (List CellTy)} (ty : Ty) {f : Option Cell → Comp AbsStore α} {Q : α → Prop}
    (h : ∀ w : World AbsStore, w.Good → shape w.mem.frames = s →
      ∃ a w', f (boundCell ty w.mem.frames) w = some (a, w') ∧ w'.Good ∧ shape w'.mem.frames = s' ∧ Q a) :
    Tot s s' (slotGet ty >>= f) Q := h

theorem dynamicLoad_eq (id : Id) (hid : id ≠ 0#32) (ty : Ty) (v : Val) (w : World AbsStore) (hg : FramesGood w.mem.frames)
    (hb : boundCell ty w.mem.frames = none) :
    dynamicLoad id ty v w = some ((), { w with mem := ⟨match boundDa w.mem.frames with
      | some (k, ns) => setBoundDa (if k = 0#32 then id else k) (ns ++ [(ty, some (id, v))]) w.mem.frames
      | none => w.mem.frames⟩ }) := by
  unfold dynamicLoad
  rw [bind_apply]
  simp only [daKey, Store.daKey, Option.map_some, Option.bind_some]
  cases h : boundDa w.mem.frames with
  | none => simp [pure_apply]
  | some d =>
    obtain ⟨k, ns⟩ := d
    by_cases hk : k = 0#32
    · have hn := boundDa_good hg h hk
      subst hn hk
      simp only [Option.map_some, ne_eq, not_true_eq_false, if_false, if_true, bind_apply, daReset, Store.daReset, h, Option.bind_some]
      simp only [daAppend, Store.daAppend, boundDa_setBoundDa h, hid, if_false, boundCell_setBoundDa_nil ty _ _ h, hb, Option.map_some,
        setBoundDa_twice]
    · simp [daAppend, Store.daAppend, h, hk, hb]

theorem slotSet_eq (ty : Ty) (id : Id) (v : Val) (w : World AbsStore) {c : Cell} (h : boundCell ty w.mem.frames = some c) :
    slotSet ty id v w = some ((), { w with mem := ⟨setBound ty (some (id, v)) w.mem.frames⟩ }) := by
  simp [slotSet, Store.slotSet, h]

theorem good_setBound {w : World AbsStore} (hg : w.Good) (ty : Ty) (c : Cell) :
    ({ w with mem := ⟨setBound ty c w.mem.frames⟩ } : World AbsStore).Good :=
  ⟨hg.1, hg.2, hg.3, setBound_good ty c hg.4⟩

theorem tot_dynamicLoad {w : World AbsStore} {id : Id} (hid : id ≠ 0#32) (ty : Ty) (v : Val) (hg : w.Good)
    (hb : boundCell ty w.mem.frames = none) :
    ∃ w', dynamicLoad id ty v w = some ((), w') ∧ w'.Good ∧ shape w'.mem.frames = shape w.mem.frames := by
  rw [dynamicLoad_eq id hid ty v w hg.4 hb]
  refine ⟨_, rfl, ?_, ?_⟩
  · refine ⟨hg.1, hg.2, hg.3, ?_⟩
    cases h : boundDa w.mem.frames with
    | none => exact hg.4
    | some d =>
      refine setBoundDa_good h ?_ (Or.inr ⟨ty, _, rfl, hb⟩) hg.4
      intro e
      by_cases hk : d.1 = 0#32 <;> simp [hk] at e
      exact absurd e hid
  · cases h : boundDa w.mem.frames with
    | none => rfl
    | some d => simp only [setBoundDa_shape]

theorem tot_slotUnload (s : List (List CellTy)) (cfg : Cfg) {id : Id} (hid : id ≠ 0#32) (ty : Ty) (c : Cell) :
    Tot s s (slotUnload cfg id ty c) T := by
  unfold slotUnload
  simp only [hid, if_false]
  cases hc : c.hasValue id with
  | none => exact Tot.pure trivial
  | some v =>
    refine tot_slotGet_bind ty (fun w hg hs => ?_)
    cases hb : boundCell ty w.mem.frames with
    | none =>
      by_cases h : cfg.capture
      · obtain ⟨w', h1, h2, h3⟩ := tot_dynamicLoad hid ty v hg hb
        exact ⟨(), w', by simp [h, h1], h2, by rw [h3, hs], trivial⟩
      · exact ⟨(), w, by simp [h, pure_apply], hg, hs, trivial⟩
    | some p =>
      by_cases h : (p.hasValue id).isNone
      · exact ⟨(), _, by simp only [h, if_true]; exact slotSet_eq ty id v w hb, good_setBound hg _ _,
          by simp only [setBound_shape]; exact hs, trivial⟩
      · exact ⟨(), w, by simp [h, pure_apply], hg, hs, trivial⟩

theorem tot_loadSlot (s : List (List CellTy)) (cfg : Cfg) (b : Bool) {id : Id} (hid : id.Tagged) (ty : Ty) (v : Val) :
    Tot s s (loadSlot cfg b id ty v) T := by
  unfold loadSlot
  refine Tot.bind (tot_assertTagged s hid) (fun _ _ => ?_)
  refine tot_slotGet_bind ty (fun w hg hs => ?_)
  cases hb : boundCell ty w.mem.frames with
  | none =>
    by_cases h : cfg.capture
    · obtain ⟨w', h1, h2, h3⟩ := tot_dynamicLoad (tagged_ne_zero hid) ty v hg hb
      exact ⟨(), w', by simp [h, h1], h2, by rw [h3, hs], trivial⟩
    · exact ⟨(), w, by simp [h, pure_apply], hg, hs, trivial⟩
  | some p =>
    by_cases h : (!b || (p.hasValue id).isNone) = true
    · exact ⟨(), _, by simp only [h, if_true]; exact slotSet_eq ty id v w hb, good_setBound hg _ _,
        by simp only [setBound_shape]; exact hs, trivial⟩
    · exact ⟨(), w, by simp only [h]; rfl, hg, hs, trivial⟩

theorem tot_loadSlotDeferred (s : List (List CellTy)) (cfg : Cfg) (b : Bool) {id : Id} (hid : id.Tagged) (ty : Ty) (tag : Nat)
    (v : Val) : Tot s s (loadSlotDeferred cfg b id ty tag v) T := by
  unfold loadSlotDeferred
  refine Tot.bind (tot_assertTagged s hid) (fun _ _ => ?_)
  refine tot_slotGet_bind ty (fun w hg hs => ?_)
  cases hb : boundCell ty w.mem.frames with
  | none =>
    by_cases h : cfg.capture
    · simp only [h, if_true, bind_apply, emit, Option.bind_some]
      obtain ⟨w', h1, h2, h3⟩ := tot_dynamicLoad (w := { w with trace := .offered id ty v :: .called tag :: w.trace })
        (tagged_ne_zero hid) ty v ⟨hg.1, hg.2, hg.3, hg.4⟩ hb
      exact ⟨(), w', h1, h2, by rw [h3]; exact hs, trivial⟩
    · exact ⟨(), w, by simp [h, pure_apply], hg, hs, trivial⟩
  | some p =>
    by_cases h : (!b || (p.hasValue id).isNone) = true
    · simp only [h, if_true, bind_apply, emit, Option.bind_some]
      have hg' : World.Good { w with trace := .offered id ty v :: .called tag :: w.trace } := ⟨hg.1, hg.2, hg.3, hg.4⟩
      exact ⟨(), _, slotSet_eq ty id v { w with trace := .offered id ty v :: .called tag :: w.trace } hb, good_setBound hg' _ _,
        by simp only [setBound_shape]; exact hs, trivial⟩
    · exact ⟨(), w, by simp only [h]; rfl, hg, hs, trivial⟩

/-- No capturing scope. -/
def NoDa (s : List (List CellTy)) : Prop := ∀ c ∈ s, CellTy.da ∉ c

theorem frameDa_none {f : List CtxCell} (h : CellTy.da ∉ f.map CtxCell.cellTy) : frameDa f = none := by
  induction f with
  | nil => rfl
  | cons c f ih =>
    cases c with
    | obj t d => simp only [frameDa]; exact ih (by simpa [CtxCell.cellTy] using h)
    | da k ns => simp [CtxCell.cellTy] at h

theorem boundDa_none {fs : List (List CtxCell)} (h : NoDa (shape fs)) : boundDa fs = none := by
  induction fs with
  | nil => rfl
  | cons f fs ih =>
    have h1 : frameDa f = none := frameDa_none (h _ (by simp [shape]))
    simp only [boundDa, h1]
    exact ih (fun c hc => h c (by simp only [shape, List.map_cons, List.mem_cons] at hc ⊢; exact Or.inr hc))

theorem tot_loadSlotAccumulate (s : List (List CellTy)) (cfg : Cfg) (hc : cfg.capture = false ∨ NoDa s) {id : Id} (hid : id.Tagged) (ty : Ty)
    (tag : Nat) (f : Val → Val) : Tot s s (loadSlotAccumulate cfg id ty tag f) T := by
  unfold loadSlotAccumulate
  refine Tot.bind (tot_assertTagged s hid) (fun _ _ => ?_)
  refine tot_slotGet_bind ty (fun w hg hs => ?_)
  cases hb : boundCell ty w.mem.frames with
  | none =>
    rcases hc with hc | hc
    · exact ⟨(), w, by simp [hc, pure_apply], hg, hs, trivial⟩
    · refine ⟨(), w, ?_, hg, hs, trivial⟩
      by_cases h : cfg.capture = true
      · simp [h, dynamicAccumulate, bind_apply, daKey, Store.daKey, boundDa_none (hs ▸ hc), pure_apply]
      · simp [h, pure_apply]
  | some p =>
    simp only [bind_apply, slotSet_eq ty id _ w hb, emit, Option.bind_some]
    refine ⟨(), _, rfl, ⟨hg.1, hg.2, hg.3, setBound_good _ _ hg.4⟩, ?_, trivial⟩
    simp only [setBound_shape]; exact hs

theorem tot_loadItem (s : List (List CellTy)) (cfg : Cfg) (b : Bool) {id : Id} (hid : id.Tagged) {da : Bool} (hda : da = false → NoDa s) {i : Item} (hi : i.Ok cfg da) :
    Tot s s (loadItem cfg b id i) T := by
  cases i with
  | obj ty v => exact Tot.bind (tot_emit s _) (fun _ _ => tot_loadSlot s cfg b hid ty v)
  | deferred ty tag v => exact tot_loadSlotDeferred s cfg b hid ty tag v
  | accum ty tag f => exact tot_loadSlotAccumulate s cfg (hi.imp_right hda) hid ty tag f

theorem tot_loadItems (s : List (List CellTy)) (cfg : Cfg) (b : Bool) {id : Id} (hid : id.Tagged) {da : Bool} (hda : da = false → NoDa s) {is : List Item}
    (hi : ∀ i ∈ is, i.Ok cfg da) : Tot s s (loadItems cfg b id is) T := by
  induction is with
  | nil => exact Tot.pure trivial
  | cons i is ih =>
    exact Tot.bind (tot_loadItem s cfg b hid hda (hi i (by simp))) (fun _ _ => ih (fun j hj => hi j (by simp [hj])))

theorem tot_errorIdLoad (s : List (List CellTy)) (cfg : Cfg) {id : Id} (hid : id.Ok) {da : Bool} (hda : da = false → NoDa s) {is : List Item}
    (hi : ∀ i ∈ is, i.Ok cfg da) : Tot s s (errorIdLoad cfg id is) T := by
  unfold errorIdLoad
  rcases hid with h | h
  · simp only [h, ne_eq, not_true_eq_false, if_false]; exact Tot.pure trivial
  · simp only [tagged_ne_zero h, ne_eq, not_false_eq_true, if_true]; exact tot_loadItems s cfg false h hda hi

theorem tot_newError (s : List (List CellTy)) (cfg : Cfg) {da : Bool} (hda : da = false → NoDa s) {is : List Item}
    (hi : ∀ i ∈ is, i.Ok cfg da) : Tot s s (newError cfg is) Id.Tagged := by
  unfold newError
  refine Tot.bind (tot_newId s cfg) (fun id _ => ?_)
  exact Tot.bind (tot_errorIdLoad s cfg (Or.inr (makeErrorId_tagged id)) hda hi) (fun _ _ => Tot.pure (makeErrorId_tagged id))

theorem tot_triggerItems (s : List (List CellTy)) (cfg : Cfg) {id : Id} (hid : id.Tagged) {da : Bool} (hda : da = false → NoDa s) {is : List OnItem}
    (hi : ∀ i ∈ is, i.Ok cfg da) : Tot s s (triggerItems cfg id is) T := by
  induction is with
  | nil => exact Tot.pure trivial
  | cons i is ih =>
    have h2 := ih (fun j hj => hi j (by simp [hj]))
    cases i with
    | item i => exact Tot.bind (tot_loadItem s cfg true hid hda (hi (.item i) (by simp))) (fun _ _ => h2)
    | action t => exact Tot.bind (tot_emit s _) (fun _ _ => h2)

theorem tot_importCode (s : List (List CellTy)) (cfg : Cfg) {ec : ErrorCode} (he : ec.cat = leafCat → Id.Ok ec.value) (v : Val) :
    Tot s s (importCode cfg ec v) Id.Ok := by
  unfold importCode importErrorCode
  by_cases h1 : ec.value = 0#32
  · simp only [h1, ne_eq, not_true_eq_false, if_false]; exact Tot.pure (Or.inl rfl)
  · simp only [h1, ne_eq, not_false_eq_true, if_true]
    by_cases h2 : ec.cat = leafCat
    · have h3 : Id.Tagged ec.value := (he h2).resolve_left h1
      simp only [h2, h3, if_true]; exact Tot.pure (Or.inr (makeErrorId_tagged ec.value))
    · simp only [h2, if_false]
      refine Tot.bind (tot_newId s cfg) (fun id hid => ?_)
      refine Tot.bind (tot_emit s _) (fun _ _ => ?_)
      exact Tot.bind (tot_loadSlot s cfg false hid _ _) (fun _ _ => Tot.pure (Or.inr (makeErrorId_tagged id)))

theorem tot_checkId (s : List (List CellTy)) (cfg : Cfg) (saved : Id) (b : Bool) : Tot s s (checkId cfg saved b) Id.Ok := by
  unfold checkId
  refine Tot.bind (tot_currentId s) (fun cur hc => ?_)
  by_cases h1 : cur = saved
  · simp only [h1, ne_eq, not_true_eq_false, if_false]
    cases b
    · exact Tot.pure (Or.inl rfl)
    · exact (tot_newId s cfg).mono (fun _ h => Or.inr h)
  · simp only [h1, ne_eq, not_false_eq_true, if_true]
    exact Tot.pure hc

theorem tot_getId (s : List (List CellTy)) (cfg : Cfg) (saved : Id) : Tot s s (getId cfg saved) Id.Ok := by
  unfold getId
  refine Tot.bind (tot_currentId s) (fun cur hc => ?_)
  by_cases h1 : cur = saved
  · simp only [h1, ne_eq, not_true_eq_false, if_false]
    exact (tot_newId s cfg).mono (fun _ h => Or.inr h)
  · simp only [h1, ne_eq, not_false_eq_true, if_true]
    exact Tot.pure hc

theorem tot_unloadNodes (s : List (List CellTy)) (cfg : Cfg) {id : Id} (hid : id.Tagged) {ns : List CapNode} (hn : ∀ n ∈ ns, n.Ok) :
    Tot s s (unloadNodes cfg id ns) (fun o => ∀ e, o = some e → e.Ok) := by
  induction ns with
  | nil => exact Tot.pure (by simp)
  | cons n ns ih =>
    cases n with
    | obj ty c =>
      unfold unloadNodes
      have hr := Tot.bind (tot_slotUnload s cfg (tagged_ne_zero hid) ty c)
        (fun _ _ => ih (fun m hm => hn m (by simp [hm])))
      cases c.hasValue id with
      | none => exact hr
      | some v => exact Tot.bind (tot_emit s _) (fun _ _ => hr)
    | exc e =>
      unfold unloadNodes
      refine Tot.pure ?_
      intro e' he
      simp only [Option.some.injEq] at he
      subst he
      exact hn (.exc e) (by simp)

theorem errId_tagged (r : ErrRes) : r.errId.Tagged := by
  cases r <;> exact makeErrorId_tagged _

theorem tot_resultUnload (s : List (List CellTy)) (cfg : Cfg) {r : ErrRes} (hr : r.Ok) : Tot s s (resultUnload cfg r) Out.Ok := by
  cases r with
  | plain id => exact Tot.pure trivial
  | captured id ns =>
    unfold resultUnload
    refine Tot.bind (tot_setCur s (Or.inr (errId_tagged _))) (fun _ _ => ?_)
    refine Tot.bind (tot_unloadNodes s cfg (errId_tagged _) hr) (fun o ho => ?_)
    cases o with
    | none => exact Tot.pure (by simp [Out.Ok, ErrRes.Ok])
    | some e => exact Tot.pure (ho e rfl)

theorem tot_unloadDaNodes (s : List (List CellTy)) (cfg : Cfg) {id : Id} (hid : id.Tagged) (ns : List (Ty × Cell)) :
    Tot s s (unloadDaNodes cfg id ns) T := by
  induction ns with
  | nil => exact Tot.pure trivial
  | cons n ns ih =>
    obtain ⟨ty, c⟩ := n
    exact Tot.bind (tot_slotUnload s cfg (tagged_ne_zero hid) ty c) (fun _ _ => ih)

theorem tot_unloadCells (s : List (List CellTy)) (cfg : Cfg) {id : Id} (hid : id.Tagged) (cs : List CtxCell) :
    Tot s s (unloadCells cfg id cs) T := by
  induction cs with
  | nil => exact Tot.pure trivial
  | cons c cs ih =>
    refine Tot.bind ih (fun _ _ => ?_)
    cases c with
    | obj ty c => exact tot_slotUnload s cfg (tagged_ne_zero hid) ty c
    | da k ns =>
      unfold unloadCell
      simp only [tagged_ne_zero hid, if_false]
      by_cases h : k = 0#32
      · simp only [h, ne_eq, not_true_eq_false, if_false]; exact Tot.pure trivial
      · simp only [h, ne_eq, not_false_eq_true, if_true]
        exact Tot.bind (tot_setCur s (Or.inr hid)) (fun _ _ => tot_unloadDaNodes s cfg hid ns)

theorem emptyFrame_tys_mem {spec : List CellTy} {ty : Ty} (h : ty ∈ frameTys (spec.map CellTy.empty)) : CellTy.obj ty ∈ spec := by
  simp only [frameTys, List.mem_flatMap, List.mem_map] at h
  obtain ⟨_, ⟨t, ht, rfl⟩, h⟩ := h
  cases t with
  | obj u => simp only [CellTy.empty, CtxCell.tys, List.mem_singleton] at h; subst h; exact ht
  | da => simp [CellTy.empty, CtxCell.tys] at h

theorem emptyFrame_tys {spec : List CellTy} (h : spec.Nodup) : (frameTys (spec.map CellTy.empty)).Nodup := by
  induction spec with
  | nil => simp [frameTys]
  | cons t spec ih =>
    simp only [List.nodup_cons] at h
    rw [List.map_cons, frameTys_cons]
    cases t with
    | obj u =>
      simp only [CellTy.empty, CtxCell.tys, List.cons_append, List.nil_append, List.nodup_cons]
      exact ⟨fun hm => h.1 (emptyFrame_tys_mem hm), ih h.2⟩
    | da => simpa [CellTy.empty, CtxCell.tys] using ih h.2

theorem tot_pushCtx (s : List (List CellTy)) {spec : List CellTy} (h : spec.Nodup) : Tot s (spec :: s) (pushCtx spec) T := by
  intro w hg hs
  refine ⟨(), { w with mem := ⟨spec.map CellTy.empty :: w.mem.frames⟩ }, by simp [pushCtx, Store.push, h], ⟨hg.1, hg.2, hg.3, ?_⟩, ?_,
    trivial⟩
  · intro f hf
    simp only [List.mem_cons] at hf
    rcases hf with rfl | hf
    · refine ⟨?_, ?_⟩
      · intro c hc
        simp only [List.mem_map] at hc
        obtain ⟨t, _, rfl⟩ := hc
        cases t <;> simp [CellTy.empty, CtxCell.Good]
      · exact emptyFrame_tys h
    · exact hg.4 f hf
  · have : (spec.map CellTy.empty).map CtxCell.cellTy = spec := by
      rw [List.map_map]
      have : CtxCell.cellTy ∘ CellTy.empty = id := by
        funext t; cases t <;> rfl
      simp [this]
    simp only [shape, List.map_cons, this]
    rw [show w.mem.frames.map _ = s from hs]

theorem tot_popCtx (c : List CellTy) (s : List (List CellTy)) :
    Tot (c :: s) s popCtx (fun cells => cells.map CtxCell.cellTy = c) := by
  intro w hg hs
  cases h : w.mem.frames with
  | nil => simp [h, shape] at hs
  | cons f fs =>
    simp only [h, shape, List.map_cons, List.cons.injEq] at hs
    refine ⟨f, { w with mem := ⟨fs⟩ }, by simp [popCtx, Store.pop, h], ⟨hg.1, hg.2, hg.3, ?_⟩, hs.2, hs.1⟩
    intro g hg'
    exact hg.4 g (by simp [h, hg'])

theorem mpUnique_aux {α : Type} [DecidableEq α] (l acc : List α) (h : acc.Nodup) :
    (l.foldl (fun acc x => if x ∈ acc then acc else acc ++ [x]) acc).Nodup := by
  induction l generalizing acc with
  | nil => exact h
  | cons x l ih =>
    simp only [List.foldl_cons]
    by_cases hx : x ∈ acc
    · simp only [hx, if_true]; exact ih acc h
    · simp only [hx, if_false]
      refine ih _ ?_
      rw [List.nodup_append]
      refine ⟨h, by simp, ?_⟩
      intro a ha b hb
      simp only [List.mem_singleton] at hb
      subst hb
      intro e; exact hx (e ▸ ha)

theorem mpUnique_mem_aux {α : Type} [DecidableEq α] (l acc : List α) {x : α}
    (h : x ∈ l.foldl (fun acc x => if x ∈ acc then acc else acc ++ [x]) acc) : x ∈ acc ∨ x ∈ l := by
  induction l generalizing acc with
  | nil => exact Or.inl h
  | cons y l ih =>
    simp only [List.foldl_cons] at h
    by_cases hx : y ∈ acc
    · simp only [hx, if_true] at h
      rcases ih acc h with h | h
      · exact Or.inl h
      · exact Or.inr (by simp [h])
    · simp only [hx, if_false] at h
      rcases ih _ h with h | h
      · simp only [List.mem_append, List.mem_singleton] at h
        rcases h with h | h
        · exact Or.inl h
        · exact Or.inr (by simp [h])
      · exact Or.inr (by simp [h])

theorem mpUnique_mem {α : Type} [DecidableEq α] {l : List α} {x : α} (h : x ∈ mpUnique l) : x ∈ l := by
  rcases mpUnique_mem_aux l [] h with h | h
  · simp at h
  · exact h

theorem mpUnique_nodup {α : Type} [DecidableEq α] (l : List α) : (mpUnique l).Nodup := mpUnique_aux l [] (by simp)

theorem deduce_nodup (cfg : Cfg) (specs : List (List Arg)) : (deduce cfg specs).Nodup :=
  (mpUnique_nodup _).filter _

/-! ## Selecting and calling handlers -/

theorem arg_get_of_always (cfg : Cfg) (cells : List CtxCell) (id : Id) (ex : Option Exc) (loc : Option Val) {a : Arg}
    (h : a.always = true) : ∃ v, Arg.get cfg cells id ex loc a = some v := by
  cases a <;> simp [Arg.always] at h <;> exact ⟨_, rfl⟩

theorem arg_get_of_check (cfg : Cfg) (cells : List CtxCell) (id : Id) (ex : Option Exc) (loc : Option Val) {a : Arg}
    (h : Arg.check cfg cells id ex a = true) : ∃ v, Arg.get cfg cells id ex loc a = some v := by
  cases a with
  | req ty =>
    simp only [Arg.check, Option.isSome_iff_exists] at h
    obtain ⟨v, hv⟩ := h
    exact ⟨_, by simp only [Arg.get, hv, Option.map_some]; rfl⟩
  | ptr ty => exact ⟨_, rfl⟩
  | pred ty p =>
    cases hv : peek cfg cells id ex ty with
    | none => simp [Arg.check, hv] at h
    | some v => exact ⟨_, by simp only [Arg.get, hv, Option.map_some]; rfl⟩
  | catch_ p =>
    cases ex with
    | none => simp [Arg.check] at h
    | some e => exact ⟨_, rfl⟩
  | info => exact ⟨_, rfl⟩
  | diag => exact ⟨_, rfl⟩
  | details => exact ⟨_, rfl⟩

theorem getArgs_some (cfg : Cfg) (cells : List CtxCell) (id : Id) (ex : Option Exc) (loc : Option Val) {args : List Arg}
    (h : matchesAny args = true ∨ checkArgs cfg cells id ex args = true) : ∃ vs, getArgs cfg cells id ex loc args = some vs := by
  have h' : ∀ a ∈ args, ∃ v, Arg.get cfg cells id ex loc a = some v := by
    intro a ha
    rcases h with h | h
    · simp only [matchesAny, List.all_eq_true] at h
      exact arg_get_of_always cfg cells id ex loc (h a ha)
    · simp only [checkArgs, List.all_eq_true] at h
      exact arg_get_of_check cfg cells id ex loc (h a ha)
  clear h
  induction args with
  | nil => exact ⟨[], rfl⟩
  | cons a as ih =>
    obtain ⟨v, hv⟩ := h' a (by simp)
    obtain ⟨vs, hvs⟩ := ih (fun b hb => h' b (by simp [hb]))
    exact ⟨v :: vs, by simp [getArgs, hv, hvs]⟩

theorem arg_get_ok {cfg : Cfg} {cells : List CtxCell} {id : Id} {ex : Option Exc} {loc : Option Val} {a : Arg} {v : ArgVal}
    (hid : id.Tagged) (hex : ∀ e, ex = some e → e.Ok) (h : Arg.get cfg cells id ex loc a = some v) : v.Ok := by
  cases a with
  | req ty =>
    simp only [Arg.get, Option.map_eq_some_iff] at h
    obtain ⟨x, _, rfl⟩ := h; trivial
  | ptr ty => simp only [Arg.get, Option.some.injEq] at h; subst h; trivial
  | pred ty p =>
    simp only [Arg.get, Option.map_eq_some_iff] at h
    obtain ⟨x, _, rfl⟩ := h; trivial
  | catch_ p =>
    simp only [Arg.get, Option.map_eq_some_iff] at h
    obtain ⟨x, hx, rfl⟩ := h; exact hex x hx
  | info => simp only [Arg.get, Option.some.injEq] at h; subst h; exact ⟨hid, hex⟩
  | diag => simp only [Arg.get, Option.some.injEq] at h; subst h; exact ⟨hid, hex⟩
  | details => simp only [Arg.get, Option.some.injEq] at h; subst h; exact ⟨hid, hex⟩

theorem getArgs_ok {cfg : Cfg} {cells : List CtxCell} {id : Id} {ex : Option Exc} {loc : Option Val} {args : List Arg}
    {vs : List ArgVal} (hid : id.Tagged) (hex : ∀ e, ex = some e → e.Ok) (h : getArgs cfg cells id ex loc args = some vs) :
    ∀ v ∈ vs, v.Ok := by
  induction args generalizing vs with
  | nil => simp only [getArgs, Option.some.injEq] at h; subst h; simp
  | cons a as ih =>
    cases hv : Arg.get cfg cells id ex loc a with
    | none => simp [getArgs, hv] at h
    | some v =>
      cases hvs : getArgs cfg cells id ex loc as with
      | none => simp [getArgs, hvs, hv] at h
      | some vs' =>
        simp only [getArgs, hv, hvs, Option.pure_def, Option.bind_eq_bind, Option.bind_some, Option.some.injEq] at h
        subst h
        intro x hx
        simp only [List.mem_cons] at hx
        rcases hx with rfl | hx
        · exact arg_get_ok hid hex hv
        · exact ih hvs x hx

theorem selectSomeFrom_spec {cfg : Cfg} {cells : List CtxCell} {id : Id} {ex : Option Exc} {specs : List (List Arg)} {i0 i : Nat}
    (h : selectSomeFrom cfg cells id ex i0 specs = some i) :
    ∃ j args, i = i0 + j ∧ specs[j]? = some args ∧ (matchesAny args = true ∨ checkArgs cfg cells id ex args = true) := by
  induction specs generalizing i0 with
  | nil => simp [selectSomeFrom] at h
  | cons s ss ih =>
    simp only [selectSomeFrom] at h
    by_cases hc : (matchesAny s || checkArgs cfg cells id ex s) = true
    · simp only [hc, if_true, Option.some.injEq] at h
      exact ⟨0, s, by omega, rfl, by simpa using hc⟩
    · simp only [hc] at h
      obtain ⟨j, args, h1, h2, h3⟩ := ih (by simpa using h)
      exact ⟨j + 1, args, by omega, by simpa using h2, h3⟩

theorem selectAllFrom_spec {cfg : Cfg} {cells : List CtxCell} {id : Id} {ex : Option Exc} {specs : List (List Arg)} {i0 i : Nat}
    (h : selectAllFrom cfg cells id ex i0 specs = some i) :
    ∃ j args, i = i0 + j ∧ specs[j]? = some args ∧ (matchesAny args = true ∨ checkArgs cfg cells id ex args = true) := by
  induction specs generalizing i0 with
  | nil => simp [selectAllFrom] at h
  | cons s ss ih =>
    cases ss with
    | nil =>
      simp only [selectAllFrom] at h
      by_cases hm : matchesAny s = true
      · simp only [hm, if_true, Option.some.injEq] at h
        exact ⟨0, s, by omega, rfl, Or.inl hm⟩
      · simp [hm] at h
    | cons s2 ss =>
      simp only [selectAllFrom] at h
      by_cases hc : (matchesAny s || checkArgs cfg cells id ex s) = true
      · simp only [hc, if_true, Option.some.injEq] at h
        exact ⟨0, s, by omega, rfl, by simpa using hc⟩
      · simp only [hc] at h
        obtain ⟨j, args, h1, h2, h3⟩ := ih (by simpa using h)
        exact ⟨j + 1, args, by omega, by simpa using h2, h3⟩

theorem selectAllFrom_total (cfg : Cfg) (cells : List CtxCell) (id : Id) (ex : Option Exc) {specs : List (List Arg)} (i0 : Nat)
    (h : ValidAll specs) : ∃ i, selectAllFrom cfg cells id ex i0 specs = some i := by
  obtain ⟨init, last, rfl, hl⟩ := h
  induction init generalizing i0 with
  | nil => exact ⟨i0, by simp [selectAllFrom, hl]⟩
  | cons s ss ih =>
    obtain ⟨i, hi⟩ := ih (i0 + 1)
    cases hss : ss ++ [last] with
    | nil => simp at hss
    | cons s2 ss2 =>
      simp only [List.cons_append, hss, selectAllFrom]
      by_cases hc : (matchesAny s || checkArgs cfg cells id ex s) = true
      · exact ⟨i0, by simp only [hc, if_true]⟩
      · exact ⟨i, by simp only [hc]; rw [hss] at hi; simpa using hi⟩

theorem tot_callHandler (s : List (List CellTy)) (cfg : Cfg) {specs : List (List Arg)} {body : Nat → List ArgVal → Comp AbsStore Out}
    {Q : Out → Prop}
    (hb : ∀ i args, (∀ a ∈ args, ArgVal.Ok a) → Tot s s (body i args) Q) {cells : List CtxCell} {id : Id} {ex : Option Exc}
    {loc : Option Val} {i : Nat} (hid : id.Tagged) (hex : ∀ e, ex = some e → e.Ok) {args : List Arg} (hi : specs[i]? = some args)
    (hc : matchesAny args = true ∨ checkArgs cfg cells id ex args = true) :
    Tot s s (callHandler cfg specs body cells id ex loc i) Q := by
  unfold callHandler
  obtain ⟨vs, hv⟩ := getArgs_some cfg cells id ex loc hc
  simp only [hi, hv]
  exact Tot.bind (tot_emit s _) (fun _ _ => hb i vs (getArgs_ok hid hex hv))

theorem tot_ctxLoc (s : List (List CellTy)) {id : Id} (hid : id.Tagged) (cells : List CtxCell) :
    Tot s s (ctxLoc id cells) (fun _ => True) := by
  unfold ctxLoc
  cases findCell tySrcLoc cells with
  | none => exact Tot.pure trivial
  | some c => simp only [tagged_ne_zero hid, if_false]; exact Tot.pure trivial

theorem tot_unpackId (s : List (List CellTy)) {e : Exc} (he : e.Ok) :
    Tot s s (unpackId e) (fun p => p.1.Tagged ∧ p.2.Ok) := by
  unfold unpackId
  by_cases h : e.isStd = true
  · simp only [h, if_true]
    cases hs : e.idSrc with
    | base id =>
      have : id.Tagged := by simpa [Exc.Ok, hs] using he
      exact Tot.pure ⟨this, by simpa [Exc.Ok, hs] using this⟩
    | plain id =>
      have : id.Tagged := by simpa [Exc.Ok, hs] using he
      exact Tot.pure ⟨this, he⟩
    | none => exact Tot.bind (tot_currentError s) (fun id hid => Tot.pure ⟨hid, he⟩)
  · simp only [h]
    exact Tot.bind (tot_currentError s) (fun id hid => Tot.pure ⟨hid, he⟩)

theorem tot_destroyExc (s : List (List CellTy)) (e : Exc) : Tot s s (destroyExc e) T := by
  unfold destroyExc
  cases e.idSrc with
  | base id =>
    refine Tot.bind (tot_getCur s) (fun c _ => ?_)
    by_cases h : e.clear = true ∧ c = id
    · simp only [h, and_self, if_true]; exact tot_setCur s (Or.inl rfl)
    · simp only [h]; exact Tot.pure trivial
  | plain id => exact Tot.pure trivial
  | none => exact Tot.pure trivial

theorem tot_catchPath (c : List CellTy) (s : List (List CellTy)) (cfg : Cfg) {specs : List (List Arg)}
    {body : Nat → List ArgVal → Comp AbsStore Out} {Q : Out → Prop}
    (hb : ∀ i args, (∀ a ∈ args, ArgVal.Ok a) → Tot s s (body i args) Q) (hQ : ∀ e, Exc.Ok e → Q (.exc e)) {e : Exc} (he : e.Ok) :
    Tot (c :: s) s (catchPath cfg specs body e) (fun p => Q p.1) := by
  unfold catchPath
  refine Tot.bind (tot_popCtx c s) (fun cells _ => ?_)
  refine Tot.bind (tot_unpackId s he) (fun p hp => ?_)
  obtain ⟨id, e'⟩ := p
  refine Tot.bind (tot_pushHandling s hp.2) (fun _ _ => ?_)
  refine Tot.bind (tot_ctxLoc s hp.1 cells) (fun loc _ => ?_)
  have hex : ∀ x, (if e'.isStd = true then some e' else none) = some x → x.Ok := by
    intro x hx
    by_cases h : e'.isStd = true <;> simp [h] at hx
    exact hx ▸ hp.2
  split
  · rename_i i hi
    obtain ⟨j, args, h1, h2, h3⟩ := selectSomeFrom_spec hi
    have hij : i = j := by omega
    subst hij
    refine Tot.bind (tot_callHandler s cfg hb hp.1 hex h2 h3) (fun o ho => ?_)
    refine Tot.bind (tot_popHandling s) (fun _ _ => ?_)
    exact Tot.bind (tot_destroyExc s e') (fun _ _ => Tot.pure ho)
  · refine Tot.bind (tot_unloadCells s cfg hp.1 cells) (fun _ _ => ?_)
    exact Tot.bind (tot_popHandling s) (fun _ _ => Tot.pure (hQ _ hp.2))

theorem tot_unloadOut (s : List (List CellTy)) (cfg : Cfg) {o : Out} (ho : o.Ok) : Tot s s (unloadOut cfg o) Out.Ok := by
  cases o with
  | val v => exact Tot.pure ho
  | err r => exact tot_resultUnload s cfg ho
  | exc e => exact Tot.pure ho

/-! ## Programs that return no error state -/

/-- Partial correctness of the outcome only, on any storage. -/
def Post {M α : Type} (x : Comp M α) (Q : α → Prop) : Prop := ∀ w a w', x w = some (a, w') → Q a

theorem Post.pure {M α : Type} {a : α} {Q : α → Prop} (h : Q a) : Post (Pure.pure a : Comp M α) Q := by
  intro w b w' e
  rw [pure_apply] at e
  cases e
  exact h

theorem Post.bind {M α β : Type} {x : Comp M α} {f : α → Comp M β} {P : α → Prop} {Q : β → Prop} (hx : Post x P)
    (hf : ∀ a, P a → Post (f a) Q) : Post (x >>= f) Q := by
  intro w b w' e
  rw [bind_apply] at e
  cases h : x w with
  | none => simp [h] at e
  | some p =>
    simp only [h, Option.bind_some] at e
    exact hf p.1 (hx w p.1 p.2 h) p.2 b w' e

theorem Post.bind' {M α β : Type} {x : Comp M α} {f : α → Comp M β} {Q : β → Prop}
    (hf : ∀ a, Post (f a) Q) : Post (x >>= f) Q :=
  Post.bind (P := fun _ => True) (fun _ _ _ _ => trivial) (fun a _ => hf a)

theorem Post.ub {M α : Type} {Q : α → Prop} : Post (ub : Comp M α) Q := by
  intro w a w' e
  simp [ub_apply] at e

def Out.NoErr (o : Out) : Prop := ∀ r, o ≠ .err r

theorem post_noErr {M : Type} (o : Out) : Post (noErr o : Comp M Out) Out.NoErr := by
  cases o with
  | val v => exact Post.pure (by simp [Out.NoErr])
  | err r => exact Post.ub
  | exc e => exact Post.pure (by simp [Out.NoErr])

theorem post_callHandler {M : Type} (cfg : Cfg) {specs : List (List Arg)} {body : Nat → List ArgVal → Comp M Out} {Q : Out → Prop}
    (hb : ∀ i args, Post (body i args) Q) (cells : List CtxCell) (id : Id) (ex : Option Exc) (loc : Option Val) (i : Nat) :
    Post (callHandler cfg specs body cells id ex loc i) Q := by
  unfold callHandler
  cases specs[i]? with
  | none => exact Post.ub
  | some args =>
    dsimp only
    cases getArgs cfg cells id ex loc args with
    | none => exact Post.ub
    | some vs => exact Post.bind' (fun _ => hb _ _)

theorem post_catchPath {M : Type} [Store M] (cfg : Cfg) {specs : List (List Arg)} {body : Nat → List ArgVal → Comp M Out} {Q : Out → Prop}
    (hb : ∀ i args, Post (body i args) Q) (hQ : ∀ e, Q (.exc e)) (e : Exc) :
    Post (catchPath cfg specs body e) (fun p => Q p.1) := by
  unfold catchPath
  refine Post.bind' (fun cells => Post.bind' (fun p => ?_))
  obtain ⟨id, e'⟩ := p
  refine Post.bind' (fun _ => Post.bind' (fun loc => ?_))
  split
  · refine Post.bind (post_callHandler cfg hb _ _ _ _ _) (fun o ho => ?_)
    exact Post.bind' (fun _ => Post.bind' (fun _ => Post.pure ho))
  · exact Post.bind' (fun _ => Post.bind' (fun _ => Post.pure (hQ _)))

theorem post_eval {M : Type} [Store M] (cfg : Cfg) (p : Prog) (hp : p.NoErr) : Post (eval (M := M) cfg p) Out.NoErr := by
  induction p with
  | ret o => exact Post.pure hp
  | newError items k ih => exact Post.bind' (fun id => ih id (hp id))
  | load id items k ih => exact Post.bind' (fun _ => ih hp)
  | importCode ec v k ih => exact Post.bind' (fun id => ih id (hp id))
  | currentError k ih => exact Post.bind' (fun id => ih id (hp id))
  | bind p k ke ih1 ih2 ih3 =>
    unfold eval
    refine Post.bind' (fun o => ?_)
    cases o with
    | val v => exact ih2 v (hp.1 v)
    | err r => exact ih3 r (hp.2 r)
    | exc e => exact Post.pure (by simp [Out.NoErr])
  | onError items body ih =>
    unfold eval onErrorGuard
    refine Post.bind' (fun saved => Post.bind (ih hp) (fun o ho => Post.bind' (fun id => ?_)))
    by_cases h : id = 0#32
    · simp only [h, ne_eq, not_true_eq_false, if_false]; exact Post.pure ho
    · simp only [h, ne_eq, not_false_eq_true, if_true]
      exact Post.bind' (fun _ => Post.bind' (fun _ => Post.pure ho))
  | monNew k ih => exact Post.bind' (fun id => ih id (hp id))
  | monCheck m k ih => exact Post.bind' (fun id => ih _ (hp _))
  | monAssigned m k ih => exact Post.bind' (fun id => ih _ (hp _))
  | handleAll specs block body ih1 ih2 =>
    unfold eval tryHandleAll
    refine Post.bind' (fun _ => Post.bind' (fun o => Post.bind' (fun o2 => ?_)))
    cases o2 with
    | val v => exact Post.bind' (fun _ => Post.pure (by simp [Out.NoErr]))
    | err r =>
      refine Post.bind' (fun _ => Post.bind' (fun cells => Post.bind' (fun loc => ?_)))
      split
      · exact Post.bind' (fun o => post_noErr o)
      · exact Post.ub
    | exc e => exact Post.bind' (fun p => post_noErr p.1)
  | handleSome specs block body ih1 ih2 => exact absurd hp (by simp [Prog.NoErr])
  | tryCatch specs block body ih1 ih2 =>
    unfold eval tryCatch
    refine Post.bind' (fun _ => Post.bind (ih1 hp.1) (fun o ho => ?_))
    cases o with
    | val v => exact Post.bind' (fun _ => Post.pure ho)
    | err r => exact Post.bind' (fun _ => Post.pure ho)
    | exc e =>
      exact Post.bind (post_catchPath cfg (fun i a => ih2 i a (hp.2 i a)) (by simp [Out.NoErr]) e) (fun p hp => Post.pure hp)
  | captureAll block ih => exact absurd hp (by simp [Prog.NoErr])
  | captureAllVoid block ih => exact absurd hp (by simp [Prog.NoErr])
  | excToResult tys block ih => exact absurd hp (by simp [Prog.NoErr])
  | cppCatch block h ih1 ih2 =>
    unfold eval cppCatch_
    refine Post.bind (ih1 hp.1) (fun o ho => ?_)
    cases o with
    | val v => exact Post.pure ho
    | err r => exact Post.pure ho
    | exc e =>
      refine Post.bind' (fun _ => Post.bind (ih2 e (hp.2 e)) (fun o2 ho2 => ?_))
      exact Post.bind' (fun _ => Post.bind' (fun _ => Post.pure ho2))
  | cppRethrow block h ih1 ih2 =>
    unfold eval cppRethrow_
    refine Post.bind (ih1 hp) (fun o ho => ?_)
    cases o with
    | val v => exact Post.pure ho
    | err r => exact Post.pure ho
    | exc e =>
      refine Post.bind' (fun _ => Post.bind' (fun o2 => Post.bind' (fun _ => ?_)))
      cases o2 with
      | val v => exact Post.pure ho
      | err r => exact Post.pure ho
      | exc e' => exact Post.bind' (fun _ => Post.pure (by simp [Out.NoErr]))
  | unload r => exact absurd hp (by simp [Prog.NoErr])
  | value r tag =>
    unfold eval resultValue
    refine Post.bind' (fun o => ?_)
    cases o <;> exact Post.pure (by simp [Out.NoErr])

theorem eval_noErr {M : Type} [Store M] (cfg : Cfg) (p : Prog) (hp : p.NoErr) (w : World M) (o : Out) (w' : World M)
    (h : eval cfg p w = some (o, w')) : ∀ r, o ≠ .err r := post_eval cfg p hp w o w' h

theorem tot_extractCaptured (s : List (List CellTy)) {id : Id} (hid : id.Tagged) (cells : List CtxCell) {ex : Option Exc}
    (hex : ∀ e, ex = some e → e.Ok) : Tot s s (extractCaptured id cells ex) Out.Ok := by
  unfold extractCaptured
  refine Tot.bind (tot_assertTagged s hid) (fun _ _ => Tot.pure ?_)
  intro n hn
  simp only [List.mem_append] at hn
  rcases hn with hn | hn
  · split at hn
    · split at hn
      · simp only [List.mem_map] at hn
        obtain ⟨x, _, rfl⟩ := hn
        trivial
      · simp at hn
    · simp at hn
  · cases ex with
    | none => simp at hn
    | some e => simp only [List.mem_singleton] at hn; subst hn; exact hex e rfl

theorem tot_catchHelper (s : List (List CellTy)) (cfg : Cfg) (e : Exc) (tys : List Ty) : Tot s s (catchHelper cfg e tys) Id.Tagged := by
  induction tys with
  | nil => exact tot_newError s cfg (da := true) (by simp) (by simp [Item.Ok])
  | cons t ts ih =>
    refine Tot.bind ih (fun id hid => ?_)
    cases e.cast t with
    | none => exact Tot.pure hid
    | some v =>
      exact Tot.bind (tot_errorIdLoad s cfg (Or.inr hid) (da := true) (by simp) (is := [.obj t v]) (by simp [Item.Ok])) (fun _ _ => Tot.pure hid)

theorem tot_resultValue (s : List (List CellTy)) (cfg : Cfg) {r : ErrRes} (hr : r.Ok) (tag : Nat) :
    Tot s s (resultValue cfg r tag) Out.Ok := by
  unfold resultValue
  refine Tot.bind (tot_resultUnload s cfg hr) (fun o ho => ?_)
  cases o with
  | val v => exact Tot.pure (errId_tagged r)
  | err r' => exact Tot.pure (errId_tagged r)
  | exc e => exact Tot.pure ho

theorem tot_of_noErr {s s' : List (List CellTy)} {cfg : Cfg} {p : Prog} (h : Tot s s' (eval cfg p) Out.Ok) (hp : p.NoErr) :
    Tot s s' (eval cfg p) (fun o => o.Ok ∧ ∀ r, o ≠ .err r) := by
  intro w hg hs
  obtain ⟨o, w', h1, h2, h3, h4⟩ := h w hg hs
  exact ⟨o, w', h1, h2, h3, h4, eval_noErr cfg p hp w o w' h1⟩

theorem tot_noErr (s : List (List CellTy)) {o : Out} (h : o.Ok ∧ ∀ r, o ≠ .err r) : Tot s s (noErr o) Out.Ok := by
  cases o with
  | val v => exact Tot.pure h.1
  | err r => exact absurd rfl (h.2 r)
  | exc e => exact Tot.pure h.1

theorem da_mem_deduce {cfg : Cfg} {specs : List (List Arg)} (h : CellTy.da ∈ deduce cfg specs) : capturing cfg specs = true := by
  have h1 : CellTy.da ∈ (specs.flatten.map (Arg.contextTypes cfg)).flatten := by
    unfold deduce at h
    have := (List.mem_filter.mp h).1
    exact mpUnique_mem this
  simp only [List.mem_flatten, List.mem_map] at h1
  obtain ⟨_, ⟨a, ⟨l, hl, ha⟩, rfl⟩, hd⟩ := h1
  cases a <;> simp [Arg.contextTypes] at hd
  by_cases hc : cfg.capture = true
  · simp only [capturing, hc, Bool.true_and, List.any_eq_true]
    exact ⟨l, hl, _, ha, rfl⟩
  · simp [hc] at hd

theorem noDa_push {cfg : Cfg} {specs : List (List Arg)} {s : List (List CellTy)} {da : Bool} (h : da = false → NoDa s) :
    (da || capturing cfg specs) = false → NoDa (deduce cfg specs :: s) := by
  intro h1
  simp only [Bool.or_eq_false_iff] at h1
  intro c hc
  simp only [List.mem_cons] at hc
  rcases hc with rfl | hc
  · intro hd
    rw [da_mem_deduce hd] at h1
    simp at h1
  · exact h h1.1 c hc

/-- Every well-formed program runs without undefined behaviour from every good state, and leaves the stack of contexts as it
found it. -/
theorem tot_eval (cfg : Cfg) (p : Prog) {da : Bool} (hp : p.WF cfg da) (s : List (List CellTy)) (hda : da = false → NoDa s) :
    Tot s s (eval cfg p) Out.Ok := by
  induction p generalizing s da with
  | ret o => exact Tot.pure hp
  | newError items k ih => exact Tot.bind (tot_newError s cfg hda hp.1) (fun id hid => ih id (hp.2 id hid) s hda)
  | load id items k ih => exact Tot.bind (tot_errorIdLoad s cfg hp.1 hda hp.2.1) (fun _ _ => ih hp.2.2 s hda)
  | importCode ec v k ih => exact Tot.bind (tot_importCode s cfg hp.1 v) (fun id hid => ih id (hp.2 id hid) s hda)
  | currentError k ih => exact Tot.bind (tot_currentError s) (fun id hid => ih id (hp id hid) s hda)
  | bind p k ke ih1 ih2 ih3 =>
    unfold eval
    refine Tot.bind (ih1 hp.1 s hda) (fun o ho => ?_)
    cases o with
    | val v => exact ih2 v (hp.2.1 v) s hda
    | err r => exact ih3 r (hp.2.2 r ho) s hda
    | exc e => exact Tot.pure ho
  | onError items body ih =>
    unfold eval onErrorGuard
    refine Tot.bind (tot_currentId s) (fun saved _ => ?_)
    refine Tot.bind (ih hp.2 s hda) (fun o ho => ?_)
    refine Tot.bind (tot_checkId s cfg saved _) (fun id hid => ?_)
    by_cases h : id = 0#32
    · simp only [h, ne_eq, not_true_eq_false, if_false]; exact Tot.pure ho
    · simp only [h, ne_eq, not_false_eq_true, if_true]
      have ht : id.Tagged := hid.resolve_left h
      exact Tot.bind (tot_assertTagged s ht) (fun _ _ => Tot.bind (tot_triggerItems s cfg ht hda hp.1) (fun _ _ => Tot.pure ho))
  | monNew k ih => exact Tot.bind (tot_currentId s) (fun id hid => ih id (hp id hid) s hda)
  | monCheck m k ih => exact Tot.bind (tot_checkId s cfg m false) (fun id _ => ih _ (hp _ (makeErrorId_tagged id)) s hda)
  | monAssigned m k ih => exact Tot.bind (tot_getId s cfg m) (fun id _ => ih _ (hp _ (makeErrorId_tagged id)) s hda)
  | handleAll specs block body ih1 ih2 =>
    unfold eval tryHandleAll
    refine Tot.bind (tot_pushCtx s (deduce_nodup cfg specs)) (fun _ _ => ?_)
    refine Tot.bind (ih1 hp.2.1 _ (noDa_push hda)) (fun o ho => ?_)
    refine Tot.bind (tot_unloadOut _ cfg ho) (fun o2 ho2 => ?_)
    have hb : ∀ i args, (∀ a ∈ args, ArgVal.Ok a) → Tot s s (eval cfg (body i args)) (fun o => o.Ok ∧ ∀ r, o ≠ .err r) :=
      fun i args ha => tot_of_noErr (ih2 i args (hp.2.2 i args ha).1 s hda) (hp.2.2 i args ha).2
    cases o2 with
    | val v => exact Tot.bind (tot_popCtx _ s) (fun _ _ => Tot.pure trivial)
    | err r =>
      refine Tot.bind (tot_resultUnload _ cfg ho2) (fun _ _ => ?_)
      refine Tot.bind (tot_popCtx _ s) (fun cells _ => ?_)
      refine Tot.bind (tot_ctxLoc s (errId_tagged r) cells) (fun loc _ => ?_)
      obtain ⟨i, hi⟩ := selectAllFrom_total cfg cells r.errId none 0 hp.1
      obtain ⟨j, args, h1, h2, h3⟩ := selectAllFrom_spec hi
      have hij : i = j := by omega
      subst hij
      simp only [selectAll, hi]
      exact Tot.bind (tot_callHandler s cfg hb (errId_tagged r) (by simp) h2 h3) (fun o ho => tot_noErr s ho)
    | exc e =>
      refine Tot.bind (tot_catchPath _ s cfg hb (fun e he => ⟨he, by simp⟩) ho2) (fun p hp => ?_)
      exact tot_noErr s hp
  | handleSome specs block body ih1 ih2 =>
    unfold eval tryHandleSome
    refine Tot.bind (tot_pushCtx s (deduce_nodup cfg specs)) (fun _ _ => ?_)
    refine Tot.bind (ih1 hp.1 _ (noDa_push hda)) (fun o ho => ?_)
    refine Tot.bind (tot_unloadOut _ cfg ho) (fun o2 ho2 => ?_)
    have hb : ∀ i args, (∀ a ∈ args, ArgVal.Ok a) → Tot s s (eval cfg (body i args)) Out.Ok :=
      fun i args ha => ih2 i args (hp.2 i args ha) s hda
    cases o2 with
    | val v => exact Tot.bind (tot_popCtx _ s) (fun _ _ => Tot.pure trivial)
    | err r =>
      refine Tot.bind (tot_resultUnload _ cfg ho2) (fun _ _ => ?_)
      refine Tot.bind (tot_popCtx _ s) (fun cells _ => ?_)
      refine Tot.bind (tot_ctxLoc s (errId_tagged r) cells) (fun loc _ => ?_)
      have hr : ∀ o : Out, o.Ok → Tot s s (do
          match o with
          | .err r' => unloadCells cfg r'.errId cells
          | _ => pure ()
          return o) Out.Ok := by
        intro o ho
        cases o with
        | val v => exact Tot.pure ho
        | err r' => exact Tot.bind (tot_unloadCells s cfg (errId_tagged r') cells) (fun _ _ => Tot.pure ho)
        | exc e => exact Tot.pure ho
      cases hi : selectSome cfg cells r.errId none specs with
      | none => exact hr _ ho2
      | some i =>
        obtain ⟨j, args, h1, h2, h3⟩ := selectSomeFrom_spec hi
        have hij : i = j := by omega
        subst hij
        exact Tot.bind (tot_callHandler s cfg hb (errId_tagged r) (by simp) h2 h3) (fun o ho => hr o ho)
    | exc e =>
      refine Tot.bind (tot_catchPath _ s cfg hb (fun e he => he) ho2) (fun p hp => ?_)
      obtain ⟨o, cells⟩ := p
      cases o with
      | val v => exact Tot.pure hp
      | err r' => exact Tot.bind (tot_unloadCells s cfg (errId_tagged r') cells) (fun _ _ => Tot.pure hp)
      | exc e => exact Tot.pure hp
  | tryCatch specs block body ih1 ih2 =>
    unfold eval tryCatch
    refine Tot.bind (tot_pushCtx s (deduce_nodup cfg specs)) (fun _ _ => ?_)
    refine Tot.bind (ih1 hp.1 _ (noDa_push hda)) (fun o ho => ?_)
    have hb : ∀ i args, (∀ a ∈ args, ArgVal.Ok a) → Tot s s (eval cfg (body i args)) Out.Ok :=
      fun i args ha => ih2 i args (hp.2 i args ha) s hda
    cases o with
    | val v => exact Tot.bind (tot_popCtx _ s) (fun _ _ => Tot.pure ho)
    | err r => exact Tot.bind (tot_popCtx _ s) (fun _ _ => Tot.pure ho)
    | exc e => exact Tot.bind (tot_catchPath _ s cfg hb (fun e he => he) ho) (fun p hp => Tot.pure hp)
  | captureAll block ih =>
    unfold eval tryCaptureAll
    simp only [hp.1, Bool.not_true, Bool.false_eq_true, if_false]
    refine Tot.bind (tot_pushCtx s (by simp)) (fun _ _ => ?_)
    refine Tot.bind (ih hp.2 _ (by simp)) (fun o ho => ?_)
    cases o with
    | val v => exact Tot.bind (tot_popCtx _ s) (fun _ _ => Tot.pure ho)
    | err r =>
      refine Tot.bind (tot_popCtx _ s) (fun cells _ => ?_)
      exact Tot.bind (tot_currentException s) (fun ex hex => tot_extractCaptured s (errId_tagged r) cells hex)
    | exc e =>
      refine Tot.bind (tot_popCtx _ s) (fun cells _ => ?_)
      refine Tot.bind (tot_unpackId s ho) (fun p hp => ?_)
      exact tot_extractCaptured s hp.1 cells (fun x hx => by cases hx; exact hp.2)
  | captureAllVoid block ih => exact absurd hp (by simp [Prog.WF])
  | excToResult tys block ih =>
    unfold eval exceptionToResult
    refine Tot.bind (ih hp s hda) (fun o ho => ?_)
    cases o with
    | val v => exact Tot.pure ho
    | err r => exact Tot.pure ho
    | exc e => exact Tot.bind (tot_catchHelper s cfg e _) (fun _ _ => Tot.pure trivial)
  | cppCatch block h ih1 ih2 =>
    unfold eval cppCatch_
    refine Tot.bind (ih1 hp.1 s hda) (fun o ho => ?_)
    cases o with
    | val v => exact Tot.pure ho
    | err r => exact Tot.pure ho
    | exc e =>
      refine Tot.bind (tot_pushHandling s ho) (fun _ _ => ?_)
      refine Tot.bind (ih2 e (hp.2 e ho) s hda) (fun o2 ho2 => ?_)
      exact Tot.bind (tot_popHandling s) (fun _ _ => Tot.bind (tot_destroyExc s e) (fun _ _ => Tot.pure ho2))
  | cppRethrow block h ih1 ih2 =>
    unfold eval cppRethrow_
    refine Tot.bind (ih1 hp.1 s hda) (fun o ho => ?_)
    cases o with
    | val v => exact Tot.pure ho
    | err r => exact Tot.pure ho
    | exc e =>
      refine Tot.bind (tot_pushHandling s ho) (fun _ _ => ?_)
      refine Tot.bind (ih2 e (hp.2 e ho) s hda) (fun o2 ho2 => ?_)
      refine Tot.bind (tot_popHandling s) (fun _ _ => ?_)
      cases o2 with
      | val v => exact Tot.pure ho
      | err r => exact Tot.pure ho
      | exc e' => exact Tot.bind (tot_destroyExc s e) (fun _ _ => Tot.pure ho2)
  | unload r => exact tot_resultUnload s cfg hp
  | value r tag => exact tot_resultValue s cfg hp tag

end Leaf
