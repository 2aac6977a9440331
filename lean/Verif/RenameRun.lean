import Verif.RenameEval

/-!
# Runs with different ids
-/

namespace Leaf

/-! ## Storage -/
section
variable (ρ : Ren)

theorem ren_nodeCell (ty : Ty) (ns : List (Ty × Cell)) : nodeCell ty (ren ρ ns) = ren ρ (nodeCell ty ns) := by
  induction ns with
  | nil => rfl
  | cons n ns ih =>
    obtain ⟨t, c⟩ := n
    by_cases h : t = ty <;> simp [nodeCell, h, ih]

theorem ren_frameCell (ty : Ty) (f : List CtxCell) : frameCell ty (ren ρ f) = ren ρ (frameCell ty f) := by
  induction f with
  | nil => rfl
  | cons c f ih => cases c with
    | obj t c => by_cases h : t = ty <;> simp [frameCell, h, ih]
    | da k ns =>
      simp only [ren_cons, ren_cda, frameCell, ren_nodeCell]
      cases nodeCell ty ns with
      | none => exact ih
      | some c => rfl

theorem ren_boundCell (ty : Ty) (fs : List (List CtxCell)) : boundCell ty (ren ρ fs) = ren ρ (boundCell ty fs) := by
  induction fs with
  | nil => rfl
  | cons f fs ih =>
    simp only [ren_cons, boundCell, ren_frameCell]
    cases frameCell ty f with
    | none => exact ih
    | some c => rfl

theorem ren_setNode (ty : Ty) (c : Cell) (ns : List (Ty × Cell)) : setNode ty (ren ρ c) (ren ρ ns) = ren ρ (setNode ty c ns) := by
  induction ns with
  | nil => rfl
  | cons n ns ih =>
    obtain ⟨t, c⟩ := n
    by_cases h : t = ty <;> simp [setNode, h, ih]

theorem ren_setFrame (ty : Ty) (c : Cell) (f : List CtxCell) : setFrame ty (ren ρ c) (ren ρ f) = ren ρ (setFrame ty c f) := by
  induction f with
  | nil => rfl
  | cons x f ih => cases x with
    | obj t x => by_cases h : t = ty <;> simp [setFrame, h, ih]
    | da k ns =>
      simp only [ren_cons, ren_cda, setFrame, ren_nodeCell]
      cases nodeCell ty ns with
      | none => simp [ih]
      | some x => simp [ren_setNode]

theorem ren_setBound (ty : Ty) (c : Cell) (fs : List (List CtxCell)) : setBound ty (ren ρ c) (ren ρ fs) = ren ρ (setBound ty c fs) := by
  induction fs with
  | nil => rfl
  | cons f fs ih =>
    simp only [ren_cons, setBound, ren_frameCell]
    cases frameCell ty f with
    | none => simp [ih]
    | some x => simp [ren_setFrame]

theorem ren_frameDa (f : List CtxCell) : frameDa (ren ρ f) = ren ρ (frameDa f) := by
  induction f with
  | nil => rfl
  | cons x f ih => cases x with
    | obj t x => simpa [frameDa] using ih
    | da k ns => rfl

theorem ren_boundDa (fs : List (List CtxCell)) : boundDa (ren ρ fs) = ren ρ (boundDa fs) := by
  induction fs with
  | nil => rfl
  | cons f fs ih =>
    simp only [ren_cons, boundDa, ren_frameDa]
    cases frameDa f with
    | none => exact ih
    | some x => rfl

theorem ren_setFrameDa (k : Id) (ns : List (Ty × Cell)) (f : List CtxCell) : setFrameDa (ren ρ k) (ren ρ ns) (ren ρ f) = ren ρ (setFrameDa k ns f) := by
  induction f with
  | nil => rfl
  | cons x f ih => cases x with
    | obj t x => simp [setFrameDa, ih]
    | da k ns => rfl

theorem ren_setBoundDa (k : Id) (ns : List (Ty × Cell)) (fs : List (List CtxCell)) :
    setBoundDa (ren ρ k) (ren ρ ns) (ren ρ fs) = ren ρ (setBoundDa k ns fs) := by
  induction fs with
  | nil => rfl
  | cons f fs ih =>
    simp only [ren_cons, setBoundDa, ren_frameDa]
    cases frameDa f with
    | none => simp [ih]
    | some x => simp [ren_setFrameDa]

theorem ren_slotGet (ty : Ty) (m : AbsStore) : Store.slotGet ty (ren ρ m) = ren ρ (Store.slotGet ty m) :=
  congrArg some (ren_boundCell ρ ty m.frames)

theorem ren_daKey (m : AbsStore) : Store.daKey (ren ρ m) = ren ρ (Store.daKey m) := by
  show some ((boundDa (ren ρ m.frames)).map Prod.fst) = some (ren ρ ((boundDa m.frames).map Prod.fst))
  rw [ren_boundDa]
  cases boundDa m.frames <;> rfl

theorem ren_slotSet (ty : Ty) (id : Id) (v : Val) (m : AbsStore) : Store.slotSet ty (ren ρ id) v (ren ρ m) = ren ρ (Store.slotSet ty id v m) := by
  show (match boundCell ty (ren ρ m.frames) with
    | some _ => some (AbsStore.mk (setBound ty (some (ren ρ id, v)) (ren ρ m.frames)))
    | none => none) = ren ρ (match boundCell ty m.frames with
    | some _ => some (AbsStore.mk (setBound ty (some (id, v)) m.frames))
    | none => none)
  rw [ren_boundCell]
  cases boundCell ty m.frames with
  | none => rfl
  | some c => exact congrArg (fun x => some (AbsStore.mk x)) (ren_setBound ρ ty (some (id, v)) m.frames)

theorem ren_daReset (id : Id) (m : AbsStore) : Store.daReset (ren ρ id) (ren ρ m) = ren ρ (Store.daReset id m) := by
  show (match boundDa (ren ρ m.frames) with
    | some (_, []) => some (AbsStore.mk (setBoundDa (ren ρ id) [] (ren ρ m.frames)))
    | some (_, _ :: _) => none
    | none => none) = ren ρ (match boundDa m.frames with
    | some (_, []) => some (AbsStore.mk (setBoundDa id [] m.frames))
    | some (_, _ :: _) => none
    | none => none)
  rw [ren_boundDa]
  rcases boundDa m.frames with _ | ⟨k, _ | ⟨n, ns⟩⟩
  · rfl
  · exact congrArg (fun x => some (AbsStore.mk x)) (ren_setBoundDa ρ id [] m.frames)
  · rfl

theorem ren_daAppend (ty : Ty) (id : Id) (v : Val) (m : AbsStore) :
    Store.daAppend ty (ren ρ id) v (ren ρ m) = ren ρ (Store.daAppend ty id v m) := by
  show (match boundDa (ren ρ m.frames) with
    | some (k, ns) =>
      if k = 0#32 then none
      else match boundCell ty (ren ρ m.frames) with
        | some _ => none
        | none => some (AbsStore.mk (setBoundDa k (ns ++ [(ty, some (ren ρ id, v))]) (ren ρ m.frames)))
    | none => none) = ren ρ (match boundDa m.frames with
    | some (k, ns) =>
      if k = 0#32 then none
      else match boundCell ty m.frames with
        | some _ => none
        | none => some (AbsStore.mk (setBoundDa k (ns ++ [(ty, some (id, v))]) m.frames))
    | none => none)
  rw [ren_boundDa]
  rcases boundDa m.frames with _ | ⟨k, ns⟩
  · rfl
  · simp only [ren_some, ren_prod, ren_eq_zero]
    by_cases h : k = 0#32
    · simp only [h, if_true]; rfl
    · simp only [h, if_false, ren_boundCell]
      cases boundCell ty m.frames with
      | some c => rfl
      | none =>
        have := ren_setBoundDa ρ k (ns ++ [(ty, some (id, v))]) m.frames
        rw [ren_append] at this
        exact congrArg (fun x => some (AbsStore.mk x)) this

theorem ren_emptyCell (c : CellTy) : ren ρ c.empty = c.empty := by
  cases c with
  | obj ty => rfl
  | da => simp [CellTy.empty]

theorem ren_push (spec : List CellTy) (m : AbsStore) : Store.push spec (ren ρ m) = ren ρ (Store.push spec m) := by
  have h : ren ρ (spec.map CellTy.empty) = spec.map CellTy.empty := by
    induction spec with
    | nil => rfl
    | cons c cs ih => simp only [List.map_cons, ren_cons, ren_emptyCell, ih]
  show (if spec.Nodup then some (AbsStore.mk (spec.map CellTy.empty :: ren ρ m.frames)) else none) =
    ren ρ (if spec.Nodup then some (AbsStore.mk (spec.map CellTy.empty :: m.frames)) else none)
  by_cases hn : spec.Nodup
  · rw [if_pos hn, if_pos hn]
    show _ = some (AbsStore.mk (ren ρ (spec.map CellTy.empty) :: ren ρ m.frames))
    rw [h]
  · rw [if_neg hn, if_neg hn]; rfl

theorem ren_pop (m : AbsStore) : Store.pop (ren ρ m) = ren ρ (Store.pop m) := by
  obtain ⟨fs⟩ := m
  cases fs <;> rfl

/-- The state of a thread with ids renamed; the counter is `c`. -/
def renWorld (c : Id) (w : World AbsStore) : World AbsStore := ⟨ren ρ w.cur, c, w.ticks, ren ρ w.trace, ren ρ w.handling, ren ρ w.mem⟩

theorem exec_ren {cfg cfg' : Cfg} {o : Op} (ho : o ≠ .gen) (c : Id) (w : World AbsStore) :
    (o.ren ρ).exec cfg' (renWorld ρ c w) = (o.exec cfg w).map fun r => (o.renRes ρ r.1, renWorld ρ c r.2) := by
  cases o with
  | gen => exact absurd rfl ho
  | getCur => rfl
  | setCur id => rfl
  | emit e h => rfl
  | pushHandling e => rfl
  | popHandling =>
    simp only [Op.ren, Op.exec, popHandling, Option.map_some, renWorld]
    cases w.handling <;> rfl
  | currentException =>
    simp only [Op.ren, Op.exec, currentException, Option.map_some, renWorld]
    cases w.handling <;> rfl
  | slotGet ty =>
    have := ren_slotGet ρ ty w.mem
    simp only [Op.ren, Op.exec, slotGet, renWorld, this]
    cases Store.slotGet ty w.mem <;> rfl
  | slotSet ty id v =>
    have := ren_slotSet ρ ty id v w.mem
    simp only [Op.ren, Op.exec, slotSet, renWorld, this]
    cases Store.slotSet ty id v w.mem <;> rfl
  | daKey =>
    have := ren_daKey ρ w.mem
    simp only [Op.ren, Op.exec, daKey, renWorld, this]
    cases Store.daKey w.mem <;> rfl
  | daReset id =>
    have := ren_daReset ρ id w.mem
    simp only [Op.ren, Op.exec, daReset, renWorld, this]
    cases Store.daReset id w.mem <;> rfl
  | daAppend ty id v =>
    have := ren_daAppend ρ ty id v w.mem
    simp only [Op.ren, Op.exec, daAppend, renWorld, this]
    cases Store.daAppend ty id v w.mem <;> rfl
  | pushCtx spec =>
    have := ren_push ρ spec w.mem
    simp only [Op.ren, Op.exec, pushCtx, renWorld, this]
    cases Store.push spec w.mem <;> rfl
  | popCtx =>
    have := ren_pop ρ w.mem
    simp only [Op.ren, Op.exec, popCtx, renWorld, this]
    cases Store.pop w.mem <;> rfl

end

/-- The `j`-th next id of a thread that sees counter value `c` after having generated `t` ids. -/
def idAt (i : Nat → Nat) : Id → Nat → Nat → Id
  | c, t, 0 => c + BitVec.ofNat 32 (4 * i t) + 4#32
  | c, t, j + 1 => idAt i (c + BitVec.ofNat 32 (4 * i t) + 4#32) (t + 1) j

theorem exec_ticks {M : Type} [Store M] {cfg : Cfg} {o : Op} (ho : o ≠ .gen) {w w' : World M} {r : o.Res} (h : o.exec cfg w = some (r, w')) :
    w'.counter = w.counter ∧ w'.ticks = w.ticks := by
  cases o with
  | gen => exact absurd rfl ho
  | slotGet ty => simp only [Op.exec, slotGet, Option.map_eq_some_iff] at h; obtain ⟨y, _, h⟩ := h; cases h; exact ⟨rfl, rfl⟩
  | slotSet ty id v => simp only [Op.exec, slotSet, Option.map_eq_some_iff] at h; obtain ⟨y, _, h⟩ := h; cases h; exact ⟨rfl, rfl⟩
  | daKey => simp only [Op.exec, daKey, Option.map_eq_some_iff] at h; obtain ⟨y, _, h⟩ := h; cases h; exact ⟨rfl, rfl⟩
  | daReset id => simp only [Op.exec, daReset, Option.map_eq_some_iff] at h; obtain ⟨y, _, h⟩ := h; cases h; exact ⟨rfl, rfl⟩
  | daAppend ty id v => simp only [Op.exec, daAppend, Option.map_eq_some_iff] at h; obtain ⟨y, _, h⟩ := h; cases h; exact ⟨rfl, rfl⟩
  | pushCtx spec => simp only [Op.exec, pushCtx, Option.map_eq_some_iff] at h; obtain ⟨y, _, h⟩ := h; cases h; exact ⟨rfl, rfl⟩
  | popCtx => simp only [Op.exec, popCtx, Option.map_eq_some_iff] at h; obtain ⟨y, _, h⟩ := h; cases h; exact ⟨rfl, rfl⟩
  | _ => cases h; exact ⟨rfl, rfl⟩

theorem run_ticks {M : Type} [Store M] {α : Type} (cfg : Cfg) (x : Act α) (w w' : World M) (a : α) (h : x.run cfg w = some (a, w')) :
    w.ticks ≤ w'.ticks := by
  induction x generalizing w with
  | ret b => cases h; exact Nat.le_refl _
  | ub => cases h
  | op o k ih =>
    rw [run_op] at h
    cases hx : o.exec cfg w with
    | none => simp [hx] at h
    | some r =>
      simp only [hx, Option.bind_some] at h
      have h1 := ih r.1 r.2 h
      by_cases ho : o = .gen
      · subst ho
        cases hx
        exact Nat.le_of_succ_le h1
      · have := (exec_ticks ho hx).2
        omega

/-- Operations with renamed ids, run with the renamed ids. -/
theorem run_ren {α : Type} [HasRen α] {ρ : Ren} {cfg cfg' : Cfg} {x y : Act α} (h : Eqv ρ x y) (c : Id) (w w1 : World AbsStore) (a : α)
    (hx : x.run cfg w = some (a, w1))
    (hid : ∀ j, w.ticks + j < w1.ticks → idAt cfg'.interf c w.ticks j = ren ρ (idAt cfg.interf w.counter w.ticks j)) :
    ∃ c', y.run cfg' (renWorld ρ c w) = some (ren ρ a, renWorld ρ c' w1) := by
  induction h generalizing c w with
  | ret b => cases hx; exact ⟨c, rfl⟩
  | ub => cases hx
  | op o k k' _ ih =>
    rw [run_op] at hx ⊢
    by_cases ho : o = .gen
    · subst ho
      simp only [Op.exec, Option.bind_some] at hx
      have ht := run_ticks _ _ _ _ _ hx
      simp only at ht
      have h0 := hid 0 (by omega)
      simp only [idAt] at h0
      obtain ⟨c', hc'⟩ := ih _ (c + BitVec.ofNat 32 (4 * cfg'.interf w.ticks) + 4#32) _ hx (by
        intro j hj
        have := hid (j + 1) (by simp only at hj; omega)
        exact this)
      refine ⟨c', ?_⟩
      rw [← hc']
      simp only [Op.ren, Op.exec, renWorld, Option.bind_some, generateNextId, h0]
      rfl
    · rw [exec_ren (cfg := cfg) ρ ho]
      cases hr : o.exec cfg w with
      | none => simp [hr] at hx
      | some r =>
        simp only [hr, Option.bind_some, Option.map_some] at hx ⊢
        obtain ⟨e1, e2⟩ := exec_ticks ho hr
        exact ih r.1 c r.2 hx (by rw [e1, e2]; exact hid)

/-! ## Renamings exist -/

def Ren.id : Ren := ⟨fun n => n, fun n => n, fun _ => rfl, fun _ => rfl, rfl, fun _ h => h, fun _ h => h⟩

def Ren.comp (σ ρ : Ren) : Ren :=
  ⟨fun n => σ.fwd (ρ.fwd n), fun n => ρ.bwd (σ.bwd n), fun n => by rw [σ.left, ρ.left], fun n => by rw [ρ.right, σ.right],
    by rw [ρ.zero, σ.zero], fun n h => σ.lt _ (ρ.lt n h), fun n h => ρ.lt' _ (σ.lt' n h)⟩

def swapNat (a b n : Nat) : Nat := if n = a then b else if n = b then a else n

theorem swapNat_swapNat (a b n : Nat) : swapNat a b (swapNat a b n) = n := by
  unfold swapNat
  split
  · split
    · omega
    · split
      · omega
      · omega
  · split
    · split
      · omega
      · omega
    · rfl

def Ren.swap (a b : Nat) (ha : 0 < a ∧ a < 2 ^ 30) (hb : 0 < b ∧ b < 2 ^ 30) : Ren :=
  ⟨swapNat a b, swapNat a b, swapNat_swapNat a b, swapNat_swapNat a b, by unfold swapNat; split <;> (try split) <;> omega,
    fun n h => by unfold swapNat; split <;> (try split) <;> omega, fun n h => by unfold swapNat; split <;> (try split) <;> omega⟩

theorem exists_ren (k : Nat) (a b : Nat → Nat) (ha : ∀ j, j < k → 0 < a j ∧ a j < 2 ^ 30) (hb : ∀ j, j < k → 0 < b j ∧ b j < 2 ^ 30)
    (ha' : ∀ i j, i < j → j < k → a i ≠ a j) (hb' : ∀ i j, i < j → j < k → b i ≠ b j) : ∃ ρ : Ren, ∀ j, j < k → ρ.fwd (a j) = b j := by
  induction k with
  | zero => exact ⟨.id, fun j h => absurd h (by omega)⟩
  | succ k ih =>
    obtain ⟨ρ, hρ⟩ := ih (fun j h => ha j (by omega)) (fun j h => hb j (by omega)) (fun i j h h' => ha' i j h (by omega))
      (fun i j h h' => hb' i j h (by omega))
    have h1 := ha k (by omega)
    have hpos : 0 < ρ.fwd (a k) ∧ ρ.fwd (a k) < 2 ^ 30 := by
      refine ⟨?_, ρ.lt _ h1.2⟩
      rcases Nat.eq_zero_or_pos (ρ.fwd (a k)) with h | h
      · have e1 := ρ.left (a k)
        have e2 := ρ.left 0
        rw [h] at e1
        rw [ρ.zero] at e2
        omega
      · exact h
    refine ⟨.comp (.swap (ρ.fwd (a k)) (b k) hpos (hb k (by omega))) ρ, fun j hj => ?_⟩
    show swapNat (ρ.fwd (a k)) (b k) (ρ.fwd (a j)) = b j
    rcases Nat.lt_succ_iff_lt_or_eq.1 hj with h | h
    · rw [hρ j h]
      have e1 : b j ≠ ρ.fwd (a k) := by
        intro e
        rw [← hρ j h] at e
        have : a j = a k := by rw [← ρ.left (a j), e, ρ.left]
        exact ha' j k h (by omega) this
      have e2 := hb' j k h (by omega)
      unfold swapNat
      rw [if_neg e1, if_neg e2]
    · subst h
      unfold swapNat
      rw [if_pos rfl]

end Leaf
