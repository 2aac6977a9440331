import Verif.Total

/-!
# What storing an object does to the abstract storage
-/

namespace Leaf

/-! ## Lookup after update -/

theorem nodeCell_setNode_same {ty : Ty} {c c0 : Cell} {ns : List (Ty × Cell)} (h : nodeCell ty ns = some c0) :
    nodeCell ty (setNode ty c ns) = some c := by
  induction ns with
  | nil => simp [nodeCell] at h
  | cons n ns ih =>
    obtain ⟨t, d⟩ := n
    by_cases ht : t = ty
    · simp [setNode, nodeCell, ht]
    · simp only [nodeCell, ht, if_false] at h
      simp [setNode, nodeCell, ht, ih h]

theorem nodeCell_setNode_ne {ty t : Ty} (c : Cell) (ns : List (Ty × Cell)) (h : t ≠ ty) :
    nodeCell t (setNode ty c ns) = nodeCell t ns := by
  induction ns with
  | nil => rfl
  | cons n ns ih =>
    obtain ⟨u, d⟩ := n
    by_cases hu : u = ty
    · simp [setNode, hu, nodeCell, Ne.symm h]
    · by_cases hut : u = t
      · subst hut; simp [setNode, nodeCell, hu]
      · simp [setNode, nodeCell, hu, hut, ih]

theorem frameCell_setFrame_same {ty : Ty} {c c0 : Cell} {f : List CtxCell} (h : frameCell ty f = some c0) :
    frameCell ty (setFrame ty c f) = some c := by
  induction f with
  | nil => simp [frameCell] at h
  | cons x f ih =>
    cases x with
    | obj t d =>
      by_cases ht : t = ty
      · simp [setFrame, frameCell, ht]
      · simp only [frameCell, ht, if_false] at h
        simp [setFrame, frameCell, ht, ih h]
    | da k ns =>
      cases hn : nodeCell ty ns with
      | some d => simp [setFrame, frameCell, hn, nodeCell_setNode_same hn]
      | none =>
        simp only [frameCell, hn] at h
        simp [setFrame, frameCell, hn, ih h]

theorem frameCell_setFrame_ne {ty t : Ty} (c : Cell) (f : List CtxCell) (h : t ≠ ty) :
    frameCell t (setFrame ty c f) = frameCell t f := by
  induction f with
  | nil => rfl
  | cons x f ih =>
    cases x with
    | obj u d =>
      by_cases hu : u = ty
      · simp [setFrame, hu, frameCell, Ne.symm h]
      · simp [setFrame, frameCell, hu, ih]
    | da k ns =>
      cases hn : nodeCell ty ns with
      | some d => simp [setFrame, frameCell, hn, nodeCell_setNode_ne c ns h]
      | none => simp [setFrame, frameCell, hn, ih]

theorem nodeCell_append (ty : Ty) (ns ms : List (Ty × Cell)) :
    nodeCell ty (ns ++ ms) = (nodeCell ty ns).or (nodeCell ty ms) := by
  induction ns with
  | nil => simp [nodeCell]
  | cons n ns ih =>
    obtain ⟨t, d⟩ := n
    by_cases ht : t = ty <;> simp [nodeCell, ht, ih]

theorem frameCell_append_same {ty : Ty} {k k' : Id} {ns : List (Ty × Cell)} {c : Cell} {f : List CtxCell}
    (hd : frameDa f = some (k, ns)) (h : frameCell ty f = none) :
    frameCell ty (setFrameDa k' (ns ++ [(ty, c)]) f) = some c := by
  induction f with
  | nil => simp [frameDa] at hd
  | cons x f ih =>
    cases x with
    | obj u d =>
      by_cases hu : u = ty
      · simp [frameCell, hu] at h
      · simp only [frameCell, hu, if_false] at h
        simp [setFrameDa, frameCell, hu, ih (by simpa [frameDa] using hd) h]
    | da k0 ns0 =>
      simp only [frameDa, Option.some.injEq, Prod.mk.injEq] at hd
      obtain ⟨rfl, rfl⟩ := hd
      cases hn : nodeCell ty ns0 with
      | some d => simp [frameCell, hn] at h
      | none => simp [setFrameDa, frameCell, nodeCell_append, hn, nodeCell]

theorem frameCell_append_ne {ty t : Ty} {k k' : Id} {ns : List (Ty × Cell)} {c : Cell} {f : List CtxCell}
    (hd : frameDa f = some (k, ns)) (h : t ≠ ty) :
    frameCell t (setFrameDa k' (ns ++ [(ty, c)]) f) = frameCell t f := by
  induction f with
  | nil => simp [frameDa] at hd
  | cons x f ih =>
    cases x with
    | obj u d => simp [setFrameDa, frameCell, ih (by simpa [frameDa] using hd)]
    | da k0 ns0 =>
      simp only [frameDa, Option.some.injEq, Prod.mk.injEq] at hd
      obtain ⟨rfl, rfl⟩ := hd
      have : ty ≠ t := fun e => h e.symm
      cases hn : nodeCell t ns0 <;> simp [setFrameDa, frameCell, nodeCell_append, hn, nodeCell, this]

theorem frameDa_setFrame_isSome (ty : Ty) (c : Cell) (f : List CtxCell) : (frameDa (setFrame ty c f)).isSome = (frameDa f).isSome := by
  induction f with
  | nil => rfl
  | cons x f ih =>
    cases x with
    | obj u d => by_cases hu : u = ty <;> simp [setFrame, hu, frameDa, ih]
    | da k ns => cases hn : nodeCell ty ns <;> simp [setFrame, hn, frameDa]

theorem boundCell_setBound_same {ty : Ty} {c c0 : Cell} {fs : List (List CtxCell)} (h : boundCell ty fs = some c0) :
    boundCell ty (setBound ty c fs) = some c := by
  induction fs with
  | nil => simp [boundCell] at h
  | cons f fs ih =>
    cases hf : frameCell ty f with
    | some d => simp [setBound, hf, boundCell, frameCell_setFrame_same hf]
    | none =>
      simp only [boundCell, hf] at h
      simp [setBound, hf, boundCell, ih h]

theorem boundCell_setBound_ne {ty t : Ty} (c : Cell) (fs : List (List CtxCell)) (h : t ≠ ty) :
    boundCell t (setBound ty c fs) = boundCell t fs := by
  induction fs with
  | nil => rfl
  | cons f fs ih =>
    cases hf : frameCell ty f with
    | some d => simp [setBound, hf, boundCell, frameCell_setFrame_ne c f h]
    | none => simp [setBound, hf, boundCell, ih]

theorem boundCell_append_same {ty : Ty} {k k' : Id} {ns : List (Ty × Cell)} {c : Cell} {fs : List (List CtxCell)}
    (hd : boundDa fs = some (k, ns)) (h : boundCell ty fs = none) :
    boundCell ty (setBoundDa k' (ns ++ [(ty, c)]) fs) = some c := by
  induction fs with
  | nil => simp [boundDa] at hd
  | cons f fs ih =>
    cases hf : frameCell ty f with
    | some d => simp [boundCell, hf] at h
    | none =>
      simp only [boundCell, hf] at h
      cases hdf : frameDa f with
      | some d =>
        simp only [boundDa, hdf, Option.some.injEq] at hd
        simp [setBoundDa, hdf, boundCell, frameCell_append_same (hd ▸ hdf) hf]
      | none =>
        simp only [boundDa, hdf] at hd
        simp [setBoundDa, hdf, boundCell, hf, ih hd h]

theorem boundCell_append_ne {ty t : Ty} {k k' : Id} {ns : List (Ty × Cell)} {c : Cell} {fs : List (List CtxCell)}
    (hd : boundDa fs = some (k, ns)) (h : t ≠ ty) :
    boundCell t (setBoundDa k' (ns ++ [(ty, c)]) fs) = boundCell t fs := by
  induction fs with
  | nil => simp [boundDa] at hd
  | cons f fs ih =>
    cases hdf : frameDa f with
    | some d =>
      simp only [boundDa, hdf, Option.some.injEq] at hd
      simp [setBoundDa, hdf, boundCell, frameCell_append_ne (hd ▸ hdf) h]
    | none =>
      simp only [boundDa, hdf] at hd
      simp [setBoundDa, hdf, boundCell, ih hd]

theorem boundDa_setBound_isSome (ty : Ty) (c : Cell) (fs : List (List CtxCell)) :
    (boundDa (setBound ty c fs)).isSome = (boundDa fs).isSome := by
  induction fs with
  | nil => rfl
  | cons f fs ih =>
    cases hf : frameCell ty f with
    | some d =>
      have := frameDa_setFrame_isSome ty c f
      simp only [setBound, hf, boundDa]
      cases h1 : frameDa (setFrame ty c f) <;> cases h2 : frameDa f <;> simp [h1, h2] at this ⊢
    | none =>
      simp only [setBound, hf, boundDa]
      cases h2 : frameDa f <;> simp [ih]

/-! ## Storing one object, as a function -/

/-- The effect of `load_slot<keep>` / `slot::unload` (`keep = true`) on storage. -/
def putObj (cfg : Cfg) (keep : Bool) (id : Id) (ty : Ty) (v : Val) (fs : List (List CtxCell)) : List (List CtxCell) :=
  match boundCell ty fs with
  | some p => if !keep || (p.hasValue id).isNone then setBound ty (some (id, v)) fs else fs
  | none =>
    if cfg.capture then
      match boundDa fs with
      | some (k, ns) => setBoundDa (if k = 0#32 then id else k) (ns ++ [(ty, some (id, v))]) fs
      | none => fs
    else fs

def setMem (w : World AbsStore) (fs : List (List CtxCell)) : World AbsStore := { w with mem := ⟨fs⟩ }

theorem slotGet_apply (ty : Ty) (w : World AbsStore) : slotGet ty w = some (boundCell ty w.mem.frames, w) := rfl

theorem storeObj_eq (cfg : Cfg) (keep : Bool) {id : Id} (hid : id ≠ 0#32) (ty : Ty) (v : Val) (w : World AbsStore)
    (hg : FramesGood w.mem.frames) :
    ((slotGet ty >>= fun c => match c with
      | some p => if !keep || (Cell.hasValue p id).isNone then slotSet ty id v else pure ()
      | none => if cfg.capture then dynamicLoad id ty v else pure ()) : Comp AbsStore Unit) w =
    some ((), setMem w (putObj cfg keep id ty v w.mem.frames)) := by
  rw [bind_apply, slotGet_apply, Option.bind_some]
  unfold putObj
  cases hb : boundCell ty w.mem.frames with
  | some p =>
    dsimp only
    by_cases h : (!keep || (p.hasValue id).isNone) = true
    · simp only [h, if_true]; rw [slotSet_eq ty id v w hb]; rfl
    · simp only [h]; rfl
  | none =>
    dsimp only
    by_cases h : cfg.capture = true
    · simp only [h, if_true]; rw [dynamicLoad_eq id hid ty v w hg hb]; rfl
    · simp only [h]; rfl

theorem assertTagged_apply {id : Id} (h : id.Tagged) (w : World AbsStore) : assertTagged id w = some ((), w) := by
  simp [assertTagged, h]

theorem loadSlot_eq (cfg : Cfg) (keep : Bool) {id : Id} (hid : id.Tagged) (ty : Ty) (v : Val) (w : World AbsStore)
    (hg : FramesGood w.mem.frames) :
    loadSlot cfg keep id ty v w = some ((), setMem w (putObj cfg keep id ty v w.mem.frames)) := by
  unfold loadSlot
  rw [bind_apply, assertTagged_apply hid]
  exact storeObj_eq cfg keep (tagged_ne_zero hid) ty v w hg

theorem slotUnload_eq (cfg : Cfg) {id : Id} (hid : id ≠ 0#32) (ty : Ty) (c : Cell) (w : World AbsStore)
    (hg : FramesGood w.mem.frames) :
    slotUnload cfg id ty c w = some ((), setMem w (match c.hasValue id with
      | some v => putObj cfg true id ty v w.mem.frames
      | none => w.mem.frames)) := by
  unfold slotUnload
  simp only [hid, if_false]
  cases hc : c.hasValue id with
  | none => rfl
  | some v => exact storeObj_eq cfg true hid ty v w hg

theorem putObj_shape (cfg : Cfg) (keep : Bool) (id : Id) (ty : Ty) (v : Val) (fs : List (List CtxCell)) :
    shape (putObj cfg keep id ty v fs) = shape fs := by
  unfold putObj
  split
  · split
    · exact setBound_shape _ _ _
    · rfl
  · split
    · split
      · exact setBoundDa_shape _ _ _
      · rfl
    · rfl

theorem putObj_good {cfg : Cfg} {keep : Bool} {id : Id} (hid : id ≠ 0#32) {ty : Ty} {v : Val} {fs : List (List CtxCell)}
    (h : FramesGood fs) : FramesGood (putObj cfg keep id ty v fs) := by
  unfold putObj
  split
  · split
    · exact setBound_good _ _ h
    · exact h
  · split
    · split
      · rename_i hb _ _ k ns hd
        refine setBoundDa_good hd ?_ (Or.inr ⟨ty, _, rfl, hb⟩) h
        intro e
        by_cases hk : k = 0#32 <;> simp [hk] at e
        exact absurd e hid
      · exact h
    · exact h

theorem good_setMem {w : World AbsStore} (hg : w.Good) {fs : List (List CtxCell)} (h : FramesGood fs) : (setMem w fs).Good :=
  ⟨hg.1, hg.2, hg.3, h⟩

/-- The object of type `ty` for error `id` in the innermost slot for `ty`. -/
def avail (ty : Ty) (id : Id) (fs : List (List CtxCell)) : Option Val := (boundCell ty fs).bind (Cell.hasValue · id)

/-- Some active scope stores objects of type `ty`. -/
def wanted (cfg : Cfg) (ty : Ty) (fs : List (List CtxCell)) : Bool :=
  (boundCell ty fs).isSome || (cfg.capture && (boundDa fs).isSome)

theorem boundCell_putObj_ne (cfg : Cfg) (keep : Bool) (id : Id) {ty t : Ty} (v : Val) (fs : List (List CtxCell)) (h : t ≠ ty) :
    boundCell t (putObj cfg keep id ty v fs) = boundCell t fs := by
  unfold putObj
  split
  · split
    · exact boundCell_setBound_ne _ _ h
    · rfl
  · split
    · split
      · rename_i hd; exact boundCell_append_ne hd h
      · rfl
    · rfl

theorem boundCell_putObj_same (cfg : Cfg) (keep : Bool) (id : Id) (ty : Ty) (v : Val) (fs : List (List CtxCell)) :
    boundCell ty (putObj cfg keep id ty v fs) =
      if wanted cfg ty fs ∧ (keep = true → avail ty id fs = none) then some (some (id, v)) else boundCell ty fs := by
  unfold putObj wanted avail
  cases hb : boundCell ty fs with
  | some p =>
    dsimp only
    by_cases h : (!keep || (p.hasValue id).isNone) = true
    · have h' : keep = true → p.hasValue id = none := by
        intro hk; simpa [hk] using h
      simp only [h, if_true, boundCell_setBound_same hb, Option.isSome_some, Bool.true_or, Option.bind_some, true_and]
      rw [if_pos h']
    · have h' : ¬(keep = true → p.hasValue id = none) := by
        intro hk
        apply h
        cases keep <;> simp at hk ⊢
        exact hk
      simp only [h, Option.isSome_some, Bool.true_or, Option.bind_some, true_and]
      rw [if_neg h', if_neg (by simp)]
      exact hb
  | none =>
    dsimp only
    by_cases h : cfg.capture = true
    · cases hd : boundDa fs with
      | some d =>
        obtain ⟨k, ns⟩ := d
        simp [h, boundCell_append_same hd hb]
      | none => simp [h, hb]
    · simp [h, hb]

theorem boundDa_putObj_isSome (cfg : Cfg) (keep : Bool) (id : Id) (ty : Ty) (v : Val) (fs : List (List CtxCell)) :
    (boundDa (putObj cfg keep id ty v fs)).isSome = (boundDa fs).isSome := by
  unfold putObj
  split
  · split
    · exact boundDa_setBound_isSome _ _ _
    · rfl
  · split
    · split
      · rename_i hd; rw [boundDa_setBoundDa hd, hd]; rfl
      · rfl
    · rfl

theorem avail_putObj_ne (cfg : Cfg) (keep : Bool) (id id' : Id) {ty t : Ty} (v : Val) (fs : List (List CtxCell)) (h : t ≠ ty) :
    avail t id' (putObj cfg keep id ty v fs) = avail t id' fs := by
  unfold avail; rw [boundCell_putObj_ne _ _ _ _ _ h]

theorem hasValue_some {id : Id} {v : Val} : Cell.hasValue (some (id, v)) id = some v := by simp [Cell.hasValue]

theorem avail_putObj_same (cfg : Cfg) (keep : Bool) (id : Id) (ty : Ty) (v : Val) (fs : List (List CtxCell)) :
    avail ty id (putObj cfg keep id ty v fs) =
      if wanted cfg ty fs then (if keep then (avail ty id fs).or (some v) else some v) else none := by
  have h0 := boundCell_putObj_same cfg keep id ty v fs
  rw [show avail ty id (putObj cfg keep id ty v fs) = (boundCell ty (putObj cfg keep id ty v fs)).bind (Cell.hasValue · id) from rfl, h0]
  by_cases hw : wanted cfg ty fs = true
  · by_cases hk : keep = true
    · cases ha : avail ty id fs with
      | none => simp [hw, hk, hasValue_some]
      | some x =>
        simp only [hw, hk]
        simpa [avail] using ha
    · simp [hw, hk, hasValue_some]
  · have : boundCell ty fs = none := by
      unfold wanted at hw
      simp only [Bool.or_eq_true, not_or] at hw
      simpa using hw.1
    simp [hw, this]

/-- An object for another error stays available unless it is replaced. -/
theorem avail_putObj_other (cfg : Cfg) (keep : Bool) (id id' : Id) (ty : Ty) (v : Val) (fs : List (List CtxCell)) (h : id' ≠ id) :
    avail ty id' (putObj cfg keep id ty v fs) =
      if wanted cfg ty fs ∧ (keep = true → avail ty id fs = none) then none else avail ty id' fs := by
  have h0 := boundCell_putObj_same cfg keep id ty v fs
  unfold avail at h0 ⊢
  rw [h0]
  split
  · simp [Cell.hasValue, Ne.symm h]
  · rfl

theorem wanted_putObj (cfg : Cfg) (keep : Bool) (id : Id) (ty t : Ty) (v : Val) (fs : List (List CtxCell)) :
    wanted cfg t (putObj cfg keep id ty v fs) = wanted cfg t fs := by
  unfold wanted
  rw [boundDa_putObj_isSome]
  by_cases h : t = ty
  · subst h
    rw [boundCell_putObj_same]
    by_cases hw : wanted cfg t fs ∧ (keep = true → avail t id fs = none)
    · rw [if_pos hw]
      have := hw.1
      unfold wanted at this
      rw [this]; simp
    · rw [if_neg hw]
  · rw [boundCell_putObj_ne _ _ _ _ _ h]

end Leaf
