import Verif.AbsLemmas

/-!
# Loading items and unloading contexts, as functions on the abstract storage
-/

namespace Leaf

/-! ## Items -/

def Item.isAccum : Item → Bool
  | .accum _ _ _ => true
  | _ => false

def Item.ty : Item → Ty
  | .obj ty _ => ty
  | .deferred ty _ _ => ty
  | .accum ty _ _ => ty

/-- The object an item provides when the object present for this error is `cur`. -/
def Item.objFor (cfg : Cfg) (cur : Option Val) : Item → Val
  | .obj _ v => v
  | .deferred _ _ v => v
  | .accum ty _ f => f (cur.getD (cfg.dflt ty))

/-- Accumulating into the innermost allocator does not destroy anything (see finding F4). -/
def AccOk (cfg : Cfg) (id : Id) (fs : List (List CtxCell)) : Prop :=
  cfg.capture = true → ∀ k ns, boundDa fs = some (k, ns) → k = 0#32 ∨ k = id

/-- The effect of an item on storage. -/
def putItem (cfg : Cfg) (keep : Bool) (id : Id) (i : Item) (fs : List (List CtxCell)) : List (List CtxCell) :=
  putObj cfg (keep && !i.isAccum) id i.ty (i.objFor cfg (avail i.ty id fs)) fs

/-- The events of an item, newest first. -/
def itemEvents (cfg : Cfg) (keep : Bool) (id : Id) (i : Item) (fs : List (List CtxCell)) : List Event :=
  match i with
  | .obj ty v => [.offered id ty v]
  | .deferred ty tag v =>
    if (match boundCell ty fs with
      | some p => !keep || (p.hasValue id).isNone
      | none => cfg.capture) then [.offered id ty v, .called tag] else []
  | .accum ty tag f =>
    if wanted cfg ty fs then [.offered id ty (f ((avail ty id fs).getD (cfg.dflt ty))), .called tag] else []

def World.put (w : World AbsStore) (es : List Event) (fs : List (List CtxCell)) : World AbsStore :=
  { w with mem := ⟨fs⟩, trace := es ++ w.trace }

theorem put_good {w : World AbsStore} (hg : w.Good) {es : List Event} {fs : List (List CtxCell)} (h : FramesGood fs) : (w.put es fs).Good :=
  ⟨hg.1, hg.2, hg.3, h⟩

theorem putItem_good {cfg : Cfg} {keep : Bool} {id : Id} (hid : id ≠ 0#32) {i : Item} {fs : List (List CtxCell)}
    (h : FramesGood fs) : FramesGood (putItem cfg keep id i fs) := putObj_good hid h

theorem putItem_shape (cfg : Cfg) (keep : Bool) (id : Id) (i : Item) (fs : List (List CtxCell)) :
    shape (putItem cfg keep id i fs) = shape fs := putObj_shape _ _ _ _ _ _

theorem loadItem_eq (cfg : Cfg) (keep : Bool) {id : Id} (hid : id.Tagged) (i : Item) (w : World AbsStore)
    (hg : FramesGood w.mem.frames) (hacc : i.isAccum = true → AccOk cfg id w.mem.frames) :
    loadItem cfg keep id i w = some ((), w.put (itemEvents cfg keep id i w.mem.frames) (putItem cfg keep id i w.mem.frames)) := by
  cases i with
  | obj ty v =>
    show (emit _ >>= fun _ => loadSlot cfg keep id ty v) w = _
    rw [bind_apply]
    simp only [emit, Option.bind_some]
    rw [loadSlot_eq cfg keep hid ty v { w with trace := .offered id ty v :: w.trace } hg]
    simp [putItem, Item.isAccum, Item.ty, Item.objFor, World.put, setMem, itemEvents]
  | deferred ty tag v =>
    show loadSlotDeferred cfg keep id ty tag v w = _
    unfold loadSlotDeferred
    rw [bind_apply, assertTagged_apply hid]
    simp only [Option.bind_some]
    rw [bind_apply, slotGet_apply, Option.bind_some]
    unfold putItem putObj itemEvents World.put
    simp only [Item.isAccum, Item.ty, Item.objFor, Bool.not_false, Bool.and_true]
    cases hb : boundCell ty w.mem.frames with
    | some p =>
      dsimp only
      by_cases h : (!keep || (p.hasValue id).isNone) = true
      · simp only [h, if_true, bind_apply, emit, Option.bind_some]
        exact slotSet_eq ty id v { w with trace := .offered id ty v :: .called tag :: w.trace } hb
      · simp only [h]; rfl
    | none =>
      dsimp only
      by_cases h : cfg.capture = true
      · simp only [h, if_true, bind_apply, emit, Option.bind_some]
        exact dynamicLoad_eq id (tagged_ne_zero hid) ty v { w with trace := .offered id ty v :: .called tag :: w.trace } hg hb
      · simp only [h]; rfl
  | accum ty tag f =>
    show loadSlotAccumulate cfg id ty tag f w = _
    unfold loadSlotAccumulate
    rw [bind_apply, assertTagged_apply hid]
    simp only [Option.bind_some]
    rw [bind_apply, slotGet_apply, Option.bind_some]
    unfold putItem putObj itemEvents World.put wanted avail
    simp only [Item.isAccum, Item.ty, Item.objFor, Bool.not_true, Bool.and_false]
    cases hb : boundCell ty w.mem.frames with
    | some p =>
      simp only [Bool.not_false, Bool.true_or, if_true, Option.isSome_some, Option.bind_some]
      rw [bind_apply, slotSet_eq ty id _ w hb]
      cases hp : p.hasValue id <;> rfl
    | none =>
      dsimp only
      by_cases h : cfg.capture = true
      · simp only [h, if_true, Option.isSome_none, Bool.false_or, Bool.true_and, Option.bind_none, Option.getD_none]
        unfold dynamicAccumulate
        rw [bind_apply]
        simp only [daKey, Store.daKey, Option.map_some, Option.bind_some]
        cases hd : boundDa w.mem.frames with
        | none => rfl
        | some d =>
          obtain ⟨k, ns⟩ := d
          simp only [Option.map_some, Option.isSome_some, if_true]
          by_cases hk : k = id
          · subst hk
            simp only [if_true]
            rw [bind_apply]
            simp only [daAppend, Store.daAppend, hd, tagged_ne_zero hid, if_false, hb, Option.map_some]
            rfl
          · have h0 : k = 0#32 := (hacc rfl h k ns hd).resolve_right hk
            subst h0
            have hn := boundDa_good hg hd rfl
            subst hn
            simp only [if_true, if_neg hk, bind_apply, daReset, Store.daReset, hd, Option.bind_some, Option.map_some]
            simp only [daAppend, Store.daAppend, boundDa_setBoundDa hd, tagged_ne_zero hid, if_false,
              boundCell_setBoundDa_nil ty _ _ hd, hb, Option.map_some, setBoundDa_twice]
            rfl
      · simp only [h]; rfl

theorem boundDa_key_setBound (ty : Ty) (c : Cell) (fs : List (List CtxCell)) :
    (boundDa (setBound ty c fs)).map Prod.fst = (boundDa fs).map Prod.fst := by
  induction fs with
  | nil => rfl
  | cons f fs ih =>
    cases hf : frameCell ty f with
    | some d =>
      have key : (frameDa (setFrame ty c f)).map Prod.fst = (frameDa f).map Prod.fst := by
        clear hf ih
        induction f with
        | nil => rfl
        | cons x f ih =>
          cases x with
          | obj u d => by_cases hu : u = ty <;> simp [setFrame, hu, frameDa, ih]
          | da k ns => cases hn : nodeCell ty ns <;> simp [setFrame, hn, frameDa]
      simp only [setBound, hf, boundDa]
      cases h1 : frameDa (setFrame ty c f) <;> cases h2 : frameDa f <;> simp [h1, h2] at key ⊢
      exact key
    | none =>
      simp only [setBound, hf, boundDa]
      cases h2 : frameDa f <;> simp [ih]

theorem AccOk.putObj {cfg : Cfg} {id : Id} {fs : List (List CtxCell)} (h : AccOk cfg id fs) (keep : Bool) (ty : Ty) (v : Val) :
    AccOk cfg id (putObj cfg keep id ty v fs) := by
  intro hc k ns hd
  unfold Leaf.putObj at hd
  split at hd
  · split at hd
    · have := boundDa_key_setBound ty (some (id, v)) fs
      rw [hd] at this
      cases hb : boundDa fs with
      | none => simp [hb] at this
      | some d =>
        obtain ⟨k', ns'⟩ := d
        simp only [hb, Option.map_some, Option.some.injEq] at this
        subst this
        exact h hc _ _ hb
    · exact h hc k ns hd
  · simp only [hc, if_true] at hd
    split at hd
    · rename_i k' ns' hd'
      rw [boundDa_setBoundDa hd'] at hd
      simp only [Option.some.injEq, Prod.mk.injEq] at hd
      rw [← hd.1]
      by_cases h0 : k' = 0#32
      · simp [h0]
      · rcases h hc _ _ hd' with h1 | h1
        · exact absurd h1 h0
        · simp [h1]
    · exact h hc k ns hd

/-- The effect of a list of items. -/
def putItems (cfg : Cfg) (keep : Bool) (id : Id) : List Item → List (List CtxCell) → List (List CtxCell)
  | [], fs => fs
  | i :: is, fs => putItems cfg keep id is (putItem cfg keep id i fs)

def itemsEvents (cfg : Cfg) (keep : Bool) (id : Id) : List Item → List (List CtxCell) → List Event
  | [], _ => []
  | i :: is, fs => itemsEvents cfg keep id is (putItem cfg keep id i fs) ++ itemEvents cfg keep id i fs

theorem putItems_good {cfg : Cfg} {keep : Bool} {id : Id} (hid : id ≠ 0#32) {is : List Item} {fs : List (List CtxCell)}
    (h : FramesGood fs) : FramesGood (putItems cfg keep id is fs) := by
  induction is generalizing fs with
  | nil => exact h
  | cons i is ih => exact ih (putItem_good hid h)

theorem putItems_shape (cfg : Cfg) (keep : Bool) (id : Id) (is : List Item) (fs : List (List CtxCell)) :
    shape (putItems cfg keep id is fs) = shape fs := by
  induction is generalizing fs with
  | nil => rfl
  | cons i is ih => exact (ih _).trans (putItem_shape _ _ _ _ _)

theorem loadItems_eq (cfg : Cfg) (keep : Bool) {id : Id} (hid : id.Tagged) (is : List Item) (w : World AbsStore)
    (hg : FramesGood w.mem.frames) (hacc : (∃ i ∈ is, i.isAccum = true) → AccOk cfg id w.mem.frames) :
    loadItems cfg keep id is w = some ((), w.put (itemsEvents cfg keep id is w.mem.frames) (putItems cfg keep id is w.mem.frames)) := by
  induction is generalizing w with
  | nil => rfl
  | cons i is ih =>
    show (loadItem cfg keep id i >>= fun _ => loadItems cfg keep id is) w = _
    rw [bind_apply, loadItem_eq cfg keep hid i w hg (fun h => hacc ⟨i, by simp, h⟩), Option.bind_some]
    have := ih (w.put (itemEvents cfg keep id i w.mem.frames) (putItem cfg keep id i w.mem.frames))
      (putItem_good (tagged_ne_zero hid) hg)
      (fun ⟨j, hj, h⟩ => (hacc ⟨j, by simp [hj], h⟩).putObj _ _ _)
    rw [this]
    simp [World.put, putItems, itemsEvents]

theorem wanted_putItem (cfg : Cfg) (keep : Bool) (id : Id) (i : Item) (t : Ty) (fs : List (List CtxCell)) :
    wanted cfg t (putItem cfg keep id i fs) = wanted cfg t fs := wanted_putObj _ _ _ _ _ _ _

theorem wanted_putItems (cfg : Cfg) (keep : Bool) (id : Id) (is : List Item) (t : Ty) (fs : List (List CtxCell)) :
    wanted cfg t (putItems cfg keep id is fs) = wanted cfg t fs := by
  induction is generalizing fs with
  | nil => rfl
  | cons i is ih => exact (ih _).trans (wanted_putItem _ _ _ _ _ _)

/-- How one item changes the object of type `ty` of its error. -/
def Item.step (cfg : Cfg) (keep : Bool) (ty : Ty) (cur : Option Val) (i : Item) : Option Val :=
  if i.ty = ty then
    if keep && !i.isAccum then cur.or (some (i.objFor cfg cur)) else some (i.objFor cfg cur)
  else cur

theorem avail_putItem (cfg : Cfg) (keep : Bool) (id : Id) (i : Item) {t : Ty} {fs : List (List CtxCell)} (hw : wanted cfg t fs = true) :
    avail t id (putItem cfg keep id i fs) = i.step cfg keep t (avail t id fs) := by
  unfold putItem Item.step
  by_cases h : i.ty = t
  · subst h
    rw [avail_putObj_same, if_pos hw]
    simp
  · rw [avail_putObj_ne _ _ _ _ _ _ (Ne.symm h), if_neg h]

theorem avail_putItems (cfg : Cfg) (keep : Bool) (id : Id) (is : List Item) {t : Ty} {fs : List (List CtxCell)} (hw : wanted cfg t fs = true) :
    avail t id (putItems cfg keep id is fs) = is.foldl (Item.step cfg keep t) (avail t id fs) := by
  induction is generalizing fs with
  | nil => rfl
  | cons i is ih =>
    rw [List.foldl_cons, ← avail_putItem cfg keep id i hw]
    exact ih (by rw [wanted_putItem]; exact hw)

/-! ## Unloading -/

/-- Unload one slot with content `c`. -/
def unloadObj (cfg : Cfg) (id : Id) (ty : Ty) (c : Cell) (fs : List (List CtxCell)) : List (List CtxCell) :=
  match c.hasValue id with
  | some v => putObj cfg true id ty v fs
  | none => fs

def unloadDaFs (cfg : Cfg) (id : Id) : List (Ty × Cell) → List (List CtxCell) → List (List CtxCell)
  | [], fs => fs
  | (ty, c) :: ns, fs => unloadDaFs cfg id ns (unloadObj cfg id ty c fs)

def unloadCellFs (cfg : Cfg) (id : Id) : CtxCell → List (List CtxCell) → List (List CtxCell)
  | .obj ty c, fs => unloadObj cfg id ty c fs
  | .da _ ns, fs => unloadDaFs cfg id ns fs

/-- Unload a context, last element first. -/
def unloadFs (cfg : Cfg) (id : Id) : List CtxCell → List (List CtxCell) → List (List CtxCell)
  | [], fs => fs
  | c :: cs, fs => unloadCellFs cfg id c (unloadFs cfg id cs fs)

/-- Unloading a dynamic allocator that captured something makes `id` the current error. -/
def unloadCur (id : Id) : List CtxCell → Id → Id
  | [], c => c
  | .da k _ :: cs, c => if k ≠ 0#32 then id else unloadCur id cs c
  | .obj _ _ :: cs, c => unloadCur id cs c

theorem unloadObj_good {cfg : Cfg} {id : Id} (hid : id ≠ 0#32) {ty : Ty} {c : Cell} {fs : List (List CtxCell)} (h : FramesGood fs) :
    FramesGood (unloadObj cfg id ty c fs) := by
  unfold unloadObj
  split
  · exact putObj_good hid h
  · exact h

theorem unloadDaFs_good {cfg : Cfg} {id : Id} (hid : id ≠ 0#32) {ns : List (Ty × Cell)} {fs : List (List CtxCell)} (h : FramesGood fs) :
    FramesGood (unloadDaFs cfg id ns fs) := by
  induction ns generalizing fs with
  | nil => exact h
  | cons n ns ih => exact ih (unloadObj_good hid h)

theorem unloadCellFs_good {cfg : Cfg} {id : Id} (hid : id ≠ 0#32) {c : CtxCell} {fs : List (List CtxCell)} (h : FramesGood fs) :
    FramesGood (unloadCellFs cfg id c fs) := by
  cases c with
  | obj ty c => exact unloadObj_good hid h
  | da k ns => exact unloadDaFs_good hid h

theorem unloadFs_good {cfg : Cfg} {id : Id} (hid : id ≠ 0#32) {cs : List CtxCell} {fs : List (List CtxCell)} (h : FramesGood fs) :
    FramesGood (unloadFs cfg id cs fs) := by
  induction cs with
  | nil => exact h
  | cons c cs ih => exact unloadCellFs_good hid ih

theorem unloadObj_shape (cfg : Cfg) (id : Id) (ty : Ty) (c : Cell) (fs : List (List CtxCell)) :
    shape (unloadObj cfg id ty c fs) = shape fs := by
  unfold unloadObj
  split
  · exact putObj_shape _ _ _ _ _ _
  · rfl

theorem unloadDaFs_shape (cfg : Cfg) (id : Id) (ns : List (Ty × Cell)) (fs : List (List CtxCell)) :
    shape (unloadDaFs cfg id ns fs) = shape fs := by
  induction ns generalizing fs with
  | nil => rfl
  | cons n ns ih => exact (ih _).trans (unloadObj_shape _ _ _ _ _)

theorem unloadFs_shape (cfg : Cfg) (id : Id) (cs : List CtxCell) (fs : List (List CtxCell)) :
    shape (unloadFs cfg id cs fs) = shape fs := by
  induction cs with
  | nil => rfl
  | cons c cs ih =>
    cases c with
    | obj ty c => exact (unloadObj_shape _ _ _ _ _).trans ih
    | da k ns => exact (unloadDaFs_shape _ _ _ _).trans ih

theorem unloadDaNodes_eq (cfg : Cfg) {id : Id} (hid : id ≠ 0#32) (ns : List (Ty × Cell)) (w : World AbsStore)
    (hg : FramesGood w.mem.frames) :
    unloadDaNodes cfg id ns w = some ((), setMem w (unloadDaFs cfg id ns w.mem.frames)) := by
  induction ns generalizing w with
  | nil => rfl
  | cons n ns ih =>
    obtain ⟨ty, c⟩ := n
    show (slotUnload cfg id ty c >>= fun _ => unloadDaNodes cfg id ns) w = _
    rw [bind_apply, slotUnload_eq cfg hid ty c w hg, Option.bind_some]
    exact ih (setMem w (unloadObj cfg id ty c w.mem.frames)) (unloadObj_good hid hg)

def setCurMem (w : World AbsStore) (cur : Id) (fs : List (List CtxCell)) : World AbsStore := { w with cur := cur, mem := ⟨fs⟩ }

theorem unloadCells_eq (cfg : Cfg) {id : Id} (hid : id ≠ 0#32) (cs : List CtxCell) (w : World AbsStore)
    (hg : FramesGood w.mem.frames) (hcs : ∀ c ∈ cs, c.Good) :
    unloadCells cfg id cs w = some ((), setCurMem w (unloadCur id cs w.cur) (unloadFs cfg id cs w.mem.frames)) := by
  induction cs with
  | nil => rfl
  | cons c cs ih =>
    show (unloadCells cfg id cs >>= fun _ => unloadCell cfg id c) w = _
    rw [bind_apply, ih (fun c hc => hcs c (by simp [hc])), Option.bind_some]
    cases c with
    | obj ty c =>
      show slotUnload cfg id ty c _ = _
      rw [slotUnload_eq cfg hid ty c _ (unloadFs_good hid hg)]
      rfl
    | da k ns =>
      have hgood := hcs (.da k ns) (by simp)
      unfold unloadCell
      simp only [hid, if_false]
      by_cases hk : k = 0#32
      · have hn := hgood hk
        subst hn
        simp only [hk, ne_eq, not_true_eq_false, if_false]
        simp [unloadCur, unloadFs, unloadCellFs, unloadDaFs, pure_apply]
      · simp only [ne_eq, hk, not_false_eq_true, if_true]
        rw [bind_apply]
        simp only [setCur, Option.bind_some]
        rw [unloadDaNodes_eq cfg hid ns _ (unloadFs_good hid hg)]
        simp [setCurMem, setMem, unloadCur, hk, unloadFs, unloadCellFs]

/-! ### What is available after unloading -/

theorem wanted_unloadObj (cfg : Cfg) (id : Id) (ty : Ty) (c : Cell) (t : Ty) (fs : List (List CtxCell)) :
    wanted cfg t (unloadObj cfg id ty c fs) = wanted cfg t fs := by
  unfold unloadObj
  split
  · exact wanted_putObj _ _ _ _ _ _ _
  · rfl

theorem wanted_unloadDaFs (cfg : Cfg) (id : Id) (ns : List (Ty × Cell)) (t : Ty) (fs : List (List CtxCell)) :
    wanted cfg t (unloadDaFs cfg id ns fs) = wanted cfg t fs := by
  induction ns generalizing fs with
  | nil => rfl
  | cons n ns ih => exact (ih _).trans (wanted_unloadObj _ _ _ _ _ _)

theorem wanted_unloadFs (cfg : Cfg) (id : Id) (cs : List CtxCell) (t : Ty) (fs : List (List CtxCell)) :
    wanted cfg t (unloadFs cfg id cs fs) = wanted cfg t fs := by
  induction cs with
  | nil => rfl
  | cons c cs ih =>
    cases c with
    | obj ty c => exact (wanted_unloadObj _ _ _ _ _ _).trans ih
    | da k ns => exact (wanted_unloadDaFs _ _ _ _ _).trans ih

theorem avail_not_wanted {cfg : Cfg} {t : Ty} {id : Id} {fs : List (List CtxCell)} (h : wanted cfg t fs = false) : avail t id fs = none := by
  unfold wanted at h
  simp only [Bool.or_eq_false_iff] at h
  unfold avail
  rw [show boundCell t fs = none by simpa using h.1]
  rfl

theorem avail_unloadObj (cfg : Cfg) (id : Id) (ty : Ty) (c : Cell) {t : Ty} {fs : List (List CtxCell)} (hw : wanted cfg t fs = true) :
    avail t id (unloadObj cfg id ty c fs) = if ty = t then (avail t id fs).or (c.hasValue id) else avail t id fs := by
  unfold unloadObj
  by_cases h : ty = t
  · subst h
    cases hc : c.hasValue id with
    | none => simp
    | some v => simp [avail_putObj_same, hw]
  · cases hc : c.hasValue id with
    | none => simp [h]
    | some v => simp [h, avail_putObj_ne _ _ _ _ _ _ (Ne.symm h)]

theorem avail_unloadDaFs (cfg : Cfg) (id : Id) (ns : List (Ty × Cell)) (hn : (ns.map Prod.fst).Nodup) {t : Ty} {fs : List (List CtxCell)}
    (hw : wanted cfg t fs = true) :
    avail t id (unloadDaFs cfg id ns fs) = (avail t id fs).or ((nodeCell t ns).bind (Cell.hasValue · id)) := by
  induction ns generalizing fs with
  | nil => simp [unloadDaFs, nodeCell]
  | cons n ns ih =>
    obtain ⟨ty, c⟩ := n
    simp only [List.map_cons, List.nodup_cons] at hn
    show avail t id (unloadDaFs cfg id ns (unloadObj cfg id ty c fs)) = _
    rw [ih hn.2 (by rw [wanted_unloadObj]; exact hw), avail_unloadObj cfg id ty c hw]
    by_cases h : ty = t
    · subst h
      have : nodeCell ty ns = none := by
        cases hc : nodeCell ty ns with
        | none => rfl
        | some d =>
          exfalso; apply hn.1
          clear ih hn hw
          induction ns with
          | nil => simp [nodeCell] at hc
          | cons m ns ih =>
            obtain ⟨u, e⟩ := m
            by_cases hu : u = ty
            · simp [hu]
            · simp only [nodeCell, hu, if_false] at hc
              simp [ih hc]
      simp [nodeCell, this]
    · simp [nodeCell, h]

theorem frameCell_some_mem {t : Ty} {f : List CtxCell} {c : Cell} (h : frameCell t f = some c) : t ∈ frameTys f := by
  apply Classical.byContradiction
  intro hn
  have : frameCell t f = none := by
    clear h
    induction f with
    | nil => rfl
    | cons x f ih =>
      rw [frameTys_cons, List.mem_append, not_or] at hn
      cases x with
      | obj u d =>
        have hu : u ≠ t := by intro e; subst e; simp [CtxCell.tys] at hn
        simp [frameCell, hu, ih hn.2]
      | da k ns =>
        have : nodeCell t ns = none := by
          have h1 := hn.1
          simp only [CtxCell.tys] at h1
          clear hn ih
          induction ns with
          | nil => rfl
          | cons m ns ih =>
            obtain ⟨u, e⟩ := m
            simp only [List.map_cons, List.mem_cons, not_or] at h1
            simp [nodeCell, Ne.symm h1.1, ih h1.2]
        simp [frameCell, this, ih hn.2]
  rw [this] at h; simp at h

/-- The object of error `id` of type `t` in one scope. -/
def scopeVal (t : Ty) (id : Id) (f : List CtxCell) : Option Val := (frameCell t f).bind (Cell.hasValue · id)

theorem avail_unloadFs (cfg : Cfg) (id : Id) (cs : List CtxCell) (hn : (frameTys cs).Nodup) {t : Ty} {fs : List (List CtxCell)}
    (hw : wanted cfg t fs = true) :
    avail t id (unloadFs cfg id cs fs) = (avail t id fs).or (scopeVal t id cs) := by
  induction cs with
  | nil => simp [unloadFs, scopeVal, frameCell]
  | cons c cs ih =>
    rw [frameTys_cons, List.nodup_append] at hn
    obtain ⟨h1, h2, h3⟩ := hn
    have ih := ih h2
    have hw' : wanted cfg t (unloadFs cfg id cs fs) = true := by rw [wanted_unloadFs]; exact hw
    have hx : t ∈ c.tys → frameCell t cs = none := by
      intro ht
      cases hc : frameCell t cs with
      | none => rfl
      | some d => exact absurd rfl (h3 t ht t (frameCell_some_mem hc))
    cases c with
    | obj ty c =>
      show avail t id (unloadObj cfg id ty c _) = _
      rw [avail_unloadObj cfg id ty c hw', ih]
      unfold scopeVal
      by_cases h : ty = t
      · subst h
        rw [hx (by simp [CtxCell.tys])]
        simp [frameCell]
      · simp [frameCell, h]
    | da k ns =>
      show avail t id (unloadDaFs cfg id ns _) = _
      rw [avail_unloadDaFs cfg id ns h1 hw', ih]
      unfold scopeVal
      cases hc : nodeCell t ns with
      | none => simp [frameCell, hc]
      | some d =>
        rw [hx (by
          have : t ∈ frameTys [CtxCell.da k ns] := frameCell_some_mem (c := d) (by simp [frameCell, hc])
          simpa [frameTys] using this)]
        simp [frameCell, hc]

/-- Unloading error `id` never makes an object of another error appear. -/
theorem avail_unloadObj_other (cfg : Cfg) {id id' : Id} (h : id' ≠ id) (ty : Ty) (c : Cell) (t : Ty) (fs : List (List CtxCell)) {v : Val}
    (hv : avail t id' (unloadObj cfg id ty c fs) = some v) : avail t id' fs = some v := by
  unfold unloadObj at hv
  split at hv
  · by_cases ht : t = ty
    · subst ht
      rw [avail_putObj_other _ _ _ _ _ _ _ h] at hv
      split at hv
      · simp at hv
      · exact hv
    · rwa [avail_putObj_ne _ _ _ _ _ _ ht] at hv
  · exact hv

theorem avail_unloadDaFs_other (cfg : Cfg) {id id' : Id} (h : id' ≠ id) (ns : List (Ty × Cell)) (t : Ty) (fs : List (List CtxCell)) {v : Val}
    (hv : avail t id' (unloadDaFs cfg id ns fs) = some v) : avail t id' fs = some v := by
  induction ns generalizing fs with
  | nil => exact hv
  | cons n ns ih =>
    obtain ⟨ty, c⟩ := n
    exact avail_unloadObj_other cfg h ty c t fs (ih _ hv)

theorem avail_unloadFs_other (cfg : Cfg) {id id' : Id} (h : id' ≠ id) (cs : List CtxCell) (t : Ty) (fs : List (List CtxCell)) {v : Val}
    (hv : avail t id' (unloadFs cfg id cs fs) = some v) : avail t id' fs = some v := by
  induction cs with
  | nil => exact hv
  | cons c cs ih =>
    apply ih
    cases c with
    | obj ty c => exact avail_unloadObj_other cfg h ty c t _ hv
    | da k ns =>
      exact avail_unloadDaFs_other cfg h ns t _ hv

/-! ## Arguments of handlers -/

theorem findCell_eq_frameCell {ty : Ty} {cells : List CtxCell} (hn : (frameTys cells).Nodup)
    (h : CellTy.obj ty ∈ cells.map CtxCell.cellTy) : findCell ty cells = frameCell ty cells := by
  induction cells with
  | nil => simp at h
  | cons c cs ih =>
    rw [frameTys_cons, List.nodup_append] at hn
    obtain ⟨h1, h2, h3⟩ := hn
    cases c with
    | obj t d =>
      by_cases ht : t = ty
      · simp [findCell, frameCell, ht]
      · simp only [List.map_cons, CtxCell.cellTy, List.mem_cons, CellTy.obj.injEq, Ne.symm ht, false_or] at h
        simp [findCell, frameCell, ht, ih h2 h]
    | da k ns =>
      simp only [List.map_cons, CtxCell.cellTy, List.mem_cons, reduceCtorEq, false_or] at h
      have : nodeCell ty ns = none := by
        cases hc : nodeCell ty ns with
        | none => rfl
        | some d =>
          exfalso
          have h4 : ty ∈ frameTys [CtxCell.da k ns] := frameCell_some_mem (c := d) (by simp [frameCell, hc])
          have h5 : ty ∈ frameTys cs := by
            simp only [List.mem_map] at h
            obtain ⟨x, hx, hxe⟩ := h
            cases x with
            | da => simp [CtxCell.cellTy] at hxe
            | obj u e =>
              simp only [CtxCell.cellTy, CellTy.obj.injEq] at hxe
              subst hxe
              simp only [frameTys, List.mem_flatMap]
              exact ⟨_, hx, by simp [CtxCell.tys]⟩
          exact h3 ty (by simpa [frameTys] using h4) ty h5 rfl
      simp [findCell, frameCell, this, ih h2 h]

/-- In a scope that has a slot for `ty`, a handler sees the object available for the error. -/
theorem scope_avail {ty : Ty} {id : Id} {cells : List CtxCell} {fs : List (List CtxCell)} (hn : (frameTys cells).Nodup)
    (h : CellTy.obj ty ∈ cells.map CtxCell.cellTy) :
    (findCell ty cells).bind (Cell.hasValue · id) = avail ty id (cells :: fs) := by
  rw [findCell_eq_frameCell hn h]
  have : ∃ c, frameCell ty cells = some c := by
    cases hc : frameCell ty cells with
    | some c => exact ⟨c, rfl⟩
    | none =>
      exfalso
      have h1 := frameCell_none hc
      apply h1
      simp only [List.mem_map] at h
      obtain ⟨x, hx, hxe⟩ := h
      cases x with
      | da => simp [CtxCell.cellTy] at hxe
      | obj u e =>
        simp only [CtxCell.cellTy, CellTy.obj.injEq] at hxe
        subst hxe
        simp only [frameTys, List.mem_flatMap]
        exact ⟨_, hx, by simp [CtxCell.tys]⟩
  obtain ⟨c, hc⟩ := this
  simp [avail, boundCell, hc]

end Leaf
