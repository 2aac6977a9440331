import Verif.TravelLemmas
import Verif.Handling

/-!
# Lemmas for C27, C28, C40: capturing and unloading captured objects
-/

namespace Leaf

/-! ## Keys of dynamic allocators -/

/-- Corresponding elements: dynamic allocators keep their key, or got `id` if they were empty. -/
def FrameStep (id : Id) : List CtxCell → List CtxCell → Prop
  | [], [] => True
  | .obj _ _ :: f, .obj _ _ :: g => FrameStep id f g
  | .da k _ :: f, .da k' _ :: g => (k' = k ∨ (k = 0#32 ∧ k' = id)) ∧ FrameStep id f g
  | _, _ => False

def KeyStep (id : Id) : List (List CtxCell) → List (List CtxCell) → Prop
  | [], [] => True
  | f :: fs, g :: gs => FrameStep id f g ∧ KeyStep id fs gs
  | _, _ => False

theorem frameStep_refl (id : Id) (f : List CtxCell) : FrameStep id f f := by
  induction f with
  | nil => trivial
  | cons x f ih => cases x with
    | obj t c => exact ih
    | da k ns => exact ⟨Or.inl rfl, ih⟩

theorem keyStep_refl (id : Id) (fs : List (List CtxCell)) : KeyStep id fs fs := by
  induction fs with
  | nil => trivial
  | cons f fs ih => exact ⟨frameStep_refl id f, ih⟩

theorem frameStep_trans {id : Id} {f g h : List CtxCell} (h1 : FrameStep id f g) (h2 : FrameStep id g h) : FrameStep id f h := by
  induction f generalizing g h with
  | nil => cases g with
    | nil => exact h2
    | cons y g => exact h1.elim
  | cons x f ih =>
    cases g with
    | nil => cases x <;> exact h1.elim
    | cons y g =>
      cases h with
      | nil => cases y <;> exact h2.elim
      | cons z h =>
        cases x <;> cases y <;> cases z <;> first | exact h1.elim | exact h2.elim | skip
        · exact ih (g := g) h1 h2
        · obtain ⟨a1, a2⟩ := h1
          obtain ⟨b1, b2⟩ := h2
          refine ⟨?_, ih a2 b2⟩
          rcases a1 with rfl | ⟨rfl, rfl⟩
          · exact b1
          · rcases b1 with rfl | ⟨hk, rfl⟩
            · exact Or.inr ⟨rfl, rfl⟩
            · exact Or.inr ⟨rfl, rfl⟩

theorem keyStep_trans {id : Id} {f g h : List (List CtxCell)} (h1 : KeyStep id f g) (h2 : KeyStep id g h) : KeyStep id f h := by
  induction f generalizing g h with
  | nil => cases g with
    | nil => exact h2
    | cons y g => exact h1.elim
  | cons x f ih =>
    cases g with
    | nil => exact h1.elim
    | cons y g =>
      cases h with
      | nil => exact h2.elim
      | cons z h => exact ⟨frameStep_trans h1.1 h2.1, ih h1.2 h2.2⟩

theorem frameStep_setFrame (id : Id) (ty : Ty) (c : Cell) (f : List CtxCell) : FrameStep id f (setFrame ty c f) := by
  induction f with
  | nil => trivial
  | cons x f ih =>
    cases x with
    | obj t d => simp only [setFrame]; split <;> first | exact frameStep_refl id f | exact ih
    | da k ns => simp only [setFrame]; split <;> first | exact ⟨Or.inl rfl, frameStep_refl id f⟩ | exact ⟨Or.inl rfl, ih⟩

theorem keyStep_setBound (id : Id) (ty : Ty) (c : Cell) (fs : List (List CtxCell)) : KeyStep id fs (setBound ty c fs) := by
  induction fs with
  | nil => trivial
  | cons f fs ih =>
    simp only [setBound]
    split
    · exact ⟨frameStep_setFrame id ty c f, keyStep_refl id fs⟩
    · exact ⟨frameStep_refl id f, ih⟩

theorem frameStep_setFrameDa {id : Id} {k k' : Id} {ns ns' : List (Ty × Cell)} {f : List CtxCell} (h : frameDa f = some (k, ns)) (hk : k' = k ∨ (k = 0#32 ∧ k' = id)) :
    FrameStep id f (setFrameDa k' ns' f) := by
  induction f with
  | nil => simp [frameDa] at h
  | cons x f ih =>
    cases x with
    | obj t d => exact ih h
    | da k0 ns0 =>
      simp only [frameDa, Option.some.injEq, Prod.mk.injEq] at h
      obtain ⟨rfl, rfl⟩ := h
      exact ⟨hk, frameStep_refl id f⟩

theorem keyStep_setBoundDa {id : Id} {k k' : Id} {ns ns' : List (Ty × Cell)} {fs : List (List CtxCell)} (h : boundDa fs = some (k, ns))
    (hk : k' = k ∨ (k = 0#32 ∧ k' = id)) : KeyStep id fs (setBoundDa k' ns' fs) := by
  induction fs with
  | nil => simp [boundDa] at h
  | cons f fs ih =>
    simp only [boundDa, setBoundDa] at h ⊢
    cases hf : frameDa f with
    | some d =>
      simp only [hf, Option.some.injEq] at h ⊢
      subst h
      exact ⟨frameStep_setFrameDa hf hk, keyStep_refl id fs⟩
    | none =>
      simp only [hf] at h ⊢
      exact ⟨frameStep_refl id f, ih h⟩

theorem keyStep_putObj (cfg : Cfg) (keep : Bool) (id : Id) (ty : Ty) (v : Val) (fs : List (List CtxCell)) : KeyStep id fs (putObj cfg keep id ty v fs) := by
  unfold putObj
  split
  · split
    · exact keyStep_setBound _ _ _ _
    · exact keyStep_refl _ _
  · split
    · cases hd : boundDa fs with
      | none => exact keyStep_refl _ _
      | some d =>
        obtain ⟨k, ns⟩ := d
        refine keyStep_setBoundDa hd ?_
        by_cases hk : k = 0#32 <;> simp [hk]
    · exact keyStep_refl _ _

theorem keyStep_putItems (cfg : Cfg) (keep : Bool) (id : Id) (items : List Item) (fs : List (List CtxCell)) :
    KeyStep id fs (putItems cfg keep id items fs) := by
  induction items generalizing fs with
  | nil => exact keyStep_refl _ _
  | cons i is ih => exact keyStep_trans (keyStep_putObj _ _ _ _ _ _) (ih _)

theorem keyStep_unloadObj (cfg : Cfg) (id : Id) (ty : Ty) (c : Cell) (fs : List (List CtxCell)) : KeyStep id fs (unloadObj cfg id ty c fs) := by
  unfold unloadObj
  split
  · exact keyStep_putObj _ _ _ _ _ _
  · exact keyStep_refl _ _

theorem keyStep_unloadDaFs (cfg : Cfg) (id : Id) (ns : List (Ty × Cell)) (fs : List (List CtxCell)) : KeyStep id fs (unloadDaFs cfg id ns fs) := by
  induction ns generalizing fs with
  | nil => exact keyStep_refl _ _
  | cons n ns ih => exact keyStep_trans (keyStep_unloadObj _ _ _ _ _) (ih _)

theorem keyStep_unloadFs (cfg : Cfg) (id : Id) (s : List CtxCell) (fs : List (List CtxCell)) : KeyStep id fs (unloadFs cfg id s fs) := by
  induction s with
  | nil => exact keyStep_refl _ _
  | cons x s ih =>
    refine keyStep_trans ih ?_
    cases x with
    | obj t c => exact keyStep_unloadObj _ _ _ _ _
    | da k ns => exact keyStep_unloadDaFs _ _ _ _

/-! ## Unloading captured objects -/

/-- The objects in a capture list that are unloaded: those before an exception. -/
def capObjs : List CapNode → List (Ty × Cell)
  | [] => []
  | .obj ty c :: ns => (ty, c) :: capObjs ns
  | .exc _ :: _ => []

/-- The exception in a capture list. -/
def capExc : List CapNode → Option Exc
  | [] => none
  | .obj _ _ :: ns => capExc ns
  | .exc e :: _ => some e

/-- Newest first. -/
def transports (id : Id) : List (Ty × Cell) → List Event
  | [] => []
  | (ty, c) :: ns => transports id ns ++ match c.hasValue id with
    | some v => [.transported id ty v]
    | none => []

theorem unloadNodes_eq (cfg : Cfg) {id : Id} (hid : id ≠ 0#32) (ns : List CapNode) (w : World AbsStore) (hg : FramesGood w.mem.frames) :
    unloadNodes cfg id ns w = some (capExc ns, w.put (transports id (capObjs ns)) (unloadDaFs cfg id (capObjs ns) w.mem.frames)) := by
  induction ns generalizing w with
  | nil => rfl
  | cons n ns ih =>
    cases n with
    | exc e => rfl
    | obj ty c =>
      simp only [unloadNodes, capObjs, capExc, transports]
      cases hc : c.hasValue id with
      | none =>
        simp only
        rw [bind_apply, slotUnload_eq cfg hid ty c w hg, Option.bind_some]
        have := ih (setMem w (unloadObj cfg id ty c w.mem.frames)) (unloadObj_good hid hg)
        unfold unloadObj at this
        simp only [hc] at this
        simp only [hc]
        rw [this]
        simp [World.put, setMem, unloadDaFs, unloadObj, hc]
      | some v =>
        simp only
        rw [bind_apply]
        simp only [emit, Option.bind_some]
        rw [bind_apply, slotUnload_eq cfg hid ty c { w with trace := .transported id ty v :: w.trace } hg, Option.bind_some]
        have := ih (setMem { w with trace := .transported id ty v :: w.trace } (unloadObj cfg id ty c w.mem.frames)) (unloadObj_good hid hg)
        unfold unloadObj at this
        simp only [hc] at this
        simp only [hc]
        rw [this]
        simp [World.put, setMem, unloadDaFs, unloadObj, hc]

theorem unloadNodes_ptr (cfg : Cfg) {id : Id} (hid : id.Tagged) (ns : List CapNode) {w : World PtrStore} (hw : ThreadOk w) :
    ∃ w', unloadNodes cfg id ns w = some (capExc ns, w') ∧ ThreadOk w' ∧
      absW w' = (absW w).put (transports id (capObjs ns)) (unloadDaFs cfg id (capObjs ns) (scopes w)) := by
  obtain ⟨w', h1, h2, h3⟩ := run_abs (sim_unloadNodes cfg id ns) hw (unloadNodes_eq cfg (tagged_ne_zero hid) ns (absW w) hw.good.4)
    (put_good hw.good (unloadDaFs_good (tagged_ne_zero hid) hw.good.4))
  exact ⟨w', h1, h3, h2⟩

/-- The result after `r.unload()`: the capture list is empty. -/
def ErrRes.emptied : ErrRes → ErrRes
  | .plain id => .plain id
  | .captured id _ => .captured id []

/-- `r.unload()` for a captured result. -/
theorem resultUnload_captured (cfg : Cfg) (id : Id) (ns : List CapNode) {w : World PtrStore} (hw : ThreadOk w) :
    ∃ w', resultUnload cfg (.captured id ns) w = some ((match capExc ns with | some e => .exc e | none => .err (.captured id [])), w') ∧
      ThreadOk w' ∧ w'.cur = makeErrorId id ∧ w'.counter = w.counter ∧ w'.handling = w.handling ∧
      w'.trace = transports (makeErrorId id) (capObjs ns) ++ w.trace ∧ scopes w' = unloadDaFs cfg (makeErrorId id) (capObjs ns) (scopes w) ∧
      w'.ticks = w.ticks := by
  have hid : (makeErrorId id).Tagged := makeErrorId_tagged id
  have hw1 := threadOk_cur hw (id := makeErrorId id) (Or.inr hid)
  obtain ⟨w', h1, h2, h3⟩ := unloadNodes_ptr cfg hid ns hw1
  obtain ⟨k1, k2, k3, k4, k5, k6⟩ := threadOk_of_absW h3
  refine ⟨w', ?_, h2, k2, k3, k4, k1, k6, k5⟩
  simp only [resultUnload, bind_apply, setCur, Option.bind_some]
  have h1' : unloadNodes cfg (ErrRes.captured id ns).errId ns { w with cur := (ErrRes.captured id ns).errId } = some (capExc ns, w') := h1
  rw [h1', Option.bind_some]
  cases capExc ns <;> rfl

end Leaf
