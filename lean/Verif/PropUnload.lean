import Verif.PropContext
import Verif.PropLoad
import Verif.Stored
import Verif.PropHandlers
import Verif.FlowLemmas
import Verif.Total

/-!
# Property C41: unloading a context object

What `context::unload` does to the content of the context and to the enclosing scopes, stated without the functions of the model.
-/

namespace Leaf
open PtrStore

/-! ## Statement -/

/-- The content of the innermost slot for objects of type `ty`. -/
def innermost (ty : Ty) (ss : List Scope) : Option Cell := (ss.flatMap (slotsOf ty)).head?

/-- The object `v` of error `id` is offered to the scopes `ss`: it goes into the innermost slot of its type, unless there is one of the same error there already; if there is no slot, it is captured. `c`: the
content of the innermost slot afterwards. -/
inductive Arrives (cfg : Cfg) (ty : Ty) (id : Id) (v : Val) (ss : List Scope) : Option Cell → Prop
  | kept (v' : Val) : innermost ty ss = some (some (id, v')) → Arrives cfg ty id v ss (some (some (id, v')))
  | empty : innermost ty ss = some none → Arrives cfg ty id v ss (some (some (id, v)))
  | replaced (k : Id) (v' : Val) : innermost ty ss = some (some (k, v')) → k ≠ id → Arrives cfg ty id v ss (some (some (id, v)))
  | captured : innermost ty ss = none → cfg.capture = true → (∃ s ∈ ss, Captures s) → Arrives cfg ty id v ss (some (some (id, v)))
  | lost : innermost ty ss = none → (cfg.capture = true → ¬∃ s ∈ ss, Captures s) → Arrives cfg ty id v ss none

/-- What remains of the object in the slot of the context: nothing if it was moved out. It stays if the enclosing slot has an object of this error already, or if there is no enclosing slot and nothing is ever captured
(`BOOST_LEAF_CFG_CAPTURE=0`). -/
inductive Remains (cfg : Cfg) (ty : Ty) (id : Id) (v : Val) (ss : List Scope) : Cell → Prop
  | kept (v' : Val) : innermost ty ss = some (some (id, v')) → Remains cfg ty id v ss (some (id, v))
  | noCapture : innermost ty ss = none → cfg.capture = false → Remains cfg ty id v ss (some (id, v))
  | moved (c : Cell) : innermost ty ss = some c → (∀ v', c ≠ some (id, v')) → Remains cfg ty id v ss none
  | offered : innermost ty ss = none → cfg.capture = true → Remains cfg ty id v ss none

/-- The context has an object of type `ty` of error `id`. -/
def HoldsObj (ty : Ty) (id : Id) (v : Val) (cells : List CtxCell) : Prop :=
  .obj ty (some (id, v)) ∈ cells ∨ ∃ k ns, .da k ns ∈ cells ∧ (ty, some (id, v)) ∈ ns

/-- How an element of the context changes. -/
inductive ElemUnloaded (cfg : Cfg) (id : Id) (ss : List Scope) : CtxCell → CtxCell → Prop
  /-- empty, or an object of another error -/
  | other (ty : Ty) (c : Cell) : (∀ v, c ≠ some (id, v)) → ElemUnloaded cfg id ss (.obj ty c) (.obj ty c)
  | own (ty : Ty) (v : Val) (c : Cell) : Remains cfg ty id v ss c → ElemUnloaded cfg id ss (.obj ty (some (id, v))) (.obj ty c)
  /-- captured objects are destroyed after they were offered -/
  | captured (k : Id) (ns : List (Ty × Cell)) : ElemUnloaded cfg id ss (.da k ns) (.da k [])

/-! ## Proof -/

theorem boundCell_eq_innermost (ty : Ty) (ss : List Scope) : boundCell ty ss = innermost ty ss := by
  unfold innermost
  induction ss with
  | nil => rfl
  | cons f fs ih =>
    rw [List.flatMap_cons, List.head?_append, ← ih, ← frameCell_eq_head]
    cases hf : frameCell ty f <;> simp [boundCell, hf]

theorem frameDa_isSome (f : Scope) : (frameDa f).isSome = true ↔ Captures f := by
  induction f with
  | nil => simp [frameDa, Captures]
  | cons x f ih =>
    cases x with
    | obj t c => simpa [frameDa, Captures] using ih
    | da k ns => simp only [frameDa, Option.isSome_some, true_iff]; exact ⟨k, ns, by simp⟩

theorem boundDa_isSome (ss : List Scope) : (boundDa ss).isSome = true ↔ ∃ s ∈ ss, Captures s := by
  induction ss with
  | nil => simp [boundDa]
  | cons f fs ih =>
    cases hf : frameDa f with
    | some d =>
      simp only [boundDa, hf, Option.isSome_some, true_iff]
      exact ⟨f, by simp, (frameDa_isSome f).mp (by simp [hf])⟩
    | none =>
      have : ¬ Captures f := fun h => by have := (frameDa_isSome f).mpr h; simp [hf] at this
      simp [boundDa, hf, ih, this]

theorem arrives_putObj (cfg : Cfg) (id : Id) (ty : Ty) (v : Val) (ss : List Scope) : Arrives cfg ty id v ss (innermost ty (putObj cfg true id ty v ss)) := by
  rw [← boundCell_eq_innermost, boundCell_putObj_same]
  have hb := boundCell_eq_innermost ty ss
  cases hi : innermost ty ss with
  | none =>
    rw [hi] at hb
    by_cases hc : cfg.capture = true
    · by_cases hd : ∃ s ∈ ss, Captures s
      · rw [if_pos ⟨by simp [wanted, hc, (boundDa_isSome ss).mpr hd], fun _ => by simp [avail, hb]⟩]
        exact .captured hi hc hd
      · have hd' : boundDa ss = none := by
          cases h : boundDa ss with
          | none => rfl
          | some d => exact absurd ((boundDa_isSome ss).mp (by simp [h])) hd
        rw [if_neg (by simp [wanted, hb, hd']), hb]
        exact .lost hi fun _ => hd
    · rw [if_neg (by simp [wanted, hb, hc]), hb]
      exact .lost hi fun h => absurd h hc
  | some c =>
    rw [hi] at hb
    have hw : wanted cfg ty ss = true := by simp [wanted, hb]
    cases c with
    | none =>
      rw [if_pos ⟨hw, fun _ => by simp [avail, hb, Cell.hasValue]⟩]
      exact .empty hi
    | some kv =>
      obtain ⟨k, v'⟩ := kv
      by_cases hk : k = id
      · subst hk
        rw [if_neg (by simp [avail, hb, hasValue_some]), hb]
        exact .kept v' hi
      · rw [if_pos ⟨hw, fun _ => by simp [avail, hb, Cell.hasValue, hk]⟩]
        exact .replaced k v' hi hk

theorem captures_shape {cfg : Cfg} {keep : Bool} {id : Id} {ty : Ty} {v : Val} {ss : List Scope} :
    (∃ s ∈ putObj cfg keep id ty v ss, Captures s) ↔ ∃ s ∈ ss, Captures s := by
  rw [← boundDa_isSome, ← boundDa_isSome]
  unfold putObj
  split
  · split
    · have := boundDa_key_setBound ty (some (id, v)) ss
      cases h1 : boundDa (setBound ty (some (id, v)) ss) <;> cases h2 : boundDa ss <;> simp [h1, h2] at this ⊢
    · rfl
  · split
    · split
      · rename_i hd
        rw [boundDa_setBoundDa hd, hd]; simp
      · rfl
    · rfl

/-- The same offer to scopes with the same slots for the type. -/
theorem Arrives.congr {cfg : Cfg} {ty : Ty} {id : Id} {v : Val} {ss ss' : List Scope} {c : Option Cell} (h : Arrives cfg ty id v ss c) (hi : innermost ty ss' = innermost ty ss)
    (hc : (∃ s ∈ ss', Captures s) ↔ ∃ s ∈ ss, Captures s) : Arrives cfg ty id v ss' c := by
  cases h with
  | kept v' h => exact .kept v' (hi.trans h)
  | empty h => exact .empty (hi.trans h)
  | replaced k v' h h' => exact .replaced k v' (hi.trans h) h'
  | captured h h' h'' => exact .captured (hi.trans h) h' (hc.mpr h'')
  | lost h h' => exact .lost (hi.trans h) fun e => (not_congr hc).mpr (h' e)

theorem Remains.congr {cfg : Cfg} {ty : Ty} {id : Id} {v : Val} {ss ss' : List Scope} {c : Cell} (h : Remains cfg ty id v ss c) (hi : innermost ty ss' = innermost ty ss) : Remains cfg ty id v ss' c := by
  cases h with
  | kept v' h => exact .kept v' (hi.trans h)
  | noCapture h h' => exact .noCapture (hi.trans h) h'
  | moved c h h' => exact .moved c (hi.trans h) h'
  | offered h h' => exact .offered (hi.trans h) h'

theorem ElemUnloaded.congr {cfg : Cfg} {id : Id} {ss ss' : List Scope} {x y : CtxCell} (h : ElemUnloaded cfg id ss x y) (hi : ∀ ty ∈ x.tys, innermost ty ss' = innermost ty ss) : ElemUnloaded cfg id ss' x y := by
  cases h with
  | other ty c h => exact .other ty c h
  | own ty v c h => exact .own ty v c (h.congr (hi ty (by simp [CtxCell.tys])))
  | captured k ns => exact .captured k ns

/-- The effect on the scopes of unloading the objects `has`. -/
structure Unloaded (cfg : Cfg) (id : Id) (has : Ty → Val → Prop) (ss ss' : List Scope) : Prop where
  own : ∀ ty v, has ty v → Arrives cfg ty id v ss (innermost ty ss')
  other : ∀ ty, (∀ v, ¬has ty v) → innermost ty ss' = innermost ty ss
  cap : (∃ s ∈ ss', Captures s) ↔ ∃ s ∈ ss, Captures s

theorem unloaded_obj (cfg : Cfg) (id : Id) (ty : Ty) (c : Cell) (ss : List Scope) :
    Unloaded cfg id (fun t v => t = ty ∧ c = some (id, v)) ss (unloadObj cfg id ty c ss) := by
  unfold unloadObj
  cases hc : c.hasValue id with
  | none =>
    refine ⟨?_, fun _ _ => rfl, .rfl⟩
    rintro t v ⟨rfl, rfl⟩
    simp [hasValue_some] at hc
  | some v =>
    have := hasValue_eq_some.mp hc
    subst this
    refine ⟨?_, ?_, captures_shape⟩
    · rintro t v' ⟨rfl, e⟩
      cases e
      exact arrives_putObj cfg id t v ss
    · intro t ht
      have hne : t ≠ ty := by rintro rfl; exact ht v ⟨rfl, rfl⟩
      rw [← boundCell_eq_innermost, ← boundCell_eq_innermost]
      exact boundCell_putObj_ne cfg true id v ss hne

/-- One after the other, different types. -/
theorem Unloaded.comp {cfg : Cfg} {id : Id} {h1 h2 : Ty → Val → Prop} {ss ss1 ss2 : List Scope} (a : Unloaded cfg id h1 ss ss1) (b : Unloaded cfg id h2 ss1 ss2)
    (d : ∀ ty v v', h1 ty v → ¬h2 ty v') : Unloaded cfg id (fun ty v => h1 ty v ∨ h2 ty v) ss ss2 := by
  refine ⟨?_, ?_, b.cap.trans a.cap⟩
  · rintro ty v (h | h)
    · rw [b.other ty fun v' => d ty v v' h]; exact a.own ty v h
    · exact (b.own ty v h).congr (a.other ty fun v' h' => d ty v' v h' h).symm a.cap.symm
  · intro ty h
    rw [b.other ty fun v hv => h v (.inr hv), a.other ty fun v hv => h v (.inl hv)]

theorem Unloaded.imp {cfg : Cfg} {id : Id} {h h' : Ty → Val → Prop} {ss ss' : List Scope} (a : Unloaded cfg id h ss ss') (e : ∀ ty v, h ty v ↔ h' ty v) : Unloaded cfg id h' ss ss' :=
  ⟨fun ty v hv => a.own ty v ((e ty v).mpr hv), fun ty hv => a.other ty fun v hv' => hv v ((e ty v).mp hv'), a.cap⟩

theorem unloaded_nodes (cfg : Cfg) (id : Id) (ns : List (Ty × Cell)) (hn : (ns.map Prod.fst).Nodup) (ss : List Scope) :
    Unloaded cfg id (fun t v => (t, some (id, v)) ∈ ns) ss (unloadDaFs cfg id ns ss) := by
  induction ns generalizing ss with
  | nil => exact ⟨fun _ _ h => by simp at h, fun _ _ => rfl, .rfl⟩
  | cons n ns ih =>
    obtain ⟨ty, c⟩ := n
    rw [List.map_cons, List.nodup_cons] at hn
    refine ((unloaded_obj cfg id ty c ss).comp (ih hn.2 _) ?_).imp ?_
    · rintro t v v' ⟨rfl, _⟩ h
      exact hn.1 (List.mem_map.mpr ⟨_, h, rfl⟩)
    · intro t v
      simp only [List.mem_cons, Prod.mk.injEq]
      exact or_congr_left (and_congr_right fun _ => eq_comm)

theorem holdsObj_cons (ty : Ty) (id : Id) (v : Val) (x : CtxCell) (xs : List CtxCell) : HoldsObj ty id v (x :: xs) ↔ HoldsObj ty id v [x] ∨ HoldsObj ty id v xs := by
  unfold HoldsObj
  simp only [List.mem_cons, List.not_mem_nil, or_false]
  constructor
  · rintro ((h | h) | ⟨k, ns, (h | h), h2⟩)
    · exact .inl (.inl h)
    · exact .inr (.inl h)
    · exact .inl (.inr ⟨k, ns, h, h2⟩)
    · exact .inr (.inr ⟨k, ns, h, h2⟩)
  · rintro ((h | ⟨k, ns, h, h2⟩) | (h | ⟨k, ns, h, h2⟩))
    · exact .inl (.inl h)
    · exact .inr ⟨k, ns, .inl h, h2⟩
    · exact .inl (.inr h)
    · exact .inr ⟨k, ns, .inr h, h2⟩

theorem holdsObj_tys {ty : Ty} {id : Id} {v : Val} {xs : List CtxCell} (h : HoldsObj ty id v xs) : ty ∈ frameTys xs := by
  unfold frameTys
  rw [List.mem_flatMap]
  rcases h with h | ⟨k, ns, h, h2⟩
  · exact ⟨_, h, by simp [CtxCell.tys]⟩
  · exact ⟨_, h, List.mem_map_of_mem (f := Prod.fst) h2⟩

theorem unloaded_cell (cfg : Cfg) (id : Id) (x : CtxCell) (hx : x.tys.Nodup) (ss : List Scope) : Unloaded cfg id (fun ty v => HoldsObj ty id v [x]) ss (unloadCellFs cfg id x ss) := by
  cases x with
  | obj ty c =>
    refine (unloaded_obj cfg id ty c ss).imp fun t v => ?_
    simp only [HoldsObj, List.mem_singleton, CtxCell.obj.injEq, reduceCtorEq, false_and, exists_false, or_false]
    exact and_congr_right fun _ => eq_comm
  | da k ns =>
    refine (unloaded_nodes cfg id ns hx ss).imp fun t v => ?_
    simp only [HoldsObj, List.mem_singleton, reduceCtorEq, CtxCell.da.injEq, false_or]
    exact ⟨fun h => ⟨k, ns, ⟨rfl, rfl⟩, h⟩, fun ⟨_, _, ⟨_, h⟩, h'⟩ => h ▸ h'⟩

theorem unloaded_cells (cfg : Cfg) (id : Id) (cells : List CtxCell) (hn : (frameTys cells).Nodup) (ss : List Scope) :
    Unloaded cfg id (fun ty v => HoldsObj ty id v cells) ss (unloadFs cfg id cells ss) := by
  induction cells with
  | nil => exact ⟨fun _ _ h => by simp [HoldsObj] at h, fun _ _ => rfl, .rfl⟩
  | cons x xs ih =>
    rw [frameTys_cons, List.nodup_append] at hn
    refine ((ih hn.2.1).comp (unloaded_cell cfg id x hn.1 _) ?_).imp fun ty v => by rw [holdsObj_cons ty id v x xs]; exact Or.comm
    intro ty v v' h h'
    have h1 := holdsObj_tys h'
    rw [frameTys_cons] at h1
    simp only [frameTys, List.flatMap_nil, List.append_nil] at h1
    exact hn.2.2 _ h1 _ (holdsObj_tys h) rfl

theorem remains_takenOut (cfg : Cfg) (id : Id) (ty : Ty) (v : Val) (ss : List Scope) : Remains cfg ty id v ss (if takenOut cfg id (some (id, v)) (boundCell ty ss) then none else some (id, v)) := by
  rw [boundCell_eq_innermost]
  cases hi : innermost ty ss with
  | none =>
    by_cases hc : cfg.capture = true
    · simp only [takenOut, hasValue_some, hc]; exact .offered hi hc
    · simp only [takenOut, hasValue_some, hc]; exact .noCapture hi (by simpa using hc)
  | some c =>
    cases hp : c.hasValue id with
    | some v' =>
      have := hasValue_eq_some.mp hp
      subst this
      simp only [takenOut, hasValue_some]; exact .kept v' hi
    | none =>
      simp only [takenOut, hasValue_some, hp]
      exact .moved c hi (by rintro v' rfl; simp [hasValue_some] at hp)

theorem unloadCellRest_spec (cfg : Cfg) {id : Id} (hid : id ≠ 0#32) (x : CtxCell) (hx : x.Good) (w : World AbsStore) (hg : FramesGood w.mem.frames) :
    ∃ y, unloadCellRest cfg id x w = some (y, setCurMem w (unloadCur id [x] w.cur) (unloadCellFs cfg id x w.mem.frames)) ∧ ElemUnloaded cfg id w.mem.frames x y := by
  cases x with
  | obj ty c =>
    refine ⟨.obj ty (if takenOut cfg id c (boundCell ty w.mem.frames) then none else c), ?_, ?_⟩
    · show ((slotGet ty >>= fun b => slotUnload cfg id ty c >>= fun _ => pure (if takenOut cfg id c b then none else c)) >>= fun c' => pure (CtxCell.obj ty c')) w = _
      rw [bind_apply, bind_apply, slotGet_apply, Option.bind_some, bind_apply, slotUnload_eq cfg hid ty c w hg]
      rfl
    · cases hc : c.hasValue id with
      | none =>
        simp only [takenOut, hc]
        exact .other ty c (by rintro v rfl; simp [hasValue_some] at hc)
      | some v =>
        have := hasValue_eq_some.mp hc
        subst this
        exact .own ty v _ (remains_takenOut cfg id ty v _)
  | da k ns =>
    have hu := unloadCells_eq cfg hid [.da k ns] w hg (by simpa using hx)
    replace hu : unloadCell cfg id (.da k ns) w = _ := hu
    refine ⟨.da k [], ?_, .captured k ns⟩
    show (unloadCell cfg id (.da k ns) >>= fun _ => pure (CtxCell.da k (if k = 0#32 then ns else []))) w = _
    rw [bind_apply, hu]
    simp only [Option.bind_some, pure_apply]
    by_cases hk : k = 0#32
    · rw [if_pos hk, hx hk]; rfl
    · rw [if_neg hk]; rfl

theorem unloadRest_spec (cfg : Cfg) {id : Id} (hid : id ≠ 0#32) (cells : List CtxCell) (hx : ∀ x ∈ cells, x.Good) (hn : (frameTys cells).Nodup) (w : World AbsStore) (hg : FramesGood w.mem.frames) :
    ∃ rest, unloadRest cfg id cells w = some (rest, setCurMem w (unloadCur id cells w.cur) (unloadFs cfg id cells w.mem.frames)) ∧ rest.length = cells.length ∧
      ∀ (i : Nat) (h : i < cells.length) (h' : i < rest.length), ElemUnloaded cfg id w.mem.frames cells[i] rest[i] := by
  induction cells with
  | nil => exact ⟨[], rfl, rfl, fun i h => absurd h (Nat.not_lt_zero _)⟩
  | cons x xs ih =>
    have hn' := hn
    rw [frameTys_cons, List.nodup_append] at hn
    obtain ⟨rest, h1, h2, h3⟩ := ih (fun y hy => hx y (List.mem_cons_of_mem _ hy)) hn.2.1
    obtain ⟨y, h4, h5⟩ := unloadCellRest_spec cfg hid x (hx x (List.mem_cons_self ..)) (setCurMem w (unloadCur id xs w.cur) (unloadFs cfg id xs w.mem.frames)) (unloadFs_good hid hg)
    refine ⟨y :: rest, ?_, by simp [h2], ?_⟩
    · show (unloadRest cfg id xs >>= fun xs' => unloadCellRest cfg id x >>= fun x' => pure (x' :: xs')) w = _
      rw [bind_apply, h1, Option.bind_some, bind_apply, h4]
      have hcur : unloadCur id [x] (unloadCur id xs w.cur) = unloadCur id (x :: xs) w.cur := by cases x <;> simp [unloadCur]
      show some (_, setCurMem w (unloadCur id [x] (unloadCur id xs w.cur)) _) = _
      rw [hcur]
      rfl
    · intro i h h'
      cases i with
      | zero =>
        refine h5.congr fun ty hty => ?_
        exact ((unloaded_cells cfg id xs hn.2.1 w.mem.frames).other ty fun v hv => hn.2.2 _ hty _ (holdsObj_tys hv) rfl).symm
      | succ i => exact h3 i (by simpa using h) (by simpa using h')

theorem good_of_das {mem : Addr → Option PSlot} {dmem : Addr → Option PDa} {f : List PCell} (h : ∀ a ∈ frameDas f, ∃ d, dmem a = some d ∧ (d.key = 0#32 → d.nodes = [])) :
    ∀ x ∈ absFrame mem dmem f, x.Good := by
  intro x hx
  obtain ⟨p, hp, rfl⟩ := List.mem_map.mp hx
  cases p with
  | obj ty a => trivial
  | da a =>
    obtain ⟨d, h1, h2⟩ := h a (List.mem_flatMap.mpr ⟨_, hp, by simp [cellDas]⟩)
    simp only [absCell, keyOf, nodesOf, h1, CtxCell.Good]
    intro hk
    simp [h2 hk, absNodes]

theorem tys_abs (mem : Addr → Option PSlot) (dmem : Addr → Option PDa) (f : List PCell) : frameTys (absFrame mem dmem f) = (frameSlots dmem f).map Prod.fst := by
  induction f with
  | nil => rfl
  | cons p f ih =>
    rw [frameSlots_cons, List.map_append, ← ih]
    show (absCell mem dmem p).tys ++ _ = _
    congr 1
    cases p with
    | obj ty a => rfl
    | da a => simp [absCell, CtxCell.tys, absNodes, cellSlots, Function.comp_def]

theorem framesGood_abs {mem : Addr → Option PSlot} {dmem : Addr → Option PDa} {fs : List (List PCell)} (h : FramesOk mem dmem fs) : FramesGood (absFrames mem dmem fs) := by
  induction fs with
  | nil => intro f hf; simp [absFrames] at hf
  | cons f fs ih =>
    intro g hg
    rcases List.mem_cons.mp hg with rfl | hg
    · exact ⟨good_of_das fun a ha => (h.1.das a ha).imp fun d hd => ⟨hd.1, hd.2.2⟩, by rw [tys_abs]; exact h.1.tys⟩
    · exact ih h.2 g hg

theorem unloadCur_eq (id : Id) (cells : List CtxCell) (c : Id) : ((∃ k ns, .da k ns ∈ cells ∧ k ≠ 0#32) → unloadCur id cells c = id) ∧ ((¬∃ k ns, .da k ns ∈ cells ∧ k ≠ 0#32) → unloadCur id cells c = c) := by
  induction cells with
  | nil => exact ⟨fun ⟨_, _, h, _⟩ => by simp at h, fun _ => rfl⟩
  | cons x xs ih =>
    cases x with
    | obj ty d => simpa [unloadCur] using ih
    | da k ns =>
      by_cases hk : k = 0#32
      · subst hk
        simp only [unloadCur, ne_eq, not_true_eq_false, if_false]
        refine ⟨fun ⟨k, ns', h, hk⟩ => ih.1 ?_, fun h => ih.2 fun ⟨k, ns', h', hk⟩ => h ⟨k, ns', List.mem_cons_of_mem _ h', hk⟩⟩
        rcases List.mem_cons.mp h with h | h
        · cases h; exact absurd rfl hk
        · exact ⟨k, ns', h, hk⟩
      · simp only [unloadCur, ne_eq, hk, not_false_eq_true, if_true]
        exact ⟨fun _ => trivial, fun h => absurd ⟨k, ns, List.mem_cons_self .., hk⟩ h⟩

/-! ## Theorem -/

/-- **C41, unloading.** After any allowed history: unloading an inactive context `c` with content `cells` for error `id` is allowed, and afterwards
* every element of `c` is as `ElemUnloaded` says: what belongs to other errors stays, objects of `id` are moved out if an enclosing scope takes them, captured objects are gone;
* the enclosing scopes have the objects of `id` which `c` had, see `Arrives`;
* types of which `c` had no object of `id` are not affected: the innermost slot of each is as before;
* if `c` captured anything, `id` is the current error; otherwise the current error is as before;
* nothing is generated, called, or handled. -/
theorem C41_unload (cfg : Cfg) (counter : Id) (ops : List UOp) {os : List UObs} {s : SWorld} (h : (SWorld.initial counter).run cfg ops = some (os, s))
    {c : Nat} {cells : List CtxCell} {pinned spent : Bool} (hc : s.pool c = some (.idle cells pinned spent)) {id : Id} (hid : id ≠ 0#32) :
    ∃ u u' rest, (UWorld.initial counter).run cfg ops = some (os, u) ∧ u.step cfg (.look c) = some (.content cells, u) ∧
      u.step cfg (.unload c id) = some (.nothing, u') ∧ u'.step cfg (.look c) = some (.content rest, u') ∧
      rest.length = cells.length ∧ (∀ (i : Nat) (h : i < cells.length) (h' : i < rest.length), ElemUnloaded cfg id (scopes u.w) cells[i] rest[i]) ∧
      (∀ ty v, HoldsObj ty id v cells → Arrives cfg ty id v (scopes u.w) (innermost ty (scopes u'.w))) ∧
      (∀ ty, (∀ v, ¬HoldsObj ty id v cells) → innermost ty (scopes u'.w) = innermost ty (scopes u.w)) ∧
      ((∃ k ns, .da k ns ∈ cells ∧ k ≠ 0#32) → u'.w.cur = id) ∧ ((¬∃ k ns, .da k ns ∈ cells ∧ k ≠ 0#32) → u'.w.cur = u.w.cur) ∧
      u'.w.counter = u.w.counter ∧ u'.w.trace = u.w.trace ∧ u'.w.handling = u.w.handling := by
  obtain ⟨u, h1, r⟩ := context_run_refines cfg ops (.initial counter) h
  obtain ⟨x, hx, _, _, _, _, hcells, ok⟩ := r.get_idle hc
  have hgood : ∀ y ∈ cells, y.Good := by rw [hcells]; exact good_of_das fun a ha => (ok.das a ha).2
  have hnd : (frameTys cells).Nodup := by rw [hcells, tys_abs]; exact ok.tys
  have hg : FramesGood s.w.mem.frames := by rw [r.frames]; exact framesGood_abs r.inv.frames
  obtain ⟨rest, h2, h3, h4⟩ := unloadRest_spec cfg hid cells hgood hnd s.w hg
  have hs : s.step cfg (.unload c id) = some (.nothing, { s with w := setCurMem s.w (unloadCur id cells s.w.cur) (unloadFs cfg id cells s.w.mem.frames) }.setPool c (some (.idle rest pinned (spent || cells.any (·.captured))))) := by
    simp only [SWorld.step, hc]
    show (unloadRest cfg id cells s.w).bind _ = _
    rw [h2]; rfl
  obtain ⟨u', h5, r'⟩ := context_step_refines cfg r hs
  have e : scopes u.w = s.w.mem.frames := congrArg (·.mem.frames) r.w
  have e' : scopes u'.w = unloadFs cfg id cells s.w.mem.frames := congrArg (·.mem.frames) r'.w
  have hu := unloaded_cells cfg id cells hnd s.w.mem.frames
  have hcur := unloadCur_eq id cells s.w.cur
  have c1 : u.w.cur = s.w.cur := congrArg (·.cur) r.w
  have c2 : u'.w.cur = unloadCur id cells s.w.cur := congrArg (·.cur) r'.w
  refine ⟨u, u', rest, h1, r.look hc, h5, r'.look (upd_same _ _ _), h3, by rw [e]; exact h4, by rw [e, e']; exact hu.own, by rw [e, e']; exact hu.other, by rw [c2]; exact hcur.1, by rw [c1, c2]; exact hcur.2, ?_, ?_, ?_⟩
  · exact (congrArg (·.counter) r'.w).trans (congrArg (·.counter) r.w).symm
  · exact (congrArg (·.trace) r'.w).trans (congrArg (·.trace) r.w).symm
  · exact (congrArg (·.handling) r'.w).trans (congrArg (·.handling) r.w).symm

/-- Context 2, deactivated, has objects of error 5 and a captured object of error 9; context 1 is active, with a slot for the type of one of them. -/
def exUnloadOps : List UOp :=
  [.create 1 [.obj 12, .obj 13], .create 2 [.obj 12, .obj 14, .da], .activate 2, .run (reportObj 12 7), .run (reportObj 13 8), .deactivate 2, .activate 1]

/-- The hypotheses hold; unloading moves the object of the error to context 1 and destroys the captured object of the other. -/
example : ((SWorld.initial 1#32).run exCfg exUnloadOps).map (fun r => r.2.pool 2) = some (some (.idle [.obj 12 (some (5#32, 7)), .obj 14 none, .da 9#32 [(13, some (9#32, 8))]] false false)) ∧
    ((UWorld.initial 1#32).run exCfg (exUnloadOps ++ [.unload 2 5#32, .look 2, .deactivate 1, .look 1])).map (·.1.drop 8) =
      some [.content [.obj 12 none, .obj 14 none, .da 9#32 []], .nothing, .content [.obj 12 (some (5#32, 7)), .obj 13 none]] := by decide +kernel

/-! ## Handling errors with a context -/

theorem idle_scopeOk {cfg : Cfg} {mem : Addr → Option PSlot} {dmem : Addr → Option PDa} {f : List PCell} (ht : ((frameSlots dmem f).map Prod.fst).Nodup) (hd : (frameDas f).length ≤ 1)
    (hs : ∀ ty, Handles ty (absFrame mem dmem f) → cfg.isAbstract ty = false) : ScopeOk cfg (absFrame mem dmem f) := by
  refine ⟨?_, hs⟩
  clear hs
  induction f with
  | nil => simp [absFrame]
  | cons p f ih =>
    rw [frameSlots_cons, List.map_append, List.nodup_append] at ht
    rw [frameDas_cons, List.length_append] at hd
    show ((absCell mem dmem p).cellTy :: (absFrame mem dmem f).map CtxCell.cellTy).Nodup
    rw [List.nodup_cons]
    refine ⟨?_, ih ht.2.1 (by omega)⟩
    intro hm
    obtain ⟨x, hx, he⟩ := List.mem_map.mp hm
    obtain ⟨q, hq, rfl⟩ := List.mem_map.mp hx
    cases p with
    | obj ty a =>
      cases q with
      | obj ty' a' =>
        simp only [absCell, CtxCell.cellTy, CellTy.obj.injEq] at he
        subst he
        exact ht.2.2 ty' (by simp [cellSlots]) ty' (List.mem_map.mpr ⟨(ty', a'), List.mem_flatMap.mpr ⟨_, hq, by simp [cellSlots]⟩, rfl⟩) rfl
      | da a' => simp [absCell, CtxCell.cellTy] at he
    | da a =>
      cases q with
      | obj ty' a' => simp [absCell, CtxCell.cellTy] at he
      | da a' =>
        have : a' ∈ frameDas f := List.mem_flatMap.mpr ⟨_, hq, by simp [cellDas]⟩
        have := List.length_pos_of_mem this
        simp only [cellDas, List.length_singleton] at hd
        omega

/-- **C41, handling.** After any allowed history: `handle_error` on an inactive context `c` with content `cells` calls the first suitable handler, with the objects `c` has of error `id`; it does nothing else. (The last handler must match any error, a
`static_assert`; abstract types have no slots.) -/
theorem C41_handle (cfg : Cfg) (counter : Id) (ops : List UOp) {os : List UObs} {s : SWorld} (h : (SWorld.initial counter).run cfg ops = some (os, s))
    {c : Nat} {cells : List CtxCell} {pinned spent : Bool} (hc : s.pool c = some (.idle cells pinned spent)) (ha : ∀ ty, Handles ty cells → cfg.isAbstract ty = false)
    {id : Id} (hid : id.Tagged) {specs : List (List Arg)} (hv : ValidAll specs) (body : Nat → List ArgVal → Prog) :
    ∃ u, (UWorld.initial counter).run cfg ops = some (os, u) ∧ u.step cfg (.look c) = some (.content cells, u) ∧
      ∃ i hd vals, FirstSuitable cells id none specs i ∧ specs[i]? = some hd ∧ ReceivesAll cells id none hd vals ∧
        u.step cfg (.handle c id specs body) =
          (eval cfg (body i vals) { u.w with trace := .handled id none i vals :: u.w.trace }).map fun r => (.out r.1, { u with w := r.2 }) := by
  obtain ⟨u, h1, r⟩ := context_run_refines cfg ops (.initial counter) h
  obtain ⟨x, hx, hidle, _, _, _, hcells, ok⟩ := r.get_idle hc
  obtain ⟨x', hx', hro⟩ := r.readOut hc
  rw [hidle] at hx'; cases hx'
  have hgood : FramesGood [cells] := by
    intro f hf
    rw [List.mem_singleton] at hf
    subst hf
    exact ⟨by rw [hcells]; exact good_of_das fun a ha => (ok.das a ha).2, by rw [hcells, tys_abs]; exact ok.tys⟩
  have hsc : ScopeOk cfg cells := by rw [hcells] at ha ⊢; exact idle_scopeOk ok.tys ok.oneDa ha
  obtain ⟨hsel, i, hi⟩ := C15_select_all hsc hid none hv
  have hfs := (hsel i).mp hi
  obtain ⟨hd, hh, hsuit⟩ := hfs.1
  obtain ⟨vals, hvals⟩ := getArgs_some cfg cells id none ((findCell tySrcLoc cells).bind (Cell.hasValue · id)) (.inr ((checkArgs_iff hsc hid none hd).mpr hsuit))
  refine ⟨u, h1, r.look hc, i, hd, vals, hfs, hh, getArgs_receives hsc hgood hid rfl hvals, ?_⟩
  have hhe : handleError cfg specs (fun i args => eval cfg (body i args)) cells id u.w = eval cfg (body i vals) { u.w with trace := .handled id none i vals :: u.w.trace } := by
    unfold handleError
    rw [bind_apply, ctxLoc_eq hid, Option.bind_some]
    simp only [hi]
    exact callHandler_eq hh hvals
  simp only [UWorld.step, hidle]
  show (PtrStore.readOut x.cells u.w.mem).bind _ = _
  rw [hro]
  show (handleError cfg specs (fun i args => eval cfg (body i args)) cells id u.w).bind _ = _
  rw [hhe]
  cases eval cfg (body i vals) { u.w with trace := .handled id none i vals :: u.w.trace } <;> rfl

/-- The context of `exUnloadOps` has objects for the first handler. -/
example : ((UWorld.initial 1#32).run exCfg (exUnloadOps ++ [.handle 2 5#32 [[.req 12, .ptr 14], []] (fun i vals => .ret (.val (if i = 0 ∧ vals = [.obj 12 7, .ptr 14 none] then 42 else 0)))])).map (·.1.getLast?) =
    some (some (.out (.val 42))) := by decide +kernel

end Leaf
