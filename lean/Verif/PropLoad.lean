import Verif.LoadLemmas
import Verif.PropStorage

/-!
# Properties C09, C12, C14, C34: where error objects go when they are loaded

Stated on the pointer-level storage. `scopes w` reads the content of the active contexts from memory, innermost first.
-/

namespace Leaf

/-- The content of one context, the slots of its tuple in order. -/
abbrev Scope := List CtxCell

/-- The active contexts with their content, innermost first. -/
def scopes (w : World PtrStore) : List Scope := (absW w).mem.frames

/-- The scope's handlers take an argument of type `ty`: it has a slot for it. -/
def Handles (ty : Ty) (s : Scope) : Prop := ∃ c, CtxCell.obj ty c ∈ s
/-- The scope captures all error objects. -/
def Captures (s : Scope) : Prop := ∃ k ns, CtxCell.da k ns ∈ s
/-- The scope captures all error objects and has already captured one of type `ty`. -/
def HasCaptured (ty : Ty) (s : Scope) : Prop := ∃ k ns c, CtxCell.da k ns ∈ s ∧ (ty, c) ∈ ns

/-- How the scopes change when an object of type `ty` is delivered; `new c` is the new content of a slot with content `c`. -/
inductive Delivered (cfg : Cfg) (id : Id) (ty : Ty) (new : Cell → Cell) : List Scope → List Scope → Prop
  /-- to the slot of the innermost scope that handles `ty` (no scope further in handles or has captured it) -/
  | slot (inner : List Scope) (pre : Scope) (c : Cell) (post : Scope) (outer : List Scope)
      (h : ∀ s ∈ inner, ¬ Handles ty s ∧ ¬ HasCaptured ty s) :
      Delivered cfg id ty new (inner ++ (pre ++ .obj ty c :: post) :: outer) (inner ++ (pre ++ .obj ty (new c) :: post) :: outer)
  /-- to the node in which the innermost such scope has already captured an object of type `ty` -/
  | again (inner : List Scope) (pre : Scope) (k : Id) (n1 n2 : List (Ty × Cell)) (c : Cell) (post : Scope) (outer : List Scope)
      (h : ∀ s ∈ inner, ¬ Handles ty s ∧ ¬ HasCaptured ty s) :
      Delivered cfg id ty new (inner ++ (pre ++ .da k (n1 ++ (ty, c) :: n2) :: post) :: outer)
        (inner ++ (pre ++ .da k (n1 ++ (ty, new c) :: n2) :: post) :: outer)
  /-- no scope handles `ty` or has captured one: to a new node at the end of the list of the innermost capturing scope -/
  | first (inner : List Scope) (pre : Scope) (k : Id) (ns : List (Ty × Cell)) (post : Scope) (outer : List Scope)
      (hcap : cfg.capture = true)
      (h : ∀ s ∈ inner ++ (pre ++ .da k ns :: post) :: outer, ¬ Handles ty s ∧ ¬ HasCaptured ty s)
      (hin : ∀ s ∈ inner, ¬ Captures s) :
      Delivered cfg id ty new (inner ++ (pre ++ .da k ns :: post) :: outer)
        (inner ++ (pre ++ .da (if k = 0#32 then id else k) (ns ++ [(ty, new none)]) :: post) :: outer)
  /-- nobody wants it: nothing changes -/
  | dropped (ss : List Scope) (h : ∀ s ∈ ss, ¬ Handles ty s ∧ ¬ HasCaptured ty s)
      (hcap : cfg.capture = true → ∀ s ∈ ss, ¬ Captures s) : Delivered cfg id ty new ss ss

/-- The new content of the slot an item is delivered to. `keep`: do not replace an object of the same error (`on_error`). -/
def Item.new (cfg : Cfg) (keep : Bool) (id : Id) : Item → Cell → Cell
  | .obj _ v, c => if keep ∧ c.hasValue id ≠ none then c else some (id, v)
  | .deferred _ _ v, c => if keep ∧ c.hasValue id ≠ none then c else some (id, v)
  | .accum ty _ f, c => some (id, f ((c.hasValue id).getD (cfg.dflt ty)))

/-- Items delivered one after the other. -/
inductive DeliveredAll (cfg : Cfg) (keep : Bool) (id : Id) : List Item → List Scope → List Scope → Prop
  | nil (ss : List Scope) : DeliveredAll cfg keep id [] ss ss
  | cons {i : Item} {is : List Item} {s0 s1 s2 : List Scope} (h : Delivered cfg id i.ty (i.new cfg keep id) s0 s1)
      (hs : DeliveredAll cfg keep id is s1 s2) : DeliveredAll cfg keep id (i :: is) s0 s2

theorem not_mem_frameTys {ty : Ty} {s : Scope} : ty ∉ frameTys s ↔ ¬ Handles ty s ∧ ¬ HasCaptured ty s := by
  constructor
  · intro h
    refine ⟨fun ⟨c, hc⟩ => h ?_, fun ⟨k, ns, c, h1, h2⟩ => h ?_⟩
    · simp only [frameTys, List.mem_flatMap]; exact ⟨_, hc, by simp [CtxCell.tys]⟩
    · simp only [frameTys, List.mem_flatMap]
      exact ⟨_, h1, by simp only [CtxCell.tys, List.mem_map]; exact ⟨_, h2, rfl⟩⟩
  · intro h hm
    simp only [frameTys, List.mem_flatMap] at hm
    obtain ⟨x, hx, ht⟩ := hm
    cases x with
    | obj t c =>
      simp only [CtxCell.tys, List.mem_singleton] at ht
      subst ht
      exact h.1 ⟨c, hx⟩
    | da k ns =>
      simp only [CtxCell.tys, List.mem_map] at ht
      obtain ⟨⟨t, c⟩, hn, rfl⟩ := ht
      exact h.2 ⟨k, ns, c, hx, hn⟩

theorem not_captures {s : Scope} : (∀ k ns, CtxCell.da k ns ∉ s) ↔ ¬ Captures s := by
  simp [Captures]

theorem item_new_avail (cfg : Cfg) (keep : Bool) (id : Id) (i : Item) (c : Cell) :
    i.new cfg keep id c = if keep && !i.isAccum && (c.hasValue id).isSome then c else some (id, i.objFor cfg (c.hasValue id)) := by
  cases i <;> cases keep <;> cases h : c.hasValue id <;> simp [Item.new, Item.isAccum, Item.objFor, h]

theorem putItem_delivered (cfg : Cfg) (keep : Bool) (id : Id) (i : Item) (fs : List Scope) :
    Delivered cfg id i.ty (i.new cfg keep id) fs (putItem cfg keep id i fs) := by
  unfold putItem putObj
  cases hb : boundCell i.ty fs with
  | some p =>
    dsimp only
    have hav : avail i.ty id fs = p.hasValue id := by simp [avail, hb]
    have hnew := item_new_avail cfg keep id i p
    have key : (if (!(keep && !i.isAccum) || (p.hasValue id).isNone) = true then
        setBound i.ty (some (id, i.objFor cfg (avail i.ty id fs))) fs else fs) = setBound i.ty (i.new cfg keep id p) fs := by
      rw [hnew, hav]
      obtain ⟨inner, f, outer, h1, _, h3, h4⟩ := setBound_split hb
      cases hp : p.hasValue id with
      | none => simp
      | some x =>
        by_cases hk : (keep && !i.isAccum) = true
        · simp only [hk]
          rw [if_neg (by simp), if_pos (by simp), h4, h1]
          rcases setFrame_split h3 with ⟨pre, post, e1, e2⟩ | ⟨pre, k, n1, n2, post, e1, e2⟩
          · rw [e2, e1]
          · rw [e2, e1]
        · simp [hk]
    rw [key]
    obtain ⟨inner, f, outer, h1, h2, h3, h4⟩ := setBound_split hb
    have h2' : ∀ s ∈ inner, ¬ Handles i.ty s ∧ ¬ HasCaptured i.ty s := fun s hs => not_mem_frameTys.mp (h2 s hs)
    rw [h4, h1]
    rcases setFrame_split h3 with ⟨pre, post, e1, e2⟩ | ⟨pre, k, n1, n2, post, e1, e2⟩
    · rw [e2, e1]; exact .slot inner pre p post outer h2'
    · rw [e2, e1]; exact .again inner pre k n1 n2 p post outer h2'
  | none =>
    dsimp only
    have hn := fun s hs => not_mem_frameTys.mp (boundCell_none hb s hs)
    have hav : avail i.ty id fs = none := by simp [avail, hb]
    have hnew := item_new_avail cfg keep id i none
    by_cases hc : cfg.capture = true
    · simp only [hc, if_true]
      cases hd : boundDa fs with
      | none =>
        exact .dropped fs hn (fun _ s hs => not_captures.mp ((boundDa_none_iff fs).mp hd s hs))
      | some d =>
        obtain ⟨k, ns⟩ := d
        obtain ⟨inner, pre, post, outer, h1, h2, h3⟩ := setBoundDa_split hd
        dsimp only
        rw [h3, hav]
        have : some (id, i.objFor cfg none) = i.new cfg keep id none := by
          rw [hnew]
          simp [Cell.hasValue]
        rw [this]
        rw [h1] at hn ⊢
        exact .first inner pre k ns post outer hc hn (fun s hs => not_captures.mp (h2 s hs))
    · simp only [hc]
      exact .dropped fs hn (fun h => absurd h hc)

theorem putItems_delivered (cfg : Cfg) (keep : Bool) (id : Id) (is : List Item) (fs : List Scope) :
    DeliveredAll cfg keep id is fs (putItems cfg keep id is fs) := by
  induction is generalizing fs with
  | nil => exact .nil fs
  | cons i is ih => exact .cons (putItem_delivered cfg keep id i fs) (ih _)

/-- Run on pointers what is defined on the abstract storage. -/
theorem run_abs {α : Type} {x : Comp PtrStore α} {y : Comp AbsStore α} (h : Sim 0 0 x y) {w : World PtrStore} (hw : ThreadOk w)
    {a : α} {v : World AbsStore} (hy : y (absW w) = some (a, v)) (hv : v.Good) :
    ∃ w', x w = some (a, w') ∧ absW w' = v ∧ ThreadOk w' := by
  obtain ⟨w', h1, h2, h3, _⟩ := sim_run h w.mem w a v hw.inv (.refl _) hy
  exact ⟨w', h1, h2, h3, h2 ▸ hv⟩

/-- If the items contain a function taking `E &`, the innermost capturing scope, if any, has captured nothing, or first captured an
object of this same error (otherwise loading destroys storage in use, see `C11_refuted_accumulate`). -/
def AccumulateOk (cfg : Cfg) (id : Id) (items : List Item) (ss : List Scope) : Prop :=
  (∃ i ∈ items, i.isAccum = true) → cfg.capture = true →
    ∀ inner pre k ns post outer, ss = inner ++ (pre ++ .da k ns :: post) :: outer → (∀ s ∈ inner, ¬ Captures s) →
      k = 0#32 ∨ k = id

theorem AccumulateOk.acc {cfg : Cfg} {id : Id} {items : List Item} {ss : List Scope} (h : AccumulateOk cfg id items ss)
    (hx : ∃ i ∈ items, i.isAccum = true) : AccOk cfg id ss := by
  intro hc k ns hd
  obtain ⟨inner, pre, post, outer, h1, h2, _⟩ := setBoundDa_split hd
  exact h hx hc inner pre k ns post outer h1 (fun s hs => not_captures.mp (h2 s hs))

/-- The parts of the thread state that loading an object does not touch. -/
def SameOtherwise (w w' : World PtrStore) : Prop :=
  w'.cur = w.cur ∧ w'.counter = w.counter ∧ w'.handling = w.handling

theorem sameOtherwise_put {w w' : World PtrStore} {es : List Event} {fs : List Scope} (h : absW w' = (absW w).put es fs) :
    SameOtherwise w w' := by
  refine ⟨?_, ?_, ?_⟩
  · show (absW w').cur = _; rw [h]; rfl
  · show (absW w').counter = _; rw [h]; rfl
  · show (absW w').handling = _; rw [h]; rfl

theorem load_ptr (cfg : Cfg) {id : Id} (hid : id.Tagged) (items : List Item) (w : World PtrStore)
    (hw : ThreadOk w) (ha : AccumulateOk cfg id items (scopes w)) :
    ∃ w', errorIdLoad cfg id items w = some ((), w') ∧ ThreadOk w' ∧
      absW w' = (absW w).put (itemsEvents cfg false id items (scopes w)) (putItems cfg false id items (scopes w)) := by
  have h := loadItems_eq cfg false hid items (absW w) hw.good.4 ha.acc
  have he : errorIdLoad cfg id items (absW w) = loadItems cfg false id items (absW w) := by
    unfold errorIdLoad
    rw [if_pos (tagged_ne_zero hid)]
  obtain ⟨w', h1, h2, h3⟩ := run_abs (sim_errorIdLoad cfg id items) hw (he.trans h) (put_good hw.good (putItems_good (tagged_ne_zero hid) hw.good.4))
  exact ⟨w', h1, h3, h2⟩

/-- **C09 (partial), `load`.** In any consistent state of the thread, loading items for an error delivers each of them, in order, to the
innermost scope that handles its type or has already captured an object of this type, else to the innermost capturing scope, else
nowhere; nothing else in storage changes. *Differs from the claim as stated*: a capturing scope that already captured an object of
the type takes precedence over a capturing scope further in (`C09_refuted_nested_capture`). -/
theorem C09_load_partial (cfg : Cfg) {id : Id} (hid : id.Tagged) (items : List Item) (w : World PtrStore)
    (hw : ThreadOk w) (ha : AccumulateOk cfg id items (scopes w)) :
    ∃ w', errorIdLoad cfg id items w = some ((), w') ∧ ThreadOk w' ∧ DeliveredAll cfg false id items (scopes w) (scopes w') ∧
      SameOtherwise w w' := by
  obtain ⟨w', h1, h2, h3⟩ := load_ptr cfg hid items w hw ha
  refine ⟨w', h1, h2, ?_, ?_⟩
  · have : scopes w' = putItems cfg false id items (scopes w) := by unfold scopes; rw [h3]; rfl
    rw [this]
    exact putItems_delivered _ _ _ _ _
  · exact sameOtherwise_put h3

/-- The id that the next call of `new_error` in state `w` generates. -/
def nextId (cfg : Cfg) {M : Type} (w : World M) : Id := w.counter + BitVec.ofNat 32 (4 * cfg.interf w.ticks) + 4#32

theorem nextId_tagged {cfg : Cfg} {w : World AbsStore} (hg : w.Good) : (nextId cfg w).Tagged := add4_tagged (add4k_tagged hg.2 _)

/-- The state after generating an id. -/
def World.gen (cfg : Cfg) (w : World AbsStore) : World AbsStore :=
  { w with counter := nextId cfg w, cur := nextId cfg w, ticks := w.ticks + 1, trace := .gen (nextId cfg w) :: w.trace }

theorem gen_good {cfg : Cfg} {w : World AbsStore} (hg : w.Good) : (w.gen cfg).Good :=
  ⟨Or.inr (nextId_tagged hg), nextId_tagged hg, hg.3, hg.4⟩

theorem newId_eq (cfg : Cfg) (w : World AbsStore) : newId cfg w = some (nextId cfg w, w.gen cfg) := rfl

theorem newError_eq (cfg : Cfg) (items : List Item) (w : World AbsStore) (hg : w.Good)
    (ha : (∃ i ∈ items, i.isAccum = true) → AccOk cfg (nextId cfg w) w.mem.frames) :
    newError cfg items w = some (nextId cfg w, (w.gen cfg).put (itemsEvents cfg false (nextId cfg w) items w.mem.frames)
      (putItems cfg false (nextId cfg w) items w.mem.frames)) := by
  have ht := nextId_tagged (cfg := cfg) hg
  unfold newError
  rw [bind_apply, newId_eq, Option.bind_some]
  simp only
  rw [makeErrorId_of_tagged ht, bind_apply]
  unfold errorIdLoad
  rw [if_pos (tagged_ne_zero ht), loadItems_eq cfg false ht items (w.gen cfg) hg.4 ha]
  rfl

/-- **C09 (partial), `new_error`.** The same for the items of `new_error`, for the fresh id it generates. -/
theorem C09_new_error_partial (cfg : Cfg) (items : List Item) (w : World PtrStore)
    (hw : ThreadOk w) (ha : AccumulateOk cfg (nextId cfg w) items (scopes w)) :
    ∃ w', newError cfg items w = some (nextId cfg w, w') ∧ ThreadOk w' ∧
      DeliveredAll cfg false (nextId cfg w) items (scopes w) (scopes w') ∧
      w'.cur = nextId cfg w ∧ w'.counter = nextId cfg w ∧ w'.handling = w.handling := by
  have e : nextId cfg (absW w) = nextId cfg w := rfl
  rw [← e] at ha ⊢
  have h := newError_eq cfg items (absW w) hw.good ha.acc
  have ht : (nextId cfg (absW w)).Tagged := nextId_tagged hw.good
  obtain ⟨w', h1, h2, h3⟩ := run_abs (sim_newError cfg items) hw h
    (put_good (gen_good hw.good) (putItems_good (tagged_ne_zero ht) hw.good.4))
  refine ⟨w', h1, h3, ?_, ?_, ?_, ?_⟩
  rotate_left
  · show (absW w').cur = _; rw [h2]; rfl
  · show (absW w').counter = _; rw [h2]; rfl
  · show (absW w').handling = _; rw [h2]; rfl
  have : scopes w' = putItems cfg false (nextId cfg (absW w)) items (scopes w) := by unfold scopes; rw [h2]; rfl
  rw [this]
  exact putItems_delivered _ _ _ _ _

/-- The items among the arguments of `on_error` (the others are functions returning `void`). -/
def onItems (is : List OnItem) : List Item := is.filterMap fun | .item i => some i | .action _ => none

def onEvents (cfg : Cfg) (id : Id) : List OnItem → List (List CtxCell) → List Event
  | [], _ => []
  | .item i :: is, fs => onEvents cfg id is (putItem cfg true id i fs) ++ itemEvents cfg true id i fs
  | .action tag :: is, fs => onEvents cfg id is fs ++ [.called tag]

theorem triggerItems_eq (cfg : Cfg) {id : Id} (hid : id.Tagged) (is : List OnItem) (w : World AbsStore)
    (hg : FramesGood w.mem.frames) (hacc : (∃ i ∈ onItems is, i.isAccum = true) → AccOk cfg id w.mem.frames) :
    triggerItems cfg id is w = some ((), w.put (onEvents cfg id is w.mem.frames) (putItems cfg true id (onItems is) w.mem.frames)) := by
  induction is generalizing w with
  | nil => rfl
  | cons i is ih =>
    cases i with
    | item i =>
      show (loadItem cfg true id i >>= fun _ => triggerItems cfg id is) w = _
      rw [bind_apply, loadItem_eq cfg true hid i w hg (fun h => hacc ⟨i, by simp [onItems], h⟩), Option.bind_some]
      have := ih (w.put (itemEvents cfg true id i w.mem.frames) (putItem cfg true id i w.mem.frames))
        (putItem_good (tagged_ne_zero hid) hg)
        (fun ⟨j, hj, h⟩ => (hacc ⟨j, by simp only [onItems, List.filterMap_cons, List.mem_cons]; exact Or.inr hj, h⟩).putObj _ _ _)
      rw [this]
      simp [World.put, onItems, putItems, onEvents]
    | action tag =>
      show (emit (.called tag) >>= fun _ => triggerItems cfg id is) w = _
      rw [bind_apply]
      simp only [emit, Option.bind_some]
      rw [ih { w with trace := .called tag :: w.trace } hg (by simpa [onItems] using hacc)]
      simp [World.put, onItems, onEvents]

/-- **C09 (partial), `on_error`.** The same for the items of `on_error`, which do not replace objects of the same error. -/
theorem C09_on_error_partial (cfg : Cfg) {id : Id} (hid : id.Tagged) (items : List OnItem) (w : World PtrStore)
    (hw : ThreadOk w) (ha : AccumulateOk cfg id (onItems items) (scopes w)) :
    ∃ w', triggerItems cfg id items w = some ((), w') ∧ ThreadOk w' ∧
      DeliveredAll cfg true id (onItems items) (scopes w) (scopes w') ∧ SameOtherwise w w' := by
  have h := triggerItems_eq cfg hid items (absW w) hw.good.4 ha.acc
  obtain ⟨w', h1, h2, h3⟩ := run_abs (sim_triggerItems cfg id items) hw h
    (put_good hw.good (putItems_good (tagged_ne_zero hid) hw.good.4))
  refine ⟨w', h1, h3, ?_, sameOtherwise_put h2⟩
  have : scopes w' = putItems cfg true id (onItems items) (scopes w) := by unfold scopes; rw [h2]; rfl
  rw [this]
  exact putItems_delivered _ _ _ _ _

/-- One capturing scope is active; an error is reported with an object of type 10, then, inside a nested `try_capture_all`, another
error with an object of type 10. -/
def nestedCapture : Prog :=
  .newError [.obj 10 1] (fun _ => .captureAll (.newError [.obj 10 2] (fun id => .ret (.err (.plain id)))))

/-- The outcome and the scopes after running `p` inside a scope with the given slots. -/
def runInScope (cfg : Cfg) (spec : List CellTy) (p : Prog) : Option (Out × List Scope) :=
  ((pushCtx spec >>= fun _ => eval cfg p : Comp PtrStore Out) (initThread 1#32)).map fun r => (r.1, scopes r.2)

/-- **C09 refuted (nested capture).** The object reported inside the inner capturing scope goes to the outer capturing scope, because that
already captured an object of this type; the result of the inner `try_capture_all` lacks it. -/
theorem C09_refuted_nested_capture :
    runInScope exCfg [.da] nestedCapture = some (.err (.captured 9#32 []), [[.da 5#32 [(10, some (9#32, 2))]]]) := by
  decide +kernel

/-- In contrast to: without the first report, the inner scope captures it. -/
example : runInScope exCfg [.da] (.captureAll (.newError [.obj 10 2] (fun id => .ret (.err (.plain id))))) =
    some (.err (.captured 5#32 [.obj 10 (some (5#32, 2))]), [[.da 0#32 []]]) := by
  decide +kernel

/-- Every state reached by entering a scope is covered by the theorems above. -/
theorem threadOk_push {w : World PtrStore} (hw : ThreadOk w) {spec : List CellTy} (hs : spec.Nodup) :
    ∃ w', pushCtx spec w = some ((), w') ∧ ThreadOk w' ∧ scopes w' = spec.map CellTy.empty :: scopes w := by
  obtain ⟨u, v, h1, h2, _⟩ := tot_pushCtx (shape (absW w).mem.frames) hs (absW w) hw.good rfl
  have hp : ∃ w', pushCtx spec w = some ((), w') ∧ absW w' = v ∧ PtrStore.Inv w'.mem := by
    have hsim := sim_pushCtx (n := 0) spec
    unfold Sim at hsim
    obtain ⟨w', e1, e2, e3, _⟩ := hsim w.mem w u v hw.inv (.refl _) h1
    exact ⟨w', e1, e2, e3⟩
  obtain ⟨w', e1, e2, e3⟩ := hp
  refine ⟨w', e1, ⟨e3, e2 ▸ h2⟩, ?_⟩
  unfold scopes
  rw [e2]
  simp only [pushCtx, Store.push, hs, if_true, Option.map_some, Option.some.injEq, Prod.mk.injEq] at h1
  rw [← h1.2]

/-- The hypotheses are satisfiable in a state with two nested scopes, the outer one capturing. -/
example : ∃ w : World PtrStore, ThreadOk w ∧ scopes w = [[.obj 10 none, .obj 11 none], [.da 0#32 [], .obj 12 none]] ∧
    AccumulateOk exCfg 5#32 [.obj 10 1, .deferred 13 0 2, .accum 12 1 (· + 1), .accum 14 2 (· + 1)] (scopes w) := by
  obtain ⟨w1, _, h2, h3⟩ := threadOk_push (threadOk_init (c := 1#32) (by decide)) (spec := [.da, .obj 12]) (by decide)
  obtain ⟨w2, _, h5, h6⟩ := threadOk_push h2 (spec := [.obj 10, .obj 11]) (by decide)
  have he : scopes (initThread 1#32) = [] := rfl
  rw [h3, he] at h6
  refine ⟨w2, h5, h6, ?_⟩
  intro _ _ inner pre k ns post outer hs hin
  rw [h6] at hs
  left
  have hmem : CtxCell.da k ns ∈ [CtxCell.da 0#32 [], CtxCell.obj 12 none] ∨ CtxCell.da k ns ∈ [CtxCell.obj 10 none, CtxCell.obj 11 none] := by
    have : pre ++ .da k ns :: post ∈ [[CtxCell.obj 10 none, .obj 11 none], [.da 0#32 [], .obj 12 none]] := by
      simp only [List.map_cons, List.map_nil, CellTy.empty] at hs
      rw [hs]; simp
    simp only [List.mem_cons, List.not_mem_nil, or_false] at this
    rcases this with e | e
    · right; rw [← e]; simp
    · left; rw [← e]; simp
  simp at hmem
  exact hmem.1

/-! ## C12 -/

/-- Some active scope handles `ty`, or captures everything (and capturing is enabled). -/
def Wanted (cfg : Cfg) (ty : Ty) (ss : List Scope) : Prop :=
  (∃ s ∈ ss, Handles ty s ∨ HasCaptured ty s) ∨ (cfg.capture = true ∧ ∃ s ∈ ss, Captures s)

theorem wanted_iff (cfg : Cfg) (ty : Ty) (ss : List Scope) : wanted cfg ty ss = true ↔ Wanted cfg ty ss := by
  unfold wanted Wanted
  rw [Bool.or_eq_true, Bool.and_eq_true]
  have h1 : (boundCell ty ss).isSome = true ↔ ∃ s ∈ ss, Handles ty s ∨ HasCaptured ty s := by
    constructor
    · intro h
      apply Classical.byContradiction
      intro hn
      have : boundCell ty ss = none := boundCell_eq_none fun s hs => not_mem_frameTys.mpr
        ⟨fun h => hn ⟨s, hs, Or.inl h⟩, fun h => hn ⟨s, hs, Or.inr h⟩⟩
      rw [this] at h; simp at h
    · intro ⟨s, hs, h⟩
      cases hb : boundCell ty ss with
      | some c => rfl
      | none =>
        have := not_mem_frameTys.mp (boundCell_none hb s hs)
        rcases h with h | h
        · exact absurd h this.1
        · exact absurd h this.2
  have h2 : (boundDa ss).isSome = true ↔ ∃ s ∈ ss, Captures s := by
    constructor
    · intro h
      apply Classical.byContradiction
      intro hn
      have : boundDa ss = none := (boundDa_none_iff ss).mpr fun s hs => not_captures.mpr fun h => hn ⟨s, hs, h⟩
      rw [this] at h; simp at h
    · intro ⟨s, hs, h⟩
      cases hb : boundDa ss with
      | some c => rfl
      | none => exact absurd h (not_captures.mp ((boundDa_none_iff ss).mp hb s hs))
  rw [h1, h2]

/-- The user functions passed as items that were called so far, newest first. -/
def calls (w : World PtrStore) : List Nat := w.trace.filterMap fun | .called tag => some tag | _ => none

def calledTags (es : List Event) : List Nat := es.filterMap fun | .called tag => some tag | _ => none

theorem putItem_unwanted {cfg : Cfg} {keep : Bool} {id : Id} {i : Item} {fs : List Scope} (h : wanted cfg i.ty fs = false) :
    putItem cfg keep id i fs = fs ∧ ((cfg.capture = false ∨ ∀ ty tag v, i ≠ .deferred ty tag v) → calledTags (itemEvents cfg keep id i fs) = []) := by
  have hb : boundCell i.ty fs = none := by
    unfold wanted at h
    simp only [Bool.or_eq_false_iff] at h
    simpa using h.1
  constructor
  · unfold putItem putObj
    rw [hb]
    unfold wanted at h
    simp only [hb, Option.isSome_none, Bool.false_or, Bool.and_eq_false_iff] at h
    rcases h with h | h
    · simp [h]
    · have : boundDa fs = none := by simpa using h
      simp [this]
  · intro hc
    cases i with
    | obj ty v => rfl
    | deferred ty tag v =>
      rcases hc with hc | hc
      · simp only [itemEvents, Item.ty] at hb ⊢
        simp [hb, hc, calledTags]
      · exact absurd rfl (hc ty tag v)
    | accum ty tag f =>
      simp only [itemEvents, Item.ty] at h ⊢
      simp [h, calledTags]

theorem putItems_unwanted {cfg : Cfg} {keep : Bool} {id : Id} {is : List Item} {fs : List Scope} (h : ∀ i ∈ is, wanted cfg i.ty fs = false) :
    putItems cfg keep id is fs = fs ∧
      ((cfg.capture = false ∨ ∀ ty tag v, .deferred ty tag v ∉ is) → calledTags (itemsEvents cfg keep id is fs) = []) := by
  induction is with
  | nil => exact ⟨rfl, fun _ => rfl⟩
  | cons i is ih =>
    obtain ⟨h1, h2⟩ := putItem_unwanted (keep := keep) (id := id) (h i (by simp))
    obtain ⟨h3, h4⟩ := ih (fun j hj => h j (by simp [hj]))
    unfold putItems itemsEvents
    rw [h1]
    refine ⟨h3, fun hc => ?_⟩
    unfold calledTags at *
    rw [List.filterMap_append]
    rw [h2, h4]
    · rfl
    · rcases hc with hc | hc
      · exact Or.inl hc
      · exact Or.inr fun ty tag v hm => hc ty tag v (by simp [hm])
    · rcases hc with hc | hc
      · exact Or.inl hc
      · exact Or.inr fun ty tag v hm => hc ty tag v (by simp [hm])

/-- **C12 (partial), `load`.** Loading items of types nobody wants changes no stored object, and none of the functions passed as items
is called, if capturing is disabled or there are no functions returning the object. *Missing*: with `BOOST_LEAF_CFG_CAPTURE`, functions that
return the object are called even if nobody wants it (`C12_refuted_deferred`). -/
theorem C12_unwanted_load_partial (cfg : Cfg) {id : Id} (hid : id.Tagged) (items : List Item) (w : World PtrStore)
    (hw : ThreadOk w) (hu : ∀ i ∈ items, ¬ Wanted cfg i.ty (scopes w)) :
    ∃ w', errorIdLoad cfg id items w = some ((), w') ∧ scopes w' = scopes w ∧ SameOtherwise w w' ∧
      ((cfg.capture = false ∨ ∀ ty tag v, .deferred ty tag v ∉ items) → calls w' = calls w) := by
  have hu' : ∀ i ∈ items, wanted cfg i.ty (scopes w) = false := fun i hi => by
    rw [Bool.eq_false_iff]; exact fun h => hu i hi ((wanted_iff _ _ _).mp h)
  have hacc : AccumulateOk cfg id items (scopes w) := by
    intro ⟨i, hi, _⟩ hc inner pre k ns post outer hs _
    exact absurd (Or.inr ⟨hc, _, by rw [hs]; simp; right; left; rfl, k, ns, by simp⟩) (hu i hi)
  obtain ⟨w', h1, _, h3⟩ := load_ptr cfg hid items w hw hacc
  obtain ⟨h4, h5⟩ := putItems_unwanted (keep := false) (id := id) hu'
  refine ⟨w', h1, ?_, sameOtherwise_put h3, fun hc => ?_⟩
  · unfold scopes; rw [h3]; exact h4
  · show calledTags (absW w').trace = _
    rw [h3]
    show calledTags (_ ++ _) = _
    unfold calledTags
    rw [List.filterMap_append]
    have := h5 hc
    unfold calledTags at this
    rw [this]
    rfl

/-- **C12 (partial), `on_error`.** The same for items of `on_error`. -/
theorem C12_unwanted_on_error_partial (cfg : Cfg) {id : Id} (hid : id.Tagged) (items : List Item) (w : World PtrStore)
    (hw : ThreadOk w) (hu : ∀ i ∈ items, ¬ Wanted cfg i.ty (scopes w)) :
    ∃ w', triggerItems cfg id (items.map .item) w = some ((), w') ∧ scopes w' = scopes w ∧ SameOtherwise w w' ∧
      ((cfg.capture = false ∨ ∀ ty tag v, .deferred ty tag v ∉ items) → calls w' = calls w) := by
  have hu' : ∀ i ∈ items, wanted cfg i.ty (scopes w) = false := fun i hi => by
    rw [Bool.eq_false_iff]; exact fun h => hu i hi ((wanted_iff _ _ _).mp h)
  have hon : onItems (items.map .item) = items := by
    clear hu hu'
    induction items with
    | nil => rfl
    | cons i is ih => simpa [onItems] using ih
  have hev : ∀ fs, onEvents cfg id (items.map .item) fs = itemsEvents cfg true id items fs := by
    clear hu hu' hon
    induction items with
    | nil => intro fs; rfl
    | cons i is ih => intro fs; simp [onEvents, itemsEvents, ih]
  have hacc : AccumulateOk cfg id items (scopes w) := by
    intro ⟨i, hi, _⟩ hc inner pre k ns post outer hs _
    exact absurd (Or.inr ⟨hc, _, by rw [hs]; simp; right; left; rfl, k, ns, by simp⟩) (hu i hi)
  have h := triggerItems_eq cfg hid (items.map .item) (absW w) hw.good.4 (by rw [hon]; exact hacc.acc)
  rw [hon, hev] at h
  obtain ⟨w', h1, h3, _⟩ := run_abs (sim_triggerItems cfg id (items.map .item)) hw h
    (put_good hw.good (putItems_good (tagged_ne_zero hid) hw.good.4))
  obtain ⟨h4, h5⟩ := putItems_unwanted (keep := true) (id := id) hu'
  refine ⟨w', h1, ?_, sameOtherwise_put h3, fun hc => ?_⟩
  · unfold scopes; rw [h3]; exact h4
  · show calledTags (absW w').trace = _
    rw [h3]
    show calledTags (_ ++ _) = _
    unfold calledTags
    rw [List.filterMap_append]
    have := h5 hc
    unfold calledTags scopes at this
    rw [this]
    rfl

/-- **C12 refuted (function returning the object).** No scope is active at all, yet the function is called (error.hpp:460-463). -/
theorem C12_refuted_deferred :
    ((errorIdLoad exCfg 5#32 [.deferred 10 77 1] : Comp PtrStore Unit) (initThread 1#32)).map (fun r => calls r.2) = some [77] := by
  decide +kernel

/-! ## C14, C34 -/

/-- The slots of a scope for objects of type `ty`. -/
def slotsOf (ty : Ty) (s : Scope) : List Cell :=
  s.flatMap fun
    | .obj t c => if t = ty then [c] else []
    | .da _ ns => (ns.filter fun n => n.1 = ty).map Prod.snd

/-- The object of type `ty` available for error `id`: the content of the innermost slot for `ty`, if it is tagged with `id`. -/
def available (ty : Ty) (id : Id) (ss : List Scope) : Option Val :=
  match (ss.flatMap (slotsOf ty)).head? with
  | some (some (k, v)) => if k = id then some v else none
  | _ => none

theorem nodeCell_eq_head (ty : Ty) (ns : List (Ty × Cell)) : nodeCell ty ns = ((ns.filter fun n => n.1 = ty).map Prod.snd).head? := by
  induction ns with
  | nil => rfl
  | cons n ns ih =>
    obtain ⟨t, c⟩ := n
    by_cases ht : t = ty
    · simp [nodeCell, ht]
    · simp [nodeCell, ht, ih]

theorem frameCell_eq_head (ty : Ty) (f : Scope) : frameCell ty f = (slotsOf ty f).head? := by
  induction f with
  | nil => rfl
  | cons x f ih =>
    have hc : slotsOf ty (x :: f) = slotsOf ty [x] ++ slotsOf ty f := by simp [slotsOf]
    rw [hc, List.head?_append, ← ih]
    cases x with
    | obj t c => by_cases ht : t = ty <;> simp [frameCell, slotsOf, ht]
    | da k ns =>
      simp only [frameCell, slotsOf, List.flatMap_cons, List.flatMap_nil, List.append_nil, ← nodeCell_eq_head]
      cases nodeCell ty ns <;> rfl

theorem avail_eq (ty : Ty) (id : Id) (ss : List Scope) : avail ty id ss = available ty id ss := by
  have h : boundCell ty ss = (ss.flatMap (slotsOf ty)).head? := by
    induction ss with
    | nil => rfl
    | cons f fs ih =>
      rw [List.flatMap_cons, List.head?_append, ← ih, ← frameCell_eq_head]
      cases hf : frameCell ty f <;> simp [boundCell, hf]
  unfold avail available
  rw [h]
  cases (ss.flatMap (slotsOf ty)).head? with
  | none => rfl
  | some c => cases c <;> rfl

/-- The objects of type `ty` among the items, in order. -/
def objsOf (ty : Ty) (items : List Item) : List Val := items.filterMap fun
  | .obj t v => if t = ty then some v else none
  | .deferred t _ v => if t = ty then some v else none
  | .accum _ _ _ => none

theorem foldl_last (cfg : Cfg) (ty : Ty) (items : List Item) (hn : ∀ t tag f, .accum t tag f ∈ items → t ≠ ty) (cur : Option Val) :
    items.foldl (Item.step cfg false ty) cur = ((objsOf ty items).getLast?).or cur := by
  induction items generalizing cur with
  | nil => simp [objsOf]
  | cons i is ih =>
    rw [List.foldl_cons, ih (fun t tag f h => hn t tag f (by simp [h]))]
    cases i with
    | obj t v =>
      by_cases ht : t = ty
      · simp only [Item.step, Item.ty, ht, if_true, objsOf, List.filterMap_cons, Bool.false_and, Item.objFor]
        rw [List.getLast?_cons]
        cases (List.filterMap _ is).getLast? <;> simp
      · simp [Item.step, Item.ty, ht, objsOf]
    | deferred t tag v =>
      by_cases ht : t = ty
      · simp only [Item.step, Item.ty, ht, if_true, objsOf, List.filterMap_cons, Bool.false_and, Item.objFor]
        rw [List.getLast?_cons]
        cases (List.filterMap _ is).getLast? <;> simp
      · simp [Item.step, Item.ty, ht, objsOf]
    | accum t tag f =>
      have := hn t tag f (by simp)
      simp [Item.step, Item.ty, this, objsOf]

theorem foldl_first (cfg : Cfg) (ty : Ty) (items : List Item) (hn : ∀ t tag f, .accum t tag f ∈ items → t ≠ ty) (cur : Option Val) :
    items.foldl (Item.step cfg true ty) cur = cur.or (objsOf ty items).head? := by
  induction items generalizing cur with
  | nil => simp [objsOf]
  | cons i is ih =>
    rw [List.foldl_cons, ih (fun t tag f h => hn t tag f (by simp [h]))]
    cases i with
    | obj t v =>
      by_cases ht : t = ty
      · cases cur <;> simp [Item.step, Item.ty, ht, objsOf, Item.isAccum, Item.objFor]
      · simp [Item.step, Item.ty, ht, objsOf]
    | deferred t tag v =>
      by_cases ht : t = ty
      · cases cur <;> simp [Item.step, Item.ty, ht, objsOf, Item.isAccum, Item.objFor]
      · simp [Item.step, Item.ty, ht, objsOf]
    | accum t tag f =>
      have := hn t tag f (by simp)
      simp [Item.step, Item.ty, this, objsOf]

/-- **C14, loading.** After any list of items has been loaded for error `id`, the object of type `ty` available for it is the last one
in the list, or the one available before if the list has none; other errors' objects of that type are replaced. -/
theorem C14_last_wins (cfg : Cfg) {id : Id} (hid : id.Tagged) (items : List Item) (w : World PtrStore)
    (hw : ThreadOk w) (ha : AccumulateOk cfg id items (scopes w)) (ty : Ty) (hwant : Wanted cfg ty (scopes w))
    (hn : ∀ t tag f, .accum t tag f ∈ items → t ≠ ty) :
    ∃ w', errorIdLoad cfg id items w = some ((), w') ∧ ThreadOk w' ∧
      available ty id (scopes w') = ((objsOf ty items).getLast?).or (available ty id (scopes w)) ∧
      (objsOf ty items ≠ [] → ∀ id', id' ≠ id → available ty id' (scopes w') = none) := by
  obtain ⟨w', h1, h2, h3⟩ := load_ptr cfg hid items w hw ha
  have hs : scopes w' = putItems cfg false id items (scopes w) := by unfold scopes; rw [h3]; rfl
  have hav : available ty id (scopes w') = ((objsOf ty items).getLast?).or (available ty id (scopes w)) := by
    rw [hs, ← avail_eq, avail_putItems cfg false id items ((wanted_iff _ _ _).mpr hwant), foldl_last cfg ty items hn, avail_eq]
  refine ⟨w', h1, h2, hav, fun hne id' hid' => ?_⟩
  cases hl : (objsOf ty items).getLast? with
  | none => exact absurd (List.getLast?_eq_none_iff.mp hl) hne
  | some v =>
    rw [hl] at hav
    simp only [Option.or] at hav
    unfold available at hav ⊢
    split at hav
    · rename_i k v' heq
      split at hav
      · rename_i hk
        subst hk
        simp [Ne.symm hid']
      · simp at hav
    · simp at hav

/-- **C14, `on_error`.** Items of `on_error` never replace an object available for the error: what was available stays; otherwise the
first one in the list is now available (and another error's object is replaced). -/
theorem C14_guard_keeps (cfg : Cfg) {id : Id} (hid : id.Tagged) (items : List OnItem) (w : World PtrStore)
    (hw : ThreadOk w) (ha : AccumulateOk cfg id (onItems items) (scopes w)) (ty : Ty) (hwant : Wanted cfg ty (scopes w))
    (hn : ∀ t tag f, .accum t tag f ∈ onItems items → t ≠ ty) :
    ∃ w', triggerItems cfg id items w = some ((), w') ∧ ThreadOk w' ∧
      available ty id (scopes w') = (available ty id (scopes w)).or (objsOf ty (onItems items)).head? := by
  have h := triggerItems_eq cfg hid items (absW w) hw.good.4 ha.acc
  obtain ⟨w', h1, h2, h3⟩ := run_abs (sim_triggerItems cfg id items) hw h
    (put_good hw.good (putItems_good (tagged_ne_zero hid) hw.good.4))
  have hs : scopes w' = putItems cfg true id (onItems items) (scopes w) := by unfold scopes; rw [h2]; rfl
  refine ⟨w', h1, h3, ?_⟩
  rw [hs, ← avail_eq, avail_putItems cfg true id (onItems items) ((wanted_iff _ _ _).mpr hwant), foldl_first cfg ty _ hn, avail_eq]

/-- **C14, propagation.** Unloading an inner scope with content `s` for error `id` makes its object of type `ty` available in the enclosing
scopes, unless they have one for this error already. -/
theorem C14_propagation_keeps (cfg : Cfg) {id : Id} (hid : id.Tagged) (s : Scope) (hs : FramesGood [s]) (w : World PtrStore)
    (hw : ThreadOk w) (ty : Ty) (hwant : Wanted cfg ty (scopes w)) :
    ∃ w', unloadCells cfg id s w = some ((), w') ∧ ThreadOk w' ∧
      available ty id (scopes w') = (available ty id (scopes w)).or (available ty id [s]) := by
  have h0 := hs s (by simp)
  have h := unloadCells_eq cfg (tagged_ne_zero hid) s (absW w) hw.good.4 h0.1
  have hcur : Id.Ok (unloadCur id s (absW w).cur) := by
    have := hw.good.1
    generalize (absW w).cur = c at this
    clear h0 h hs hwant
    induction s with
    | nil => exact this
    | cons x s ih =>
      cases x with
      | obj t c => exact ih
      | da k ns =>
        simp only [unloadCur]
        split
        · exact Or.inr hid
        · exact ih
  obtain ⟨w', h1, h2, h3⟩ := run_abs (sim_unloadCells cfg id s) hw h
    ⟨hcur, hw.good.2, hw.good.3, unloadFs_good (tagged_ne_zero hid) hw.good.4⟩
  refine ⟨w', h1, h3, ?_⟩
  have hs' : scopes w' = unloadFs cfg id s (scopes w) := by unfold scopes; rw [h2]; rfl
  rw [hs', ← avail_eq, avail_unloadFs cfg id s h0.2 ((wanted_iff _ _ _).mpr hwant), avail_eq]
  rw [← avail_eq ty id [s]]
  congr 1
  unfold scopeVal avail boundCell
  cases frameCell ty s <;> rfl

/-- The functions taking `ty &` among the items, in order. -/
def accumsOf (ty : Ty) (items : List Item) : List (Val → Val) := items.filterMap fun
  | .accum t _ f => if t = ty then some f else none
  | _ => none

theorem foldl_accum (cfg : Cfg) (keep : Bool) (ty : Ty) (items : List Item)
    (hn : ∀ i ∈ items, i.ty = ty → i.isAccum = true) (cur : Option Val) :
    items.foldl (Item.step cfg keep ty) cur =
      if accumsOf ty items = [] then cur else some ((accumsOf ty items).foldl (fun x f => f x) (cur.getD (cfg.dflt ty))) := by
  induction items generalizing cur with
  | nil => simp [accumsOf]
  | cons i is ih =>
    rw [List.foldl_cons, ih (fun j hj => hn j (by simp [hj]))]
    have hi := hn i (by simp)
    cases i with
    | obj t v =>
      have ht : t ≠ ty := by intro e; simp [Item.ty, Item.isAccum, e] at hi
      simp [Item.step, Item.ty, ht, accumsOf]
    | deferred t tag v =>
      have ht : t ≠ ty := by intro e; simp [Item.ty, Item.isAccum, e] at hi
      simp [Item.step, Item.ty, ht, accumsOf]
    | accum t tag f =>
      by_cases ht : t = ty
      · subst ht
        have hstep : Item.step cfg keep t cur (.accum t tag f) = some (f (cur.getD (cfg.dflt t))) := by
          simp [Item.step, Item.ty, Item.isAccum, Item.objFor]
        have hcons : accumsOf t (.accum t tag f :: is) = f :: accumsOf t is := by simp [accumsOf]
        rw [hstep, hcons, if_neg (List.cons_ne_nil _ _), List.foldl_cons]
        by_cases h : accumsOf t is = []
        · simp [h]
        · simp [h]
      · simp [Item.step, Item.ty, ht, accumsOf]

/-- **C34.** If functions taking `E &` are loaded for an error (and no other objects of type `E`), the object then available is their
composition, in call order, applied to the object available before, or to a default-constructed one. -/
theorem C34_accumulation (cfg : Cfg) {id : Id} (hid : id.Tagged) (items : List Item) (w : World PtrStore)
    (hw : ThreadOk w) (ha : AccumulateOk cfg id items (scopes w)) (ty : Ty) (hwant : Wanted cfg ty (scopes w))
    (hn : ∀ i ∈ items, i.ty = ty → i.isAccum = true) (hne : accumsOf ty items ≠ []) :
    ∃ w', errorIdLoad cfg id items w = some ((), w') ∧ ThreadOk w' ∧
      available ty id (scopes w') =
        some ((accumsOf ty items).foldl (fun x f => f x) ((available ty id (scopes w)).getD (cfg.dflt ty))) := by
  obtain ⟨w', h1, h2, h3⟩ := load_ptr cfg hid items w hw ha
  have hs : scopes w' = putItems cfg false id items (scopes w) := by unfold scopes; rw [h3]; rfl
  refine ⟨w', h1, h2, ?_⟩
  rw [hs, ← avail_eq, avail_putItems cfg false id items ((wanted_iff _ _ _).mpr hwant), foldl_accum cfg false ty items hn, if_neg hne, avail_eq]

/-- The hypotheses of C12, C14 and C34 hold in a scope that handles type 10: objects of type 20 are not wanted there, those of type 10 are. -/
example : ∃ w : World PtrStore, ThreadOk w ∧ scopes w = [[.obj 10 none]] ∧ Wanted exCfg 10 (scopes w) ∧ (∀ i ∈ [Item.obj 20 1, .accum 20 0 (· + 1), .deferred 20 1 4], ¬ Wanted exCfg i.ty (scopes w)) ∧
    (∀ items, AccumulateOk exCfg 5#32 items (scopes w)) ∧ FramesGood [[.obj 10 (some (5#32, 3)), .obj 11 none]] := by
  obtain ⟨w, _, h2, h3⟩ := threadOk_push (threadOk_init (c := 1#32) (by decide)) (spec := [.obj 10]) (by decide)
  have he : scopes (initThread 1#32) = [] := rfl
  rw [he] at h3
  have h3 : scopes w = [[.obj 10 none]] := h3
  refine ⟨w, h2, h3, (wanted_iff _ _ _).mp (by rw [h3]; decide), ?_, ?_, ?_⟩
  · intro i hi hc
    have hty : i.ty = 20 := by
      simp only [List.mem_cons, List.not_mem_nil, or_false] at hi
      rcases hi with rfl | rfl | rfl <;> rfl
    have := (wanted_iff _ _ _).mpr hc
    rw [h3, hty] at this
    exact absurd this (by decide)
  · intro items _ _ inner pre k ns post outer hs _
    have hm : CtxCell.da k ns ∈ (scopes w).flatten := by rw [hs]; simp
    rw [h3] at hm
    simp at hm
  · intro f hf
    simp only [List.mem_cons, List.not_mem_nil, or_false] at hf
    subst hf
    refine ⟨?_, by decide⟩
    intro c hc
    simp only [List.mem_cons, List.not_mem_nil, or_false] at hc
    rcases hc with rfl | rfl <;> exact trivial

example : objsOf 10 [.obj 10 1, .accum 20 0 (· + 1), .deferred 10 1 4] = [1, 4] ∧ (accumsOf 20 [.obj 10 1, .accum 20 0 (· + 1), .accum 20 1 (· * 3)]).foldl (fun x f => f x) 0 = 3 := by decide

end Leaf
