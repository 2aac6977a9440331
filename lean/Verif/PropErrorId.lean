import Verif.PropCapture
import Verif.ThrowModel

/-!
# C56: the error id of a result, and the objects captured in it

`doc/leaf.adoc`, `result::error`: when the object returned by `r.error()` is converted to an `error_id` and `r` holds captured objects, "all
captured error objects are loaded in the calling thread, and the captured `error_id` value is returned". The conversion (result.hpp:231-237)
only returns the id.
-/

namespace Leaf

/-- The objects of an error that had the objects `A`, after `load(items...)`. -/
def withItems (cfg : Cfg) (A : Ty → Option Val) (items : List Item) : Ty → Option Val := fun ty => items.foldl (Item.step cfg false ty) (A ty)

/-- What the documentation says `error_id(r.error())` does, given the id and the nodes in the list of a captured result. -/
def LoadsCaptured (cfg : Cfg) (r : ErrRes) (w : World PtrStore) : Prop :=
  ∃ w', resultErrorId (some r) w = some (r.errId, w') ∧
    ∀ id ns, r = .captured id ns → MadeAvailable cfg r.errId (capObjs ns) (scopes w) (scopes w')

/-- **C56 (partial).** Asking a result for its error id yields the empty id if it has a value, and otherwise the id of its error. Nothing else
happens; for a result that holds no captured objects, this is what is documented. *Missing*: captured objects are not loaded (`C56_refuted`,
`C56_refuted_load`). -/
theorem C56_error_id_partial (w : World PtrStore) :
    (∃ id : Id, resultErrorId none w = some (id, w) ∧ id.truthy = false) ∧ (∀ r, resultErrorId (some r) w = some (r.errId, w)) ∧
      ∀ cfg r, (∀ id ns, r = .captured id ns → capObjs ns = []) → LoadsCaptured cfg r w := by
  refine ⟨⟨0#32, rfl, by decide⟩, fun _ => rfl, fun cfg r h => ⟨w, rfl, fun id ns hr => ?_⟩⟩
  rw [h id ns hr]
  intro ty x hx
  simp at hx

/-- `return r.load(items...);` in a function returning a `result`. -/
theorem return_load_eq {M : Type} [Store M] (cfg : Cfg) (r : ErrRes) (items : List Item) :
    eval (M := M) cfg (.load r.errId items (.ret (.err (.plain r.errId)))) = (do let id ← resultLoad cfg (some r) items; return .err (.plain id)) := by
  funext w
  simp only [eval, resultLoad, resultErrorId, bind_apply, pure_apply, Option.bind_some]
  cases errorIdLoad cfg r.errId items w <;> rfl

section
variable {cfg : Cfg} {r : ErrRes} {id : Id} {A : Ty → Option Val} {da : Bool} {w : World PtrStore} {specs : List (List Arg)}
  {body : Nat → List ArgVal → Prog} {items : List Item}

/-- **C56 refuted.** For every captured object of the error: in a state where a scope wants objects of its type and there is none of the error
yet, the documented behaviour is not that of the code. -/
theorem C56_refuted (id : Id) (ns : List CapNode) {ty : Ty} {v : Val} (hm : (ty, some (makeErrorId id, v)) ∈ capObjs ns)
    (hwant : wanted cfg ty (scopes w) = true) (hf : available ty (makeErrorId id) (scopes w) = none) :
    ¬ LoadsCaptured cfg (.captured id ns) w := by
  rintro ⟨w', h1, h2⟩
  have : resultErrorId (some (ErrRes.captured id ns)) w = some ((ErrRes.captured id ns).errId, w) := rfl
  rw [this] at h1
  simp only [Option.some.injEq, Prod.mk.injEq, true_and] at h1
  subst h1
  have := h2 id ns rfl ty v hm hwant
  change available ty (makeErrorId id) (scopes w) = _ at this
  rw [hf] at this
  simp at this

theorem accumulateOk_of {d : Bool} (hi : ∀ i ∈ items, i.Ok cfg d) {ss : List Scope} (hd : d = false → NoDa (shape ss)) : AccumulateOk cfg id items ss := by
  rintro ⟨i, hm, ha⟩ hc inner pre k ns post outer rfl _
  exfalso
  have := hi i hm
  cases i with
  | obj => simp [Item.isAccum] at ha
  | deferred => simp [Item.isAccum] at ha
  | accum ty tag f =>
    rcases this with h | h
    · rw [hc] at h; cases h
    · refine hd h ((pre ++ CtxCell.da k ns :: post).map CtxCell.cellTy) ?_ ?_
      · simp [shape]
      · simp [CtxCell.cellTy]

theorem cellTy_empty (slots : List CellTy) : (slots.map CellTy.empty).map CtxCell.cellTy = slots := by
  rw [List.map_map]
  have : ∀ t : CellTy, (CtxCell.cellTy ∘ CellTy.empty) t = t := fun t => by cases t <;> rfl
  rw [List.map_congr_left (fun t _ => this t), List.map_id']

/-- Handling an error after objects were loaded for it, in a scope where it has the objects `A`. -/
theorem handled_loaded {block : Prog} (hid : id.Tagged) (hp : (Prog.handleAll specs block body).WF cfg da) (hw : ThreadOk w)
    (hda : da = false → NoCapturingScope w) (hi : ∀ i ∈ items, i.Ok cfg (da || capturing cfg specs)) {w1 : World PtrStore} (h6 : ThreadOk w1)
    (hsh : shape (scopes w1) = deduce cfg specs :: shape (scopes w)) (h3 : Attached cfg id A (scopes w1)) (h8 : NoHandlerCalled w w1)
    (h : ∀ w2, errorIdLoad cfg id items w1 = some ((), w2) → attempt cfg (deduce cfg specs) (eval cfg block) w = some (.err (.plain id), w2)) :
    ∃ i vals o w', eval cfg (.handleAll specs block body) w = some (o, w') ∧
      Handled cfg w (withItems cfg A items) id none specs body i vals o w' := by
  have hnd : (da || capturing cfg specs) = false → NoDa (shape (scopes w1)) := fun hf => by
    rw [hsh]
    exact noDa_push (fun h => noDa_of (hda h)) hf
  obtain ⟨w2, g1, g2, g3⟩ := load_ptr cfg hid items w1 h6 (accumulateOk_of hi hnd)
  have hsc : scopes w2 = putItems cfg false id items (scopes w1) := by unfold scopes; rw [g3]; rfl
  have hat : Attached cfg id (withItems cfg A items) (scopes w2) := by rw [hsc]; exact attached_putItems h3
  have hsh2 : shape (scopes w2) = deduce cfg specs :: shape (scopes w) := by rw [hsc, putItems_shape, hsh]
  have hq : NoHandlerCalled w1 w2 := ⟨itemsEvents cfg false id items (scopes w1), congrArg World.trace g3, itemsEvents_quiet _ _ _ _ _⟩
  cases hc : scopes w2 with
  | nil => rw [hc] at hsh2; simp [shape] at hsh2
  | cons s ss =>
    rw [hc] at hsh2 hat
    simp only [shape, List.map_cons, List.cons.injEq] at hsh2
    have hg := scopes_cons_good g2 hc
    have hfail : failure (.err (.plain id)) w2 = some (id, none, w2.handling) := by
      simp only [failure, ErrRes.errId, makeErrorId_of_tagged hid]
    obtain ⟨i, hd, vals, wh, o, wr, w', e1, e2, e3, e4, e5, e6, e7, e8⟩ := C15_handle_all hp hw hda (h w2 g1) hc hfail
    refine ⟨i, vals, o, w', e6, (firstSuitable_of hsh2.1 hg hat).mp e1, hd, w2, wh, wr, e2, e3.1, fun j a x ha hx => ?_, noHandler_trans h8 hq,
      e4.trace, e5, e7⟩
    rw [e4.scopes]
    exact receives_of hsh2.1 hg hat (List.mem_of_getElem? e2) (List.mem_of_getElem? ha) (e3.2 j a x ha hx)

/-- **C56, unloading first.** `r.unload(); return r.load(items...);` passes on the error of a captured result with the objects captured and the
items: the handler called, and the arguments it gets, are those for an error with the captured objects attached, then the items loaded. (If an
exception was captured, `unload` throws it: `C28_unloaded`.) -/
theorem C56_unload_first {k : Val → Prog} (hid : id.Tagged) (hr : Carries r id A none)
    (hp : (Prog.handleAll specs (.bind (.unload r) k (fun r' => .load r'.errId items (.ret (.err (.plain r'.errId))))) body).WF cfg da)
    (hw : ThreadOk w) (hda : da = false → NoCapturingScope w) (hf : ∀ ty v, ¬ Stored ty id v (scopes w)) :
    ∃ i vals o w', eval cfg (.handleAll specs (.bind (.unload r) k (fun r' => .load r'.errId items (.ret (.err (.plain r'.errId))))) body) w =
        some (o, w') ∧ Handled cfg w (withItems cfg A items) id none specs body i vals o w' := by
  obtain ⟨w1, s, ss, h1, h2, h3, h4, h5, h6, h7, h8, _⟩ := attempt_received (cfg := cfg) (deduce_nodup cfg specs) hid hr hw hf
  have hi : ∀ i ∈ items, i.Ok cfg (da || capturing cfg specs) := (hp.2.1.2.2 (.plain id) trivial).2.1
  have hsh : shape (scopes w1) = deduce cfg specs :: shape (scopes w) := by
    have := attempt_state (cfg := cfg) (specs := specs) (block := .ret (.err r)) (da := da) hp.2.1.1 hw hda h1 h2
    rw [h2]
    simp only [shape, List.map_cons, List.cons.injEq]
    exact ⟨h7, this.2.2.2.2⟩
  rw [← h2] at h3
  refine handled_loaded hid hp hw hda hi h6 hsh h3 h8 fun w2 hl => ?_
  obtain ⟨w0, p1, _⟩ := push_ptr hw (deduce_nodup cfg specs)
  unfold attempt at h1 ⊢
  rw [bind_apply, p1, Option.bind_some, bind_apply] at h1 ⊢
  have h1' : resultUnload cfg r w0 = some (.err (.captured id []), w1) := h1
  have he : (ErrRes.captured id []).errId = id := makeErrorId_of_tagged hid
  have : eval cfg (.bind (.unload r) k (fun r' => .load r'.errId items (.ret (.err (.plain r'.errId))))) w0 = some (.err (.plain id), w2) := by
    simp only [eval, bind_apply, h1', Option.bind_some, he, hl, pure_apply]
  rw [this]
  rfl

/-- **C56 refuted (`load`).** `return r.load(items...);` for a captured result, documented to load the captured objects too, passes on the error
with the items only, whatever was captured. -/
theorem C56_refuted_load (hid : id.Tagged) (hr : r.errId = id)
    (hp : (Prog.handleAll specs (.load r.errId items (.ret (.err (.plain r.errId)))) body).WF cfg da) (hw : ThreadOk w)
    (hda : da = false → NoCapturingScope w) (hf : ∀ ty v, ¬ Stored ty id v (scopes w)) :
    ∃ i vals o w', eval cfg (.handleAll specs (.load r.errId items (.ret (.err (.plain r.errId)))) body) w = some (o, w') ∧
      Handled cfg w (withItems cfg (fun _ => none) items) id none specs body i vals o w' := by
  subst hr
  obtain ⟨w0, p1, _, p3, p4⟩ := push_ptr hw (deduce_nodup cfg specs)
  have hf0 : ∀ ty v, ¬ Stored ty r.errId v (scopes w0) := by
    intro ty v
    rw [p4, stored_cons]
    rintro (hm | h)
    · exact stored_empty hm
    · exact hf ty v h
  have hsh : shape (scopes w0) = deduce cfg specs :: shape (scopes w) := by rw [p4]; simp only [shape, List.map_cons]; rw [cellTy_empty]
  refine handled_loaded hid hp hw hda hp.2.1.2.1 p3 hsh (attached_fresh hf0) (noHandler_eq (pushCtx_trace p1)) fun w2 hl => ?_
  unfold attempt
  rw [bind_apply, p1, Option.bind_some, bind_apply]
  have : eval cfg (.load r.errId items (.ret (.err (.plain r.errId)))) w0 = some (.err (.plain r.errId), w2) := by
    simp only [eval, bind_apply, hl, Option.bind_some, pure_apply]
  rw [this]
  rfl

end

/-- **C56 refuted (concrete).** A block that reports an error with an object of type 10 is captured. Code in another thread passes on the failure:
by `return r.load(e)`, by `return r.error()`, and by `r.unload(); return r.load(e)`. The handler for objects of type 10 is called in the last two
cases only. -/
theorem C56_refuted_concrete :
    let r : ErrRes := .captured 5#32 [.obj 10 (some (5#32, 1))]
    let handle (block : Prog) : Prog := .handleAll [[.req 10, .ptr 11], [.ptr 11]] block (fun i _ => .ret (.val i))
    let load (r : ErrRes) : Prog := .load r.errId [.obj 11 2] (.ret (.err (.plain r.errId)))
    runFresh exCfg (.captureAll (.newError [.obj 10 1] fun id => .ret (.err (.plain id)))) = some (.err r, [], [.offered 5#32 10 1, .gen 5#32]) ∧
    runFresh exCfg (handle (load r)) = some (.val 1, [], [.handled 5#32 none 1 [.ptr 11 (some 2)], .offered 5#32 11 2]) ∧
    runFresh exCfg (handle (.ret (.err r.forward))) = some (.val 0, [], [.handled 5#32 none 0 [.obj 10 1, .ptr 11 none], .transported 5#32 10 1]) ∧
    runFresh exCfg (handle (.bind (.unload r) (fun v => .ret (.val v)) load)) =
      some (.val 0, [], [.handled 5#32 none 0 [.obj 10 1, .ptr 11 (some 2)], .offered 5#32 11 2, .transported 5#32 10 1]) := by
  refine ⟨?_, ?_, ?_, ?_⟩ <;> decide +kernel

/-! ## The hypotheses can be met -/

/-- A captured result without an exception, and a thread to handle it in. -/
example : Carries (.captured 5#32 [.obj 10 (some (5#32, 1))]) 5#32 (fun t => if t = 10 then some 1 else none) none ∧ Id.Tagged 5#32 ∧
    (Prog.handleAll [[.req 10, .ptr 11], [.ptr 11]] (.bind (.unload (.captured 5#32 [.obj 10 (some (5#32, 1))])) (fun v => .ret (.val v))
      (fun r' => .load r'.errId [.obj 11 2] (.ret (.err (.plain r'.errId))))) (fun i _ => .ret (.val i))).WF exCfg false ∧
    ThreadOk (initThread 101#32) ∧ NoCapturingScope (initThread 101#32) ∧ ∀ ty v, ¬ Stored ty 5#32 v (scopes (initThread 101#32)) := by
  refine ⟨⟨[(10, some (5#32, 1))], rfl, by simp, fun ty v => ?_⟩, by decide, ⟨⟨[[.req 10, .ptr 11]], [.ptr 11], rfl, rfl⟩, ⟨?_, ?_, ?_⟩, ?_⟩,
    threadOk_init (by decide), by intro x hx; simp [initThread, PtrStore.empty] at hx, fun _ _ => stored_nil⟩
  · by_cases h : ty = 10 <;> simp [h, eq_comm]
  · intro n hn; simp at hn; subst hn; trivial
  · intro v; trivial
  · intro r _
    exact ⟨Or.inr (errId_tagged _), by simp [Item.Ok], trivial⟩
  · intro i args _
    exact ⟨trivial, fun _ h => by cases h⟩

/-- A state in which the captured object is wanted and the error has none yet: a scope for type 10. -/
example : ∃ w, pushCtx [.obj 10] (initThread 101#32) = some ((), w) ∧ wanted exCfg 10 (scopes w) = true ∧ available 10 (makeErrorId 5#32) (scopes w) = none ∧
    (10, some (makeErrorId 5#32, 1)) ∈ capObjs [.obj 10 (some (5#32, 1))] :=
  ⟨_, rfl, by decide +kernel, by decide +kernel, by decide⟩

end Leaf
