import Verif.ContextRefine
import Verif.PropStorage

/-!
# Properties C39, C41: context objects

`UWorld.run cfg u ops`: the pointer-level code (`ContextModel`) executes a sequence of operations on context objects, with arbitrary programs between them; `none` is undefined behaviour or a violated
assertion. `SWorld.run`: the same operations by specification (`ContextSpec`): a context object is a list of contents, the active ones are a stack. A specification step is `none` when the operation is not allowed;
the conditions are: contexts are deactivated in reverse order of activation; only inactive contexts are moved, unloaded, used to handle errors, or destroyed; a context with captured objects is not activated again; and
for moving, see C39.
-/

namespace Leaf
open PtrStore

/-! ## C41 -/

/-- **C41 (partial), contents.** Any sequence of allowed operations runs without undefined behaviour on the pointer level, and everything observed (outputs of programs, of handlers, contents of contexts) is
what the specification says. *Missing from the full claim*: activating again a context that captured objects; the claim is false then, see `C41_refuted_reactivate`. -/
theorem C41_contexts_partial (cfg : Cfg) (counter : Id) (ops : List UOp) {os : List UObs} {s : SWorld} (h : (SWorld.initial counter).run cfg ops = some (os, s)) :
    ∃ u, (UWorld.initial counter).run cfg ops = some (os, u) :=
  (context_run_refines cfg ops (.initial counter) h).imp fun _ h => h.1

/-- The context objects an operation names. -/
def UOp.names : UOp → List Nat
  | .create c _ => [c]
  | .activate c => [c]
  | .deactivate c => [c]
  | .move d c => [d, c]
  | .unload c _ => [c]
  | .handle _ _ _ _ => []
  | .look _ => []
  | .destroy c => [c]
  | .run _ => []

theorem SWorld.step_other (cfg : Cfg) {s s' : SWorld} {op : UOp} {o : UObs} (h : s.step cfg op = some (o, s')) {c : Nat} (hc : c ∉ op.names) : s'.pool c = s.pool c := by
  cases op with
  | create d spec =>
    simp only [SWorld.step] at h
    split at h
    · cases h; exact upd_ne _ _ (by simpa [UOp.names] using hc)
    · simp at h
  | activate d =>
    simp only [SWorld.step] at h
    split at h
    · split at h
      · simp at h
      · cases h; exact upd_ne _ _ (by simpa [UOp.names] using hc)
    · simp at h
  | deactivate d =>
    simp only [SWorld.step] at h
    split at h
    · split at h
      · cases h; exact upd_ne _ _ (by simpa [UOp.names] using hc)
      · simp at h
    · simp at h
  | move d e =>
    simp only [SWorld.step] at h
    simp only [UOp.names, List.mem_cons, List.not_mem_nil, or_false, not_or] at hc
    split at h
    · cases h
      exact (upd_ne _ _ hc.1).trans (upd_ne _ _ hc.2)
    · simp at h
  | unload d id =>
    simp only [SWorld.step] at h
    split at h
    · rename_i cells _ _ _
      cases h1 : unloadRest cfg id cells s.w with
      | none => rw [h1] at h; simp at h
      | some r => rw [h1] at h; cases h; exact upd_ne _ _ (by simpa [UOp.names] using hc)
    · simp at h
  | handle d id specs body =>
    simp only [SWorld.step] at h
    split at h
    · rename_i cells _ _ _
      cases h1 : handleError cfg specs (fun i args => eval cfg (body i args)) cells id s.w with
      | none => rw [h1] at h; simp at h
      | some r => rw [h1] at h; cases h; rfl
    · simp at h
  | look d =>
    simp only [SWorld.step] at h
    split at h
    · cases h; rfl
    · simp at h
  | destroy d =>
    simp only [SWorld.step] at h
    split at h
    · cases h; exact upd_ne _ _ (by simpa [UOp.names] using hc)
    · simp at h
  | run p =>
    simp only [SWorld.step] at h
    cases h1 : eval cfg p s.w with
    | none => rw [h1] at h; simp at h
    | some r => rw [h1] at h; cases h; rfl

theorem SWorld.run_cons_inv {cfg : Cfg} {s s' : SWorld} {op : UOp} {ops : List UOp} {os : List UObs} (h : s.run cfg (op :: ops) = some (os, s')) :
    ∃ o s1 os1, s.step cfg op = some (o, s1) ∧ s1.run cfg ops = some (os1, s') ∧ os = o :: os1 := by
  replace h : (s.step cfg op).bind (fun q => (q.2.run cfg ops).bind fun r => some (q.1 :: r.1, r.2)) = some (os, s') := h
  cases h1 : s.step cfg op with
  | none => rw [h1] at h; simp at h
  | some q =>
    rw [h1, Option.bind_some] at h
    cases h2 : q.2.run cfg ops with
    | none => rw [h2] at h; simp at h
    | some r => rw [h2] at h; cases h; exact ⟨_, _, _, rfl, h2, rfl⟩

theorem UWorld.run_cons_inv {cfg : Cfg} {s s' : UWorld} {op : UOp} {ops : List UOp} {os : List UObs} (h : s.run cfg (op :: ops) = some (os, s')) :
    ∃ o s1 os1, s.step cfg op = some (o, s1) ∧ s1.run cfg ops = some (os1, s') ∧ os = o :: os1 := by
  replace h : (s.step cfg op).bind (fun q => (q.2.run cfg ops).bind fun r => some (q.1 :: r.1, r.2)) = some (os, s') := h
  cases h1 : s.step cfg op with
  | none => rw [h1] at h; simp at h
  | some q =>
    rw [h1, Option.bind_some] at h
    cases h2 : q.2.run cfg ops with
    | none => rw [h2] at h; simp at h
    | some r => rw [h2] at h; cases h; exact ⟨_, _, _, rfl, h2, rfl⟩

theorem CRel.look {cfg : Cfg} {u : UWorld} {s : SWorld} (h : CRel u s) {c : Nat} {cells : List CtxCell} {pinned spent : Bool} (hs : s.pool c = some (.idle cells pinned spent)) :
    u.step cfg (.look c) = some (.content cells, u) := by
  obtain ⟨x, hid, hro⟩ := h.readOut hs
  simp only [UWorld.step, hid]
  show (PtrStore.readOut x.cells u.w.mem).bind _ = _
  rw [hro]
  rfl

/-- **C41, inactive contexts.** After any allowed history: whatever allowed operation is executed next (any program; error handling with any context; activating, moving, unloading, destroying other contexts), the content
of an inactive context which the operation does not name stays as it is. -/
theorem C41_inactive_unchanged (cfg : Cfg) (counter : Id) (ops : List UOp) {os : List UObs} {s : SWorld} (h : (SWorld.initial counter).run cfg ops = some (os, s))
    {c : Nat} {cells : List CtxCell} {pinned spent : Bool} (hc : s.pool c = some (.idle cells pinned spent)) {op : UOp} (hop : c ∉ op.names) {o : UObs} {s' : SWorld} (hs : s.step cfg op = some (o, s')) :
    ∃ u u', (UWorld.initial counter).run cfg ops = some (os, u) ∧ u.step cfg (.look c) = some (.content cells, u) ∧ u.step cfg op = some (o, u') ∧ u'.step cfg (.look c) = some (.content cells, u') := by
  obtain ⟨u, h1, h2⟩ := context_run_refines cfg ops (.initial counter) h
  obtain ⟨u', h3, h4⟩ := context_step_refines cfg h2 hs
  exact ⟨u, u', h1, h2.look hc, h3, h4.look ((SWorld.step_other cfg hs hop).trans hc)⟩

/-- **C41, bindings.** After any allowed history: activating a context, running any program, and deactivating the context, restores the thread-local binding of every type and of the `dynamic_allocator`, except that a
type without binding may have got storage inside a capturing scope that was active already. -/
theorem C41_bindings_restored (cfg : Cfg) (counter : Id) (ops : List UOp) {os : List UObs} {s : SWorld} (h : (SWorld.initial counter).run cfg ops = some (os, s))
    (c : Nat) (p : Prog) {os' : List UObs} {s' : SWorld} (hs : s.run cfg [.activate c, .run p, .deactivate c] = some (os', s')) :
    ∃ u u', (UWorld.initial counter).run cfg ops = some (os, u) ∧ u.run cfg [.activate c, .run p, .deactivate c] = some (os', u') ∧ u'.w.mem.tlsDa = u.w.mem.tlsDa ∧
      ∀ ty, binding u'.w ty = binding u.w ty ∨ (binding u.w ty = none ∧ ∃ a, binding u'.w ty = some a ∧ InCapturingScope u'.w ty a) := by
  obtain ⟨u, h1, r0⟩ := context_run_refines cfg ops (.initial counter) h
  refine ⟨u, ?_⟩
  obtain ⟨u', hu', r3'⟩ := context_run_refines cfg _ r0 hs
  refine ⟨u', h1, hu', ?_⟩
  -- the three steps
  obtain ⟨o1, s1, os1, hs1, hsa, rfl⟩ := SWorld.run_cons_inv hs
  obtain ⟨o2, s2, os2, hs2, hsb, rfl⟩ := SWorld.run_cons_inv hsa
  obtain ⟨o3, s3, os3, hs3, hsc, rfl⟩ := SWorld.run_cons_inv hsb
  cases hsc
  obtain ⟨u1, e1, r1⟩ := context_step_refines cfg r0 hs1
  obtain ⟨u2, e2, r2⟩ := context_step_refines cfg r1 hs2
  obtain ⟨u3, e3, r3⟩ := context_step_refines cfg r2 hs3
  have hu3 : u' = u3 := by
    obtain ⟨_, v1, _, g1, hua, _⟩ := UWorld.run_cons_inv hu'
    rw [e1] at g1; cases g1
    obtain ⟨_, v2, _, g2, hub, _⟩ := UWorld.run_cons_inv hua
    rw [e2] at g2; cases g2
    obtain ⟨_, v3, _, g3, huc, _⟩ := UWorld.run_cons_inv hub
    rw [e3] at g3; cases g3
    cases huc
    rfl
  subst hu3
  -- activation
  have a1 : ∃ x, u1.w.mem.ctxs = x :: u.w.mem.ctxs ∧ ∀ a ∈ allDas u.w.mem.ctxs, u1.w.mem.dmem a = u.w.mem.dmem a := by
    simp only [SWorld.step] at hs1
    split at hs1
    · rename_i cells pinned hp
      split at hs1
      · simp at hs1
      · rename_i hcap
        obtain ⟨x, m, k1, k2, k3, k4, _⟩ := r0.activate hp (by simpa using hcap)
        simp only [UWorld.step, k1] at e1
        replace e1 : (if x.spent = true then none else _) = some (o1, u1) := e1
        rw [if_neg (by simp [k2]), k3] at e1
        cases e1
        exact ⟨x.cells, congrArg _ k4.1, k4.2⟩
    · simp at hs1
  -- deactivation
  have a3 : u'.w.mem.dmem = u2.w.mem.dmem ∧ ∃ x, u2.w.mem.ctxs = x :: u'.w.mem.ctxs := by
    simp only [SWorld.step] at hs3
    split at hs3
    · rename_i a as f fs ha hf
      split at hs3
      · rename_i hac
        subst hac
        obtain ⟨x, m, k1, k2, k3, k4, _⟩ := r2.deactivate ha hf
        simp only [UWorld.step, k1] at e3
        rw [if_pos k2, k3] at e3
        cases e3
        exact ⟨k4.1, x.cells, k4.2⟩
      · simp at hs3
    · simp at hs3
  -- the program
  have a2 : Keep u1.w.mem 0 u2.w.mem := by
    simp only [SWorld.step] at hs2
    cases hp : eval cfg p s1.w with
    | none => rw [hp] at hs2; simp at hs2
    | some q =>
      obtain ⟨o, w'⟩ := q
      rw [← r1.w] at hp
      obtain ⟨w2, f1, _, _, f4⟩ := sim_run (sim_eval (n := 0) cfg p) u1.w.mem u1.w o w' r1.inv (.refl _) hp
      simp only [UWorld.step, f1] at e2
      cases e2
      exact f4
  obtain ⟨x, c1, d1⟩ := a1
  obtain ⟨d3, y, c3⟩ := a3
  obtain ⟨pre, hl, hc⟩ := a2.ctxs
  have hctx : u'.w.mem.ctxs = u.w.mem.ctxs := by
    rw [List.eq_nil_of_length_eq_zero hl, List.nil_append, c1, c3] at hc
    exact (List.cons.inj hc).2
  refine ⟨by rw [r3.inv.tlsDa, r0.inv.tlsDa, hctx], fun ty => ?_⟩
  show u'.w.mem.tls ty = u.w.mem.tls ty ∨ (u.w.mem.tls ty = none ∧ _)
  rw [r0.inv.tls ty]
  cases hb : PtrStore.bind ty (allSlots u.w.mem.dmem u.w.mem.ctxs) with
  | none =>
    cases hb' : u'.w.mem.tls ty with
    | none => exact .inl rfl
    | some a =>
      refine .inr ⟨rfl, a, hb', ?_⟩
      have hb2 := hb'
      rw [r3.inv.tls ty, hctx] at hb2
      rcases slots_grow (dmem0 := u.w.mem.dmem) (bind_mem hb2) with hm | ⟨d, hd, hpn⟩
      · exact absurd (List.mem_map.mpr ⟨_, hm, rfl⟩) (bind_none.mp hb)
      · exact inCapturing_of hctx hd hpn
  | some a =>
    left
    rw [r3.inv.tls ty, hctx, ← hb, d3]
    apply bind_grow
    intro d hd
    obtain ⟨l, k1, k2⟩ := a2.nodes d (by rw [c1, allDas_cons]; exact List.mem_append_right _ hd)
    refine ⟨l, by rw [k1, show nodesOf u1.w.mem.dmem d = nodesOf u.w.mem.dmem d from by simp only [nodesOf, d1 d hd]], ?_⟩
    intro hm
    obtain ⟨q, hq, rfl⟩ := List.mem_map.mp hm
    have := k2 q hq
    rw [c1, allSlots_cons, bind_append, Option.or_eq_none_iff, allSlots_congr_on d1, hb] at this
    exact absurd this.2 (by simp)

/-- A program that reports an error with an object of type `ty`. -/
def reportObj (ty : Ty) (v : Val) : Prog := .newError [.obj ty v] (fun id => .ret (.err (.plain id)))

/-- Two contexts, one active inside the other, an error reported, objects collected, an error handled with an inactive context, a context moved. -/
def exCtxOps : List UOp :=
  [.create 1 [.obj 10, .obj 11], .activate 1, .create 2 [.obj 12, .da], .activate 2, .run (reportObj 12 7), .run (reportObj 13 8), .deactivate 2, .run (reportObj 10 9), .deactivate 1,
   .look 1, .handle 1 13#32 [[.req 10], []] (fun i _ => .ret (.val i)), .look 2, .activate 1, .unload 2 5#32, .deactivate 1, .move 3 1, .look 1, .look 3, .destroy 2]

example : ((SWorld.initial 1#32).run exCfg exCtxOps).map (·.1) = some
    [.nothing, .nothing, .nothing, .nothing, .out (.err (.plain 5#32)), .out (.err (.plain 9#32)), .nothing, .out (.err (.plain 13#32)), .nothing,
     .content [.obj 10 (some (13#32, 9)), .obj 11 none], .out (.val 0), .content [.obj 12 (some (5#32, 7)), .da 9#32 [(13, some (9#32, 8))]], .nothing, .nothing, .nothing, .nothing,
     .content [.obj 10 none, .obj 11 none], .content [.obj 10 (some (13#32, 9)), .obj 11 none], .nothing] := by decide +kernel

/-- Context 2 captured an object of type 5 while no slot of this type was bound; it is activated again, and deactivated, inside context 1. -/
def reactivateOps (again : List UOp) : List UOp :=
  [.create 1 [.obj 5], .create 2 [.da], .activate 2, .run (reportObj 5 7), .deactivate 2, .activate 1] ++ again ++ [.run (reportObj 5 8), .deactivate 1, .look 1]

/-- **C41 refuted (activating again).** Deactivating a context restores bindings to null for the types it captured, although activating it did not change them (error.hpp:291-298, 317-323; `capturing_slot_node`s are bound
only once, error.hpp:281-288): the slot of the enclosing context 1 is not bound any more, and the object of the error reported next is lost. -/
theorem C41_refuted_reactivate :
    ((UWorld.initial 1#32).run exCfg (reactivateOps [])).map (fun r => r.1.getLast?) = some (some (.content [.obj 5 (some (9#32, 8))])) ∧
    ((UWorld.initial 1#32).run exCfg (reactivateOps [.activate 2, .deactivate 2])).map (fun r => r.1.getLast?) = some (some (.content [.obj 5 none])) := by
  decide +kernel

/-! ## C39 -/

/-- **C39 (partial).** After any allowed history: moving an inactive context `c` moves every object, with its id, to the new context; `c` is empty; nothing else changes. Handling an error with the new context does what
handling it with `c` would have done: both do `handleError` on the same contents. *Missing from the full claim*: contexts that were active inside a scope with a slot for one of their types (`pinned`), and contexts whose captured objects were
unloaded (`spent`); see `C39_refuted_nested` and `C39_refuted_unloaded`. -/
theorem C39_move_partial (cfg : Cfg) (counter : Id) (ops : List UOp) {os : List UObs} {s : SWorld} (h : (SWorld.initial counter).run cfg ops = some (os, s))
    {c d : Nat} {cells : List CtxCell} (hc : s.pool c = some (.idle cells false false)) (hd : s.pool d = none) :
    ∃ u u', (UWorld.initial counter).run cfg ops = some (os, u) ∧ u.step cfg (.look c) = some (.content cells, u) ∧
      u.step cfg (.move d c) = some (.nothing, u') ∧ u'.step cfg (.look d) = some (.content cells, u') ∧ u'.step cfg (.look c) = some (.content (cells.map (·.emptied)), u') ∧ absW u'.w = absW u.w ∧
      ∀ id specs body o w, handleError cfg specs (fun i args => eval cfg (body i args)) cells id s.w = some (o, w) →
        ∃ v v', u.step cfg (.handle c id specs body) = some (.out o, v) ∧ u'.step cfg (.handle d id specs body) = some (.out o, v') ∧ absW v.w = w ∧ absW v'.w = w := by
  obtain ⟨u, h1, r0⟩ := context_run_refines cfg ops (.initial counter) h
  have hdc : c ≠ d := by rintro rfl; rw [hd] at hc; simp at hc
  have hm : s.step cfg (.move d c) = some (.nothing, (s.setPool c (some (.idle (cells.map (·.emptied)) false false))).setPool d (some (.idle cells false false))) := by
    simp only [SWorld.step, hd, hc]
  obtain ⟨u', e1, r1⟩ := context_step_refines cfg r0 hm
  have hd' : ((s.setPool c (some (.idle (cells.map (·.emptied)) false false))).setPool d (some (.idle cells false false))).pool d = some (.idle cells false false) := upd_same _ _ _
  refine ⟨u, u', h1, r0.look hc, e1, r1.look hd', r1.look ((upd_ne _ _ hdc).trans (upd_same _ _ _)), by rw [r0.w, r1.w]; rfl, ?_⟩
  intro id specs body o w hw
  have g1 : s.step cfg (.handle c id specs body) = some (.out o, { s with w := w }) := by
    simp only [SWorld.step, hc, hw]; rfl
  have g2 : ((s.setPool c (some (.idle (cells.map (·.emptied)) false false))).setPool d (some (.idle cells false false))).step cfg (.handle d id specs body) =
      some (.out o, { (s.setPool c (some (.idle (cells.map (·.emptied)) false false))).setPool d (some (.idle cells false false)) with w := w }) := by
    simp only [SWorld.step, hd']
    show (handleError cfg specs (fun i args => eval cfg (body i args)) cells id s.w).bind _ = _
    rw [hw]; rfl
  obtain ⟨v, f1, f2⟩ := context_step_refines cfg r0 g1
  obtain ⟨v', f3, f4⟩ := context_step_refines cfg r1 g2
  exact ⟨v, v', f1, f3, f2.w, f4.w⟩

/-- A context with an object in a slot and a captured object. -/
def exMoveOps : List UOp := [.create 2 [.obj 12, .da], .activate 2, .run (reportObj 12 7), .run (reportObj 13 8), .deactivate 2]

/-- The hypotheses of C39 hold for it, and its error can be handled. -/
example : ((SWorld.initial 1#32).run exCfg exMoveOps).map (fun r => (r.2.pool 2, r.2.pool 3)) =
    some (some (.idle [.obj 12 (some (5#32, 7)), .da 9#32 [(13, some (9#32, 8))]] false false), none) := by decide +kernel

example : (((SWorld.initial 1#32).run exCfg exMoveOps).bind fun r =>
    (handleError exCfg [[.req 12], []] (fun i _ => eval exCfg (.ret (.val i))) [.obj 12 (some (5#32, 7)), .da 9#32 [(13, some (9#32, 8))]] 5#32 r.2.w).map (·.1)) = some (.val 0) := by decide +kernel

/-- **C39 refuted (nested activation).** A context that was active inside another one with a slot of the same type cannot be moved: `slot(slot &&)` asserts `x.prev_ == nullptr` (error.hpp:125), but
`deactivate` does not reset `prev_` (error.hpp:141-144). -/
theorem C39_refuted_nested :
    ((UWorld.initial 1#32).run exCfg [.create 1 [.obj 5], .create 2 [.obj 5], .activate 1, .activate 2, .deactivate 2, .deactivate 1, .look 2]).map (·.1.getLast?) = some (some (.content [.obj 5 none])) ∧
    ((UWorld.initial 1#32).run exCfg [.create 1 [.obj 5], .create 2 [.obj 5], .activate 1, .activate 2, .deactivate 2, .deactivate 1, .move 3 2]).isNone := by
  decide +kernel

/-- **C39 refuted (unloaded).** Nor can a context whose captured objects were unloaded: `last_` is dangling then, see `C29_unload_capture`. -/
theorem C39_refuted_unloaded :
    ((UWorld.initial 1#32).run exCfg (exMoveOps ++ [.unload 2 9#32, .look 2])).map (·.1.getLast?) = some (some (.content [.obj 12 (some (5#32, 7)), .da 9#32 []])) ∧
    ((UWorld.initial 1#32).run exCfg (exMoveOps ++ [.unload 2 9#32, .move 3 2])).isNone := by
  decide +kernel

end Leaf
