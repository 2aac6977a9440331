import Verif.ContextUnload

/-!
# Context objects: the pointer level implements the specification
-/

namespace Leaf
open PtrStore

theorem CRel.readOut {u : UWorld} {s : SWorld} (h : CRel u s) {c : Nat} {cells : List CtxCell} {pinned spent : Bool} (hs : s.pool c = some (.idle cells pinned spent)) :
    ∃ x, u.idle c = some x ∧ PtrStore.readOut x.cells u.w.mem = some cells := by
  obtain ⟨x, hx, hid, hxa, hxs, hca, hcells, ok⟩ := h.get_idle hs
  exact ⟨x, hid, by rw [hcells]; exact readOut_ok _ _ (fun p hp => (ok.slots p hp).2) (fun a ha => (ok.das a ha).2.imp fun d hd => hd.1)⟩

theorem context_step_refines (cfg : Cfg) {u : UWorld} {s : SWorld} (h : CRel u s) {op : UOp} {o : UObs} {s' : SWorld} (hs : s.step cfg op = some (o, s')) :
    ∃ u', u.step cfg op = some (o, u') ∧ CRel u' s' := by
  cases op with
  | create c spec =>
    simp only [SWorld.step] at hs
    split at hs
    · rename_i hc
      simp only [Option.some.injEq, Prod.mk.injEq] at hs
      obtain ⟨rfl, rfl⟩ := hs
      refine ⟨_, ?_, h.create hc.1 hc.2⟩
      simp only [UWorld.step, h.get_none hc.1]
      rw [if_pos hc.2]
    · simp at hs
  | activate c =>
    simp only [SWorld.step] at hs
    split at hs
    · rename_i cells pinned hp
      split at hs
      · simp at hs
      · rename_i hcap
        simp only [Option.some.injEq, Prod.mk.injEq] at hs
        obtain ⟨rfl, rfl⟩ := hs
        obtain ⟨x, m, h1, h2, h3, _, h4⟩ := h.activate hp (by simpa using hcap)
        refine ⟨_, ?_, h4⟩
        simp only [UWorld.step, h1]
        show (if x.spent = true then none else _) = _
        rw [if_neg (by simp [h2]), h3]
        rfl
    · simp at hs
  | deactivate c =>
    simp only [SWorld.step] at hs
    split at hs
    · rename_i a as f fs ha hf
      split at hs
      · rename_i hac
        subst hac
        simp only [Option.some.injEq, Prod.mk.injEq] at hs
        obtain ⟨rfl, rfl⟩ := hs
        obtain ⟨x, m, h1, h2, h3, _, h4⟩ := h.deactivate ha hf
        refine ⟨_, ?_, h4⟩
        simp only [UWorld.step, h1]
        rw [if_pos h2, h3]
        rfl
      · simp at hs
    · simp at hs
  | move d c =>
    simp only [SWorld.step] at hs
    split at hs
    · rename_i cells hd hc
      simp only [Option.some.injEq, Prod.mk.injEq] at hs
      obtain ⟨rfl, rfl⟩ := hs
      obtain ⟨x, g, m, h1, h2, h3, h4, h5⟩ := h.move hd hc
      refine ⟨_, ?_, h5⟩
      simp only [UWorld.step, h1, h2]
      show (if x.spent = true then none else _) = _
      rw [if_neg (by simp [h3]), h4]
      rfl
    · simp at hs
  | unload c id =>
    simp only [SWorld.step] at hs
    split at hs
    · rename_i cells pinned spent hp
      cases h1 : unloadRest cfg id cells s.w with
      | none => rw [h1] at hs; simp at hs
      | some r =>
        obtain ⟨rest, w'⟩ := r
        rw [h1] at hs
        cases hs
        obtain ⟨x, hx, hid, hxa, hxs, hca, hcells, ok⟩ := h.get_idle hp
        obtain ⟨w2, e1, e2⟩ := unloadAt_ok cfg id x.cells [] [] cells rest w' h hx rfl hp rfl h1
        refine ⟨{ u with w := w2 }.setPool c (some { x with spent := x.spent || u.w.mem.hasNodes x.cells }), ?_, ?_⟩
        · simp only [UWorld.step, hid]
          show (unloadAt cfg id x.cells u.w).bind _ = _
          rw [e1]
          rfl
        · simp only [List.nil_append] at e2
          have hp2 : ({ s with w := w' }.setPool c (some (.idle rest pinned spent)) : SWorld).pool c = some (.idle rest pinned spent) := upd_same _ _ _
          obtain ⟨x0, hx0, _, _, _, _, hcells2, ok2⟩ := e2.get_idle hp2
          have hx0' : u.pool c = some x0 := hx0
          rw [hx] at hx0'
          cases hx0'
          have e3 := e2.changeOwn (c := c) (x := x) (x' := some { x with spent := x.spent || u.w.mem.hasNodes x.cells }) (y' := some (.idle rest pinned (spent || cells.any (·.captured)))) (m' := w2.mem) hca hx hxa (Local.refl _ _)
            ⟨hxa, by rw [hxs, hasNodes_abs, hcells], hca, hcells2, ok2⟩ (fun z hz => by cases hz; exact ⟨rfl, fun p hp => hp⟩)
          have hh : ∀ (f : Nat → Option SCtx) (v1 v2 : Option SCtx), upd (upd f c v1) c v2 = upd f c v2 := by
            intro f v1 v2
            funext e; simp only [upd]; split <;> rfl
          simp only [SWorld.setPool, hh] at e3 ⊢
          exact e3
    · simp at hs
  | handle c id specs body =>
    simp only [SWorld.step] at hs
    split at hs
    · rename_i cells pinned spent hp
      cases h1 : handleError cfg specs (fun i args => eval cfg (body i args)) cells id s.w with
      | none => rw [h1] at hs; simp at hs
      | some r =>
        obtain ⟨o1, w'⟩ := r
        rw [h1] at hs
        cases hs
        obtain ⟨x, hid, hro⟩ := h.readOut hp
        obtain ⟨w2, e1, e2, _⟩ := h.sim (sim_handleError cfg specs (fun i args => sim_eval cfg (body i args)) cells id) h1
        refine ⟨_, ?_, e2⟩
        simp only [UWorld.step, hid]
        show (PtrStore.readOut x.cells u.w.mem).bind _ = _
        rw [hro]
        show (handleError cfg specs (fun i args => eval cfg (body i args)) cells id u.w).bind _ = _
        rw [e1]
        rfl
    · simp at hs
  | look c =>
    simp only [SWorld.step] at hs
    split at hs
    · rename_i cells pinned spent hp
      cases hs
      obtain ⟨x, hid, hro⟩ := h.readOut hp
      refine ⟨u, ?_, h⟩
      simp only [UWorld.step, hid]
      show (PtrStore.readOut x.cells u.w.mem).bind _ = _
      rw [hro]
      rfl
    · simp at hs
  | destroy c =>
    simp only [SWorld.step] at hs
    split at hs
    · rename_i cells pinned spent hp
      cases hs
      obtain ⟨x, m, h1, h2, h3⟩ := h.destroy hp
      refine ⟨_, ?_, h3⟩
      simp only [UWorld.step, h1]
      show (PtrStore.destroy x.cells u.w.mem).bind _ = _
      rw [h2]
      rfl
    · simp at hs
  | run p =>
    simp only [SWorld.step] at hs
    cases h1 : eval cfg p s.w with
    | none => rw [h1] at hs; simp at hs
    | some r =>
      obtain ⟨o1, w'⟩ := r
      rw [h1] at hs
      cases hs
      obtain ⟨w2, e1, e2, _⟩ := h.sim (sim_eval cfg p) h1
      refine ⟨_, ?_, e2⟩
      simp only [UWorld.step]
      rw [e1]
      rfl

theorem context_run_refines (cfg : Cfg) (ops : List UOp) {u : UWorld} {s : SWorld} (h : CRel u s) {os : List UObs} {s' : SWorld} (hs : s.run cfg ops = some (os, s')) :
    ∃ u', u.run cfg ops = some (os, u') ∧ CRel u' s' := by
  induction ops generalizing u s os with
  | nil => cases hs; exact ⟨u, rfl, h⟩
  | cons op ops ih =>
    simp only [SWorld.run] at hs
    cases h1 : s.step cfg op with
    | none => rw [h1] at hs; simp at hs
    | some r =>
      obtain ⟨o, s1⟩ := r
      rw [h1] at hs
      replace hs : (s1.run cfg ops).bind (fun r => some (o :: r.1, r.2)) = some (os, s') := hs
      cases h2 : s1.run cfg ops with
      | none => rw [h2] at hs; simp at hs
      | some r =>
        obtain ⟨os1, s2⟩ := r
        rw [h2] at hs
        cases hs
        obtain ⟨u1, e1, r1⟩ := context_step_refines cfg h h1
        obtain ⟨u2, e2, r2⟩ := ih r1 h2
        refine ⟨u2, ?_, r2⟩
        simp only [UWorld.run]
        rw [e1]
        show (u1.run cfg ops).bind _ = _
        rw [e2]
        rfl

end Leaf
