import Verif.ThreadLemmas
import Verif.IdsLemmas

/-!
# The history of generated ids
-/

namespace Leaf

/-- The ids generated by a thread, newest first. -/
def Thr.ids (t : Thr) : List Id := t.trace.filterMap fun
  | .gen id => some id
  | _ => none

/-- `hist` is what the threads recorded, and its `k`-th oldest id is `counterInit + 4(k+1)`. -/
structure HistOk (s : Sys) : Prop where
  counter : s.counter = counterInit + BitVec.ofNat 32 (4 * s.hist.length)
  ids : ∀ k (h : k < s.hist.length), (s.hist[k]).2 = counterInit + BitVec.ofNat 32 (4 * (s.hist.length - k))
  thr : ∀ t, (s.thr t).ids = (s.hist.filter (·.1 == t)).map (·.2)

theorem exec_ids {M : Type} [Store M] {cfg : Cfg} {o : Op} (ho : o ≠ .gen) {w w' : World M} {r : o.Res} (h : o.exec cfg w = some (r, w')) :
    (w'.trace.filterMap fun | .gen id => some id | _ => none) = (w.trace.filterMap fun | .gen id => some id | _ => none) := by
  cases o with
  | gen => exact absurd rfl ho
  | emit e he => cases h; cases e <;> first | rfl | cases he
  | slotGet ty => simp only [Op.exec, slotGet, Option.map_eq_some_iff] at h; obtain ⟨y, _, h⟩ := h; cases h; rfl
  | slotSet ty id v => simp only [Op.exec, slotSet, Option.map_eq_some_iff] at h; obtain ⟨y, _, h⟩ := h; cases h; rfl
  | daKey => simp only [Op.exec, daKey, Option.map_eq_some_iff] at h; obtain ⟨y, _, h⟩ := h; cases h; rfl
  | daReset id => simp only [Op.exec, daReset, Option.map_eq_some_iff] at h; obtain ⟨y, _, h⟩ := h; cases h; rfl
  | daAppend ty id v => simp only [Op.exec, daAppend, Option.map_eq_some_iff] at h; obtain ⟨y, _, h⟩ := h; cases h; rfl
  | pushCtx spec => simp only [Op.exec, pushCtx, Option.map_eq_some_iff] at h; obtain ⟨y, _, h⟩ := h; cases h; rfl
  | popCtx => simp only [Op.exec, popCtx, Option.map_eq_some_iff] at h; obtain ⟨y, _, h⟩ := h; cases h; rfl
  | _ => cases h; rfl

theorem histOk_step {cfg : Cfg} {s s' : Sys} (h : HistOk s) {t : Tid} (e : s.step cfg t = some s') :
    HistOk s' ∧ s'.hist.length = s.hist.length + s.gens t := by
  unfold Sys.step at e
  cases hc : (s.thr t).code with
  | ret a =>
    rw [hc] at e; cases e
    exact ⟨h, by unfold Sys.gens; rw [hc]; rfl⟩
  | ub => rw [hc] at e; cases e
  | op o k =>
    by_cases ho : o = .gen
    · subst ho
      rw [hc] at e
      cases e
      have e2 : s.counter + 4#32 = counterInit + BitVec.ofNat 32 (4 * (s.hist.length + 1)) := by
        rw [h.counter, BitVec.add_assoc, show 4#32 = BitVec.ofNat 32 4 from rfl, ← BitVec.ofNat_add]
        rfl
      refine ⟨⟨?_, ?_, ?_⟩, by unfold Sys.gens; rw [hc]; rfl⟩
      · exact e2
      · intro k hk
        cases k with
        | zero => exact e2
        | succ k =>
          have := h.ids k (by simpa using hk)
          simp only [List.getElem_cons_succ, List.length_cons, Nat.add_sub_add_right]
          exact this
      · intro u
        by_cases hu : u = t
        · subst hu
          have := h.thr u
          simp only [PtrStore.upd_same, Thr.ids, List.filterMap_cons, List.filter_cons, beq_self_eq_true, if_true, List.map_cons] at this ⊢
          rw [this]
        · have := h.thr u
          simp only [PtrStore.upd_ne _ _ hu, List.filter_cons]
          rw [if_neg (by simpa using Ne.symm hu)]
          exact this
    · have hg : s.gens t = 0 := by
        unfold Sys.gens
        rw [hc]
        cases o with
        | gen => exact absurd rfl ho
        | _ => rfl
      have e' : (match o.exec cfg (s.world t) with
        | none => none
        | some (r, w) => some (s.put t (k r) w)) = some s' := by
        rw [hc] at e
        cases o with
        | gen => exact absurd rfl ho
        | _ => exact e
      cases hx : o.exec cfg (s.world t) with
      | none => rw [hx] at e'; cases e'
      | some r =>
        rw [hx] at e'
        cases e'
        refine ⟨⟨h.counter, h.ids, fun u => ?_⟩, by rw [hg]; rfl⟩
        by_cases hu : u = t
        · subst hu
          have h1 := exec_ids ho hx
          have h2 := h.thr u
          simp only [Sys.put, PtrStore.upd_same]
          exact h1.trans h2
        · simp only [Sys.put, PtrStore.upd_ne _ _ hu]
          exact h.thr u

theorem histOk_run {cfg : Cfg} (sched : List Tid) {s s' : Sys} (h : HistOk s) (e : s.run cfg sched = some s') :
    HistOk s' ∧ s'.hist.length = s.hist.length + s.generated cfg sched := by
  induction sched generalizing s with
  | nil => cases e; exact ⟨h, rfl⟩
  | cons t ts ih =>
    unfold Sys.run at e
    cases h1 : s.step cfg t with
    | none => rw [h1] at e; cases e
    | some s1 =>
      rw [h1] at e
      obtain ⟨h2, h3⟩ := histOk_step h h1
      obtain ⟨h4, h5⟩ := ih h2 e
      refine ⟨h4, ?_⟩
      simp only [Sys.generated, h1, Option.map_some, Option.getD_some]
      omega

theorem histOk_init (cfg : Cfg) (progs : Tid → Prog) : HistOk (Sys.init cfg progs) :=
  ⟨by simp [Sys.init], fun k h => absurd h (by simp [Sys.init]), fun t => rfl⟩

end Leaf
