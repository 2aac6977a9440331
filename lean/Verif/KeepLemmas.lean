import Verif.Sim
import Verif.Total

/-!
# Bindings after a program (for C10, C11)
-/

namespace Leaf
namespace PtrStore

theorem bind_frame_grow {dmem dmem0 : Addr → Option PDa} {ty : Ty} {f : List PCell}
    (h : ∀ d ∈ frameDas f, ∃ l, nodesOf dmem d = nodesOf dmem0 d ++ l ∧ ty ∉ l.map Prod.fst) :
    bind ty (frameSlots dmem f) = bind ty (frameSlots dmem0 f) := by
  induction f with
  | nil => rfl
  | cons c f ih =>
    have ih' := ih (fun d hd => h d (by rw [frameDas_cons]; simp [hd]))
    rw [frameSlots_cons, frameSlots_cons, bind_append, bind_append, ih']
    cases c with
    | obj t a => rfl
    | da d =>
      obtain ⟨l, h1, h2⟩ := h d (by simp [frameDas_cons, cellDas])
      simp only [cellSlots, h1, bind_append, bind_none.mpr h2, Option.or_none]

theorem bind_grow {dmem dmem0 : Addr → Option PDa} {ty : Ty} {fs : List (List PCell)}
    (h : ∀ d ∈ allDas fs, ∃ l, nodesOf dmem d = nodesOf dmem0 d ++ l ∧ ty ∉ l.map Prod.fst) :
    bind ty (allSlots dmem fs) = bind ty (allSlots dmem0 fs) := by
  induction fs with
  | nil => rfl
  | cons f fs ih =>
    rw [allSlots_cons, allSlots_cons, bind_append, bind_append,
      ih (fun d hd => h d (by rw [allDas_cons]; simp [hd])),
      bind_frame_grow (fun d hd => h d (by rw [allDas_cons]; simp [hd]))]

/-- Slots of the later storage are old ones, or nodes added to an allocator of a context that was active before. -/
theorem slots_grow {dmem dmem0 : Addr → Option PDa} {fs : List (List PCell)} {p : Ty × Addr}
    (h : p ∈ allSlots dmem fs) : p ∈ allSlots dmem0 fs ∨ ∃ d ∈ allDas fs, p ∈ nodesOf dmem d := by
  simp only [allSlots, frameSlots, List.mem_flatMap] at h
  obtain ⟨f, hf, c, hc, hp⟩ := h
  cases c with
  | obj t a =>
    left
    simp only [allSlots, frameSlots, List.mem_flatMap]
    exact ⟨f, hf, .obj t a, hc, hp⟩
  | da d =>
    right
    refine ⟨d, ?_, hp⟩
    simp only [allDas, frameDas, List.mem_flatMap]
    exact ⟨f, hf, .da d, hc, by simp [cellDas]⟩

theorem Keep.tls {m0 m : PtrStore} (h : Keep m0 0 m) (h0 : Inv m0) (h1 : Inv m) (ty : Ty) :
    m.tls ty = m0.tls ty ∨ (m0.tls ty = none ∧ ∃ a d, m.tls ty = some a ∧ d ∈ allDas m0.ctxs ∧ (ty, a) ∈ nodesOf m.dmem d) := by
  obtain ⟨pre, hl, hc⟩ := h.ctxs
  have : pre = [] := List.eq_nil_of_length_eq_zero hl
  subst this
  simp only [List.nil_append] at hc
  rw [h1.tls ty, h0.tls ty, hc]
  by_cases hn : bind ty (allSlots m0.dmem m0.ctxs) = none
  · cases hb : bind ty (allSlots m.dmem m0.ctxs) with
    | none => left; rw [hn]
    | some a =>
      right
      refine ⟨hn, a, ?_⟩
      rcases slots_grow (dmem0 := m0.dmem) (bind_mem hb) with hm | ⟨d, hd, hp⟩
      · exact absurd (List.mem_map.mpr ⟨_, hm, rfl⟩) (bind_none.mp hn)
      · exact ⟨d, rfl, hd, hp⟩
  · left
    apply bind_grow
    intro d hd
    obtain ⟨l, h2, h3⟩ := h.nodes d hd
    refine ⟨l, h2, ?_⟩
    intro hm
    obtain ⟨p, hp, rfl⟩ := List.mem_map.mp hm
    exact hn (h3 p hp)

theorem Keep.tlsDa {m0 m : PtrStore} (h : Keep m0 0 m) (h0 : Inv m0) (h1 : Inv m) : m.tlsDa = m0.tlsDa := by
  obtain ⟨pre, hl, hc⟩ := h.ctxs
  have : pre = [] := List.eq_nil_of_length_eq_zero hl
  subst this
  rw [h1.tlsDa, h0.tlsDa, hc]; rfl

/-- Every thread-local pointer refers to live storage. -/
theorem Inv.live {m : PtrStore} (h : Inv m) : (∀ ty a, m.tls ty = some a → ∃ s, m.mem a = some s) ∧
    ∀ d, m.tlsDa = some d → ∃ x, m.dmem d = some x := by
  constructor
  · intro ty a ha
    rw [h.tls ty] at ha
    obtain ⟨s, hs⟩ := framesOk_live h.frames (bind_mem ha)
    exact ⟨s, hs⟩
  · intro d hd
    rw [h.tlsDa] at hd
    obtain ⟨x, hx⟩ := framesOk_dlive h.frames (mem_of_head? hd)
    exact ⟨x, hx.1⟩

end PtrStore

theorem sim_run {α : Type} {n : Nat} {x : Comp PtrStore α} {y : Comp AbsStore α} (h : Sim n n x y) : ∀ (m0 : PtrStore)
    (w : World PtrStore) (a : α) (w' : World AbsStore),
    PtrStore.Inv w.mem → PtrStore.Keep m0 n w.mem → y (absW w) = some (a, w') →
      ∃ w2, x w = some (a, w2) ∧ absW w2 = w' ∧ PtrStore.Inv w2.mem ∧ PtrStore.Keep m0 n w2.mem := by
  unfold Sim at h; exact h

end Leaf
