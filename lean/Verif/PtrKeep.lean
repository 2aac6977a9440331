import Verif.PtrRefine

/-!
# What storage operations keep (for C10)

`Keep m0 n m`: `m` was reached from `m0` with `n` further contexts active now; every context of `m0` is still active and owns the same
storage, except that dynamic allocators may have got nodes for types that were not bound in `m0`.
-/

namespace Leaf
namespace PtrStore

/-- Storage that is not part of an active context of `m0` is as in `m0`; what is active in `m` was active in `m0` or is new. -/
structure Untouched (m0 m : PtrStore) : Prop where
  next : m0.next ≤ m.next
  slots : ∀ p ∈ allSlots m.dmem m.ctxs, p ∈ allSlots m0.dmem m0.ctxs ∨ m0.next ≤ p.2
  das : ∀ a ∈ allDas m.ctxs, a ∈ allDas m0.ctxs ∨ m0.next ≤ a
  mem : ∀ a, a < m0.next → (∀ p ∈ allSlots m0.dmem m0.ctxs, p.2 ≠ a) → m.mem a = m0.mem a
  dmem : ∀ a, a < m0.next → a ∉ allDas m0.ctxs → m.dmem a = m0.dmem a

theorem Untouched.refl (m : PtrStore) : Untouched m m := ⟨Nat.le_refl _, fun _ h => .inl h, fun _ h => .inl h, fun _ _ _ => rfl, fun _ _ _ => rfl⟩

/-- Changes to active and to new storage only. -/
theorem Untouched.trans {m0 m m' : PtrStore} (h : Untouched m0 m) (h' : Untouched m m') : Untouched m0 m' where
  next := Nat.le_trans h.next h'.next
  slots p hp := (h'.slots p hp).elim (h.slots p) (fun x => .inr (Nat.le_trans h.next x))
  das p hp := (h'.das p hp).elim (h.das p) (fun x => .inr (Nat.le_trans h.next x))
  mem a ha hn := by
    rw [h'.mem a (Nat.lt_of_lt_of_le ha h.next), h.mem a ha hn]
    intro p hp e
    rcases h.slots p hp with h1 | h1
    · exact hn p h1 e
    · exact Nat.lt_irrefl _ (Nat.lt_of_lt_of_le (e ▸ ha) h1)
  dmem a ha hn := by
    rw [h'.dmem a (Nat.lt_of_lt_of_le ha h.next), h.dmem a ha hn]
    intro hp
    rcases h.das a hp with h1 | h1
    · exact hn h1
    · exact Nat.lt_irrefl _ (Nat.lt_of_lt_of_le ha h1)

structure Keep (m0 : PtrStore) (n : Nat) (m : PtrStore) : Prop where
  other : Untouched m0 m
  ctxs : ∃ pre, pre.length = n ∧ m.ctxs = pre ++ m0.ctxs
  nodes : ∀ d ∈ allDas m0.ctxs, ∃ l, nodesOf m.dmem d = nodesOf m0.dmem d ++ l ∧
    ∀ p ∈ l, bind p.1 (allSlots m0.dmem m0.ctxs) = none

theorem Keep.refl (m : PtrStore) : Keep m 0 m := ⟨.refl m, ⟨[], rfl, rfl⟩, fun d _ => ⟨[], by simp, by simp⟩⟩

theorem allDas_append (fs gs : List (List PCell)) : allDas (fs ++ gs) = allDas fs ++ allDas gs := by simp [allDas]
theorem allSlots_append (dmem : Addr → Option PDa) (fs gs : List (List PCell)) :
    allSlots dmem (fs ++ gs) = allSlots dmem fs ++ allSlots dmem gs := by simp [allSlots]

theorem Keep.sub {m0 m : PtrStore} {n : Nat} (h : Keep m0 n m) : ∀ d ∈ allDas m0.ctxs, d ∈ allDas m.ctxs := by
  obtain ⟨pre, _, h2⟩ := h.ctxs
  intro d hd
  rw [h2, allDas_append]
  simp [hd]

/-- Replacing storage while the nodes of the allocators of `m0` stay. -/
theorem Keep.of_nodes {m0 m m' : PtrStore} {n : Nat} (h : Keep m0 n m) (hu : Untouched m m') (hc : m'.ctxs = m.ctxs)
    (hd : ∀ d ∈ allDas m0.ctxs, nodesOf m'.dmem d = nodesOf m.dmem d) : Keep m0 n m' :=
  ⟨h.other.trans hu, by rw [hc]; exact h.ctxs, fun d hdd => by rw [hd d hdd]; exact h.nodes d hdd⟩

theorem Keep.slotSet {m0 m m' : PtrStore} {n : Nat} (h : Keep m0 n m) (hi : Inv m) {ty : Ty} {id : Id} {v : Val}
    (e : slotSet ty id v m = some m') : Keep m0 n m' := by
  unfold PtrStore.slotSet at e
  split at e
  · simp at e
  · rename_i a ha
    split at e
    · simp at e
    · simp only [Option.some.injEq] at e
      subst e
      refine h.of_nodes ⟨Nat.le_refl _, fun _ h => .inl h, fun _ h => .inl h, fun b _ hb => ?_, fun _ _ _ => rfl⟩ rfl (fun _ _ => rfl)
      rw [hi.tls ty] at ha
      exact upd_ne _ _ (Ne.symm (hb _ (bind_mem ha)))

theorem freeNodes_keeps (ns : List (Ty × Addr)) (m m' : PtrStore) (e : freeNodes ns m = some m') :
    m'.ctxs = m.ctxs ∧ m'.dmem = m.dmem ∧ m'.next = m.next ∧ ∀ a, (∀ p ∈ ns, p.2 ≠ a) → m'.mem a = m.mem a := by
  induction ns generalizing m with
  | nil => simp only [freeNodes, Option.some.injEq] at e; subst e; exact ⟨rfl, rfl, rfl, fun _ _ => rfl⟩
  | cons p ns ih =>
    obtain ⟨ty, a⟩ := p
    simp only [freeNodes] at e
    cases hf : freeSlot ty a m with
    | none => simp [hf] at e
    | some m1 =>
      simp only [hf, Option.bind_some] at e
      obtain ⟨h1, h2, h3, h4⟩ := ih m1 e
      unfold freeSlot at hf
      split at hf
      · simp at hf
      · split at hf
        · simp at hf
        · simp only [Option.some.injEq] at hf
          subst hf
          refine ⟨h1, h2, h3, fun b hb => ?_⟩
          rw [h4 b (fun p hp => hb p (List.mem_cons_of_mem _ hp))]
          exact upd_ne _ _ (Ne.symm (hb _ (List.mem_cons_self ..)))

theorem nodes_nil_of_boundDa {m : PtrStore} {a : Addr} {k : Id} (ha : (allDas m.ctxs).head? = some a)
    (h : boundDa (abs m).frames = some (k, [])) : nodesOf m.dmem a = [] := by
  rw [show (abs m).frames = absFrames m.mem m.dmem m.ctxs from rfl, boundDa_abs, ha] at h
  simp only [Option.map_some, Option.some.injEq, Prod.mk.injEq, absNodes, List.map_eq_nil_iff] at h
  exact h.2

theorem Keep.daReset {m0 m m' : PtrStore} {n : Nat} (h : Keep m0 n m) (hi : Inv m) {id : Id} {x : AbsStore}
    (hx : Store.daReset id (abs m) = some x) (e : daReset id m = some m') : Keep m0 n m' := by
  unfold PtrStore.daReset at e
  cases ht : m.tlsDa with
  | none => simp [ht] at e
  | some a =>
    simp only [ht] at e
    cases hd : m.dmem a with
    | none => simp [hd] at e
    | some d =>
      simp only [hd] at e
      cases hf : freeNodes d.nodes m with
      | none => simp [hf] at e
      | some m1 =>
        simp only [hf, Option.some.injEq] at e
        obtain ⟨h1, h2⟩ := freeNodes_keeps _ _ _ hf
        subst e
        have ha : a ∈ allDas m.ctxs := by rw [hi.tlsDa] at ht; exact mem_of_head? ht
        have hn : nodesOf m.dmem a = [] := by
          simp only [Store.daReset] at hx
          split at hx
          · rename_i k hk
            exact nodes_nil_of_boundDa (by rw [← hi.tlsDa, ht]) hk
          · simp at hx
          · simp at hx
        have hdn : d.nodes = [] := by simpa [nodesOf, hd] using hn
        have hm1 : m1 = m := by rw [hdn] at hf; simp only [freeNodes, Option.some.injEq] at hf; exact hf.symm
        subst hm1
        have hno : nodesOf (upd m1.dmem a (some { d with key := id, nodes := [] })) = nodesOf m1.dmem :=
          slots_upd_samenodes _ _ d _ hd hdn.symm
        refine h.of_nodes ⟨Nat.le_refl _, fun p hp => .inl ?_, fun _ h => .inl h, fun _ _ _ => rfl, fun b _ hb => ?_⟩ h1 (fun b hb => ?_)
        · simp only [allSlots_congr hno] at hp
          exact hp
        · exact upd_ne _ _ (fun e => hb (e ▸ ha))
        · simp only [hno]

theorem allSlots_mono {m0 m : PtrStore} {n : Nat} (h : Keep m0 n m) {p : Ty × Addr} (hp : p ∈ allSlots m0.dmem m0.ctxs) :
    p ∈ allSlots m.dmem m.ctxs := by
  obtain ⟨pre, _, hc⟩ := h.ctxs
  rw [hc, allSlots_append, List.mem_append]
  right
  simp only [allSlots, frameSlots, List.mem_flatMap] at hp ⊢
  obtain ⟨f, hf, c, hcf, hp⟩ := hp
  refine ⟨f, hf, c, hcf, ?_⟩
  cases c with
  | obj t a => exact hp
  | da d =>
    have hd : d ∈ allDas m0.ctxs := by
      simp only [allDas, frameDas, List.mem_flatMap]
      exact ⟨f, hf, .da d, hcf, by simp [cellDas]⟩
    obtain ⟨l, hl, _⟩ := h.nodes d hd
    simp only [cellSlots] at hp ⊢
    rw [hl]
    simp [hp]

theorem Keep.daAppend {m0 m m' : PtrStore} {n : Nat} (h : Keep m0 n m) (hi : Inv m) {ty : Ty} {id : Id} {v : Val}
    (e : daAppend ty id v m = some m') : Keep m0 n m' := by
  unfold PtrStore.daAppend at e
  cases ht : m.tlsDa with
  | none => simp [ht] at e
  | some a =>
    simp only [ht] at e
    cases hd : m.dmem a with
    | none => simp [hd] at e
    | some d =>
      simp only [hd] at e
      split at e
      · simp at e
      · cases htl : m.tls ty with
        | some b => simp [htl] at e
        | none =>
          simp only [htl, Option.some.injEq] at e
          subst e
          have ha : a ∈ allDas m.ctxs := by rw [hi.tlsDa] at ht; exact mem_of_head? ht
          refine ⟨h.other.trans ⟨Nat.le_succ _, fun p hp => ?_, fun _ h => .inl h, fun b hb _ => upd_ne _ _ (Nat.ne_of_lt hb),
            fun b _ hb => upd_ne _ _ (fun e => hb (e ▸ ha))⟩, h.ctxs, fun b hb => ?_⟩
          · obtain ⟨l₁, l₂, e1, e2⟩ := ins_all m.dmem a d (ty, m.next) hd m.ctxs ha hi.dnodup
            simp only [e2, List.mem_append, List.mem_cons] at hp
            rw [e1, List.mem_append]
            rcases hp with hp | rfl | hp
            · exact .inl (.inl hp)
            · exact .inr (Nat.le_refl _)
            · exact .inl (.inr hp)
          obtain ⟨l, h1, h2⟩ := h.nodes b hb
          by_cases hba : b = a
          · refine ⟨l ++ [(ty, m.next)], ?_, ?_⟩
            · subst hba
              rw [← List.append_assoc, ← h1]
              simp [nodesOf, upd_same, hd]
            · intro p hp
              simp only [List.mem_append, List.mem_singleton] at hp
              rcases hp with hp | hp
              · exact h2 p hp
              · subst hp
                have h0 := hi.tls ty
                rw [htl] at h0
                have h0 := bind_none.mp h0.symm
                apply bind_none.mpr
                intro hm
                apply h0
                simp only [List.mem_map] at hm ⊢
                obtain ⟨q, hq, hqe⟩ := hm
                exact ⟨q, allSlots_mono h hq, hqe⟩
          · exact ⟨l, by rw [nodesOf_upd_ne _ _ hba]; exact h1, h2⟩

theorem activate_keeps (spec : List CellTy) (m : PtrStore) :
    m.next ≤ (activate spec m).2.next ∧ (∀ a, a < m.next → (activate spec m).2.dmem a = m.dmem a) ∧ ∀ a, a < m.next → (activate spec m).2.mem a = m.mem a := by
  induction spec generalizing m with
  | nil => exact ⟨Nat.le_refl _, fun _ _ => rfl, fun _ _ => rfl⟩
  | cons t spec ih =>
    cases t with
    | obj ty =>
      obtain ⟨h1, h2, h3⟩ := ih { m with
        mem := upd m.mem m.next (some ⟨none, m.tls ty⟩)
        tls := upd m.tls ty (some m.next)
        next := m.next + 1 }
      simp only [activate]
      refine ⟨Nat.le_trans (Nat.le_succ _) h1, fun a ha => h2 a (Nat.lt_succ_of_lt ha), fun a ha => ?_⟩
      rw [h3 a (Nat.lt_succ_of_lt ha)]
      exact upd_ne _ _ (Nat.ne_of_lt ha)
    | da =>
      obtain ⟨h1, h2, h3⟩ := ih { m with
        dmem := upd m.dmem m.next (some ⟨0#32, [], m.tlsDa⟩)
        tlsDa := some m.next
        next := m.next + 1 }
      simp only [activate]
      refine ⟨Nat.le_trans (Nat.le_succ _) h1, fun a ha => ?_, fun a ha => h3 a (Nat.lt_succ_of_lt ha)⟩
      rw [h2 a (Nat.lt_succ_of_lt ha)]
      exact upd_ne _ _ (Nat.ne_of_lt ha)

theorem activate_new (spec : List CellTy) (m : PtrStore) :
    (∀ p ∈ frameSlots (activate spec m).2.dmem (activate spec m).1, m.next ≤ p.2) ∧ ∀ a ∈ frameDas (activate spec m).1, m.next ≤ a := by
  induction spec generalizing m with
  | nil => simp [activate, frameSlots, frameDas]
  | cons t spec ih =>
    cases t with
    | obj ty =>
      obtain ⟨h1, h2⟩ := ih { m with
        mem := upd m.mem m.next (some ⟨none, m.tls ty⟩)
        tls := upd m.tls ty (some m.next)
        next := m.next + 1 }
      simp only [activate, frameSlots_cons, frameDas_cons, cellSlots, cellDas, List.nil_append, List.mem_append, List.mem_singleton]
      refine ⟨?_, fun a ha => Nat.le_of_succ_le (h2 a ha)⟩
      rintro p (rfl | hp)
      · exact Nat.le_refl _
      · exact Nat.le_of_succ_le (h1 p hp)
    | da =>
      obtain ⟨h1, h2⟩ := ih { m with
        dmem := upd m.dmem m.next (some ⟨0#32, [], m.tlsDa⟩)
        tlsDa := some m.next
        next := m.next + 1 }
      simp only [activate, frameSlots_cons, frameDas_cons, cellSlots, cellDas, List.mem_append, List.mem_singleton]
      refine ⟨?_, ?_⟩
      · rintro p (hp | hp)
        · rw [nodesOf, (activate_keeps spec _).2.1 m.next (Nat.lt_succ_self _)] at hp
          simp [upd_same] at hp
        · exact Nat.le_of_succ_le (h1 p hp)
      · rintro a (rfl | ha)
        · exact Nat.le_refl _
        · exact Nat.le_of_succ_le (h2 a ha)

theorem Keep.push {m0 m m' : PtrStore} {n : Nat} (h : Keep m0 n m) (hi : Inv m) {spec : List CellTy}
    (e : push spec m = some m') : Keep m0 (n + 1) m' := by
  unfold PtrStore.push at e
  split at e
  · simp only [Option.some.injEq] at e
    obtain ⟨pre, h1, h2⟩ := h.ctxs
    subst e
    have hk := activate_keeps spec m
    have hw := activate_new spec m
    have hsl : allSlots (activate spec m).2.dmem m.ctxs = allSlots m.dmem m.ctxs :=
      allSlots_congr_on (fun a ha => hk.2.1 a (hi.dlt a ha))
    refine ⟨h.other.trans ⟨hk.1, ?_, ?_, fun a ha _ => hk.2.2 a ha, fun a ha _ => hk.2.1 a ha⟩, ⟨(activate spec m).1 :: pre, by simp [h1], ?_⟩, fun d hd => ?_⟩
    · simp only [activate_ctxs, allSlots_cons, List.mem_append, hsl]
      rintro p (hp | hp)
      · exact .inr (hw.1 p hp)
      · exact .inl hp
    · simp only [activate_ctxs, allDas_cons, List.mem_append]
      rintro p (hp | hp)
      · exact .inr (hw.2 p hp)
      · exact .inl hp
    · simp [activate_ctxs, h2]
    · obtain ⟨l, h3, h4⟩ := h.nodes d hd
      refine ⟨l, ?_, h4⟩
      rw [← h3]
      simp only [nodesOf, (activate_keeps spec m).2.1 d (hi.dlt d (h.sub d hd))]
  · simp at e

theorem deactNodes_keeps (ns : List (Ty × Addr)) (m m' : PtrStore) (e : deactNodes ns m = some m') :
    m'.ctxs = m.ctxs ∧ m'.dmem = m.dmem ∧ m'.mem = m.mem ∧ m'.next = m.next := by
  induction ns generalizing m with
  | nil => simp only [deactNodes, Option.some.injEq] at e; subst e; exact ⟨rfl, rfl, rfl, rfl⟩
  | cons p ns ih =>
    obtain ⟨ty, a⟩ := p
    simp only [deactNodes] at e
    cases hf : deactSlot ty a m with
    | none => simp [hf] at e
    | some m1 =>
      simp only [hf, Option.bind_some] at e
      obtain ⟨h1, h2⟩ := ih m1 e
      unfold deactSlot at hf
      split at hf
      · simp at hf
      · simp only [Option.some.injEq] at hf
        subst hf
        exact ⟨h1, h2⟩

theorem deactivate_keeps (f : List PCell) (m m' : PtrStore) (e : deactivate f m = some m') :
    m'.ctxs = m.ctxs ∧ m'.dmem = m.dmem ∧ m'.mem = m.mem ∧ m'.next = m.next := by
  induction f generalizing m' with
  | nil => simp only [deactivate, Option.some.injEq] at e; subst e; exact ⟨rfl, rfl, rfl, rfl⟩
  | cons c f ih =>
    cases c with
    | obj ty a =>
      simp only [deactivate] at e
      cases hd : deactivate f m with
      | none => simp [hd] at e
      | some m1 =>
        obtain ⟨h1, h2⟩ := ih m1 hd
        simp only [hd, Option.bind_some, deactSlot] at e
        split at e
        · simp at e
        · simp only [Option.some.injEq] at e
          subst e
          exact ⟨h1, h2⟩
    | da a =>
      simp only [deactivate] at e
      cases hd : deactivate f m with
      | none => simp [hd] at e
      | some m1 =>
        obtain ⟨h1, h2⟩ := ih m1 hd
        simp only [hd, Option.bind_some, deactDa] at e
        split at e
        · simp at e
        · rename_i d _
          by_cases hk : d.key ≠ 0#32
          · rw [if_pos hk] at e
            cases hn : deactNodes d.nodes m1 with
            | none => simp [hn] at e
            | some m2 =>
              obtain ⟨h3, h4⟩ := deactNodes_keeps _ _ _ hn
              simp only [hn, Option.some.injEq] at e
              subst e
              exact ⟨h3.trans h1, h4.1.trans h2.1, h4.2.1.trans h2.2.1, h4.2.2.trans h2.2.2⟩
          · rw [if_neg hk] at e
            simp only [Option.some.injEq] at e
            subst e
            exact ⟨h1, h2⟩

theorem destroy_keeps (f : List PCell) (m m' : PtrStore) (e : destroy f m = some m') (hn : (frameDas f).Nodup) :
    m'.ctxs = m.ctxs ∧ (∀ d, d ∉ frameDas f → m'.dmem d = m.dmem d) ∧ m'.next = m.next ∧
      ∀ a, (∀ p ∈ frameSlots m.dmem f, p.2 ≠ a) → m'.mem a = m.mem a := by
  induction f generalizing m with
  | nil => simp only [destroy, Option.some.injEq] at e; subst e; exact ⟨rfl, fun _ _ => rfl, rfl, fun _ _ => rfl⟩
  | cons c f ih =>
    cases c with
    | obj ty a =>
      simp only [destroy] at e
      cases hf : freeSlot ty a m with
      | none => simp [hf] at e
      | some m1 =>
        simp only [hf, Option.bind_some] at e
        obtain ⟨h1, h2, h3, h4⟩ := ih m1 e (by simpa [frameDas_cons, cellDas] using hn)
        unfold freeSlot at hf
        split at hf
        · simp at hf
        · split at hf
          · simp at hf
          · simp only [Option.some.injEq] at hf
            subst hf
            refine ⟨h1, fun d hd => h2 d (by simpa [frameDas_cons, cellDas] using hd), h3, fun b hb => ?_⟩
            rw [frameSlots_cons] at hb
            rw [h4 b (fun p hp => hb p (List.mem_append_right _ hp))]
            exact upd_ne _ _ (Ne.symm (hb (ty, a) (by simp [cellSlots])))
    | da a =>
      simp only [destroy] at e
      split at e
      · simp at e
      · rename_i d hda
        split at e
        · simp at e
        · cases hfn : freeNodes d.nodes m with
          | none => simp [hfn] at e
          | some m1 =>
            simp only [hfn] at e
            simp only [frameDas_cons, cellDas, List.cons_append, List.nil_append, List.nodup_cons] at hn
            obtain ⟨h1, h2, h5, h6⟩ := ih _ e hn.2
            obtain ⟨h3, h4, h7, h8⟩ := freeNodes_keeps _ _ _ hfn
            refine ⟨h1.trans h3, fun b hb => ?_, h5.trans h7, fun b hb => ?_⟩
            · simp only [frameDas_cons, cellDas, List.cons_append, List.nil_append, List.mem_cons, not_or] at hb
              rw [h2 b hb.2]
              simp only [h4]
              exact upd_ne _ _ hb.1
            · rw [frameSlots_cons] at hb
              rw [h6 b, h8 b]
              · intro p hp
                exact hb p (List.mem_append_left _ (by simpa [cellSlots, nodesOf, hda] using hp))
              · intro p hp
                simp only [h4, frameSlots_upd _ _ _ _ hn.1] at hp
                exact hb p (List.mem_append_right _ hp)

theorem Keep.pop {m0 m m' : PtrStore} {n : Nat} {c : List CtxCell} (h : Keep m0 (n + 1) m) (hi : Inv m)
    (e : pop m = some (c, m')) : Keep m0 n m' := by
  obtain ⟨pre, h1, h2⟩ := h.ctxs
  cases pre with
  | nil => simp at h1
  | cons f pre =>
    simp only [List.cons_append] at h2
    simp only [List.length_cons, Nat.add_right_cancel_iff] at h1
    unfold PtrStore.pop at e
    simp only [h2] at e
    cases hd : deactivate f m with
    | none => simp [hd] at e
    | some m1 =>
      simp only [hd] at e
      cases hr : readOut f m1 with
      | none => simp [hr] at e
      | some cells =>
        cases hds : destroy f m1 with
        | none => simp [hr, hds] at e
        | some m2 =>
          simp only [hr, hds, Option.some.injEq, Prod.mk.injEq] at e
          obtain ⟨_, rfl⟩ := e
          have hn := hi.dnodup
          rw [h2, allDas_cons, List.nodup_append] at hn
          obtain ⟨k1, k2, k3, k4⟩ := deactivate_keeps _ _ _ hd
          obtain ⟨j1, j2, j3, j4⟩ := destroy_keeps _ _ _ hds hn.1
          have hdm : ∀ d ∈ allDas (pre ++ m0.ctxs), m2.dmem d = m.dmem d := by
            intro d hdd
            rw [j2 d (fun hf => hn.2.2 d hf d hdd rfl), k2]
          have hsl : allSlots m2.dmem (pre ++ m0.ctxs) = allSlots m.dmem (pre ++ m0.ctxs) := allSlots_congr_on hdm
          have hu : Untouched m { m2 with ctxs := pre ++ m0.ctxs } := by
            refine ⟨Nat.le_of_eq (by rw [j3, k4]), ?_, ?_, ?_, ?_⟩
            · intro p hp
              rw [h2, allSlots_cons, List.mem_append]
              simp only [hsl] at hp
              exact .inl (.inr hp)
            · intro p hp
              rw [h2, allDas_cons, List.mem_append]
              exact .inl (.inr hp)
            · intro a _ ha
              show m2.mem a = m.mem a
              rw [j4 a, k3]
              intro p hp
              rw [h2, allSlots_cons] at ha
              exact ha p (List.mem_append_left _ (by rw [k2] at hp; exact hp))
            · intro a _ ha
              show m2.dmem a = m.dmem a
              rw [j2 a, k2]
              intro hf
              rw [h2, allDas_cons] at ha
              exact ha (List.mem_append_left _ hf)
          refine ⟨h.other.trans hu, ⟨pre, h1, rfl⟩, fun d hdd => ?_⟩
          obtain ⟨l, h3, h4⟩ := h.nodes d hdd
          refine ⟨l, ?_, h4⟩
          rw [← h3]
          simp only [nodesOf, hdm d (by rw [allDas_append]; simp [hdd])]

end PtrStore
end Leaf
