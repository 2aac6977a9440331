import Verif.ContextSteps

/-!
# Context objects: the move constructor
-/

namespace Leaf
open PtrStore

namespace PtrStore

/-- The nodes of the allocators of a tuple. -/
def frameNodes (dmem : Addr → Option PDa) (f : List PCell) : List (Ty × Addr) := (frameDas f).flatMap (nodesOf dmem)

theorem frameNodes_cons (dmem : Addr → Option PDa) (x : PCell) (f : List PCell) : frameNodes dmem (x :: f) = (cellDas x).flatMap (nodesOf dmem) ++ frameNodes dmem f := by
  simp [frameNodes, frameDas_cons]

theorem frameNodes_sub {dmem : Addr → Option PDa} {f : List PCell} {p : Ty × Addr} (h : p ∈ frameNodes dmem f) : p ∈ frameSlots dmem f := by
  induction f with
  | nil => simp [frameNodes, frameDas] at h
  | cons x f ih =>
    rw [frameNodes_cons, List.mem_append] at h
    rw [frameSlots_cons, List.mem_append]
    rcases h with h | h
    · cases x with
      | obj ty a => simp [cellDas] at h
      | da a => exact .inl (by simpa [cellDas, cellSlots] using h)
    · exact .inr (ih h)

theorem frameSlots_split {dmem : Addr → Option PDa} {f : List PCell} {p : Ty × Addr} (h : p ∈ frameSlots dmem f) : p ∈ objSlots f ∨ p ∈ frameNodes dmem f := by
  induction f with
  | nil => simp [frameSlots] at h
  | cons x f ih =>
    rw [frameSlots_cons, List.mem_append] at h
    rw [frameNodes_cons, objSlots_cons, List.mem_append, List.mem_append]
    rcases h with h | h
    · cases x with
      | obj ty a => exact .inl (.inl (by simpa [cellSlots] using h))
      | da a => exact .inr (.inl (by simpa [cellDas, cellSlots] using h))
    · exact (ih h).imp .inr .inr

theorem objSlots_sublist (dmem : Addr → Option PDa) (f : List PCell) : (objSlots f).Sublist (frameSlots dmem f) := by
  induction f with
  | nil => exact List.Sublist.refl _
  | cons x f ih =>
    rw [frameSlots_cons, objSlots_cons]
    cases x with
    | obj ty a => exact List.Sublist.append (List.Sublist.refl _) ih
    | da a => exact List.Sublist.append (List.nil_sublist _) ih

/-- Nodes are at other addresses than the elements of the tuple. -/
theorem frameNodes_ne {dmem : Addr → Option PDa} {f : List PCell} (hn : ((frameSlots dmem f).map Prod.snd).Nodup) {p q : Ty × Addr} (hp : p ∈ objSlots f) (hq : q ∈ frameNodes dmem f) : p.2 ≠ q.2 := by
  induction f with
  | nil => simp [objSlots] at hp
  | cons x f ih =>
    rw [frameSlots_cons, List.map_append, List.nodup_append] at hn
    rw [objSlots_cons, List.mem_append] at hp
    rw [frameNodes_cons, List.mem_append] at hq
    cases x with
    | obj ty a =>
      simp only [cellDas, List.flatMap_nil, List.not_mem_nil, false_or] at hq
      rcases hp with hp | hp
      · exact hn.2.2 _ (List.mem_map_of_mem (f := Prod.snd) (by simpa [cellSlots] using hp)) _ (List.mem_map_of_mem (f := Prod.snd) (frameNodes_sub hq))
      · exact ih hn.2.1 hp hq
    | da a =>
      simp only [List.not_mem_nil, false_or] at hp
      rcases hq with hq | hq
      · exact fun e => hn.2.2 _ (List.mem_map_of_mem (f := Prod.snd) (by simpa [cellSlots, cellDas] using hq)) _ (List.mem_map_of_mem (f := Prod.snd) (objSlots_sub hp)) e.symm
      · exact ih hn.2.1 hp hq

/-- What moving the tuple `f` into a new tuple `g` did. -/
structure MoveOk (m m' : PtrStore) (f g : List PCell) : Prop where
  next : m.next ≤ m'.next
  ctxs : m'.ctxs = m.ctxs
  tls : m'.tls = m.tls
  tlsDa : m'.tlsDa = m.tlsDa
  mem : ∀ a, a < m.next → a ∉ (objSlots f).map Prod.snd → m'.mem a = m.mem a
  dmem : ∀ a, a < m.next → a ∉ frameDas f → m'.dmem a = m.dmem a
  srcS : ∀ p ∈ objSlots f, m'.mem p.2 = some ⟨none, none⟩
  srcD : ∀ a ∈ frameDas f, m'.dmem a = some ⟨0#32, [], none⟩
  newS : ∀ p ∈ objSlots g, m.next ≤ p.2 ∧ p.2 < m'.next ∧ ∃ c, m'.mem p.2 = some ⟨c, none⟩
  newD : ∀ a ∈ frameDas g, m.next ≤ a ∧ a < m'.next ∧ ∃ d, m'.dmem a = some d ∧ d.prev = none ∧ (d.key = 0#32 → d.nodes = [])
  len : (frameDas g).length = (frameDas f).length
  tys : (frameSlots m'.dmem g).map Prod.fst = (frameSlots m.dmem f).map Prod.fst
  orig : ∀ p ∈ frameSlots m'.dmem g, p ∈ objSlots g ∨ p ∈ frameNodes m.dmem f
  nodup : ((frameSlots m'.dmem g).map Prod.snd).Nodup
  cont : absFrame m'.mem m'.dmem g = absFrame m.mem m.dmem f

theorem moveCells_ok (f : List PCell) (m : PtrStore) (hs : ∀ p ∈ frameSlots m.dmem f, p.2 < m.next ∧ ∃ s, m.mem p.2 = some s)
    (hd : ∀ a ∈ frameDas f, a < m.next ∧ ∃ d, m.dmem a = some d ∧ (d.key = 0#32 → d.nodes = [])) (hn : ((frameSlots m.dmem f).map Prod.snd).Nodup) (hdn : (frameDas f).Nodup)
    (hp : ∀ p ∈ objSlots f, ∀ s, m.mem p.2 = some s → s.prev = none) (hdp : ∀ a ∈ frameDas f, ∀ d, m.dmem a = some d → d.prev = none) :
    ∃ g m', moveCells f m = some (g, m') ∧ MoveOk m m' f g := by
  induction f generalizing m with
  | nil =>
    refine ⟨[], m, rfl, Nat.le_refl _, rfl, rfl, rfl, fun _ _ _ => rfl, fun _ _ _ => rfl, ?_, ?_, ?_, ?_, rfl, rfl, ?_, ?_, rfl⟩ <;> simp [objSlots, frameDas, frameSlots]
  | cons x f ih =>
    have hn0 := hn
    rw [frameSlots_cons, List.map_append, List.nodup_append] at hn
    cases x with
    | obj ty a =>
      have hma : (ty, a) ∈ frameSlots m.dmem (.obj ty a :: f) := by rw [frameSlots_cons]; simp [cellSlots]
      obtain ⟨hlt, s, hsa⟩ := hs _ hma
      simp only at hlt hsa
      have hpa : s.prev = none := hp (ty, a) (by rw [objSlots_cons]; simp) s hsa
      rw [frameDas_cons] at hd hdn hdp
      simp only [cellDas, List.nil_append] at hd hdn hdp
      have hna : ∀ p ∈ frameSlots m.dmem f, p.2 ≠ a := fun p hp e => hn.2.2 a (by simp [cellSlots]) _ (List.mem_map_of_mem (f := Prod.snd) hp) e.symm
      have hlt' : ∀ p ∈ frameSlots m.dmem f, p.2 < m.next := fun p hp => (hs p (by rw [frameSlots_cons]; exact List.mem_append_right _ hp)).1
      let m1 : PtrStore := { m with mem := upd (upd m.mem m.next (some ⟨s.cell, none⟩)) a (some { s with cell := none }), next := m.next + 1 }
      have hm1 : ∀ b, b < m.next → b ≠ a → m1.mem b = m.mem b := fun b hb hba => by
        show upd (upd m.mem m.next (some ⟨s.cell, none⟩)) a (some { s with cell := none }) b = _
        rw [upd_ne _ _ hba, upd_ne _ _ (Nat.ne_of_lt hb)]
      have hm1n : m1.mem m.next = some ⟨s.cell, none⟩ := by
        show upd (upd m.mem m.next (some ⟨s.cell, none⟩)) a (some { s with cell := none }) m.next = _
        rw [upd_ne _ _ (Nat.ne_of_gt hlt), upd_same]
      have hm1a : m1.mem a = some ⟨none, none⟩ := by
        show upd (upd m.mem m.next (some ⟨s.cell, none⟩)) a (some { s with cell := none }) a = _
        rw [upd_same, ← hpa]
      obtain ⟨g, m', e, k⟩ := ih m1 (fun p hp => by
          obtain ⟨h1, s1, h2⟩ := hs p (by rw [frameSlots_cons]; exact List.mem_append_right _ hp)
          exact ⟨Nat.lt_succ_of_lt h1, s1, (hm1 p.2 h1 (hna p hp)).trans h2⟩)
        (fun b hb => ⟨Nat.lt_succ_of_lt (hd b hb).1, (hd b hb).2⟩) hn.2.1 hdn
        (fun p hp' s1 hs1 => hp p (by rw [objSlots_cons]; exact List.mem_append_right _ hp') s1 (by rw [← hm1 p.2 (hlt' p (objSlots_sub hp')) (hna p (objSlots_sub hp'))]; exact hs1))
        hdp
      have hnewm : m'.mem m.next = some ⟨s.cell, none⟩ := by
        rw [k.mem m.next (Nat.lt_succ_self _)]
        · exact hm1n
        · intro hm
          obtain ⟨q, hq, eq⟩ := List.mem_map.mp hm
          exact Nat.lt_irrefl _ (eq ▸ hlt' q (objSlots_sub hq))
      have hsplit : ∀ p ∈ frameSlots m'.dmem g, p.2 ≠ m.next := by
        intro p hp
        rcases k.orig p hp with h1 | h1
        · exact Nat.ne_of_gt (k.newS p h1).1
        · exact Nat.ne_of_lt (hlt' p (frameNodes_sub h1))
      refine ⟨.obj ty m.next :: g, m', ?_, Nat.le_of_succ_le k.next, k.ctxs, k.tls, k.tlsDa, ?_, ?_, ?_, ?_, ?_, ?_, ?_, ?_, ?_, ?_, ?_⟩
      · simp only [moveCells, hsa]
        rw [if_neg (by simp [hpa])]
        show (moveCells f m1).bind _ = _
        rw [e]; rfl
      · intro b hb hnb
        rw [objSlots_cons] at hnb
        simp only [List.cons_append, List.nil_append, List.map_cons, List.mem_cons, not_or] at hnb
        rw [k.mem b (Nat.lt_succ_of_lt hb) hnb.2]
        exact hm1 b hb hnb.1
      · intro b hb hnb
        rw [frameDas_cons] at hnb
        exact k.dmem b (Nat.lt_succ_of_lt hb) hnb
      · rw [objSlots_cons]
        intro p hp
        simp only [List.cons_append, List.nil_append, List.mem_cons] at hp
        rcases hp with rfl | hp
        · rw [k.mem a (Nat.lt_succ_of_lt hlt)]
          · exact hm1a
          · intro hm
            obtain ⟨q, hq, eq⟩ := List.mem_map.mp hm
            exact hna q (objSlots_sub hq) eq
        · exact k.srcS p hp
      · rw [frameDas_cons]; exact k.srcD
      · rw [objSlots_cons]
        intro p hp
        simp only [List.cons_append, List.nil_append, List.mem_cons] at hp
        rcases hp with rfl | hp
        · exact ⟨Nat.le_refl _, k.next, _, hnewm⟩
        · exact ⟨Nat.le_of_succ_le (k.newS p hp).1, (k.newS p hp).2⟩
      · rw [frameDas_cons]
        intro b hb
        exact ⟨Nat.le_of_succ_le (k.newD b hb).1, (k.newD b hb).2⟩
      · rw [frameDas_cons, frameDas_cons]; exact k.len
      · rw [frameSlots_cons, frameSlots_cons]
        simp only [cellSlots, List.cons_append, List.nil_append, List.map_cons]
        exact congrArg _ k.tys
      · rw [frameSlots_cons, objSlots_cons, frameNodes_cons]
        intro p hp
        simp only [cellSlots, List.cons_append, List.nil_append, List.mem_cons] at hp
        rcases hp with rfl | hp
        · exact .inl (by simp)
        · exact (k.orig p hp).imp (fun h => List.mem_append_right _ h) (fun h => List.mem_append_right _ h)
      · rw [frameSlots_cons]
        simp only [cellSlots, List.cons_append, List.nil_append, List.map_cons, List.nodup_cons]
        refine ⟨fun hm => ?_, k.nodup⟩
        obtain ⟨q, hq, eq⟩ := List.mem_map.mp hm
        exact hsplit q hq eq
      · have h1 := k.cont
        have h2 : absFrame m1.mem m1.dmem f = absFrame m.mem m.dmem f := absFrame_congr_on (fun _ _ => rfl) (fun p hp => hm1 p.2 (hlt' p hp) (hna p hp))
        rw [h2] at h1
        simp only [absFrame, List.map_cons, absCell, cellOf, hnewm, hsa]
        exact congrArg _ h1
    | da a =>
      have hma : a ∈ frameDas (.da a :: f) := by rw [frameDas_cons]; simp [cellDas]
      obtain ⟨hlt, d, hda, hz⟩ := hd _ hma
      have hpa : d.prev = none := hdp a hma d hda
      have hnodes : nodesOf m.dmem a = d.nodes := by simp [nodesOf, hda]
      rw [frameDas_cons] at hd hdn hdp
      simp only [cellDas, List.cons_append, List.nil_append, List.nodup_cons] at hd hdn hdp
      have hnf : ∀ b ∈ frameDas f, b ≠ a := fun b hb e => hdn.1 (e ▸ hb)
      have hltS : ∀ p ∈ frameSlots m.dmem (.da a :: f), p.2 < m.next := fun p hp => (hs p hp).1
      let m1 : PtrStore := { m with dmem := upd (upd m.dmem m.next (some ⟨d.key, d.nodes, none⟩)) a (some { d with key := 0#32, nodes := [] }), next := m.next + 1 }
      have hm1 : ∀ b, b < m.next → b ≠ a → m1.dmem b = m.dmem b := fun b hb hba => by
        show upd (upd m.dmem m.next (some ⟨d.key, d.nodes, none⟩)) a (some { d with key := 0#32, nodes := [] }) b = _
        rw [upd_ne _ _ hba, upd_ne _ _ (Nat.ne_of_lt hb)]
      have hm1n : m1.dmem m.next = some ⟨d.key, d.nodes, none⟩ := by
        show upd (upd m.dmem m.next (some ⟨d.key, d.nodes, none⟩)) a (some { d with key := 0#32, nodes := [] }) m.next = _
        rw [upd_ne _ _ (Nat.ne_of_gt hlt), upd_same]
      have hm1a : m1.dmem a = some ⟨0#32, [], none⟩ := by
        show upd (upd m.dmem m.next (some ⟨d.key, d.nodes, none⟩)) a (some { d with key := 0#32, nodes := [] }) a = _
        rw [upd_same, ← hpa]
      have hfd : ∀ b ∈ frameDas f, m1.dmem b = m.dmem b := fun b hb => hm1 b (hd b (List.mem_cons_of_mem _ hb)).1 (hnf b hb)
      have hfs : frameSlots m1.dmem f = frameSlots m.dmem f := frameSlots_congr_on hfd
      have hfn : frameNodes m1.dmem f = frameNodes m.dmem f := by
        simp only [frameNodes, List.flatMap_def]
        congr 1
        exact List.map_congr_left (fun b hb => by simp only [nodesOf, hfd b hb])
      obtain ⟨g, m', e, k⟩ := ih m1 (fun p hp => by
          rw [hfs] at hp
          obtain ⟨h1, h2⟩ := hs p (by rw [frameSlots_cons]; exact List.mem_append_right _ hp)
          exact ⟨Nat.lt_succ_of_lt h1, h2⟩)
        (fun b hb => ⟨Nat.lt_succ_of_lt (hd b (List.mem_cons_of_mem _ hb)).1, by rw [hfd b hb]; exact (hd b (List.mem_cons_of_mem _ hb)).2⟩) (by rw [hfs]; exact hn.2.1) hdn.2
        (fun p hp' s1 hs1 => hp p (by rw [objSlots_cons]; exact List.mem_append_right _ hp') s1 hs1)
        (fun b hb d1 hd1 => hdp b (List.mem_cons_of_mem _ hb) d1 (by rw [← hfd b hb]; exact hd1))
      have hnewm : m'.dmem m.next = some ⟨d.key, d.nodes, none⟩ := by
        rw [k.dmem m.next (Nat.lt_succ_self _)]
        · exact hm1n
        · intro hm
          exact Nat.lt_irrefl _ (hd _ (List.mem_cons_of_mem _ hm)).1
      have hnn : nodesOf m'.dmem m.next = d.nodes := by simp [nodesOf, hnewm]
      have hnm : ∀ p ∈ d.nodes, m'.mem p.2 = m.mem p.2 := by
        intro p hp'
        have hp2 : p ∈ frameNodes m.dmem (.da a :: f) := by rw [frameNodes_cons]; exact List.mem_append_left _ (by simpa [cellDas, hnodes] using hp')
        refine k.mem p.2 (Nat.lt_succ_of_lt (hltS p (frameNodes_sub hp2))) fun hm => ?_
        obtain ⟨q, hq, eq⟩ := List.mem_map.mp hm
        exact frameNodes_ne hn0 (p := q) (by rw [objSlots_cons]; exact List.mem_append_right _ hq) hp2 eq
      refine ⟨.da m.next :: g, m', ?_, Nat.le_of_succ_le k.next, k.ctxs, k.tls, k.tlsDa, ?_, ?_, ?_, ?_, ?_, ?_, ?_, ?_, ?_, ?_, ?_⟩
      · simp only [moveCells, hda]
        rw [if_neg (by simp [hpa])]
        show (moveCells f m1).bind _ = _
        rw [e]; rfl
      · intro b hb hnb
        rw [objSlots_cons] at hnb
        exact k.mem b (Nat.lt_succ_of_lt hb) hnb
      · intro b hb hnb
        rw [frameDas_cons] at hnb
        simp only [cellDas, List.cons_append, List.nil_append, List.mem_cons, not_or] at hnb
        rw [k.dmem b (Nat.lt_succ_of_lt hb) hnb.2]
        exact hm1 b hb hnb.1
      · rw [objSlots_cons]; exact k.srcS
      · rw [frameDas_cons]
        intro b hb
        simp only [cellDas, List.cons_append, List.nil_append, List.mem_cons] at hb
        rcases hb with rfl | hb
        · rw [k.dmem b (Nat.lt_succ_of_lt hlt) hdn.1]; exact hm1a
        · exact k.srcD b hb
      · rw [objSlots_cons]
        intro p hp
        exact ⟨Nat.le_of_succ_le (k.newS p hp).1, (k.newS p hp).2⟩
      · rw [frameDas_cons]
        intro b hb
        simp only [cellDas, List.cons_append, List.nil_append, List.mem_cons] at hb
        rcases hb with rfl | hb
        · exact ⟨Nat.le_refl _, k.next, _, hnewm, rfl, hz⟩
        · exact ⟨Nat.le_of_succ_le (k.newD b hb).1, (k.newD b hb).2⟩
      · rw [frameDas_cons, frameDas_cons, List.length_append, List.length_append, k.len]; rfl
      · rw [frameSlots_cons, frameSlots_cons, List.map_append, List.map_append, k.tys, hfs]
        simp only [cellSlots, hnn, hnodes]
      · rw [frameSlots_cons, objSlots_cons, frameNodes_cons]
        intro p hp
        rcases List.mem_append.mp hp with hp | hp
        · exact .inr (List.mem_append_left _ (by simpa [cellSlots, cellDas, hnn, hnodes] using hp))
        · exact (k.orig p hp).imp (fun h => h) (fun h => List.mem_append_right _ (by rw [← hfn]; exact h))
      · rw [frameSlots_cons, List.map_append, List.nodup_append]
        simp only [cellSlots, hnn]
        have h1 := hn.1
        simp only [cellSlots, hnodes] at h1
        refine ⟨h1, k.nodup, ?_⟩
        intro b hb b' hb' ebb
        obtain ⟨p, hp', rfl⟩ := List.mem_map.mp hb
        obtain ⟨q, hq, rfl⟩ := List.mem_map.mp hb'
        have hpn : p ∈ cellSlots m.dmem (.da a) := by simpa [cellSlots, hnodes] using hp'
        rcases k.orig q hq with h2 | h2
        · have := hltS p (by rw [frameSlots_cons]; exact List.mem_append_left _ hpn)
          exact Nat.lt_irrefl _ (Nat.lt_trans (Nat.lt_of_lt_of_le (ebb ▸ this) (Nat.le_refl _)) (k.newS q h2).1)
        · rw [hfn] at h2
          exact hn.2.2 _ (List.mem_map_of_mem (f := Prod.snd) hpn) _ (List.mem_map_of_mem (f := Prod.snd) (frameNodes_sub h2)) ebb
      · have h1 := k.cont
        have h2 : absFrame m1.mem m1.dmem f = absFrame m.mem m.dmem f := absFrame_congr_on hfd (fun _ _ => rfl)
        rw [h2] at h1
        simp only [absFrame, List.map_cons, absCell, hnn, hnodes]
        rw [show keyOf m'.dmem m.next = keyOf m.dmem a from by simp [keyOf, hnewm, hda]]
        rw [show absNodes m'.mem d.nodes = absNodes m.mem d.nodes from List.map_congr_left (fun p hp => by simp only [cellOf, hnm p hp])]
        exact congrArg _ h1

end PtrStore

theorem CRel.move {u : UWorld} {s : SWorld} (h : CRel u s) {c d : Nat} {cells : List CtxCell} (hd : s.pool d = none) (hs : s.pool c = some (.idle cells false false)) :
    ∃ x g m, u.pool d = none ∧ u.idle c = some x ∧ x.spent = false ∧ moveCells x.cells u.w.mem = some (g, m) ∧
      CRel ((u.setMem m).setPool d (some ⟨g, false, false⟩)) ((s.setPool c (some (.idle (cells.map (·.emptied)) false false))).setPool d (some (.idle cells false false))) := by
  obtain ⟨x, hx, hid, hxa, hxs, hca, hcells, ok⟩ := h.get_idle hs
  have hud := h.get_none hd
  have hda := none_act h hd
  have hdc : d ≠ c := by rintro rfl; rw [hd] at hs; simp at hs
  obtain ⟨g, m, e, k⟩ := moveCells_ok x.cells u.w.mem ok.slots ok.das ok.nodup (frameDas_nodup ok.oneDa) (ok.prev rfl) (ok.dprev rfl)
  refine ⟨x, g, m, hud, hid, hxs, e, ?_⟩
  have hl : Local u.w.mem m x.cells := by
    refine ⟨k.next, k.ctxs, k.tls, k.tlsDa, fun a ha hn => k.mem a ha (fun hm => ?_), k.dmem⟩
    obtain ⟨p, hp, e⟩ := List.mem_map.mp hm
    exact hn p (objSlots_sub hp) e
  have hall := (hl.inv h.inv ok.freeS ok.freeD).2.2
  have hno : ∀ a ∈ frameDas x.cells, nodesOf m.dmem a = [] := fun a ha => by simp [nodesOf, k.srcD a ha]
  have hfs := frameSlots_noNodes hno
  -- the source
  have okc : IdleOk m x.cells false := by
    refine ⟨?_, ?_, ?_, ok.oneDa, ?_, ?_, ?_, ?_, ?_⟩
    · rw [hfs]; exact fun p hp => ⟨Nat.lt_of_lt_of_le (ok.slots p (objSlots_sub hp)).1 k.next, _, k.srcS p hp⟩
    · exact fun a ha => ⟨Nat.lt_of_lt_of_le (ok.das a ha).1 k.next, _, k.srcD a ha, fun _ => rfl⟩
    · rw [hfs]; exact (List.Sublist.map Prod.fst (objSlots_sublist _ _)).nodup ok.tys
    · rw [hfs]; exact (List.Sublist.map Prod.snd (objSlots_sublist _ _)).nodup ok.nodup
    · intro _ p hp s1 hs1; rw [k.srcS p hp] at hs1; cases hs1; rfl
    · intro _ a ha d1 hd1; rw [k.srcD a ha] at hd1; cases hd1; rfl
    · rw [hfs, hall]; exact fun p hp => ok.freeS p (objSlots_sub hp)
    · rw [k.ctxs]; exact ok.freeD
  have hemp : cells.map (·.emptied) = absFrame m.mem m.dmem x.cells := by
    rw [hcells]
    simp only [absFrame, List.map_map]
    refine List.map_congr_left fun y hy => ?_
    cases y with
    | obj ty a =>
      have hp : (ty, a) ∈ objSlots x.cells := List.mem_flatMap.mpr ⟨_, hy, by simp⟩
      have := k.srcS _ hp
      simp only at this
      simp [absCell, CtxCell.emptied, cellOf, this]
    | da a =>
      have ha : a ∈ frameDas x.cells := List.mem_flatMap.mpr ⟨_, hy, by simp [cellDas]⟩
      simp [absCell, CtxCell.emptied, keyOf, nodesOf, k.srcD a ha, absNodes]
  have h1 : CRel ((u.setMem m).setPool c (some x)) (s.setPool c (some (.idle (cells.map (·.emptied)) false false))) := by
    refine h.changeOwn hca hx hxa hl ⟨hxa, hxs, hca, hemp, okc⟩ fun z hz => ?_
    cases hz
    exact ⟨rfl, by rw [hfs]; exact fun p hp => objSlots_sub hp⟩
  have hsame : (u.setMem m).setPool c (some x) = u.setMem m := by
    simp only [UWorld.setPool, UWorld.setMem]
    congr 1
    funext e1
    by_cases ec : e1 = c
    · subst ec; rw [upd_same]; exact hx.symm
    · exact upd_ne _ _ ec
  rw [hsame] at h1
  -- the new context
  have hdst : ∀ e1 y, e1 ≠ d → u.pool e1 = some y → y.active = false → Apart m g y.cells := by
    intro e1 y hne hy hya
    have hyS : e1 ≠ c → frameSlots m.dmem y.cells = frameSlots u.w.mem.dmem y.cells ∧ Apart u.w.mem x.cells y.cells := fun hec => by
      obtain ⟨b, oky⟩ := h.idleOk hy hya
      have hap := h.apart c e1 x y (Ne.symm hec) hx hy hxa hya
      exact ⟨(oky.local hl hap hall).2.2, hap⟩
    obtain ⟨b, oky⟩ := h.idleOk hy hya
    have hlt : ∀ q ∈ frameSlots m.dmem y.cells, q.2 < u.w.mem.next := by
      intro q hq
      by_cases ec : e1 = c
      · subst ec
        rw [hx] at hy
        cases hy
        rw [hfs] at hq
        exact (ok.slots q (objSlots_sub hq)).1
      · rw [(hyS ec).1] at hq
        exact (oky.slots q hq).1
    refine ⟨fun p hp q hq epq => ?_, fun a ha hq => Nat.lt_irrefl _ (Nat.lt_of_lt_of_le (oky.das a hq).1 (k.newD a ha).1)⟩
    rcases k.orig p hp with h2 | h2
    · exact Nat.lt_irrefl _ (Nat.lt_of_lt_of_le (hlt q hq) (epq ▸ (k.newS p h2).1))
    · by_cases ec : e1 = c
      · subst ec
        rw [hx] at hy
        cases hy
        rw [hfs] at hq
        exact frameNodes_ne ok.nodup hq h2 epq.symm
      · rw [(hyS ec).1] at hq
        exact (hyS ec).2.slots p (frameNodes_sub h2) q hq epq
  have okg : IdleOk m g false := by
    refine ⟨?_, ?_, ?_, ?_, k.nodup, ?_, ?_, ?_, ?_⟩
    · intro p hp
      rcases k.orig p hp with h2 | h2
      · obtain ⟨_, g2, c0, g3⟩ := k.newS p h2
        exact ⟨g2, _, g3⟩
      · obtain ⟨g1, s1, g2⟩ := ok.slots p (frameNodes_sub h2)
        refine ⟨Nat.lt_of_lt_of_le g1 k.next, s1, ?_⟩
        rw [k.mem p.2 g1]
        · exact g2
        · intro hm
          obtain ⟨q, hq, eq⟩ := List.mem_map.mp hm
          exact frameNodes_ne ok.nodup hq h2 eq
    · intro a ha
      obtain ⟨_, g2, d1, g3, _, g4⟩ := k.newD a ha
      exact ⟨g2, d1, g3, g4⟩
    · rw [k.tys]; exact ok.tys
    · rw [k.len]; exact ok.oneDa
    · intro _ p hp s1 hs1
      obtain ⟨_, _, c0, g3⟩ := k.newS p hp
      rw [g3] at hs1; cases hs1; rfl
    · intro _ a ha d1 hd1
      obtain ⟨_, _, d2, g3, g4, _⟩ := k.newD a ha
      rw [g3] at hd1; cases hd1; exact g4
    · rw [hall]
      intro p hp q hq epq
      rcases k.orig p hp with h2 | h2
      · exact Nat.lt_irrefl _ (Nat.lt_of_lt_of_le (h.inv.lt q hq) (epq ▸ (k.newS p h2).1))
      · exact ok.freeS p (frameNodes_sub h2) q hq epq
    · rw [k.ctxs]
      intro a ha hq
      exact Nat.lt_irrefl _ (Nat.lt_of_lt_of_le (h.inv.dlt a hq) (k.newD a ha).1)
  refine h1.change (m' := m) (f := []) hda (Local.refl _ _) (by simp [frameSlots]) (by simp [frameDas]) (fun _ _ _ _ _ => ⟨by simp [frameSlots], by simp [frameDas]⟩) ?_ ?_
  · exact ⟨rfl, rfl, hda, hcells.trans k.cont.symm, okg⟩
  · intro z hz e1 y hne hy hya
    cases hz
    exact hdst e1 y hne hy hya

end Leaf
