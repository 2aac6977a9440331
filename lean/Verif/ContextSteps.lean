import Verif.ContextLemmas

/-!
# Context objects: every operation of the code does what the specification says
-/

namespace Leaf
open PtrStore

namespace PtrStore

/-! ### activate -/

theorem rebind_ok (f : List PCell) (m : PtrStore) (hs : ∀ p ∈ objSlots f, ∃ s, m.mem p.2 = some s) (hd : ∀ a ∈ frameDas f, ∃ d, m.dmem a = some d)
    (ht : ((objSlots f).map Prod.fst).Nodup) (hn : ((objSlots f).map Prod.snd).Nodup) (h1 : (frameDas f).length ≤ 1) :
    ∃ M D T d, rebind f m = some { m with mem := M, dmem := D, tls := T, tlsDa := d } ∧
      (∀ p ∈ objSlots f, ∀ s, m.mem p.2 = some s → M p.2 = some { s with prev := m.tls p.1 }) ∧
      (∀ a, a ∉ (objSlots f).map Prod.snd → M a = m.mem a) ∧
      (∀ a ∈ frameDas f, ∀ d, m.dmem a = some d → D a = some { d with prev := m.tlsDa }) ∧
      (∀ a, a ∉ frameDas f → D a = m.dmem a) ∧
      (∀ ty, T ty = (bind ty (objSlots f)).or (m.tls ty)) ∧ d = (frameDas f).head?.or m.tlsDa := by
  induction f generalizing m with
  | nil => exact ⟨m.mem, m.dmem, m.tls, m.tlsDa, rfl, by simp [objSlots], fun _ _ => rfl, by simp [frameDas], fun _ _ => rfl, by simp [objSlots, bind], by simp [frameDas]⟩
  | cons x f ih =>
    cases x with
    | obj ty a =>
      rw [objSlots_cons] at hs ht hn
      simp only [List.cons_append, List.nil_append, List.map_cons, List.nodup_cons] at ht hn
      rw [frameDas_cons] at hd h1
      simp only [cellDas, List.nil_append] at hd h1
      obtain ⟨s, hsa⟩ := hs (ty, a) (List.mem_cons_self ..)
      simp only at hsa
      have hne : ∀ p ∈ objSlots f, p.2 ≠ a := fun p hp e => hn.1 (e ▸ List.mem_map_of_mem (f := Prod.snd) hp)
      have hnt : ∀ p ∈ objSlots f, p.1 ≠ ty := fun p hp e => ht.1 (e ▸ List.mem_map_of_mem (f := Prod.fst) hp)
      obtain ⟨M, D, T, d, e, k1, k2, k3, k4, k5, k6⟩ := ih { m with mem := upd m.mem a (some { s with prev := m.tls ty }), tls := upd m.tls ty (some a) }
        (fun p hp => by
          obtain ⟨s1, hs1⟩ := hs p (List.mem_cons_of_mem _ hp)
          exact ⟨s1, (upd_ne _ _ (hne p hp)).trans hs1⟩) hd ht.2 hn.2 h1
      refine ⟨M, D, T, d, ?_, ?_, ?_, ?_, ?_, ?_, ?_⟩
      · simp only [rebind, hsa]; exact e
      · rw [objSlots_cons]
        intro p hp s' hs'
        simp only [List.cons_append, List.nil_append, List.mem_cons] at hp
        rcases hp with rfl | hp
        · rw [k2 a hn.1]
          simp only at hs'
          rw [hsa] at hs'
          cases hs'
          exact upd_same _ _ _
        · have := k1 p hp s' (by rw [← hs']; exact upd_ne _ _ (hne p hp))
          rw [this]
          simp only [upd_ne m.tls (some a) (hnt p hp)]
      · rw [objSlots_cons]
        intro b hb
        simp only [List.cons_append, List.nil_append, List.map_cons, List.mem_cons, not_or] at hb
        rw [k2 b hb.2]
        exact upd_ne _ _ hb.1
      · rw [frameDas_cons]; exact k3
      · rw [frameDas_cons]; exact k4
      · intro ty'
        rw [objSlots_cons]
        simp only [List.cons_append, List.nil_append, bind]
        rw [k5]
        by_cases e2 : ty' = ty
        · subst e2
          rw [bind_none.2 (show ty' ∉ (objSlots f).map Prod.fst from ht.1), if_pos rfl]
          simp [upd]
        · rw [if_neg (Ne.symm e2)]
          simp only [upd, e2, if_false]
      · rw [frameDas_cons]; exact k6
    | da a =>
      rw [objSlots_cons] at hs ht hn
      simp only [List.nil_append] at hs ht hn
      rw [frameDas_cons] at hd h1
      simp only [cellDas, List.cons_append, List.nil_append, List.length_cons] at hd h1
      have h0 : frameDas f = [] := List.eq_nil_of_length_eq_zero (Nat.le_zero.mp (Nat.le_of_succ_le_succ h1))
      obtain ⟨d0, hda⟩ := hd a (List.mem_cons_self ..)
      obtain ⟨M, D, T, d, e, k1, k2, k3, k4, k5, k6⟩ := ih { m with dmem := upd m.dmem a (some { d0 with prev := m.tlsDa }), tlsDa := some a } hs (by rw [h0]; simp) ht hn (by rw [h0]; simp)
      refine ⟨M, D, T, d, ?_, ?_, ?_, ?_, ?_, ?_, ?_⟩
      · simp only [rebind, hda]; exact e
      · rw [objSlots_cons]; exact k1
      · rw [objSlots_cons]; exact k2
      · rw [frameDas_cons, h0]
        intro b hb d1 hd1
        simp only [cellDas, List.append_nil, List.mem_singleton] at hb
        subst hb
        rw [k4 b (by rw [h0]; simp)]
        rw [hda] at hd1
        cases hd1
        exact upd_same _ _ _
      · rw [frameDas_cons, h0]
        intro b hb
        simp only [cellDas, List.append_nil, List.mem_singleton] at hb
        rw [k4 b (by rw [h0]; simp)]
        exact upd_ne _ _ hb
      · rw [objSlots_cons]; exact k5
      · rw [frameDas_cons, k6, h0]; rfl

theorem frameSlots_noNodes {dmem : Addr → Option PDa} {f : List PCell} (h : ∀ a ∈ frameDas f, nodesOf dmem a = []) : frameSlots dmem f = objSlots f := by
  induction f with
  | nil => rfl
  | cons x f ih =>
    rw [frameSlots_cons, objSlots_cons, ih (fun a ha => h a (by rw [frameDas_cons]; exact List.mem_append_right _ ha))]
    cases x with
    | obj ty a => rfl
    | da a => rw [show cellSlots dmem (.da a) = nodesOf dmem a from rfl, h a (by rw [frameDas_cons]; exact List.mem_append_left _ (by simp [cellDas]))]

theorem hasNodes_abs (m : PtrStore) (f : List PCell) : m.hasNodes f = (absFrame m.mem m.dmem f).any (·.captured) := by
  induction f with
  | nil => rfl
  | cons x f ih =>
    cases x with
    | obj ty a => simp only [hasNodes, absFrame, List.map_cons, List.any_cons, absCell, CtxCell.captured, Bool.false_or] at ih ⊢; exact ih
    | da a =>
      simp only [hasNodes, absFrame, List.map_cons, List.any_cons, absCell, CtxCell.captured] at ih ⊢
      rw [ih]
      cases h : m.dmem a with
      | none => simp [nodesOf, h, absNodes]
      | some d => simp [nodesOf, h, absNodes]

theorem noNodes_of_any {m : PtrStore} {f : List PCell} (h : (absFrame m.mem m.dmem f).any (·.captured) = false) : ∀ a ∈ frameDas f, nodesOf m.dmem a = [] := by
  induction f with
  | nil => intro a ha; simp [frameDas] at ha
  | cons x f ih =>
    simp only [absFrame, List.map_cons, List.any_cons, Bool.or_eq_false_iff] at h
    intro a ha
    rw [frameDas_cons, List.mem_append] at ha
    rcases ha with ha | ha
    · cases x with
      | obj ty b => simp [cellDas] at ha
      | da b =>
        simp only [cellDas, List.mem_singleton] at ha
        subst ha
        simpa [absCell, CtxCell.captured, absNodes] using h.1
    · exact ih h.2 a ha

end PtrStore

theorem idle_act {u : UWorld} {s : SWorld} (h : CRel u s) {c : Nat} {x : UCtx} (hx : u.pool c = some x) (ha : x.active = false) : c ∉ s.active := by
  have := h.pool c
  rw [hx] at this
  cases hy : s.pool c with
  | none => rw [hy] at this; exact this.elim
  | some y =>
    rw [hy] at this
    cases y with
    | active => rw [this.1] at ha; simp at ha
    | idle cells pinned spent => exact this.2.2.1

theorem CRel.activate {u : UWorld} {s : SWorld} (h : CRel u s) {c : Nat} {cells : List CtxCell} {pinned : Bool} (hs : s.pool c = some (.idle cells pinned false)) (hcap : cells.any (·.captured) = false) :
    ∃ x m, u.idle c = some x ∧ x.spent = false ∧ rebind x.cells u.w.mem = some m ∧ (m.ctxs = u.w.mem.ctxs ∧ ∀ a ∈ allDas u.w.mem.ctxs, m.dmem a = u.w.mem.dmem a) ∧
      CRel ((u.setMem { m with ctxs := x.cells :: m.ctxs }).setPool c (some { x with active := true })) ({ s.setFrames (cells :: s.w.mem.frames) with active := c :: s.active }.setPool c (some .active)) := by
  obtain ⟨x, hx, hid, hxa, hxs, hca, hcells, ok⟩ := h.get_idle hs
  subst hcells
  have hno := noNodes_of_any hcap
  have hfs := frameSlots_noNodes hno
  have hi := h.inv
  obtain ⟨M, D, T, d, e, k1, k2, k3, k4, k5, k6⟩ := rebind_ok x.cells u.w.mem (by rw [← hfs]; exact fun p hp => (ok.slots p hp).2)
    (fun a ha => (ok.das a ha).2.imp fun d hd => hd.1) (by rw [← hfs]; exact ok.tys) (by rw [← hfs]; exact ok.nodup) ok.oneDa
  -- other storage
  have hD : ∀ a ∈ allDas u.w.mem.ctxs, D a = u.w.mem.dmem a := fun a ha => k4 a (fun hf => ok.freeD a hf ha)
  have hM : ∀ p ∈ allSlots u.w.mem.dmem u.w.mem.ctxs, M p.2 = u.w.mem.mem p.2 := by
    intro p hp
    refine k2 p.2 fun hm => ?_
    obtain ⟨q, hq, eq⟩ := List.mem_map.mp hm
    exact ok.freeS q (objSlots_sub hq) p hp eq
  have hS := allSlots_congr_on hD
  have hnoD : ∀ a ∈ frameDas x.cells, nodesOf D a = [] := by
    intro a ha
    obtain ⟨_, d1, hd1, _⟩ := ok.das a ha
    have := hno a ha
    simp only [nodesOf, hd1, k3 a ha d1 hd1] at this ⊢
    exact this
  have hfs' := frameSlots_noNodes hnoD
  have habsf : absFrame M D x.cells = absFrame u.w.mem.mem u.w.mem.dmem x.cells := by
    refine List.map_congr_left fun y hy => ?_
    cases y with
    | obj ty a =>
      have hp : (ty, a) ∈ objSlots x.cells := List.mem_flatMap.mpr ⟨_, hy, by simp⟩
      obtain ⟨s1, hs1⟩ := (ok.slots _ (objSlots_sub hp)).2
      have := k1 _ hp s1 hs1
      simp only at this hs1
      simp only [absCell, cellOf, this, hs1]
    | da a =>
      have ha : a ∈ frameDas x.cells := List.mem_flatMap.mpr ⟨_, hy, by simp [cellDas]⟩
      obtain ⟨_, d1, hd1, _⟩ := ok.das a ha
      simp only [absCell, hno a ha, hnoD a ha, absNodes, List.map_nil]
      simp only [keyOf, hd1, k3 a ha d1 hd1]
  refine ⟨x, _, hid, hxs, e, ⟨rfl, hD⟩, ?_⟩
  refine ⟨⟨?_, ?_, ?_, ?_, ?_, ?_, ?_⟩, ?_, ?_, ?_, ?_, ?_⟩
  · show ((allSlots D (x.cells :: u.w.mem.ctxs)).map Prod.snd).Nodup
    rw [allSlots_cons, hS, hfs', ← hfs, List.map_append, List.nodup_append]
    refine ⟨ok.nodup, hi.nodup, ?_⟩
    intro a ha b hb eab
    obtain ⟨p, hp, rfl⟩ := List.mem_map.mp ha
    obtain ⟨q, hq, rfl⟩ := List.mem_map.mp hb
    exact ok.freeS p hp q hq eab
  · show ∀ p ∈ allSlots D (x.cells :: u.w.mem.ctxs), p.2 < u.w.mem.next
    rw [allSlots_cons, hS, hfs', ← hfs]
    intro p hp
    rcases List.mem_append.mp hp with hp | hp
    · exact (ok.slots p hp).1
    · exact hi.lt p hp
  · show (allDas (x.cells :: u.w.mem.ctxs)).Nodup
    rw [allDas_cons, List.nodup_append]
    exact ⟨frameDas_nodup ok.oneDa, hi.dnodup, fun a ha b hb eab => ok.freeD a ha (eab ▸ hb)⟩
  · show ∀ a ∈ allDas (x.cells :: u.w.mem.ctxs), a < u.w.mem.next
    rw [allDas_cons]
    intro a ha
    rcases List.mem_append.mp ha with ha | ha
    · exact (ok.das a ha).1
    · exact hi.dlt a ha
  · show ∀ ty, T ty = bind ty (allSlots D (x.cells :: u.w.mem.ctxs))
    intro ty
    rw [allSlots_cons, hS, hfs', bind_append, k5, hi.tls]
  · show d = (allDas (x.cells :: u.w.mem.ctxs)).head?
    rw [allDas_cons, k6, hi.tlsDa, List.head?_append]
  · show FramesOk M D (x.cells :: u.w.mem.ctxs)
    refine ⟨⟨?_, ?_, ?_, ok.oneDa⟩, framesOk_congr_on hi.frames hD hM⟩
    · rw [hfs', hS]
      intro p hp
      obtain ⟨s1, hs1⟩ := (ok.slots _ (objSlots_sub hp)).2
      exact ⟨_, k1 p hp s1 hs1, hi.tls _⟩
    · intro a ha
      obtain ⟨_, d1, hd1, hz⟩ := ok.das a ha
      exact ⟨_, k3 a ha d1 hd1, hi.tlsDa, hz⟩
    · rw [hfs', ← hfs]; exact ok.tys
  · show absW { u.w with mem := { u.w.mem with mem := M, dmem := D, tls := T, tlsDa := d, ctxs := x.cells :: u.w.mem.ctxs } } =
      { s.w with mem := ⟨absFrame u.w.mem.mem u.w.mem.dmem x.cells :: s.w.mem.frames⟩ }
    rw [← h.w]
    simp only [absW, abs, absFrames, List.map_cons, habsf]
    have := absFrames_congr_on (mem' := M) (mem := u.w.mem.mem) hD hM
    simp only [absFrames] at this
    rw [this]
  · show ActRel (upd u.pool c (some { x with active := true })) (c :: s.active) (x.cells :: u.w.mem.ctxs)
    refine ⟨⟨_, upd_same _ _ _, rfl, rfl⟩, h.act.congr (fun d hd => upd_ne _ _ (fun e => hca (e ▸ hd)))⟩
  · show (c :: s.active).Nodup
    exact List.nodup_cons.mpr ⟨hca, h.once⟩
  · intro e1
    show CtxRel _ (c :: s.active) e1 (upd u.pool c (some { x with active := true }) e1) (upd s.pool c (some .active) e1)
    by_cases ec : e1 = c
    · subst ec; rw [upd_same, upd_same]; exact ⟨rfl, hxs, List.mem_cons_self ..⟩
    · rw [upd_ne _ _ ec, upd_ne _ _ ec]
      refine (h.pool e1).keep (by simp [ec]) fun z b hz ha hb => ?_
      have hap := h.apart e1 c z x ec hz hx ha hxa
      have := hb.keep (m' := { u.w.mem with mem := M, dmem := D, tls := T, tlsDa := d, ctxs := x.cells :: u.w.mem.ctxs }) (fun a ha => k4 a (hap.das a ha))
        (fun p hp => k2 p.2 (fun hm => by obtain ⟨q, hq, eq⟩ := List.mem_map.mp hm; exact hap.slots p hp q (objSlots_sub hq) eq.symm)) (Nat.le_refl _)
        (by
          show ∀ p ∈ frameSlots u.w.mem.dmem z.cells, ∀ q ∈ allSlots D (x.cells :: u.w.mem.ctxs), p.2 ≠ q.2
          rw [allSlots_cons, hS, hfs', ← hfs]
          intro p hp q hq
          rcases List.mem_append.mp hq with hq | hq
          · exact hap.slots p hp q hq
          · exact hb.freeS p hp q hq)
        (by
          show ∀ a ∈ frameDas z.cells, a ∉ allDas (x.cells :: u.w.mem.ctxs)
          rw [allDas_cons]
          intro a ha hq
          rcases List.mem_append.mp hq with hq | hq
          · exact hap.das a ha hq
          · exact hb.freeD a ha hq)
      exact ⟨this.1, this.2.1⟩
  · intro c1 c2 y1 y2 hne hy1 hy2 ha1 ha2
    replace hy1 : upd u.pool c (some { x with active := true }) c1 = some y1 := hy1
    replace hy2 : upd u.pool c (some { x with active := true }) c2 = some y2 := hy2
    have n1 : c1 ≠ c := by rintro rfl; rw [upd_same] at hy1; cases hy1; simp at ha1
    have n2 : c2 ≠ c := by rintro rfl; rw [upd_same] at hy2; cases hy2; simp at ha2
    rw [upd_ne _ _ n1] at hy1
    rw [upd_ne _ _ n2] at hy2
    have a0 := h.apart c1 c2 y1 y2 hne hy1 hy2 ha1 ha2
    have b1 := h.apart c1 c y1 x n1 hy1 hx ha1 hxa
    have b2 := h.apart c2 c y2 x n2 hy2 hx ha2 hxa
    refine ⟨?_, a0.das⟩
    show ∀ p ∈ frameSlots D y1.cells, ∀ q ∈ frameSlots D y2.cells, p.2 ≠ q.2
    rw [frameSlots_congr_on (fun a ha => k4 a (b1.das a ha)), frameSlots_congr_on (fun a ha => k4 a (b2.das a ha))]
    exact a0.slots


/-! ### deactivate -/

theorem absCell_boundIn {m : PtrStore} {fs : List (List PCell)} {f : List PCell} (h : (absFrame m.mem m.dmem f).any (·.boundIn (absFrames m.mem m.dmem fs)) = false) :
    (∀ p ∈ objSlots f, PtrStore.bind p.1 (allSlots m.dmem fs) = none) ∧ ∀ a ∈ frameDas f, (allDas fs).head? = none := by
  rw [List.any_eq_false] at h
  refine ⟨fun p hp => ?_, fun a ha => ?_⟩
  · obtain ⟨y, hy, hp⟩ := List.mem_flatMap.mp hp
    cases y with
    | da b => simp at hp
    | obj ty b =>
      simp only [List.mem_singleton] at hp
      subst hp
      have := h _ (List.mem_map_of_mem (f := absCell m.mem m.dmem) hy)
      simp only [absCell, CtxCell.boundIn, boundCell_abs] at this
      simpa using this
  · obtain ⟨y, hy, hp⟩ := List.mem_flatMap.mp ha
    cases y with
    | obj ty b => simp [cellDas] at hp
    | da b =>
      have := h _ (List.mem_map_of_mem (f := absCell m.mem m.dmem) hy)
      simp only [absCell, CtxCell.boundIn, boundDa_abs] at this
      simpa using this

theorem CRel.deactivate {u : UWorld} {s : SWorld} (h : CRel u s) {c : Nat} {as : List Nat} {f : List CtxCell} {fs : List (List CtxCell)} (hs : s.active = c :: as) (hf : s.w.mem.frames = f :: fs) :
    ∃ x m, u.pool c = some x ∧ x.active = true ∧ PtrStore.deactivate x.cells u.w.mem = some m ∧ (m.dmem = u.w.mem.dmem ∧ u.w.mem.ctxs = x.cells :: m.ctxs.erase x.cells) ∧
      CRel ((u.setMem { m with ctxs := m.ctxs.erase x.cells }).setPool c (some { x with active := false })) ({ s.setFrames fs with active := as }.setPool c (some (.idle f (f.any (·.boundIn fs)) false))) := by
  have hact := h.act
  have hfr := h.frames
  have hi := h.inv
  have honce := h.once
  rw [hs] at hact honce
  rw [List.nodup_cons] at honce
  cases hctx : u.w.mem.ctxs with
  | nil => rw [hctx] at hact; exact hact.elim
  | cons g gs =>
    rw [hctx] at hact
    obtain ⟨⟨x, hx, hxa, rfl⟩, hact⟩ := hact
    have hfr2 := hi.frames
    rw [hctx] at hfr2
    rw [hctx, hf] at hfr
    simp only [absFrames, List.map_cons, List.cons.injEq] at hfr
    obtain ⟨rfl, hfr3⟩ := hfr
    have hfr3' : fs = absFrames u.w.mem.mem u.w.mem.dmem gs := hfr3
    subst hfr3'
    have hS : allSlots u.w.mem.dmem u.w.mem.ctxs = frameSlots u.w.mem.dmem x.cells ++ allSlots u.w.mem.dmem gs := by rw [hctx, allSlots_cons]
    have hD : allDas u.w.mem.ctxs = frameDas x.cells ++ allDas gs := by rw [hctx, allDas_cons]
    have hnd := hi.nodup
    rw [hS, List.map_append, List.nodup_append] at hnd
    have hdn := hi.dnodup
    rw [hD, List.nodup_append] at hdn
    obtain ⟨t, d, h1, h2, h3⟩ := deactivate_ok x.cells u.w.mem (fun ty => PtrStore.bind ty (allSlots u.w.mem.dmem gs)) _ hfr2.1.slots hfr2.1.das
    have ht : t = fun ty => PtrStore.bind ty (allSlots u.w.mem.dmem gs) := by
      funext ty
      rw [h2]
      split
      · rfl
      · rename_i hn
        rw [hi.tls, hS, bind_append, bind_none.2 hn]; rfl
    have hd' : d = (allDas gs).head? := by
      rw [h3]
      split
      · rename_i hn
        rw [hi.tlsDa, hD, hn]; rfl
      · rfl
    subst ht hd'
    have herase : u.w.mem.ctxs.erase x.cells = gs := by rw [hctx, List.erase_cons_head]
    refine ⟨x, _, hx, hxa, h1, ⟨rfl, by simp only [herase]⟩, ?_⟩
    simp only [herase]
    have hspent : x.spent = false := by
      have := h.pool c
      rw [hx] at this
      cases hy : s.pool c with
      | none => rw [hy] at this; exact this.elim
      | some y =>
        rw [hy] at this
        cases y with
        | active => exact this.2.1
        | idle cells pinned spent => rw [this.1] at hxa; simp at hxa
    have hidle : ∀ z b, IdleOk u.w.mem z b → IdleOk { u.w.mem with tls := fun ty => PtrStore.bind ty (allSlots u.w.mem.dmem gs), tlsDa := (allDas gs).head?, ctxs := gs } z b := by
      intro z b hb
      refine (hb.keep (m' := { u.w.mem with tls := fun ty => PtrStore.bind ty (allSlots u.w.mem.dmem gs), tlsDa := (allDas gs).head?, ctxs := gs }) (fun _ _ => rfl) (fun _ _ => rfl) (Nat.le_refl _) ?_ ?_).1
      · intro p hp q hq
        exact hb.freeS p hp q (by rw [hS]; exact List.mem_append_right _ hq)
      · intro a ha hq
        exact hb.freeD a ha (by rw [hD]; exact List.mem_append_right _ hq)
    refine ⟨⟨hnd.2.1, ?_, hdn.2.1, ?_, fun _ => rfl, rfl, hfr2.2⟩, ?_, ?_, honce.2, ?_, ?_⟩
    · intro p hp
      exact hi.lt p (by rw [hS]; exact List.mem_append_right _ hp)
    · intro p hp
      exact hi.dlt p (by rw [hD]; exact List.mem_append_right _ hp)
    · show absW { u.w with mem := { u.w.mem with tls := fun ty => PtrStore.bind ty (allSlots u.w.mem.dmem gs), tlsDa := (allDas gs).head?, ctxs := gs } } =
        { s.w with mem := ⟨absFrames u.w.mem.mem u.w.mem.dmem gs⟩ }
      rw [← h.w]
      rfl
    · show ActRel (upd u.pool c (some { x with active := false })) as gs
      exact hact.congr (fun d hd => upd_ne _ _ (fun e => honce.1 (e ▸ hd)))
    · intro e1
      show CtxRel _ as e1 (upd u.pool c (some { x with active := false }) e1) (upd s.pool c _ e1)
      by_cases ec : e1 = c
      · subst ec
        rw [upd_same, upd_same]
        refine ⟨rfl, hspent, honce.1, rfl, ⟨?_, ?_, hfr2.1.tys, hfr2.1.oneDa, hnd.1, ?_, ?_, ?_, ?_⟩⟩
        · intro p hp
          obtain ⟨s1, hs1, _⟩ := hfr2.1.slots p hp
          exact ⟨hi.lt p (by rw [hS]; exact List.mem_append_left _ hp), s1, hs1⟩
        · intro a ha
          obtain ⟨d1, hd1, _, hz⟩ := hfr2.1.das a ha
          exact ⟨hi.dlt a (by rw [hD]; exact List.mem_append_left _ ha), d1, hd1, hz⟩
        · intro hb p hp s1 hs1
          obtain ⟨s2, hs2, hp2⟩ := hfr2.1.slots p (objSlots_sub hp)
          replace hs1 : u.w.mem.mem p.2 = some s1 := hs1
          rw [hs2] at hs1
          cases hs1
          rw [hp2]
          exact (absCell_boundIn hb).1 p hp
        · intro hb a ha d1 hd1
          obtain ⟨d2, hd2, hp2, _⟩ := hfr2.1.das a ha
          replace hd1 : u.w.mem.dmem a = some d1 := hd1
          rw [hd2] at hd1
          cases hd1
          rw [hp2]
          exact (absCell_boundIn hb).2 a ha
        · intro p hp q hq e
          exact hnd.2.2 _ (List.mem_map_of_mem (f := Prod.snd) hp) _ (List.mem_map_of_mem (f := Prod.snd) hq) e
        · intro a ha hq
          exact hdn.2.2 _ ha _ hq rfl
      · rw [upd_ne _ _ ec, upd_ne _ _ ec]
        refine (h.pool e1).keep (by rw [hs]; simp [ec]) fun z b hz ha hb => ⟨hidle _ _ hb, rfl⟩
    · intro c1 c2 y1 y2 hne hy1 hy2 ha1 ha2
      replace hy1 : upd u.pool c (some { x with active := false }) c1 = some y1 := hy1
      replace hy2 : upd u.pool c (some { x with active := false }) c2 = some y2 := hy2
      show Apart { u.w.mem with tls := fun ty => PtrStore.bind ty (allSlots u.w.mem.dmem gs), tlsDa := (allDas gs).head?, ctxs := gs } y1.cells y2.cells
      have key : ∀ e1 y, e1 ≠ c → u.pool e1 = some y → y.active = false → Apart { u.w.mem with tls := fun ty => PtrStore.bind ty (allSlots u.w.mem.dmem gs), tlsDa := (allDas gs).head?, ctxs := gs } y.cells x.cells := by
        intro e1 y _ hy ha
        obtain ⟨b, hb⟩ := h.idleOk hy ha
        refine ⟨fun p hp q hq => hb.freeS p hp q (by rw [hS]; exact List.mem_append_left _ hq), fun a ha hq => hb.freeD a ha (by rw [hD]; exact List.mem_append_left _ hq)⟩
      by_cases n1 : c1 = c
      · subst n1
        rw [upd_same] at hy1
        cases hy1
        rw [upd_ne _ _ (Ne.symm hne)] at hy2
        exact (key c2 y2 (Ne.symm hne) hy2 ha2).symm
      · rw [upd_ne _ _ n1] at hy1
        by_cases n2 : c2 = c
        · subst n2
          rw [upd_same] at hy2
          cases hy2
          exact key c1 y1 n1 hy1 ha1
        · rw [upd_ne _ _ n2] at hy2
          have := h.apart c1 c2 y1 y2 hne hy1 hy2 ha1 ha2
          exact ⟨this.slots, this.das⟩

/-! ### create, destroy -/

theorem none_act {u : UWorld} {s : SWorld} (h : CRel u s) {c : Nat} (hx : s.pool c = none) : c ∉ s.active := by
  have : ∀ cs fs, ActRel u.pool cs fs → c ∉ cs := by
    intro cs
    induction cs with
    | nil => intro _ _; simp
    | cons d cs ih =>
      intro fs
      cases fs with
      | nil => intro hh; exact hh.elim
      | cons f fs =>
        rintro ⟨⟨x, hx', _⟩, hh⟩ hm
        rcases List.mem_cons.mp hm with rfl | hm
        · rw [h.get_none hx] at hx'; simp at hx'
        · exact ih fs hh hm
  exact this _ _ h.act

theorem CRel.create {u : UWorld} {s : SWorld} (h : CRel u s) {c : Nat} {spec : List CellTy} (hs : s.pool c = none) (hn : spec.Nodup) :
    CRel ((u.setMem (build spec u.w.mem).2).setPool c (some ⟨(build spec u.w.mem).1, false, false⟩)) (s.setPool c (some (.idle (spec.map CellTy.empty) false false))) := by
  obtain ⟨b1, b2, b3, b4, b5, b6, b7⟩ := build_new spec u.w.mem
  obtain ⟨c1, c2, c3⟩ := build_ctxs spec u.w.mem
  obtain ⟨k1, k2, k3⟩ := build_keeps spec u.w.mem
  have hl : Local u.w.mem (build spec u.w.mem).2 [] := ⟨k1, c1, c2, c3, fun a ha _ => k3 a ha, fun a ha _ => k2 a ha⟩
  refine h.change (f := []) (none_act h hs) hl (by simp [frameSlots]) (by simp [frameDas]) (fun _ _ _ _ _ => ⟨by simp [frameSlots], by simp [frameDas]⟩) ?_ ?_
  · exact ⟨rfl, rfl, none_act h hs, b7.symm, build_idle h.inv hn⟩
  · intro x hx d y _ hy hya
    cases hx
    obtain ⟨b, ok⟩ := h.idleOk hy hya
    refine ⟨?_, ?_⟩
    · rw [b1, frameSlots_congr_on (fun a ha => k2 a (ok.das a ha).1)]
      intro p hp q hq e
      exact Nat.lt_irrefl _ (Nat.lt_of_lt_of_le (ok.slots q hq).1 (e ▸ (b2 p hp).1))
    · intro a ha hq
      exact Nat.lt_irrefl _ (Nat.lt_of_lt_of_le (ok.das a hq).1 (b3 a ha).1)

theorem CRel.destroy {u : UWorld} {s : SWorld} (h : CRel u s) {c : Nat} {cells : List CtxCell} {pinned spent : Bool} (hs : s.pool c = some (.idle cells pinned spent)) :
    ∃ x m, u.idle c = some x ∧ PtrStore.destroy x.cells u.w.mem = some m ∧ CRel ((u.setMem m).setPool c none) (s.setPool c none) := by
  obtain ⟨x, hx, hid, hxa, hxs, hca, hcells, ok⟩ := h.get_idle hs
  obtain ⟨M, D, e, k2, k3⟩ := destroy_ok x.cells u.w.mem (fun p hp => (ok.slots p hp).2) (fun p hp => ok.notBound h.inv hp p.1) ok.nodup
    (fun a ha => (ok.das a ha).2.imp fun d hd => hd.1) (fun a ha => ok.notBoundDa h.inv ha) (frameDas_nodup ok.oneDa)
  refine ⟨x, _, hid, e, h.changeOwn hca hx hxa ⟨Nat.le_refl _, rfl, rfl, rfl, ?_, ?_⟩ trivial (fun _ hz => by cases hz)⟩
  · intro a _ ha
    simp only [k2]
    rw [if_neg]
    intro hm
    obtain ⟨p, hp, e⟩ := List.mem_map.mp hm
    exact ha p hp e
  · intro a _ ha
    simp only [k3]
    rw [if_neg ha]

end Leaf
