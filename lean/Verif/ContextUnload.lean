import Verif.ContextMove

/-!
# Context objects: `context::unload`, and all operations together
-/

namespace Leaf
open PtrStore

theorem sim_slotUnloadRest {n : Nat} (cfg : Cfg) (id : Id) (ty : Ty) (c : Cell) : Sim n n (slotUnloadRest cfg id ty c) (slotUnloadRest cfg id ty c) := by
  unfold slotUnloadRest; sim

theorem sim_handleError {n : Nat} (cfg : Cfg) (specs : List (List Arg)) {b1 : Nat → List ArgVal → Comp PtrStore Out} {b2 : Nat → List ArgVal → Comp AbsStore Out}
    (hb : ∀ i args, Sim n n (b1 i args) (b2 i args)) (cells : List CtxCell) (id : Id) : Sim n n (handleError cfg specs b1 cells id) (handleError cfg specs b2 cells id) := by
  unfold handleError
  refine Sim.bind (sim_ctxLoc _ _) fun loc => ?_
  split
  · exact sim_callHandler cfg specs hb _ _ _ _ _
  · exact Sim.ub _

theorem UWorld.setPool_same {u : UWorld} {c : Nat} {x : Option UCtx} (hx : u.pool c = x) : u.setPool c x = u := by
  simp only [UWorld.setPool]
  congr 1
  funext e1
  by_cases ec : e1 = c
  · subst ec; rw [upd_same]; exact hx.symm
  · exact upd_ne _ _ ec

theorem SWorld.setPool_same {s : SWorld} {c : Nat} {x : Option SCtx} (hx : s.pool c = x) : s.setPool c x = s := by
  simp only [SWorld.setPool]
  congr 1
  funext e1
  by_cases ec : e1 = c
  · subst ec; rw [upd_same]; exact hx.symm
  · exact upd_ne _ _ ec

theorem unloadNodesAt_ok (cfg : Cfg) (id : Id) (ns : List (Ty × Addr)) (m0 : PtrStore) (w : World PtrStore) (w' : World AbsStore) (hi : Inv w.mem) (hu : Untouched m0 w.mem) (hc : w.mem.ctxs = m0.ctxs)
    (hn : ∀ p ∈ ns, p.2 < m0.next ∧ (∃ s, m0.mem p.2 = some s) ∧ ∀ q ∈ allSlots m0.dmem m0.ctxs, p.2 ≠ q.2)
    (h : unloadDaNodes cfg id (absNodes m0.mem ns) (absW w) = some ((), w')) :
    ∃ w2, unloadNodesAt cfg id ns w = some ((), w2) ∧ absW w2 = w' ∧ Inv w2.mem ∧ Untouched m0 w2.mem ∧ w2.mem.ctxs = m0.ctxs := by
  induction ns generalizing w with
  | nil => cases h; exact ⟨w, rfl, rfl, hi, hu, hc⟩
  | cons p ns ih =>
    obtain ⟨ty, a⟩ := p
    obtain ⟨hlt, ⟨s, hs⟩, hq⟩ := hn (ty, a) (List.mem_cons_self ..)
    simp only at hlt hs hq
    replace h : (slotUnload cfg id ty (cellOf m0.mem a) >>= fun _ => unloadDaNodes cfg id (absNodes m0.mem ns)) (absW w) = some ((), w') := h
    rw [bind_apply] at h
    cases h1 : slotUnload cfg id ty (cellOf m0.mem a) (absW w) with
    | none => rw [h1] at h; simp at h
    | some r =>
      obtain ⟨⟨⟩, w1⟩ := r
      rw [h1, Option.bind_some] at h
      obtain ⟨w2, e1, rfl, e3, e4, e5⟩ := sim_step (sim_slotUnload cfg id ty _) hi h1
      obtain ⟨w3, f1, f2, f3, f4, f5⟩ := ih w2 e3 (hu.trans e4) (e5.trans hc) (fun p hp => hn p (List.mem_cons_of_mem _ hp)) h
      refine ⟨w3, ?_, f2, f3, f4, f5⟩
      have hma : w.mem.mem a = some s := by
        rw [hu.mem a hlt (fun p hp => Ne.symm (hq p hp))]; exact hs
      have hread : readSlot ty a w = some (s.cell, w) := by
        unfold readSlot
        rw [hma]
        refine if_neg fun e => ?_
        rw [hi.tls] at e
        rcases hu.slots _ (bind_mem e) with h2 | h2
        · exact hq _ h2 rfl
        · exact Nat.lt_irrefl _ (Nat.lt_of_lt_of_le hlt h2)
      show (readSlot ty a >>= fun c => slotUnload cfg id ty c >>= fun _ => unloadNodesAt cfg id ns) w = _
      rw [bind_apply, hread, Option.bind_some, bind_apply]
      rw [show s.cell = cellOf m0.mem a from by simp [cellOf, hs], e1]
      exact f1

theorem PtrStore.IdleOk.setCell {m : PtrStore} {f : List PCell} {b : Bool} (h : IdleOk m f b) {a : Addr} {s : PSlot} (hs : m.mem a = some s) (c : Cell) :
    IdleOk { m with mem := upd m.mem a (some { s with cell := c }) } f b := by
  refine ⟨fun p hp => ⟨(h.slots p hp).1, ?_⟩, h.das, h.tys, h.oneDa, h.nodup, ?_, h.dprev, h.freeS, h.freeD⟩
  · by_cases e : p.2 = a
    · rw [e]; exact ⟨_, upd_same _ _ _⟩
    · obtain ⟨s1, h1⟩ := (h.slots p hp).2
      exact ⟨s1, (upd_ne _ _ e).trans h1⟩
  · intro hb p hp s1 hs1
    by_cases e : p.2 = a
    · replace hs1 : upd m.mem a (some { s with cell := c }) p.2 = some s1 := hs1
      rw [e, upd_same] at hs1
      cases hs1
      exact h.prev hb p hp s (by rw [e]; exact hs)
    · exact h.prev hb p hp s1 ((upd_ne _ _ e).symm.trans hs1)

theorem unloadCellAt_ok (cfg : Cfg) (id : Id) {u : UWorld} {s : SWorld} (h : CRel u s) {c : Nat} {x : UCtx} {pre ys : List PCell} {y : PCell} {P R : List CtxCell} {X X' : CtxCell} {pinned spent : Bool} {w' : World AbsStore}
    (hx : u.pool c = some x) (hcells : x.cells = pre ++ y :: ys) (hs : s.pool c = some (.idle (P ++ X :: R) pinned spent)) (hlen : P.length = pre.length)
    (hr : unloadCellRest cfg id X s.w = some (X', w')) :
    ∃ w2, unloadCellAt cfg id y u.w = some ((), w2) ∧ CRel { u with w := w2 } ({ s with w := w' }.setPool c (some (.idle (P ++ X' :: R) pinned spent))) := by
  obtain ⟨x0, hx0, _, hxa, hxs, hca, habs, ok⟩ := h.get_idle hs
  rw [hx] at hx0
  cases hx0
  have habs0 := habs
  rw [hcells, absFrame_append] at habs
  obtain ⟨hP, hXR⟩ := List.append_inj habs (by rw [hlen]; simp [absFrame])
  simp only [absFrame, List.map_cons, List.cons.injEq] at hXR
  obtain ⟨hX, hR⟩ := hXR
  have hR' : R = absFrame u.w.mem.mem u.w.mem.dmem ys := hR
  have hnd := ok.nodup
  rw [hcells, frameSlots_append, frameSlots_cons, List.map_append, List.map_append, List.nodup_append, List.nodup_append] at hnd
  have hyS : ∀ p ∈ cellSlots u.w.mem.dmem y, p ∈ frameSlots u.w.mem.dmem x.cells := fun p hp => by
    rw [hcells, frameSlots_append, frameSlots_cons]; exact List.mem_append_right _ (List.mem_append_left _ hp)
  have hpreS : ∀ p ∈ frameSlots u.w.mem.dmem pre, p ∈ frameSlots u.w.mem.dmem x.cells := fun p hp => by
    rw [hcells, frameSlots_append]; exact List.mem_append_left _ hp
  have hysS : ∀ p ∈ frameSlots u.w.mem.dmem ys, p ∈ frameSlots u.w.mem.dmem x.cells := fun p hp => by
    rw [hcells, frameSlots_append, frameSlots_cons]; exact List.mem_append_right _ (List.mem_append_right _ hp)
  have hpreD : ∀ a ∈ frameDas pre, a ∈ frameDas x.cells := fun p hp => by rw [hcells, frameDas_append]; exact List.mem_append_left _ hp
  have hysD : ∀ a ∈ frameDas ys, a ∈ frameDas x.cells := fun p hp => by rw [hcells, frameDas_append, frameDas_cons]; exact List.mem_append_right _ (List.mem_append_right _ hp)
  -- slots of this element are apart from the rest
  have hneP : ∀ p ∈ cellSlots u.w.mem.dmem y, ∀ q ∈ frameSlots u.w.mem.dmem pre, p.2 ≠ q.2 := fun p hp q hq e =>
    hnd.2.2 _ (List.mem_map_of_mem (f := Prod.snd) hq) _ (List.mem_append_left _ (List.mem_map_of_mem (f := Prod.snd) hp)) e.symm
  have hneY : ∀ p ∈ cellSlots u.w.mem.dmem y, ∀ q ∈ frameSlots u.w.mem.dmem ys, p.2 ≠ q.2 := fun p hp q hq e =>
    hnd.2.1.2.2 _ (List.mem_map_of_mem (f := Prod.snd) hp) _ (List.mem_map_of_mem (f := Prod.snd) hq) e
  cases y with
  | obj ty a =>
    subst hX
    have hma : (ty, a) ∈ cellSlots u.w.mem.dmem (.obj ty a) := by simp [cellSlots]
    obtain ⟨hlt, s0, hs0⟩ := ok.slots _ (hyS _ hma)
    simp only at hlt hs0
    have hread : readSlot ty a u.w = some (cellOf u.w.mem.mem a, u.w) := by
      unfold readSlot
      rw [hs0]
      refine (if_neg (ok.notBound h.inv (hyS _ hma) ty)).trans ?_
      simp [cellOf, hs0]
    replace hr : (slotUnloadRest cfg id ty (cellOf u.w.mem.mem a) >>= fun c' => (pure (.obj ty c') : Comp AbsStore CtxCell)) s.w = some (X', w') := hr
    rw [bind_apply] at hr
    cases h1 : slotUnloadRest cfg id ty (cellOf u.w.mem.mem a) s.w with
    | none => rw [h1] at hr; simp at hr
    | some r =>
      obtain ⟨c', w1⟩ := r
      rw [h1, Option.bind_some, pure_apply] at hr
      cases hr
      obtain ⟨w2, e1, h2, hu⟩ := h.sim (sim_slotUnloadRest cfg id ty _) h1
      obtain ⟨ok2, k1, k2⟩ := ok.untouched hu
      have hs2 : w2.mem.mem a = some s0 := by
        rw [hu.mem a hlt (fun q hq => Ne.symm (ok.freeS _ (hyS _ hma) q hq))]; exact hs0
      refine ⟨{ w2 with mem := { w2.mem with mem := upd w2.mem.mem a (some { s0 with cell := c' }) } }, ?_, ?_⟩
      · show (readSlot ty a >>= fun c => slotUnloadRest cfg id ty c >>= fun c' => writeSlot a c') u.w = _
        rw [bind_apply, hread, Option.bind_some, bind_apply]
        simp only
        rw [e1, Option.bind_some]
        unfold writeSlot
        simp only [hs2]
      · have h3 := h2.changeOwn (c := c) (x := x) (x' := some x) (y' := some (.idle (P ++ .obj ty c' :: R) pinned spent)) (m' := { w2.mem with mem := upd w2.mem.mem a (some { s0 with cell := c' }) }) hca hx hxa
          ⟨Nat.le_refl _, rfl, rfl, rfl, fun b _ hb => upd_ne _ _ (fun e => hb (ty, a) (by
              show (ty, a) ∈ frameSlots w2.mem.dmem x.cells
              rw [k2]; exact hyS _ hma) e.symm), fun _ _ _ => rfl⟩
          ⟨hxa, hxs, hca, ?_, ok2.setCell hs2 c'⟩ (fun z hz => by cases hz; exact ⟨rfl, fun p hp => hp⟩)
        · rw [UWorld.setPool_same (show (UWorld.setMem { u with w := w2 } _).pool c = some x from hx)] at h3
          exact h3
        · show _ = absFrame (upd w2.mem.mem a (some { s0 with cell := c' })) w2.mem.dmem x.cells
          have hmem : ∀ p ∈ frameSlots u.w.mem.dmem x.cells, p.2 ≠ a → upd w2.mem.mem a (some { s0 with cell := c' }) p.2 = u.w.mem.mem p.2 := fun p hp e => by
            rw [upd_ne _ _ e]; exact hu.mem p.2 (ok.slots p hp).1 (fun q hq => Ne.symm (ok.freeS p hp q hq))
          have hdm : ∀ b ∈ frameDas x.cells, w2.mem.dmem b = u.w.mem.dmem b := fun b hb => hu.dmem b (ok.das b hb).1 (ok.freeD b hb)
          rw [hcells, absFrame_append]
          have e1 : absFrame (upd w2.mem.mem a (some { s0 with cell := c' })) w2.mem.dmem pre = P := by
            rw [hP]; exact absFrame_congr_on (fun b hb => hdm b (hpreD b hb)) (fun p hp => hmem p (hpreS p hp) (Ne.symm (hneP _ hma p hp)))
          have e2 : absFrame (upd w2.mem.mem a (some { s0 with cell := c' })) w2.mem.dmem ys = R := by
            rw [hR']; exact absFrame_congr_on (fun b hb => hdm b (hysD b hb)) (fun p hp => hmem p (hysS p hp) (Ne.symm (hneY _ hma p hp)))
          rw [e1, show absFrame (upd w2.mem.mem a (some { s0 with cell := c' })) w2.mem.dmem (.obj ty a :: ys) = .obj ty (cellOf (upd w2.mem.mem a (some { s0 with cell := c' })) a) :: absFrame (upd w2.mem.mem a (some { s0 with cell := c' })) w2.mem.dmem ys from rfl,
            e2, cellOf_upd_same]
  | da a =>
    subst hX
    have hda : a ∈ frameDas x.cells := by rw [hcells, frameDas_append, frameDas_cons]; exact List.mem_append_right _ (List.mem_append_left _ (by simp [cellDas]))
    obtain ⟨hlt, d, hd, hz⟩ := ok.das a hda
    have hnodes : nodesOf u.w.mem.dmem a = d.nodes := by simp [nodesOf, hd]
    have hkey : keyOf u.w.mem.dmem a = d.key := by simp [keyOf, hd]
    have honly : frameDas pre = [] ∧ frameDas ys = [] := by
      have := ok.oneDa
      rw [hcells, frameDas_append, frameDas_cons] at this
      simp only [cellDas, List.length_append, List.length_cons, List.length_nil] at this
      refine ⟨List.eq_nil_of_length_eq_zero ?_, List.eq_nil_of_length_eq_zero ?_⟩ <;> omega
    replace hr : unloadCellRest cfg id (.da (keyOf u.w.mem.dmem a) (absNodes u.w.mem.mem (nodesOf u.w.mem.dmem a))) s.w = some (X', w') := hr
    rw [hnodes, hkey] at hr
    unfold unloadCellRest unloadCell at hr
    by_cases hid : id = 0#32
    · simp only [hid, if_true] at hr
      simp [bind_apply, ub_apply] at hr
    · by_cases hk : d.key = 0#32
      · simp only [hid, hk, if_false, ne_eq, not_true_eq_false, pure_bind, if_true] at hr
        rw [pure_apply] at hr
        cases hr
        refine ⟨u.w, ?_, ?_⟩
        · unfold unloadCellAt
          simp only [hid, if_false, pure_bind]
          rw [bind_apply]
          unfold readDa
          simp [hd, hk, pure_apply]
        · rw [SWorld.setPool_same]
          · exact h
          · rw [show ({ s with w := s.w } : SWorld) = s from rfl, hs]
            simp [absCell, hkey, hnodes, hk]
      · simp only [hid, hk, if_false, ne_eq, not_false_eq_true, if_true, pure_bind] at hr
        replace hr : ((setCur id : Comp AbsStore Unit) >>= fun _ => unloadDaNodes cfg id (absNodes u.w.mem.mem d.nodes) >>= fun _ => (pure (.da d.key []) : Comp AbsStore CtxCell)) s.w = some (X', w') := hr
        rw [bind_apply, show (setCur id : Comp AbsStore Unit) s.w = some ((), { s.w with cur := id }) from rfl, Option.bind_some, bind_apply] at hr
        simp only at hr
        cases h1 : unloadDaNodes cfg id (absNodes u.w.mem.mem d.nodes) { s.w with cur := id } with
        | none => rw [h1] at hr; simp at hr
        | some r =>
          obtain ⟨⟨⟩, w1⟩ := r
          rw [h1, Option.bind_some, pure_apply] at hr
          cases hr
          have hnS : ∀ p ∈ d.nodes, p ∈ frameSlots u.w.mem.dmem x.cells := fun p hp => hyS p (by simpa [cellSlots, hnodes] using hp)
          have hw1 : ({ s.w with cur := id } : World AbsStore) = absW { u.w with cur := id } := by rw [← h.w]; rfl
          rw [hw1] at h1
          obtain ⟨w2, e1, e2, e3, e4, e5⟩ := unloadNodesAt_ok cfg id d.nodes u.w.mem { u.w with cur := id } _ h.inv (.refl _) rfl
            (fun p hp => ⟨(ok.slots p (hnS p hp)).1, (ok.slots p (hnS p hp)).2, ok.freeS p (hnS p hp)⟩) h1
          subst e2
          have h2 : CRel { u with w := w2 } { s with w := absW w2 } := h.untouched e3 e4 e5
          obtain ⟨ok2, k1, k2⟩ := ok.untouched e4
          have hmem : ∀ p ∈ frameSlots u.w.mem.dmem x.cells, w2.mem.mem p.2 = u.w.mem.mem p.2 := fun p hp => e4.mem p.2 (ok.slots p hp).1 (fun q hq => Ne.symm (ok.freeS p hp q hq))
          have hdm : ∀ b ∈ frameDas x.cells, w2.mem.dmem b = u.w.mem.dmem b := fun b hb => e4.dmem b (ok.das b hb).1 (ok.freeD b hb)
          have hndn : (d.nodes.map Prod.snd).Nodup := by
            have := hnd.2.1.1
            simpa [cellSlots, hnodes] using this
          obtain ⟨M, g1, g2⟩ := freeNodes_ok d.nodes w2.mem (fun p hp => by rw [hmem p (hnS p hp)]; exact (ok.slots p (hnS p hp)).2)
            (fun p hp => ok2.notBound e3 (by rw [k2]; exact hnS p hp) p.1) hndn
          -- the slots that remain
          have hD' : frameSlots (upd w2.mem.dmem a (some { d with nodes := [] })) x.cells = frameSlots u.w.mem.dmem pre ++ frameSlots u.w.mem.dmem ys := by
            rw [hcells, frameSlots_append, frameSlots_cons]
            rw [frameSlots_congr_on (dmem := u.w.mem.dmem) (f := pre) (by rw [honly.1]; simp), frameSlots_congr_on (dmem := u.w.mem.dmem) (f := ys) (by rw [honly.2]; simp)]
            simp [cellSlots, nodesOf, upd_same]
          have hsub : (frameSlots u.w.mem.dmem pre ++ frameSlots u.w.mem.dmem ys).Sublist (frameSlots u.w.mem.dmem x.cells) := by
            rw [hcells, frameSlots_append, frameSlots_cons]
            exact List.Sublist.append (List.Sublist.refl _) (List.sublist_append_right _ _)
          have hnot : ∀ p ∈ frameSlots u.w.mem.dmem pre ++ frameSlots u.w.mem.dmem ys, M p.2 = u.w.mem.mem p.2 := by
            intro p hp
            rw [g2, if_neg, hmem p (hsub.subset hp)]
            intro hm
            obtain ⟨q, hq, e⟩ := List.mem_map.mp hm
            have hq' : q ∈ cellSlots u.w.mem.dmem (.da a) := by simpa [cellSlots, hnodes] using hq
            rcases List.mem_append.mp hp with hp | hp
            · exact hneP q hq' p hp e
            · exact hneY q hq' p hp e
          refine ⟨{ w2 with mem := { w2.mem with mem := M, dmem := upd w2.mem.dmem a (some { d with nodes := [] }) } }, ?_, ?_⟩
          · unfold unloadCellAt
            simp only [hid, if_false, pure_bind]
            rw [bind_apply, show readDa a u.w = some (d, u.w) from by simp [readDa, hd], Option.bind_some]
            simp only [ne_eq, hk, not_false_eq_true, if_true]
            rw [bind_apply, show (setCur id : Comp PtrStore Unit) u.w = some ((), { u.w with cur := id }) from rfl, Option.bind_some, bind_apply]
            simp only
            rw [e1, Option.bind_some]
            unfold clearDa
            simp only [g1]
          · have h3 := h2.changeOwn (c := c) (x := x) (x' := some x) (y' := some (.idle (P ++ .da d.key [] :: R) pinned spent))
              (m' := { w2.mem with mem := M, dmem := upd w2.mem.dmem a (some { d with nodes := [] }) }) hca hx hxa
              ⟨Nat.le_refl _, rfl, rfl, rfl, ?_, fun b _ hb => upd_ne _ _ (fun e => hb (e ▸ hda))⟩
              ⟨hxa, hxs, hca, ?_, ?_⟩ ?_
            · rw [UWorld.setPool_same (show (UWorld.setMem { u with w := w2 } _).pool c = some x from hx)] at h3
              exact h3
            · intro b _ hb
              show M b = w2.mem.mem b
              rw [g2, if_neg]
              intro hm
              obtain ⟨q, hq, e⟩ := List.mem_map.mp hm
              exact hb q (by show q ∈ frameSlots w2.mem.dmem x.cells; rw [k2]; exact hnS q hq) e
            · show _ = absFrame M (upd w2.mem.dmem a (some { d with nodes := [] })) x.cells
              rw [hcells, absFrame_append]
              have f1 : absFrame M (upd w2.mem.dmem a (some { d with nodes := [] })) pre = P := by
                rw [hP]; exact absFrame_congr_on (by rw [honly.1]; simp) (fun p hp => hnot p (List.mem_append_left _ hp))
              have f2 : absFrame M (upd w2.mem.dmem a (some { d with nodes := [] })) ys = R := by
                rw [hR']; exact absFrame_congr_on (by rw [honly.2]; simp) (fun p hp => hnot p (List.mem_append_right _ hp))
              rw [f1, show absFrame M (upd w2.mem.dmem a (some { d with nodes := [] })) (.da a :: ys) = absCell M (upd w2.mem.dmem a (some { d with nodes := [] })) (.da a) :: absFrame M (upd w2.mem.dmem a (some { d with nodes := [] })) ys from rfl, f2]
              simp [absCell, keyOf, nodesOf, upd_same, absNodes]
            · have hfsl : frameSlots ({ w2.mem with mem := M, dmem := upd w2.mem.dmem a (some { d with nodes := [] }) } : PtrStore).dmem x.cells = frameSlots u.w.mem.dmem pre ++ frameSlots u.w.mem.dmem ys := hD'
              have hall := (h2.inv)
              refine ⟨?_, ?_, ?_, ok.oneDa, ?_, ?_, ?_, ?_, ?_⟩
              · rw [hfsl]
                intro p hp
                refine ⟨Nat.lt_of_lt_of_le (ok.slots p (hsub.subset hp)).1 e4.next, ?_⟩
                show ∃ s, M p.2 = some s
                rw [hnot p hp]
                exact (ok.slots p (hsub.subset hp)).2
              · intro b hb
                refine ⟨Nat.lt_of_lt_of_le (ok.das b hb).1 e4.next, ?_⟩
                by_cases e : b = a
                · subst e; exact ⟨_, upd_same _ _ _, fun _ => rfl⟩
                · show ∃ d1, upd w2.mem.dmem a (some { d with nodes := [] }) b = some d1 ∧ _
                  rw [upd_ne _ _ e, hdm b hb]
                  exact (ok.das b hb).2
              · rw [hfsl]; exact (hsub.map Prod.fst).nodup ok.tys
              · rw [hfsl]; exact (hsub.map Prod.snd).nodup ok.nodup
              · intro hb p hp s1 hs1
                replace hs1 : M p.2 = some s1 := hs1
                have hp' : p ∈ frameSlots u.w.mem.dmem pre ++ frameSlots u.w.mem.dmem ys := by rw [← hD']; exact objSlots_sub hp
                rw [hnot p hp'] at hs1
                exact ok.prev hb p hp s1 hs1
              · intro hb b hb' d1 hd1
                replace hd1 : upd w2.mem.dmem a (some { d with nodes := [] }) b = some d1 := hd1
                by_cases e : b = a
                · subst e
                  rw [upd_same] at hd1
                  cases hd1
                  exact ok.dprev hb b hb' d hd
                · rw [upd_ne _ _ e, hdm b hb'] at hd1
                  exact ok.dprev hb b hb' d1 hd1
              · rw [hfsl]
                intro p hp
                show ∀ q ∈ allSlots (upd w2.mem.dmem a (some { d with nodes := [] })) w2.mem.ctxs, p.2 ≠ q.2
                rw [allSlots_upd _ _ _ _ (ok2.freeD a hda)]
                exact ok2.freeS p (by rw [k2]; exact hsub.subset hp)
              · exact ok2.freeD
            · intro z hz
              cases hz
              refine ⟨rfl, ?_⟩
              show ∀ p ∈ frameSlots (upd w2.mem.dmem a (some { d with nodes := [] })) x.cells, p ∈ frameSlots w2.mem.dmem x.cells
              rw [hD', k2]
              exact fun p hp => hsub.subset hp

theorem unloadAt_ok (cfg : Cfg) (id : Id) {u : UWorld} {s : SWorld} {c : Nat} {x : UCtx} {pinned spent : Bool} (cs pre : List PCell) (P C rest : List CtxCell) (w' : World AbsStore) (h : CRel u s)
    (hx : u.pool c = some x) (hcells : x.cells = pre ++ cs) (hs : s.pool c = some (.idle (P ++ C) pinned spent)) (hlen : P.length = pre.length) (hr : unloadRest cfg id C s.w = some (rest, w')) :
    ∃ w2, unloadAt cfg id cs u.w = some ((), w2) ∧ CRel { u with w := w2 } ({ s with w := w' }.setPool c (some (.idle (P ++ rest) pinned spent))) := by
  induction cs generalizing pre P C rest w' with
  | nil =>
    obtain ⟨x0, hx0, _, hxa, hxs, hca, habs, ok⟩ := h.get_idle hs
    rw [hx] at hx0
    cases hx0
    have : C = [] := by
      have := congrArg List.length habs
      rw [hcells] at this
      simp only [absFrame, List.length_append, List.length_map, List.append_nil] at this
      exact List.eq_nil_of_length_eq_zero (by omega)
    subst this
    cases hr
    exact ⟨u.w, rfl, by rw [SWorld.setPool_same]; exact h; exact hs⟩
  | cons y cs ih =>
    obtain ⟨x0, hx0, _, hxa, hxs, hca, habs, ok⟩ := h.get_idle hs
    rw [hx] at hx0
    cases hx0
    cases C with
    | nil =>
      have := congrArg List.length habs
      rw [hcells] at this
      simp only [absFrame, List.length_append, List.length_map, List.length_cons, List.append_nil] at this
      omega
    | cons X C =>
      replace hr : (unloadRest cfg id C >>= fun xs' => unloadCellRest cfg id X >>= fun x' => (pure (x' :: xs') : Comp AbsStore (List CtxCell))) s.w = some (rest, w') := hr
      rw [bind_apply] at hr
      cases h1 : unloadRest cfg id C s.w with
      | none => rw [h1] at hr; simp at hr
      | some r =>
        obtain ⟨R, w1⟩ := r
        rw [h1, Option.bind_some, bind_apply] at hr
        simp only at hr
        cases h2 : unloadCellRest cfg id X w1 with
        | none => rw [h2] at hr; simp at hr
        | some r =>
          obtain ⟨X', w3⟩ := r
          rw [h2, Option.bind_some, pure_apply] at hr
          cases hr
          obtain ⟨w2, e1, e2⟩ := ih (pre ++ [y]) (P ++ [X]) C R w1 (by rw [hcells]; simp) (by rw [hs]; simp) (by simp [hlen]) h1
          have e2' : CRel { u with w := w2 } ({ s with w := w1 }.setPool c (some (.idle (P ++ X :: R) pinned spent))) := by simpa using e2
          obtain ⟨w4, e3, e4⟩ := unloadCellAt_ok cfg id e2' (pre := pre) (ys := cs) (y := y) hx hcells (show upd s.pool c _ c = _ from upd_same _ _ _) hlen h2
          refine ⟨w4, ?_, ?_⟩
          · show (unloadAt cfg id cs >>= fun _ => unloadCellAt cfg id y) u.w = _
            rw [bind_apply, e1]
            exact e3
          · have hh : ∀ (f : Nat → Option SCtx) (v1 v2 : Option SCtx), upd (upd f c v1) c v2 = upd f c v2 := by
              intro f v1 v2
              funext e; simp only [upd]; split <;> rfl
            simp only [SWorld.setPool, hh] at e4 ⊢
            exact e4

end Leaf
