import Verif.CaptureListLemmas

/-!
# C29: capture lists own their nodes
-/

namespace Leaf

/-! ## Specification -/

/-- The lists, by address, and the visits made by each loop, latest first. -/
structure CStates where
  lists : Nat → Option CState
  log : List (List Nat)

def CStates.set (s : CStates) (a : Nat) (x : Option CState) : CStates := { s with lists := fun b => if b = a then x else s.lists b }

/-- The nodes in a list. -/
def CState.items : CState → List Nat
  | .alloc xs => xs
  | .spent => []
  | .list xs => xs

/-- What the operations mean. `none`: not allowed: creating an object where one exists, using one that does not; capturing in, moving from or extracting from an unloaded allocator; capturing an object whose
constructor throws. -/
def CStates.step (s : CStates) : COp → Option CStates
  | .mkAlloc a => if s.lists a = none then some (s.set a (some (.alloc []))) else none
  | .capture a x =>
    match s.lists a with
    | some (.alloc xs) => some (s.set a (some (.alloc (xs ++ [x]))))
    | _ => none
  | .captureThrow _ _ => none
  | .moveAlloc a b =>
    match s.lists a, s.lists b with
    | none, some (.alloc xs) => some ((s.set b (some (.alloc []))).set a (some (.alloc xs)))
    | _, _ => none
  | .extract c a ex =>
    match s.lists c, s.lists a with
    | none, some (.alloc xs) => some ((s.set a (some (.alloc []))).set c (some (.list (xs ++ ex.toList))))
    | _, _ => none
  | .moveList a b =>
    match s.lists a, s.lists b with
    | none, some (.list xs) => some ((s.set b (some (.list []))).set a (some (.list xs)))
    | _, _ => none
  | .unload a stop =>
    match s.lists a with
    | some x => some { s.set a (some (match x with | .list _ => .list [] | _ => .spent)) with log := visitedUpTo stop x.items :: s.log }
    | none => none
  | .visit a =>
    match s.lists a with
    | some x => some { s with log := x.items :: s.log }
    | none => none
  | .drop a => if s.lists a = none then none else some (s.set a none)

def CStates.run (s : CStates) : List COp → Option CStates
  | [] => some s
  | op :: ops => (s.step op).bind (CStates.run · ops)

/-! ## Proofs -/

/-- The memory contains these lists. -/
def CMem.Rel (m : CMem) (s : CStates) (ch : Nat → CChain) : Prop := m.Inv ch ∧ (∀ a, m.Is ch a (s.lists a)) ∧ m.log = s.log

theorem CMem.Is.congr {m m' : CMem} {ch ch' : Nat → CChain} {a : Nat} {x} (h : m.Is ch a x) (ho : m'.objs a = m.objs a) (hc : ch' a = ch a) : m'.Is ch' a x := by
  unfold CMem.Is at h ⊢
  rw [ho, hc]
  exact h

theorem CMem.putObj_self (m : CMem) (a x) : (m.putObj a x).objs a = x := by simp [CMem.putObj]
theorem CMem.putObj_ne (m : CMem) {a b : Nat} (x) (h : b ≠ a) : (m.putObj a x).objs b = m.objs b := by simp [CMem.putObj, h]

theorem tailLoc_nil (a : Nat) : tailLoc a [] = .first a := rfl
theorem tailLoc_append (a : Nat) (c : CChain) (n x : Nat) : tailLoc a (c ++ [(n, x)]) = .next n := by simp [tailLoc]

/-- The final pointer of a list is null. -/
theorem load_tail {m : CMem} {ch} (h : m.Inv ch) {a : Nat} {o : CObj} (ho : m.objs a = some o) : m.load (tailLoc a (ch a)) = some none := by
  have hl := h.linked a o ho
  unfold tailLoc
  cases he : (ch a).getLast? with
  | none =>
    rw [List.getLast?_eq_none_iff] at he
    rw [he] at hl
    simp only [Linked] at hl
    simp [CMem.load, ho, hl]
  | some nx =>
    have := linked_last hl (n := nx.1) (x := nx.2) he
    simp [CMem.load, this]

theorem newNode_eq {m : CMem} {ch} (h : m.Inv ch) {a x : Nat} {xs : List Nat} (hs : m.Is ch a (some (.alloc xs))) :
    ∃ m', m.newNode a x = some m' ∧ m'.Inv (updChain ch a (ch a ++ [(m.fresh, x)])) ∧ m'.log = m.log ∧ (∀ c, c ≠ a → m'.objs c = m.objs c) ∧
      m'.Is (updChain ch a (ch a ++ [(m.fresh, x)])) a (some (.alloc (xs ++ [x]))) := by
  obtain ⟨f, ho, hp⟩ := hs
  have hl := h.linked a _ ho
  have hload := load_tail h ho
  -- the stores
  have hstep : ∀ m1, ({ m.putNode m.fresh (some ⟨x, none⟩) with fresh := m.fresh + 1 } : CMem).store (some m.fresh) (tailLoc a (ch a)) = some m1 →
      ∀ o1, m1.objs a = some o1 → m.newNode a x = some (m1.putObj a (some { o1 with last := some (.next m.fresh) })) := by
    intro m1 h1 o1 h2
    unfold CMem.newNode
    simp only [ho]
    show (m.load (tailLoc a (ch a)) >>= _) = _
    rw [hload]
    show (CMem.store _ _ _ >>= _) = _
    rw [h1]
    show (m1.objs a >>= _) = _
    rw [h2]
    rfl
  cases he : (ch a).getLast? with
  | none =>
    have hnil := List.getLast?_eq_none_iff.mp he
    have ht : tailLoc a (ch a) = .first a := by rw [hnil]; rfl
    rw [ht] at hstep
    have h1 : ({ m.putNode m.fresh (some ⟨x, none⟩) with fresh := m.fresh + 1 } : CMem).store (some m.fresh) (.first a) =
        some (({ m.putNode m.fresh (some ⟨x, none⟩) with fresh := m.fresh + 1 } : CMem).putObj a (some ⟨some m.fresh, some (tailLoc a (ch a))⟩)) := by
      simp [CMem.store, CMem.putNode, ho]
    refine ⟨_, hstep _ h1 _ (CMem.putObj_self ..), ?_, rfl, ?_, ?_⟩
    · refine h.grow ?_ rfl rfl ?_ (CMem.putObj_self ..) ?_
      · intro c hc n hn
        show (if n = m.fresh then _ else m.nodes n) = _
        rw [if_neg (fun e => Nat.lt_irrefl _ (e ▸ (h.lt c n hn).1))]
      · intro c hc
        rw [CMem.putObj_ne _ _ hc, CMem.putObj_ne _ _ hc]
        rfl
      · rw [hnil]
        refine ⟨rfl, none, ?_, rfl⟩
        show (if m.fresh = m.fresh then _ else _) = _
        rw [if_pos rfl]
    · intro c hc
      rw [CMem.putObj_ne _ _ hc, CMem.putObj_ne _ _ hc]
      rfl
    · refine ⟨some m.fresh, ?_, ?_⟩
      · rw [CMem.putObj_self, updChain_self, tailLoc_append]
      · rw [updChain_self, ← hp]
        simp [CChain.pays]
  | some nx =>
    obtain ⟨n0, x0⟩ := nx
    have ht : tailLoc a (ch a) = .next n0 := by simp [tailLoc, he]
    have hn0 := linked_last hl he
    have hmem0 : n0 ∈ (ch a).addrs := List.mem_map.mpr ⟨(n0, x0), List.mem_of_getLast? he, rfl⟩
    have hne0 : n0 ≠ m.fresh := fun e => Nat.lt_irrefl _ (e ▸ (h.lt a n0 hmem0).1)
    have hcne : ch a ≠ [] := by intro e; rw [e] at he; simp at he
    rw [ht] at hstep
    have h1 : ({ m.putNode m.fresh (some ⟨x, none⟩) with fresh := m.fresh + 1 } : CMem).store (some m.fresh) (.next n0) =
        some (({ m.putNode m.fresh (some ⟨x, none⟩) with fresh := m.fresh + 1 } : CMem).putNode n0 (some ⟨x0, some m.fresh⟩)) := by
      simp [CMem.store, CMem.putNode, hn0, hne0]
    have hnodes : ∀ n, (({ m.putNode m.fresh (some ⟨x, none⟩) with fresh := m.fresh + 1 } : CMem).putNode n0 (some ⟨x0, some m.fresh⟩)).nodes n =
        if n = n0 then some ⟨x0, some m.fresh⟩ else if n = m.fresh then some ⟨x, none⟩ else m.nodes n := fun n => rfl
    refine ⟨_, hstep _ h1 _ ho, ?_, rfl, ?_, ?_⟩
    · refine h.grow ?_ rfl rfl ?_ (CMem.putObj_self ..) ?_
      · intro c hc n hn
        show (CMem.putNode _ _ _).nodes n = _
        rw [hnodes, if_neg (by rintro rfl; exact hc (h.disj c a n hn hmem0)), if_neg (fun e => Nat.lt_irrefl _ (e ▸ (h.lt c n hn).1))]
      · intro c hc
        rw [CMem.putObj_ne _ _ hc]
        rfl
      · have := linked_append (nodes := m.nodes)
          (nodes' := (({ m.putNode m.fresh (some ⟨x, none⟩) with fresh := m.fresh + 1 } : CMem).putNode n0 (some ⟨x0, some m.fresh⟩)).nodes) (m := m.fresh) (x := x)
          (by rw [hnodes, if_neg (Ne.symm hne0), if_pos rfl]) hl (h.nodup a)
          (by
            intro n y hy
            rw [he] at hy
            cases hy
            rw [hnodes, if_pos rfl])
          (by
            intro n hn hlast
            rw [hnodes, if_neg, if_neg]
            · exact fun e => Nat.lt_irrefl _ (e ▸ (h.lt a n hn).1)
            · rintro rfl
              exact hlast x0 he)
        rw [if_neg hcne] at this
        exact this
    · intro c hc
      rw [CMem.putObj_ne _ _ hc]
      rfl
    · refine ⟨f, ?_, ?_⟩
      · rw [CMem.putObj_self, updChain_self, tailLoc_append]
      · rw [updChain_self, ← hp]
        simp [CChain.pays]

theorem Is_obj {m : CMem} {ch a x} (h : m.Is ch a (some x)) : ∃ o, m.objs a = some o := by
  cases x with
  | alloc xs => obtain ⟨f, h, _⟩ := h; exact ⟨_, h⟩
  | spent => obtain ⟨l, h⟩ := h; exact ⟨_, h⟩
  | list xs => obtain ⟨f, h, _⟩ := h; exact ⟨_, h⟩

theorem Is_items {m : CMem} {ch} (hi : m.Inv ch) {a x} (h : m.Is ch a (some x)) : (ch a).pays = x.items := by
  cases x with
  | alloc xs => obtain ⟨f, _, h⟩ := h; exact h
  | spent =>
    obtain ⟨l, h⟩ := h
    have := linked_first (hi.linked a _ h)
    cases hc : ch a with
    | nil => rfl
    | cons y r => simp [hc] at this
  | list xs => obtain ⟨f, _, h⟩ := h; exact h

theorem set_lists_self (s : CStates) (a x) : (s.set a x).lists a = x := by simp [CStates.set]
theorem set_lists_ne (s : CStates) {a b : Nat} (x) (h : b ≠ a) : (s.set a x).lists b = s.lists b := by simp [CStates.set, h]

theorem alloc_obj {m : CMem} {a : Nat} (h : m.objs a = none) (x : CObj) : m.alloc a x = some (m.putObj a (some x)) := by
  unfold CMem.alloc
  rw [h]

theorem tailLoc_hand {a b : Nat} (c : CChain) : (if tailLoc b c = .first b then CLoc.first a else tailLoc b c) = tailLoc a c := by
  unfold tailLoc
  cases c.getLast? with
  | none => simp
  | some n => simp

theorem CMem.step_refines {m : CMem} {s s' : CStates} {ch} (h : m.Rel s ch) {op : COp} (hs : s.step op = some s') : ∃ m' ch', m.step op = some m' ∧ m'.Rel s' ch' := by
  obtain ⟨hi, his, hlog⟩ := h
  cases op with
  | mkAlloc a =>
    simp only [CStates.step, Option.ite_none_right_eq_some, Option.some.injEq] at hs
    obtain ⟨ha, rfl⟩ := hs
    have hna : m.objs a = none := by have := his a; rw [ha] at this; exact this
    refine ⟨_, ch, alloc_obj hna _, ⟨hi.objs rfl rfl rfl ?_ ?_, ?_, hlog⟩⟩
    · intro c o hc
      by_cases e : c = a
      · subst e
        rw [putObj_self] at hc
        cases hc
        rw [hi.gone c hna]
        rfl
      · rw [putObj_ne _ _ e] at hc
        exact hi.linked c o hc
    · intro c hc
      by_cases e : c = a
      · subst e; exact hi.gone c hna
      · rw [putObj_ne _ _ e] at hc
        exact hi.gone c hc
    · intro c
      by_cases e : c = a
      · subst e
        rw [set_lists_self]
        refine ⟨none, ?_, ?_⟩
        · rw [putObj_self, hi.gone c hna]; rfl
        · rw [hi.gone c hna]; rfl
      · rw [set_lists_ne _ _ e]
        exact (his c).congr (putObj_ne _ _ e) rfl
  | capture a x =>
    simp only [CStates.step] at hs
    split at hs
    · rename_i xs ha
      cases hs
      have h1 := his a
      rw [ha] at h1
      obtain ⟨m', e1, e2, e3, e4, e5⟩ := newNode_eq hi (x := x) h1
      refine ⟨m', _, e1, e2, fun c => ?_, e3.trans hlog⟩
      by_cases e : c = a
      · subst e; rw [set_lists_self]; exact e5
      · rw [set_lists_ne _ _ e]
        exact (his c).congr (e4 c e) (updChain_ne _ _ e)
    · simp at hs
  | captureThrow a x => simp [CStates.step] at hs
  | moveAlloc a b =>
    simp only [CStates.step] at hs
    split at hs
    · rename_i xs ha hb
      cases hs
      have hna : m.objs a = none := by have := his a; rw [ha] at this; exact this
      have h1 := his b
      rw [hb] at h1
      obtain ⟨f, ho, hp⟩ := h1
      have hab : a ≠ b := by rintro rfl; rw [hna] at ho; simp at ho
      have hlb := hi.linked b _ ho
      -- the objects afterwards
      let m1 := m.putObj b (some ⟨none, some (tailLoc b (ch b))⟩)
      let m2 := m1.putObj a (some ⟨f, some (tailLoc a (ch b))⟩)
      let m3 := m2.putObj b (some ⟨none, some (.first b)⟩)
      have hm1a : m1.objs a = none := by rw [putObj_ne _ _ hab, hna]
      have hm2b : m2.objs b = some ⟨none, some (tailLoc b (ch b))⟩ := by rw [putObj_ne _ _ hab.symm, putObj_self]
      have hload : m2.load (tailLoc a (ch b)) = some none := by
        unfold tailLoc
        cases he : (ch b).getLast? with
        | none =>
          rw [List.getLast?_eq_none_iff] at he
          rw [he] at hlb
          simp only [Linked] at hlb
          simp [CMem.load, m2, putObj_self, hlb]
        | some nx =>
          have : m2.nodes nx.1 = some ⟨nx.2, none⟩ := linked_last hlb (n := nx.1) (x := nx.2) he
          simp [CMem.load, this]
      refine ⟨m3, updChain (updChain ch b []) a (ch b), ?_, hi.hand hab (hi.gone a hna) rfl rfl rfl (oa := ⟨f, some (tailLoc a (ch b))⟩) (ob := ⟨none, some (.first b)⟩) ?_ ?_ hlb rfl ?_, ?_, hlog⟩
      · simp only [CMem.step, ho]
        show (CMem.alloc m1 a ⟨f, some (if tailLoc b (ch b) = .first b then .first a else tailLoc b (ch b))⟩ >>= _) = _
        rw [tailLoc_hand, alloc_obj hm1a]
        show (m2.objs a >>= _) = _
        rw [show m2.objs a = some ⟨f, some (tailLoc a (ch b))⟩ from putObj_self ..]
        show (m2.load (tailLoc a (ch b)) >>= _) = _
        rw [hload]
        show (m2.objs b >>= _) = _
        rw [hm2b]
        rfl
      · show (m2.putObj b _).objs a = _
        rw [putObj_ne _ _ hab]
        exact putObj_self ..
      · exact putObj_self ..
      · intro c hca hcb
        show (m2.putObj b _).objs c = _
        rw [putObj_ne _ _ hcb]
        show (m1.putObj a _).objs c = _
        rw [putObj_ne _ _ hca]
        exact putObj_ne _ _ hcb
      · intro c
        by_cases hca : c = a
        · subst hca
          rw [set_lists_self]
          refine ⟨f, ?_, ?_⟩
          · rw [updChain_self]
            show (m2.putObj b _).objs c = _
            rw [putObj_ne _ _ hab]
            exact putObj_self ..
          · rw [updChain_self]; exact hp
        · rw [set_lists_ne _ _ hca]
          by_cases hcb : c = b
          · subst hcb
            rw [set_lists_self]
            refine ⟨none, ?_, ?_⟩
            · rw [updChain_ne _ _ hca, updChain_self]; exact putObj_self ..
            · rw [updChain_ne _ _ hca, updChain_self]; rfl
          · rw [set_lists_ne _ _ hcb]
            refine (his c).congr ?_ (by rw [updChain_ne _ _ hca, updChain_ne _ _ hcb])
            show (m2.putObj b _).objs c = _
            rw [putObj_ne _ _ hcb]
            show (m1.putObj a _).objs c = _
            rw [putObj_ne _ _ hca]
            exact putObj_ne _ _ hcb
    · simp at hs
  | extract c a ex =>
    simp only [CStates.step] at hs
    split at hs
    · rename_i xs hc ha
      cases hs
      have hnc : m.objs c = none := by have := his c; rw [hc] at this; exact this
      have h1 := his a
      rw [ha] at h1
      have hca : c ≠ a := by
        rintro rfl
        obtain ⟨f, ho, _⟩ := h1
        rw [hnc] at ho
        simp at ho
      -- with the node for the exception, if any
      have key : ∃ (m1 : CMem) (ch1 : Nat → CChain), m.newNodeFor a ex = some m1 ∧ m1.Inv ch1 ∧ m1.log = m.log ∧ (∀ b, b ≠ a → m1.objs b = m.objs b) ∧
          (∀ b, b ≠ a → ch1 b = ch b) ∧ m1.Is ch1 a (some (.alloc (xs ++ ex.toList))) := by
        cases ex with
        | none => exact ⟨m, ch, rfl, hi, rfl, fun _ _ => rfl, fun _ _ => rfl, by simpa using h1⟩
        | some x =>
          obtain ⟨m', e1, e2, e3, e4, e5⟩ := newNode_eq hi (x := x) h1
          exact ⟨m', _, e1, e2, e3, e4, fun b hb => updChain_ne _ _ hb, e5⟩
      obtain ⟨m1, ch1, k1, k2, k3, k4, k5, k6⟩ := key
      obtain ⟨f, ho, hp⟩ := k6
      have hnc1 : m1.objs c = none := by rw [k4 c hca, hnc]
      have hla := k2.linked a _ ho
      let m2 := m1.putObj a (some ⟨none, some (.first a)⟩)
      let m3 := m2.putObj c (some ⟨f, none⟩)
      have hm2c : m2.objs c = none := by rw [putObj_ne _ _ hca, hnc1]
      have hm3 : ∀ b, b ≠ c → b ≠ a → m3.objs b = m1.objs b := by
        intro b hbc hba
        show (m2.putObj c _).objs b = _
        rw [putObj_ne _ _ hbc]
        exact putObj_ne _ _ hba
      have hm3a : m3.objs a = some ⟨none, some (.first a)⟩ := by
        show (m2.putObj c _).objs a = _
        rw [putObj_ne _ _ hca.symm]
        exact putObj_self ..
      refine ⟨m3, updChain (updChain ch1 a []) c (ch1 a), ?_, k2.hand hca (k2.gone c hnc1) rfl rfl rfl (oa := ⟨f, none⟩) (ob := ⟨none, some (.first a)⟩) (putObj_self ..) hm3a hla rfl hm3, ?_, k3.trans hlog⟩
      · simp only [CMem.step]
        rw [k1]
        show (m1.objs a >>= _) = _
        rw [ho]
        show m2.alloc c ⟨f, none⟩ = _
        rw [alloc_obj hm2c]
      · intro b
        by_cases hbc : b = c
        · subst hbc
          rw [set_lists_self]
          refine ⟨f, putObj_self .., ?_⟩
          rw [updChain_self]
          exact hp
        · rw [set_lists_ne _ _ hbc]
          by_cases hba : b = a
          · subst hba
            rw [set_lists_self]
            refine ⟨none, ?_, ?_⟩
            · rw [updChain_ne _ _ hbc, updChain_self]; exact hm3a
            · rw [updChain_ne _ _ hbc, updChain_self]; rfl
          · rw [set_lists_ne _ _ hba]
            refine (his b).congr ?_ (by rw [updChain_ne _ _ hbc, updChain_ne _ _ hba, k5 b hba])
            rw [hm3 b hbc hba, k4 b hba]
    · simp at hs
  | moveList a b =>
    simp only [CStates.step] at hs
    split at hs
    · rename_i xs ha hb
      cases hs
      have hna : m.objs a = none := by have := his a; rw [ha] at this; exact this
      have h1 := his b
      rw [hb] at h1
      obtain ⟨f, ho, hp⟩ := h1
      have hab : a ≠ b := by rintro rfl; rw [hna] at ho; simp at ho
      have hlb := hi.linked b _ ho
      let m1 := m.putObj b (some ⟨none, none⟩)
      let m2 := m1.putObj a (some ⟨f, none⟩)
      have hm1a : m1.objs a = none := by rw [putObj_ne _ _ hab, hna]
      have hm2b : m2.objs b = some ⟨none, none⟩ := by rw [putObj_ne _ _ hab.symm, putObj_self]
      have hm2 : ∀ c, c ≠ a → c ≠ b → m2.objs c = m.objs c := by
        intro c hca hcb
        show (m1.putObj a _).objs c = _
        rw [putObj_ne _ _ hca]
        exact putObj_ne _ _ hcb
      refine ⟨m2, updChain (updChain ch b []) a (ch b), ?_, hi.hand hab (hi.gone a hna) rfl rfl rfl (oa := ⟨f, none⟩) (ob := ⟨none, none⟩) (putObj_self ..) hm2b hlb rfl hm2, ?_, hlog⟩
      · simp only [CMem.step, ho]
        show CMem.alloc m1 a ⟨f, none⟩ = _
        rw [alloc_obj hm1a]
      · intro c
        by_cases hca : c = a
        · subst hca
          rw [set_lists_self]
          refine ⟨f, putObj_self .., ?_⟩
          rw [updChain_self]
          exact hp
        · rw [set_lists_ne _ _ hca]
          by_cases hcb : c = b
          · subst hcb
            rw [set_lists_self]
            refine ⟨none, hm2b, ?_⟩
            rw [updChain_ne _ _ hca, updChain_self]
            rfl
          · rw [set_lists_ne _ _ hcb]
            exact (his c).congr (hm2 c hca hcb) (by rw [updChain_ne _ _ hca, updChain_ne _ _ hcb])
    · simp at hs
  | unload a stop =>
    simp only [CStates.step] at hs
    cases ha : s.lists a with
    | none => simp [ha] at hs
    | some x =>
      simp only [ha, Option.some.injEq] at hs
      subst hs
      have h1 := his a
      rw [ha] at h1
      obtain ⟨o, ho⟩ := Is_obj h1
      have hl := hi.linked a o ho
      let m1 := m.putObj a (some { o with first := none })
      have hw : m1.walk m.fresh o.first stop = some (visitedUpTo stop x.items) := by
        rw [walk_eq (m := m1) hl (hi.length_le a), Is_items hi h1]
      obtain ⟨m', f1, f2, f3, f4, f5, f6⟩ := free_eq (m := { m1 with log := visitedUpTo stop x.items :: m1.log }) hl (hi.nodup a) (hi.length_le a)
      have hoa : m'.objs a = some { o with first := none } := by rw [f2]; exact putObj_self ..
      refine ⟨m', updChain ch a [], ?_, hi.freeAll f6 f3 f5 ?_ ?_, ?_, ?_⟩
      · simp only [CMem.step, ho]
        show (m1.walk m.fresh o.first stop >>= _) = _
        rw [hw]
        exact f1
      · intro c hc
        rw [f2]
        exact putObj_ne _ _ hc
      · intro o' ho'
        rw [hoa] at ho'
        cases ho'
        rfl
      · intro c
        by_cases hc : c = a
        · subst hc
          show m'.Is _ c ((s.set c _).lists c)
          rw [set_lists_self]
          cases x with
          | alloc xs =>
            obtain ⟨f, ho', _⟩ := h1
            rw [ho] at ho'
            cases ho'
            exact ⟨_, hoa⟩
          | spent =>
            obtain ⟨l, ho'⟩ := h1
            rw [ho] at ho'
            cases ho'
            exact ⟨_, hoa⟩
          | list xs =>
            obtain ⟨f, ho', _⟩ := h1
            rw [ho] at ho'
            cases ho'
            exact ⟨none, hoa, by rw [updChain_self]; rfl⟩
        · show m'.Is _ c ((s.set a _).lists c)
          rw [set_lists_ne _ _ hc]
          refine (his c).congr ?_ (updChain_ne _ _ hc)
          rw [f2]
          exact putObj_ne _ _ hc
      · rw [f4]
        show _ :: m.log = _ :: s.log
        rw [hlog]
  | visit a =>
    simp only [CStates.step] at hs
    cases ha : s.lists a with
    | none => simp [ha] at hs
    | some x =>
      simp only [ha, Option.some.injEq] at hs
      subst hs
      have h1 := his a
      rw [ha] at h1
      obtain ⟨o, ho⟩ := Is_obj h1
      have hw : m.walk m.fresh o.first none = some x.items := by
        rw [walk_eq (hi.linked a o ho) (hi.length_le a), Is_items hi h1]
        rfl
      refine ⟨{ m with log := x.items :: m.log }, ch, ?_, hi.objs rfl rfl rfl hi.linked hi.gone, fun c => (his c).congr rfl rfl, by show _ :: m.log = _; rw [hlog]⟩
      simp only [CMem.step, ho]
      show (m.walk m.fresh o.first none >>= _) = _
      rw [hw]
      rfl
  | drop a =>
    simp only [CStates.step, Option.ite_none_left_eq_some, Option.some.injEq] at hs
    obtain ⟨ha, rfl⟩ := hs
    obtain ⟨x, hx⟩ := Option.ne_none_iff_exists'.mp ha
    have h1 := his a
    rw [hx] at h1
    obtain ⟨o, ho⟩ := Is_obj h1
    obtain ⟨m', f1, f2, f3, f4, f5, f6⟩ := free_eq (hi.linked a o ho) (hi.nodup a) (hi.length_le a)
    refine ⟨m'.putObj a none, updChain ch a [], ?_, hi.freeAll f6 f3 f5 ?_ ?_, ?_, f4.trans hlog⟩
    · simp only [CMem.step, ho]
      show (m.free m.fresh o.first >>= _) = _
      rw [f1]
      rfl
    · intro c hc
      rw [putObj_ne _ _ hc, f2]
    · intro o' ho'
      rw [putObj_self] at ho'
      simp at ho'
    · intro c
      by_cases hc : c = a
      · subst hc
        rw [set_lists_self]
        exact putObj_self ..
      · rw [set_lists_ne _ _ hc]
        refine (his c).congr ?_ (updChain_ne _ _ hc)
        rw [putObj_ne _ _ hc, f2]

theorem CMem.run_refines (ops : List COp) {m : CMem} {s s' : CStates} {ch} (h : m.Rel s ch) (hs : s.run ops = some s') : ∃ m' ch', m.run ops = some m' ∧ m'.Rel s' ch' := by
  induction ops generalizing m s ch with
  | nil =>
    simp only [CStates.run, Option.some.injEq] at hs
    exact ⟨m, ch, rfl, hs ▸ h⟩
  | cons op ops ih =>
    unfold CStates.run at hs
    cases h1 : s.step op with
    | none => simp [h1] at hs
    | some s1 =>
      simp only [h1, Option.bind_some] at hs
      obtain ⟨m1, ch1, e1, e2⟩ := step_refines h h1
      obtain ⟨m', ch', f1, f2⟩ := ih e2 hs
      refine ⟨m', ch', ?_, f2⟩
      unfold CMem.run
      rw [e1]
      exact f1

def CStates.empty : CStates := ⟨fun _ => none, []⟩

theorem CMem.empty_rel : CMem.empty.Rel CStates.empty (fun _ => []) :=
  ⟨⟨by simp [CMem.empty], fun _ _ => rfl, by simp [CChain.addrs], by simp [CChain.addrs], by simp [CChain.addrs], by simp [CMem.empty], by simp [CMem.empty], by simp [CMem.empty]⟩,
    fun _ => rfl, rfl⟩

/-! ## The properties -/

/-- **C29: contents.** Any sequence of allowed operations on any number of lists runs without undefined behaviour: no freed node is accessed, no loop runs on. The pointers of each list lead, in order, to the
nodes it contains, according to the meaning of the operations, and every loop (`unload`, ...) visits them in this order. -/
theorem C29_contents_partial (ops : List COp) {s : CStates} (hs : CStates.empty.run ops = some s) :
    ∃ m, CMem.empty.run ops = some m ∧ m.log = s.log ∧ (∀ a, m.objs a = none ↔ s.lists a = none) ∧
      ∀ a x, s.lists a = some x → ∃ o c, m.objs a = some o ∧ Linked m.nodes o.first c ∧ c.pays = x.items := by
  obtain ⟨m, ch, h1, hi, his, hlog⟩ := CMem.run_refines ops CMem.empty_rel hs
  refine ⟨m, h1, hlog, fun a => ?_, fun a x ha => ?_⟩
  · have := his a
    cases hx : s.lists a with
    | none => rw [hx] at this; simp [show m.objs a = none from this]
    | some x =>
      rw [hx] at this
      obtain ⟨o, ho⟩ := Is_obj this
      simp [ho]
  · have := his a
    rw [ha] at this
    obtain ⟨o, ho⟩ := Is_obj this
    exact ⟨o, ch a, ho, hi.linked a o ho, Is_items hi this⟩

/-- **C29: ownership.** After any sequence of allowed operations, every node allocated was either freed exactly once, or not and is in exactly one list, once. -/
theorem C29_ownership_partial (ops : List COp) {s : CStates} (hs : CStates.empty.run ops = some s) :
    ∃ (m : CMem) (ch : Nat → CChain), CMem.empty.run ops = some m ∧ (∀ a o, m.objs a = some o → Linked m.nodes o.first (ch a)) ∧ (∀ a, m.objs a = none → ch a = []) ∧
      (∀ n ∈ m.freed, n < m.fresh) ∧
      ∀ n < m.fresh, (m.freed.count n = 1 ∧ ∀ a, n ∉ (ch a).addrs) ∨
        (m.freed.count n = 0 ∧ ∃ a, (ch a).addrs.count n = 1 ∧ ∀ b, n ∈ (ch b).addrs → b = a) := by
  obtain ⟨m, ch, h1, hi, his, hlog⟩ := CMem.run_refines ops CMem.empty_rel hs
  refine ⟨m, ch, h1, hi.linked, hi.gone, hi.freedLt, fun n hn => ?_⟩
  rcases hi.complete n hn with hd | ⟨a, ha⟩
  · exact Or.inl ⟨by rw [hi.freedNodup.count, if_pos hd], fun a ha => (hi.lt a n ha).2 hd⟩
  · refine Or.inr ⟨List.count_eq_zero.mpr (hi.lt a n ha).2, a, ?_, fun b hb => hi.disj b a n hb ha⟩
    rw [(hi.nodup a).count, if_pos ha]

/-- **C29: no leak.** When all lists are gone, every node was freed exactly once. -/
theorem C29_exactly_once_partial (ops : List COp) {s : CStates} (hs : CStates.empty.run ops = some s) (hn : ∀ a, s.lists a = none) :
    ∃ m, CMem.empty.run ops = some m ∧ ∀ n < m.fresh, m.freed.count n = 1 := by
  obtain ⟨m, ch, h1, _, h3, _, h5⟩ := C29_ownership_partial ops hs
  obtain ⟨m', h1', _, h2, _⟩ := C29_contents_partial ops hs
  rw [h1] at h1'
  cases h1'
  refine ⟨m, h1, fun n hlt => ?_⟩
  rcases h5 n hlt with ⟨h, _⟩ | ⟨_, a, ha, _⟩
  · exact h
  · rw [h3 a ((h2 a).mpr (hn a))] at ha
    simp [CChain.addrs] at ha

/-- **C29 is false if the constructor of a captured object throws:** the list is left pointing to the freed node, and its destructor (like any other use) accesses this node. -/
theorem C29_refuted_throw (xs : List Nat) (x : Nat) : CMem.empty.run (.mkAlloc 0 :: xs.map (.capture 0) ++ [.captureThrow 0 x, .drop 0]) = none := by
  have app : ∀ (ops1 ops2 : List COp) (m : CMem), m.run (ops1 ++ ops2) = (m.run ops1).bind (·.run ops2) := by
    intro ops1
    induction ops1 with
    | nil => intro ops2 m; rfl
    | cons op ops1 ih =>
      intro ops2 m
      show (m.step op >>= _) = ((m.step op >>= _ : Option CMem).bind _)
      cases m.step op with
      | none => rfl
      | some m1 => exact ih ops2 m1
  have spec : ∀ (xs ys : List Nat) (s : CStates), s.lists 0 = some (.alloc ys) → ∃ s', s.run (xs.map (.capture 0)) = some s' ∧ s'.lists 0 = some (.alloc (ys ++ xs)) := by
    intro xs
    induction xs with
    | nil => intro ys s h; exact ⟨s, rfl, by simpa using h⟩
    | cons x xs ih =>
      intro ys s h
      obtain ⟨s', h1, h2⟩ := ih (ys ++ [x]) (s.set 0 (some (.alloc (ys ++ [x])))) (set_lists_self ..)
      refine ⟨s', ?_, by simpa using h2⟩
      simp only [List.map_cons, CStates.run, CStates.step, h, Option.bind_some]
      exact h1
  obtain ⟨s', h1, h2⟩ := spec xs [] (CStates.empty.set 0 (some (.alloc []))) (set_lists_self ..)
  have hrun : CStates.empty.run (.mkAlloc 0 :: xs.map (.capture 0)) = some s' := by
    unfold CStates.run
    simp only [CStates.step]
    exact h1
  obtain ⟨m, ch, e1, hi, his, _⟩ := CMem.run_refines _ CMem.empty_rel hrun
  rw [app, e1, Option.bind_some]
  have h0 := his 0
  rw [h2] at h0
  obtain ⟨m', f1, f2, _, _, f5⟩ := newNode_eq hi (x := x) h0
  show ((m.newNode 0 x >>= _) >>= _ : Option CMem) = none
  rw [f1]
  obtain ⟨f, ho, _⟩ := f5
  show (CMem.step { m'.putNode m.fresh none with freed := m.fresh :: m'.freed } (.drop 0) >>= _) = none
  simp only [CMem.step]
  show ((m'.objs 0 >>= _ : Option CMem) >>= _) = none
  rw [ho]
  have hl := f2.linked 0 _ ho
  rw [updChain_self] at hl
  -- freeing gets to the freed node
  have key : ∀ (c : CChain) (g : Option Nat) (k : Nat) (q : CMem), Linked m'.nodes g (c ++ [(m.fresh, x)]) → (c : CChain).addrs.Nodup → m.fresh ∉ (c : CChain).addrs →
      q.nodes m.fresh = none → (∀ n ∈ c.addrs, q.nodes n = m'.nodes n) → q.free k g = none := by
    intro c
    induction c with
    | nil =>
      intro g k q hl _ _ hq _
      obtain ⟨rfl, _⟩ := hl
      cases k with
      | zero => rfl
      | succ k =>
        unfold CMem.free
        rw [hq]
        rfl
    | cons y c ih =>
      obtain ⟨n, z⟩ := y
      intro g k q hl hnd hnf hq hsame
      obtain ⟨rfl, nx, hnode, hl⟩ := hl
      have hnd' := List.nodup_cons.mp hnd
      cases k with
      | zero => rfl
      | succ k =>
        unfold CMem.free
        rw [hsame n (List.mem_cons_self ..), hnode]
        refine ih nx k _ hl hnd'.2 (fun hmem => hnf (List.mem_cons_of_mem _ hmem)) ?_ ?_
        · show (if m.fresh = n then none else q.nodes m.fresh) = none
          rw [hq]
          split <;> rfl
        · intro j hj
          show (if j = n then none else q.nodes j) = _
          rw [if_neg (by rintro rfl; exact hnd'.1 hj)]
          exact hsame j (List.mem_cons_of_mem _ hj)
  have hfree := key (ch 0) f m'.fresh { m'.putNode m.fresh none with freed := m.fresh :: m'.freed } hl (hi.nodup 0)
    (fun hmem => Nat.lt_irrefl _ (hi.lt 0 _ hmem).1) (by show (if m.fresh = m.fresh then _ else _) = _; rw [if_pos rfl])
    (fun n hn => by
      show (if n = m.fresh then none else m'.nodes n) = _
      rw [if_neg (fun e => Nat.lt_irrefl _ (e ▸ (hi.lt 0 n hn).1))])
  show ((CMem.free { m'.putNode m.fresh none with freed := m.fresh :: m'.freed } m'.fresh f >>= _ : Option CMem) >>= _) = none
  rw [hfree]
  rfl

/-- **An unloaded allocator cannot be used again** (excluded above): its `last_` points into a freed node. -/
theorem C29_unload_capture (x y : Nat) : CMem.empty.run [.mkAlloc 0, .capture 0 x, .unload 0 none, .capture 0 y] = none := by
  rfl

/-! ## The hypotheses can be met -/

def exCOps : List COp := [.mkAlloc 0, .capture 0 10, .capture 0 11, .moveAlloc 1 0, .capture 1 12, .capture 0 20, .visit 1, .extract 2 1 (some 13), .moveList 3 2, .capture 1 30,
  .unload 3 (some 2), .unload 0 none, .drop 0]

example : ∃ s, CStates.empty.run exCOps = some s ∧ s.log = [[20], [10, 11, 12], [10, 11, 12]] ∧ s.lists 1 = some (.alloc [30]) ∧ s.lists 3 = some (.list []) :=
  ⟨_, rfl, rfl, rfl, rfl⟩

example : ∃ m, CMem.empty.run exCOps = some m ∧ m.fresh = 6 ∧ m.freed = [3, 4, 2, 1, 0] := ⟨_, rfl, rfl, rfl⟩

end Leaf
