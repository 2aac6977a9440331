import Verif.CaptureListModel

/-! Lemmas about the model of `capture_list`. -/

namespace Leaf

/-- The nodes of a list, in order: addresses and numbers. -/
abbrev CChain := List (Nat × Nat)

def CChain.addrs (c : CChain) : List Nat := c.map (·.1)
def CChain.pays (c : CChain) : List Nat := c.map (·.2)

/-- The pointer `f` leads to these nodes, and then to null. -/
def Linked (nodes : Nat → Option CNode) : Option Nat → CChain → Prop
  | f, [] => f = none
  | f, (n, x) :: r => f = some n ∧ ∃ nx, nodes n = some ⟨x, nx⟩ ∧ Linked nodes nx r

/-- The place of the final null pointer of the list at `a`. -/
def tailLoc (a : Nat) (c : CChain) : CLoc :=
  match c.getLast? with
  | none => .first a
  | some (n, _) => .next n

/-- The contents of list objects. A `dynamic_allocator` that was unloaded is `spent`: its `last_` is dangling. -/
inductive CState
  | alloc (xs : List Nat)
  | spent
  | list (xs : List Nat)
  deriving DecidableEq, Repr

structure CMem.Inv (m : CMem) (ch : Nat → CChain) : Prop where
  linked : ∀ a o, m.objs a = some o → Linked m.nodes o.first (ch a)
  gone : ∀ a, m.objs a = none → ch a = []
  nodup : ∀ a, (ch a).addrs.Nodup
  disj : ∀ a b n, n ∈ (ch a).addrs → n ∈ (ch b).addrs → a = b
  lt : ∀ a n, n ∈ (ch a).addrs → n < m.fresh ∧ n ∉ m.freed
  freedNodup : m.freed.Nodup
  freedLt : ∀ n ∈ m.freed, n < m.fresh
  complete : ∀ n < m.fresh, n ∈ m.freed ∨ ∃ a, n ∈ (ch a).addrs

/-- The object at `a` is in state `s`. -/
def CMem.Is (m : CMem) (ch : Nat → CChain) (a : Nat) : Option CState → Prop
  | none => m.objs a = none
  | some (.alloc xs) => ∃ f, m.objs a = some ⟨f, some (tailLoc a (ch a))⟩ ∧ (ch a).pays = xs
  | some .spent => ∃ l, m.objs a = some ⟨none, some l⟩
  | some (.list xs) => ∃ f, m.objs a = some ⟨f, none⟩ ∧ (ch a).pays = xs

def updChain (ch : Nat → CChain) (a : Nat) (c : CChain) : Nat → CChain := fun b => if b = a then c else ch b

theorem updChain_self (ch : Nat → CChain) (a c) : updChain ch a c a = c := by simp [updChain]
theorem updChain_ne (ch : Nat → CChain) {a b : Nat} (c) (h : b ≠ a) : updChain ch a c b = ch b := by simp [updChain, h]

theorem linked_congr {n1 n2 : Nat → Option CNode} : ∀ {c : CChain} {f}, (∀ n ∈ c.addrs, n2 n = n1 n) → Linked n1 f c → Linked n2 f c
  | [], _, _, h => h
  | (n, x) :: r, f, he, h => by
    obtain ⟨h1, nx, h2, h3⟩ := h
    refine ⟨h1, nx, ?_, linked_congr (fun k hk => he k (List.mem_cons_of_mem _ hk)) h3⟩
    rw [he n (List.mem_cons_self ..), h2]

theorem linked_first {nodes} {f} {c : CChain} (h : Linked nodes f c) : f = c.head?.map (·.1) := by
  cases c with
  | nil => exact h
  | cons nx r => exact h.1

/-- What is at the end of a list. -/
theorem linked_last {nodes} : ∀ {c : CChain} {f n x}, Linked nodes f c → c.getLast? = some (n, x) → nodes n = some ⟨x, none⟩
  | [], _, _, _, _, h => by simp at h
  | [(k, y)], _, _, _, h, hl => by
    simp only [List.getLast?_singleton, Option.some.injEq, Prod.mk.injEq] at hl
    obtain ⟨rfl, rfl⟩ := hl
    obtain ⟨_, nx, h2, h3⟩ := h
    rw [h2]
    simp only [Linked] at h3
    rw [h3]
  | (k, y) :: z :: r, _, _, _, h, hl => by
    obtain ⟨_, nx, _, h3⟩ := h
    rw [List.getLast?_cons_cons] at hl
    exact linked_last h3 hl

/-- A node is linked after the last. -/
theorem linked_append {nodes nodes' : Nat → Option CNode} {m x : Nat} (hm : nodes' m = some ⟨x, none⟩) :
    ∀ {c : CChain} {f}, Linked nodes f c → (c : CChain).addrs.Nodup →
      (∀ n y, c.getLast? = some (n, y) → nodes' n = some ⟨y, some m⟩) →
      (∀ n, n ∈ c.addrs → (∀ y, c.getLast? ≠ some (n, y)) → nodes' n = nodes n) →
      Linked nodes' (if c = [] then some m else f) (c ++ [(m, x)])
  | [], f, _, _, _, _ => ⟨rfl, none, hm, rfl⟩
  | [(k, y)], f, h, _, hlast, _ => by
    obtain ⟨h1, nx, h2, h3⟩ := h
    refine ⟨?_, some m, hlast k y rfl, rfl, none, hm, rfl⟩
    simp [h1]
  | (k, y) :: z :: r, f, h, hn, hlast, hother => by
    obtain ⟨h1, nx, h2, h3⟩ := h
    have hn' : k ∉ CChain.addrs (z :: r) ∧ (CChain.addrs (z :: r)).Nodup := List.nodup_cons.mp hn
    have ih := linked_append hm h3 hn'.2 (fun n y' hl => hlast n y' (by rw [List.getLast?_cons_cons]; exact hl))
      (fun n hmem hne => hother n (List.mem_cons_of_mem _ hmem) (fun y' => by rw [List.getLast?_cons_cons]; exact hne y'))
    rw [if_neg (by simp)] at ih ⊢
    refine ⟨h1, nx, ?_, ih⟩
    rw [hother k (List.mem_cons_self ..), h2]
    intro y' hl
    rw [List.getLast?_cons_cons] at hl
    exact hn'.1 (List.mem_map.mpr ⟨(k, y'), List.mem_of_getLast? hl, rfl⟩)

/-- The visits of a loop. -/
def visitedUpTo : Option Nat → List Nat → List Nat
  | none, xs => xs
  | some i, xs => xs.take (i + 1)

theorem walk_eq {m : CMem} : ∀ {c : CChain} {f : Option Nat} {fuel : Nat} {stop : Option Nat}, Linked m.nodes f c → c.length ≤ fuel →
    m.walk fuel f stop = some (visitedUpTo stop c.pays)
  | [], f, fuel, stop, h, _ => by
    simp only [Linked] at h
    subst h
    cases fuel <;> cases stop <;> simp [CMem.walk, visitedUpTo, CChain.pays]
  | (n, x) :: r, f, fuel, stop, h, hl => by
    obtain ⟨rfl, nx, h2, h3⟩ := h
    cases fuel with
    | zero => simp at hl
    | succ fuel =>
      have ih := fun stop => walk_eq (stop := stop) h3 (Nat.le_of_succ_le_succ hl)
      unfold CMem.walk
      simp only [h2]
      cases stop with
      | none =>
        show (if (none : Option Nat) = some 0 then some [x] else (do return x :: (← m.walk fuel nx none) : Option (List Nat))) = _
        rw [if_neg (by simp), ih]
        rfl
      | some i =>
        cases i with
        | zero => rfl
        | succ i =>
          show (if some (i + 1) = some 0 then some [x] else (do return x :: (← m.walk fuel nx (some i)) : Option (List Nat))) = _
          rw [if_neg (by simp), ih]
          rfl

theorem free_eq : ∀ {c : CChain} {m : CMem} {f : Option Nat} {fuel : Nat}, Linked m.nodes f c → c.addrs.Nodup → c.length ≤ fuel →
    ∃ m', m.free fuel f = some m' ∧ m'.objs = m.objs ∧ m'.fresh = m.fresh ∧ m'.log = m.log ∧ m'.freed = c.addrs.reverse ++ m.freed ∧
      ∀ n, n ∉ c.addrs → m'.nodes n = m.nodes n
  | [], m, f, fuel, h, _, _ => by
    simp only [Linked] at h
    subst h
    exact ⟨m, by cases fuel <;> rfl, rfl, rfl, rfl, rfl, fun _ _ => rfl⟩
  | (n, x) :: r, m, f, fuel, h, hn, hl => by
    obtain ⟨rfl, nx, h2, h3⟩ := h
    have hn' : n ∉ CChain.addrs r ∧ (CChain.addrs r).Nodup := List.nodup_cons.mp hn
    cases fuel with
    | zero => simp at hl
    | succ fuel =>
      obtain ⟨m', e1, e2, e3, e4, e5, e6⟩ := free_eq (m := { m.putNode n none with freed := n :: m.freed }) (f := nx) (fuel := fuel)
        (linked_congr (fun k hk => by
          show (if k = n then none else m.nodes k) = _
          rw [if_neg (by rintro rfl; exact hn'.1 hk)]) h3) hn'.2 (Nat.le_of_succ_le_succ hl)
      refine ⟨m', ?_, e2, e3, e4, ?_, ?_⟩
      · unfold CMem.free
        simp only [h2]
        exact e1
      · rw [e5]
        simp [CChain.addrs]
      · intro k hk
        simp only [CChain.addrs, List.map_cons, List.mem_cons, not_or] at hk
        rw [e6 k hk.2]
        show (if k = n then none else m.nodes k) = _
        rw [if_neg hk.1]

theorem CMem.Inv.length_le {m : CMem} {ch} (h : m.Inv ch) (a : Nat) : (ch a).length ≤ m.fresh := by
  have h1 := List.Nodup.length_le_of_subset (l₂ := List.range m.fresh) (h.nodup a) (fun n hn => List.mem_range.mpr (h.lt a n hn).1)
  simpa [CChain.addrs] using h1

/-- The list of `b` is handed over to `a`, which had none. -/
theorem CMem.Inv.hand {m m' : CMem} {ch} (h : m.Inv ch) {a b : Nat} (hab : a ≠ b) (ha : ch a = []) (hn : m'.nodes = m.nodes) (hf : m'.fresh = m.fresh)
    (hd : m'.freed = m.freed) {oa ob : CObj} (hoa : m'.objs a = some oa) (hob : m'.objs b = some ob) (hfa : Linked m.nodes oa.first (ch b)) (hfb : ob.first = none)
    (ho : ∀ c, c ≠ a → c ≠ b → m'.objs c = m.objs c) : m'.Inv (updChain (updChain ch b []) a (ch b)) := by
  have hch : ∀ c, updChain (updChain ch b []) a (ch b) c = if c = a then ch b else if c = b then [] else ch c := fun c => rfl
  have own : ∀ c n, n ∈ (updChain (updChain ch b []) a (ch b) c).addrs → ∃ c', n ∈ (ch c').addrs ∧ (c = a ∧ c' = b ∨ c ≠ a ∧ c ≠ b ∧ c' = c) := by
    intro c n hc
    rw [hch] at hc
    split at hc
    · exact ⟨b, hc, Or.inl ⟨by assumption, rfl⟩⟩
    · split at hc
      · simp [CChain.addrs] at hc
      · exact ⟨c, hc, Or.inr ⟨by assumption, by assumption, rfl⟩⟩
  refine ⟨?_, ?_, ?_, ?_, ?_, by rw [hd]; exact h.freedNodup, by rw [hd, hf]; exact h.freedLt, ?_⟩
  · intro c o hc
    rw [hn, hch]
    split
    · rename_i e; subst e; rw [hoa] at hc; cases hc; exact hfa
    · split
      · rename_i e; subst e; rw [hob] at hc; cases hc; exact hfb
      · rename_i e1 e2
        rw [ho c e1 e2] at hc
        exact h.linked c o hc
  · intro c hc
    rw [hch]
    split
    · rename_i e; subst e; rw [hoa] at hc; simp at hc
    · split
      · rfl
      · rename_i e1 e2
        rw [ho c e1 e2] at hc
        exact h.gone c hc
  · intro c
    rw [hch]
    split
    · exact h.nodup b
    · split
      · simp [CChain.addrs]
      · exact h.nodup c
  · intro c d n hc hd'
    obtain ⟨c', h1, h2⟩ := own c n hc
    obtain ⟨d', h3, h4⟩ := own d n hd'
    have := h.disj c' d' n h1 h3
    rcases h2 with ⟨rfl, rfl⟩ | ⟨h2, h2', rfl⟩ <;> rcases h4 with ⟨rfl, h4⟩ | ⟨h4, h4', rfl⟩
    · rfl
    · exact absurd this.symm h4'
    · rw [this] at h2'; exact absurd h4 h2'
    · exact this
  · intro c n hc
    obtain ⟨c', h1, _⟩ := own c n hc
    rw [hf, hd]
    exact h.lt c' n h1
  · intro n hlt
    rw [hf] at hlt
    rcases h.complete n hlt with h1 | ⟨c, hc⟩
    · exact Or.inl (by rw [hd]; exact h1)
    · refine Or.inr ?_
      by_cases e : c = b
      · exact ⟨a, by rw [hch, if_pos rfl, ← e]; exact hc⟩
      · by_cases e2 : c = a
        · rw [e2, ha] at hc; simp [CChain.addrs] at hc
        · exact ⟨c, by rw [hch, if_neg e2, if_neg e]; exact hc⟩

/-- Only the objects change, not what they own. -/
theorem CMem.Inv.objs {m m' : CMem} {ch} (h : m.Inv ch) (hn : m'.nodes = m.nodes) (hf : m'.fresh = m.fresh) (hd : m'.freed = m.freed)
    (ho : ∀ c o, m'.objs c = some o → Linked m.nodes o.first (ch c)) (hg : ∀ c, m'.objs c = none → ch c = []) : m'.Inv ch :=
  ⟨fun c o hc => by rw [hn]; exact ho c o hc, hg, h.nodup, h.disj, by rw [hf, hd]; exact h.lt, by rw [hd]; exact h.freedNodup,
    by rw [hd, hf]; exact h.freedLt, by rw [hd, hf]; exact h.complete⟩

/-- The nodes of `a` are freed. -/
theorem CMem.Inv.freeAll {m m' : CMem} {ch} (h : m.Inv ch) {a : Nat} (hn : ∀ n, n ∉ (ch a).addrs → m'.nodes n = m.nodes n) (hf : m'.fresh = m.fresh)
    (hd : m'.freed = (ch a).addrs.reverse ++ m.freed) (ho : ∀ c, c ≠ a → m'.objs c = m.objs c) (hoa : ∀ o, m'.objs a = some o → o.first = none) :
    m'.Inv (updChain ch a []) := by
  have hch : ∀ c, updChain ch a [] c = if c = a then [] else ch c := fun c => rfl
  have own : ∀ c n, n ∈ (updChain ch a [] c).addrs → n ∈ (ch c).addrs ∧ c ≠ a := by
    intro c n hc
    rw [hch] at hc
    split at hc
    · simp [CChain.addrs] at hc
    · exact ⟨hc, by assumption⟩
  refine ⟨?_, ?_, ?_, ?_, ?_, ?_, ?_, ?_⟩
  · intro c o hc
    rw [hch]
    split
    · rename_i e; subst e; exact hoa o hc
    · rename_i e
      rw [ho c e] at hc
      exact linked_congr (fun n hmem => hn n fun hmem' => e (h.disj c a n hmem hmem')) (h.linked c o hc)
  · intro c hc
    rw [hch]
    split
    · rfl
    · rename_i e
      rw [ho c e] at hc
      exact h.gone c hc
  · intro c
    rw [hch]
    split
    · simp [CChain.addrs]
    · exact h.nodup c
  · intro c d n hc hd'
    exact h.disj c d n (own c n hc).1 (own d n hd').1
  · intro c n hc
    obtain ⟨h1, h2⟩ := own c n hc
    refine ⟨by rw [hf]; exact (h.lt c n h1).1, ?_⟩
    rw [hd]
    simp only [List.mem_append, List.mem_reverse, not_or]
    exact ⟨fun hmem => h2 (h.disj c a n h1 hmem), (h.lt c n h1).2⟩
  · rw [hd, List.nodup_append]
    refine ⟨List.pairwise_reverse.mpr ((h.nodup a).imp fun hne => hne.symm), h.freedNodup, ?_⟩
    intro n hn1 k hk e
    subst e
    exact (h.lt a n (List.mem_reverse.mp hn1)).2 hk
  · intro n hmem
    rw [hd] at hmem
    rw [hf]
    rcases List.mem_append.mp hmem with h1 | h1
    · exact (h.lt a n (List.mem_reverse.mp h1)).1
    · exact h.freedLt n h1
  · intro n hlt
    rw [hf] at hlt
    rw [hd]
    rcases h.complete n hlt with h1 | ⟨c, hc⟩
    · exact Or.inl (List.mem_append_right _ h1)
    · by_cases e : c = a
      · exact Or.inl (List.mem_append_left _ (List.mem_reverse.mpr (by rw [← e]; exact hc)))
      · exact Or.inr ⟨c, by rw [hch, if_neg e]; exact hc⟩

/-- A node is added to the list of `a`. -/
theorem CMem.Inv.grow {m m' : CMem} {ch} (h : m.Inv ch) {a x : Nat} (hn : ∀ c, c ≠ a → ∀ n ∈ (ch c).addrs, m'.nodes n = m.nodes n) (hf : m'.fresh = m.fresh + 1)
    (hd : m'.freed = m.freed) (ho : ∀ c, c ≠ a → m'.objs c = m.objs c) {o : CObj} (hoa : m'.objs a = some o) (hl : Linked m'.nodes o.first (ch a ++ [(m.fresh, x)])) :
    m'.Inv (updChain ch a (ch a ++ [(m.fresh, x)])) := by
  have hch : ∀ c, updChain ch a (ch a ++ [(m.fresh, x)]) c = if c = a then ch a ++ [(m.fresh, x)] else ch c := fun c => rfl
  have own : ∀ c n, n ∈ (updChain ch a (ch a ++ [(m.fresh, x)]) c).addrs → n ∈ (ch c).addrs ∨ c = a ∧ n = m.fresh := by
    intro c n hc
    rw [hch] at hc
    split at hc
    · rename_i e; subst e
      simp only [CChain.addrs, List.map_append, List.mem_append, List.map_cons, List.map_nil, List.mem_singleton] at hc
      exact hc.imp (fun h => h) fun h => ⟨rfl, h⟩
    · exact Or.inl hc
  have old : ∀ c n, n ∈ (ch c).addrs → n ≠ m.fresh := fun c n hc e => Nat.lt_irrefl _ (e ▸ (h.lt c n hc).1)
  refine ⟨?_, ?_, ?_, ?_, ?_, by rw [hd]; exact h.freedNodup, ?_, ?_⟩
  · intro c o' hc
    rw [hch]
    split
    · rename_i e; subst e; rw [hoa] at hc; cases hc; exact hl
    · rename_i e
      rw [ho c e] at hc
      exact linked_congr (hn c e) (h.linked c o' hc)
  · intro c hc
    rw [hch]
    split
    · rename_i e; subst e; rw [hoa] at hc; simp at hc
    · rename_i e
      rw [ho c e] at hc
      exact h.gone c hc
  · intro c
    rw [hch]
    split
    · simp only [CChain.addrs, List.map_append, List.map_cons, List.map_nil]
      rw [List.nodup_append]
      refine ⟨h.nodup a, by simp, ?_⟩
      intro n hn1 k hk e
      simp only [List.mem_singleton] at hk
      exact old a n hn1 (e.trans hk)
    · exact h.nodup c
  · intro c d n hc hd'
    rcases own c n hc with h1 | ⟨h1, h1'⟩ <;> rcases own d n hd' with h2 | ⟨h2, h2'⟩
    · exact h.disj c d n h1 h2
    · exact absurd h2' (old c n h1)
    · exact absurd h1' (old d n h2)
    · rw [h1, h2]
  · intro c n hc
    rw [hf, hd]
    rcases own c n hc with h1 | ⟨_, rfl⟩
    · exact ⟨Nat.lt_succ_of_lt (h.lt c n h1).1, (h.lt c n h1).2⟩
    · exact ⟨Nat.lt_succ_self _, fun hmem => Nat.lt_irrefl _ (h.freedLt _ hmem)⟩
  · intro n hmem
    rw [hd] at hmem
    rw [hf]
    exact Nat.lt_succ_of_lt (h.freedLt n hmem)
  · intro n hlt
    rw [hf] at hlt
    rw [hd]
    rcases Nat.lt_succ_iff_lt_or_eq.mp hlt with hlt | rfl
    · refine (h.complete n hlt).imp (fun h => h) fun ⟨c, hc⟩ => ⟨c, ?_⟩
      rw [hch]
      split
      · rename_i e; subst e
        simp only [CChain.addrs, List.map_append, List.mem_append]
        exact Or.inl hc
      · exact hc
    · exact Or.inr ⟨a, by rw [hch, if_pos rfl]; simp [CChain.addrs]⟩

end Leaf
