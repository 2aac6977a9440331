import Verif.TlsModel

/-!
# C36: the TLS array backend implements per-type storage
-/

namespace Leaf

/-! ## Specification -/

/-- One variable per thread and type: pointers and unsigned integers. -/
structure TlsVars (w : Nat) where
  ptr : Nat → Nat → BitVec w
  uint : Nat → Nat → BitVec 32

/-- All variables start null. -/
def TlsVars.initial (w : Nat) : TlsVars w := ⟨fun _ _ => 0, fun _ _ => 0⟩

/-- What the reads of a sequence of operations on these variables return. -/
def TlsVars.run {w : Nat} (v : TlsVars w) : List (TlsOp w) → List (TlsOut w)
  | [] => []
  | .init _ :: ops => v.run ops
  | .readPtr th n :: ops => .ptr (v.ptr th n) :: v.run ops
  | .writePtr th n p :: ops => TlsVars.run { v with ptr := fun t m => if t = th ∧ m = n then p else v.ptr t m } ops
  | .readUint th n :: ops => .uint (v.uint th n) :: v.run ops
  | .writeUint th n x :: ops => TlsVars.run { v with uint := fun t m => if t = th ∧ m = n then x else v.uint t m } ops

/-- The types for which an index is allocated, in order. -/
def tlsInits {w : Nat} : List (TlsOp w) → List TlsKey
  | [] => []
  | .init k :: ops => k :: tlsInits ops
  | _ :: ops => tlsInits ops

/-- The type written by an operation. -/
def TlsOp.writes {w : Nat} : TlsOp w → Option TlsKey
  | .writePtr _ n _ => some (.ptr n)
  | .writeUint _ n _ => some (.tag n)
  | _ => none

/-- C++ guarantees: each static variable is initialized once, before it is used by a write. (Reads are allowed before.) -/
structure TlsOrderly {w : Nat} (ops : List (TlsOp w)) : Prop where
  once : (tlsInits ops).Nodup
  before : ∀ pre op post k, ops = pre ++ op :: post → op.writes = some k → k ∈ tlsInits pre

/-! ## Proofs -/

/-- The memory represents the variables; `done` are the types with an index, in order of allocation. -/
structure TlsMem.Repr (c : TlsCfg) (m : TlsMem c.width) (done : List TlsKey) (v : TlsVars c.width) : Prop where
  nodup : done.Nodup
  counter : m.counter = c.start + done.length
  fits : c.start + done.length < c.size
  ready : ∀ k, m.ready k = true ↔ k ∈ done
  index : ∀ k, k ∉ done → m.index k = c.start
  indexDone : ∀ i (h : i < done.length), m.index done[i] = c.start + i + 1 ∧ m.alloc done[i] = c.start + i + 1
  ptr : ∀ i (h : i < done.length) th n, done[i] = .ptr n → m.arr th (c.start + i) = v.ptr th n
  uint : ∀ i (h : i < done.length) th n, done[i] = .tag n → m.arr th (c.start + i) = (v.uint th n).setWidth c.width
  ptrNone : ∀ th n, TlsKey.ptr n ∉ done → v.ptr th n = 0
  uintNone : ∀ th n, TlsKey.tag n ∉ done → v.uint th n = 0
  free : ∀ th j, c.start + done.length ≤ j → m.arr th j = 0

theorem TlsMem.Repr.initial (c : TlsCfg) : (TlsMem.initial c).Repr c [] (TlsVars.initial c.width) := by
  refine ⟨by simp, rfl, ?_, by simp [TlsMem.initial], fun _ _ => rfl, ?_, ?_, ?_, fun _ _ _ => rfl, fun _ _ _ => rfl, fun _ _ _ => rfl⟩
  · simpa using c.size_gt
  all_goals intro i h; simp at h

theorem TlsMem.Repr.init {c : TlsCfg} {m : TlsMem c.width} {done : List TlsKey} {v : TlsVars c.width} (h : m.Repr c done v) {k : TlsKey} (hk : k ∉ done)
    (hfit : c.start + done.length + 1 < c.size) : ∃ m', m.init c k = some m' ∧ m'.Repr c (done ++ [k]) v := by
  have hr : m.ready k = false := by
    cases e : m.ready k with
    | false => rfl
    | true => exact absurd ((h.ready k).mp e) hk
  have hmod : (m.counter + 1) % (c.indexMax + 1) = c.start + done.length + 1 := by
    rw [h.counter]
    apply Nat.mod_eq_of_lt
    have := c.size_le
    omega
  have hn : m.next c = some (c.start + done.length + 1, { m with counter := m.counter + 1 }) := by
    have : m.counter + 1 > c.start ∧ m.counter + 1 < c.size := by rw [h.counter]; omega
    simp only [TlsMem.next, this, and_self, if_true, hmod]
  refine ⟨_, by simp only [TlsMem.init, hr, hn]; rfl, ?_⟩
  have ne : ∀ i (hi : i < done.length), done[i] ≠ k := fun i hi e => hk (e ▸ List.getElem_mem hi)
  refine ⟨?_, ?_, by simpa using (by omega : c.start + (done.length + 1) < c.size), ?_, ?_, ?_, ?_, ?_, ?_, ?_, ?_⟩
  · rw [List.nodup_append]
    refine ⟨h.nodup, by simp, ?_⟩
    intro a ha b hb
    simp at hb
    subst hb
    rintro rfl
    exact hk ha
  · simp [h.counter, Nat.add_assoc]
  · intro k'
    by_cases e : k' = k
    · simp [e]
    · simp [e, h.ready k']
  · intro k' hk'
    simp only [List.mem_append, List.mem_singleton, not_or] at hk'
    show (if k' = k then _ else m.index k') = _
    rw [if_neg hk'.2]
    exact h.index k' hk'.1
  · intro i hi
    simp only [List.length_append, List.length_singleton] at hi
    rw [List.getElem_append]
    by_cases hlt : i < done.length
    · simp only [hlt, dite_true, ne i hlt, if_false]
      exact h.indexDone i hlt
    · have : i = done.length := by omega
      subst this
      simp
  · intro i hi th n e
    simp only [List.length_append, List.length_singleton] at hi
    rw [List.getElem_append] at e
    by_cases hlt : i < done.length
    · simp only [hlt, dite_true] at e
      exact h.ptr i hlt th n e
    · have : i = done.length := by omega
      subst this
      simp at e
      subst e
      show m.arr th _ = _
      rw [h.free th _ (Nat.le_refl _), h.ptrNone th n hk]
  · intro i hi th n e
    simp only [List.length_append, List.length_singleton] at hi
    rw [List.getElem_append] at e
    by_cases hlt : i < done.length
    · simp only [hlt, dite_true] at e
      exact h.uint i hlt th n e
    · have : i = done.length := by omega
      subst this
      simp at e
      subst e
      show m.arr th _ = _
      rw [h.free th _ (Nat.le_refl _), h.uintNone th n hk]
      simp
  · intro th n hn
    exact h.ptrNone th n fun hm => hn (List.mem_append_left _ hm)
  · intro th n hn
    exact h.uintNone th n fun hm => hn (List.mem_append_left _ hm)
  · intro th j hj
    simp at hj
    exact h.free th j (by omega)

theorem TlsMem.Repr.read {c : TlsCfg} {m : TlsMem c.width} {done : List TlsKey} {v : TlsVars c.width} (h : m.Repr c done v) (th : Nat) (k : TlsKey) :
    (k ∉ done ∧ m.read c th k = some 0) ∨ ∃ i, ∃ hi : i < done.length, done[i] = k ∧ m.read c th k = some (m.arr th (c.start + i)) := by
  by_cases hk : k ∈ done
  · obtain ⟨i, hi, e⟩ := List.getElem_of_mem hk
    refine Or.inr ⟨i, hi, e, ?_⟩
    have hx := (h.indexDone i hi).1
    rw [e] at hx
    have hf := h.fits
    have h1 : ¬ c.start + i + 1 = c.start := by omega
    have h2 : 1 ≤ c.start + i + 1 ∧ c.start + i + 1 - 1 < c.size := by omega
    unfold TlsMem.read
    rw [hx, if_neg h1, if_pos h2, Nat.add_sub_cancel]
  · exact Or.inl ⟨hk, by simp [TlsMem.read, h.index k hk]⟩

theorem TlsMem.Repr.write {c : TlsCfg} {m : TlsMem c.width} {done : List TlsKey} {v : TlsVars c.width} (h : m.Repr c done v) (th : Nat) {k : TlsKey} (hk : k ∈ done)
    (p : BitVec c.width) : ∃ i, ∃ hi : i < done.length, done[i] = k ∧
      m.write c th k p = some { m with arr := fun t j => if t = th ∧ j = c.start + i then p else m.arr t j } := by
  obtain ⟨i, hi, e⟩ := List.getElem_of_mem hk
  refine ⟨i, hi, e, ?_⟩
  have hx := (h.indexDone i hi).2
  rw [e] at hx
  have hf := h.fits
  have h2 : 1 ≤ c.start + i + 1 ∧ c.start + i + 1 - 1 < c.size := by omega
  unfold TlsMem.write
  rw [hx, if_pos h2, Nat.add_sub_cancel]

theorem nodup_getElem_ne {α : Type} {l : List α} (h : l.Nodup) {i j : Nat} (hi : i < l.length) (hj : j < l.length) (hne : i ≠ j) : l[i] ≠ l[j] := by
  intro e
  exact hne ((List.getElem_inj h).mp e)

theorem TlsMem.Repr.writePtr {c : TlsCfg} {m : TlsMem c.width} {done : List TlsKey} {v : TlsVars c.width} (h : m.Repr c done v) (th : Nat) {n : Nat} (hk : TlsKey.ptr n ∈ done)
    (p : BitVec c.width) : ∃ m', m.write c th (.ptr n) p = some m' ∧ m'.Repr c done { v with ptr := fun t m => if t = th ∧ m = n then p else v.ptr t m } := by
  obtain ⟨i, hi, e, hw⟩ := h.write th hk p
  refine ⟨_, hw, h.nodup, h.counter, h.fits, h.ready, h.index, h.indexDone, ?_, ?_, ?_, h.uintNone, ?_⟩
  · intro j hj t n' ej
    by_cases hij : j = i
    · subst hij
      rw [e] at ej
      cases ej
      by_cases ht : t = th
      · simp [ht]
      · simp [ht, h.ptr j hj t n e]
    · have hne : n' ≠ n := by
        rintro rfl
        exact nodup_getElem_ne h.nodup hj hi hij (ej.trans e.symm)
      have : ¬ (c.start + j = c.start + i) := by omega
      simp only [this, and_false, if_false, hne]
      exact h.ptr j hj t n' ej
  · intro j hj t n' ej
    have hij : j ≠ i := by rintro rfl; rw [e] at ej; simp at ej
    have : ¬ (c.start + j = c.start + i) := by omega
    simp only [this, and_false, if_false]
    exact h.uint j hj t n' ej
  · intro t n' hn'
    have hne : n' ≠ n := by rintro rfl; exact hn' hk
    simp only [hne, and_false, if_false]
    exact h.ptrNone t n' hn'
  · intro t j hj
    have : ¬ (j = c.start + i) := by omega
    simp only [this, and_false, if_false]
    exact h.free t j hj

theorem TlsMem.Repr.writeUint {c : TlsCfg} {m : TlsMem c.width} {done : List TlsKey} {v : TlsVars c.width} (h : m.Repr c done v) (th : Nat) {n : Nat} (hk : TlsKey.tag n ∈ done)
    (x : BitVec 32) : ∃ m', m.write c th (.tag n) (x.setWidth c.width) = some m' ∧
      m'.Repr c done { v with uint := fun t m => if t = th ∧ m = n then x else v.uint t m } := by
  obtain ⟨i, hi, e, hw⟩ := h.write th hk (x.setWidth c.width)
  refine ⟨_, hw, h.nodup, h.counter, h.fits, h.ready, h.index, h.indexDone, ?_, ?_, h.ptrNone, ?_, ?_⟩
  · intro j hj t n' ej
    have hij : j ≠ i := by rintro rfl; rw [e] at ej; simp at ej
    have : ¬ (c.start + j = c.start + i) := by omega
    simp only [this, and_false, if_false]
    exact h.ptr j hj t n' ej
  · intro j hj t n' ej
    by_cases hij : j = i
    · subst hij
      rw [e] at ej
      cases ej
      by_cases ht : t = th
      · simp [ht]
      · simp [ht, h.uint j hj t n e]
    · have hne : n' ≠ n := by
        rintro rfl
        exact nodup_getElem_ne h.nodup hj hi hij (ej.trans e.symm)
      have : ¬ (c.start + j = c.start + i) := by omega
      simp only [this, and_false, if_false, hne]
      exact h.uint j hj t n' ej
  · intro t n' hn'
    have hne : n' ≠ n := by rintro rfl; exact hn' hk
    simp only [hne, and_false, if_false]
    exact h.uintNone t n' hn'
  · intro t j hj
    have : ¬ (j = c.start + i) := by omega
    simp only [this, and_false, if_false]
    exact h.free t j hj

/-- **C36: 32-bit ids survive being stored as pointers.** -/
theorem C36_uint (c : TlsCfg) (x : BitVec 32) : (x.setWidth c.width).setWidth 32 = x := by
  apply BitVec.eq_of_toNat_eq
  have h1 := x.isLt
  have h2 : 2 ^ 32 ≤ 2 ^ c.width := Nat.pow_le_pow_right (by decide) c.width_ge
  rw [BitVec.toNat_setWidth, BitVec.toNat_setWidth, Nat.mod_eq_of_lt (Nat.lt_of_lt_of_le h1 h2), Nat.mod_eq_of_lt h1]

/-- Runs from a represented state. -/
theorem TlsMem.Repr.run {c : TlsCfg} (ops : List (TlsOp c.width)) : ∀ (m : TlsMem c.width) (done : List TlsKey) (v : TlsVars c.width), m.Repr c done v →
    (done ++ tlsInits ops).Nodup → c.start + (done ++ tlsInits ops).length < c.size →
    (∀ pre op post k, ops = pre ++ op :: post → op.writes = some k → k ∈ done ++ tlsInits pre) → m.run c ops = some (v.run ops) := by
  induction ops with
  | nil => intros; rfl
  | cons op ops ih =>
    intro m done v h hn hf hb
    have tail : tlsInits (op :: ops) = tlsInits ops → ∀ pre op' post k, ops = pre ++ op' :: post → op'.writes = some k → k ∈ done ++ tlsInits pre := by
      intro he pre op' post k e hw
      have := hb (op :: pre) op' post k (by rw [e]; rfl) hw
      have he' : tlsInits (op :: pre) = tlsInits pre := by
        cases op with
        | init k => simp [tlsInits] at he
        | _ => rfl
      rwa [he'] at this
    cases op with
    | init k =>
      have hk : k ∉ done := by
        simp only [tlsInits, List.nodup_append] at hn
        intro hk
        exact hn.2.2 k hk k (List.mem_cons_self ..) rfl
      obtain ⟨m', e1, e2⟩ := h.init hk (by simp [tlsInits] at hf; omega)
      have := ih m' (done ++ [k]) v e2 (by simpa [tlsInits] using hn) (by simp [tlsInits] at hf ⊢; omega) (by
        intro pre op' post k' e hw
        have := hb (.init k :: pre) op' post k' (by rw [e]; rfl) hw
        simpa [tlsInits] using this)
      simp only [TlsMem.run, TlsMem.step, e1, Option.map_some, bind, Option.bind_some, this]
      rfl
    | readPtr th n =>
      have := ih m done v h hn hf (tail rfl)
      have hr : m.read c th (.ptr n) = some (v.ptr th n) := by
        rcases h.read th (.ptr n) with ⟨h1, h2⟩ | ⟨i, hi, h1, h2⟩
        · rw [h2, h.ptrNone th n h1]
        · rw [h2, h.ptr i hi th n h1]
      simp only [TlsMem.run, TlsMem.step, hr, Option.map_some, bind, Option.bind_some, this]
      rfl
    | writePtr th n p =>
      have hk : TlsKey.ptr n ∈ done := by simpa [tlsInits] using hb [] _ ops (.ptr n) rfl rfl
      obtain ⟨m', e1, e2⟩ := h.writePtr th hk p
      have := ih m' done _ e2 hn hf (tail rfl)
      simp only [TlsMem.run, TlsMem.step, e1, Option.map_some, bind, Option.bind_some, this]
      rfl
    | readUint th n =>
      have := ih m done v h hn hf (tail rfl)
      have hr : ∃ p, m.read c th (.tag n) = some p ∧ p.setWidth 32 = v.uint th n := by
        rcases h.read th (.tag n) with ⟨h1, h2⟩ | ⟨i, hi, h1, h2⟩
        · exact ⟨_, h2, by rw [h.uintNone th n h1]; simp⟩
        · exact ⟨_, h2, by rw [h.uint i hi th n h1, C36_uint]⟩
      obtain ⟨p, hp1, hp2⟩ := hr
      simp only [TlsMem.run, TlsMem.step, hp1, hp2, Option.map_some, bind, Option.bind_some, this]
      rfl
    | writeUint th n x =>
      have hk : TlsKey.tag n ∈ done := by simpa [tlsInits] using hb [] _ ops (.tag n) rfl rfl
      obtain ⟨m', e1, e2⟩ := h.writeUint th hk x
      have := ih m' done _ e2 hn hf (tail rfl)
      simp only [TlsMem.run, TlsMem.step, e1, Option.map_some, bind, Option.bind_some, this]
      rfl

/-! ## The properties -/

/-- **C36.** For all configurations that pass the static assertions, all numbers of threads, all orders of allocation and all sequences of reads and writes: as long as the types fit (`size - 1 - start` types),
every read returns what was last written to that variable by that thread, null (0) if nothing was. -/
theorem C36_variables (c : TlsCfg) (ops : List (TlsOp c.width)) (ho : TlsOrderly ops) (hfit : c.start + (tlsInits ops).length < c.size) :
    (TlsMem.initial c).run c ops = some ((TlsVars.initial c.width).run ops) :=
  TlsMem.Repr.run ops _ [] _ (TlsMem.Repr.initial c) (by simpa using ho.once) (by simpa using hfit) (by simpa using ho.before)

/-- **C36: how many types fit.** With one more type an assertion fails (without assertions, the last element of the array would be used, then memory beyond it). The last element of the array is never used. -/
theorem C36_capacity (c : TlsCfg) (ks : List TlsKey) (hn : ks.Nodup) :
    ((TlsMem.initial c).run c (ks.map .init) ≠ none ↔ c.start + ks.length < c.size) := by
  have inits : ∀ l : List TlsKey, tlsInits (l.map (TlsOp.init (w := c.width))) = l := by
    intro l
    induction l with
    | nil => rfl
    | cons k l ih => simp only [List.map_cons, tlsInits, ih]
  have nowrites : ∀ l : List TlsKey, ∀ pre (op : TlsOp c.width) post k, l.map TlsOp.init = pre ++ op :: post → op.writes ≠ some k := by
    intro l pre op post k e hw
    have : op ∈ l.map (TlsOp.init (w := c.width)) := by rw [e]; simp
    obtain ⟨k', _, rfl⟩ := List.mem_map.mp this
    simp [TlsOp.writes] at hw
  constructor
  · intro h
    apply Classical.byContradiction
    intro hge
    apply h
    have key : ∀ (l done : List TlsKey) (m : TlsMem c.width) (v : TlsVars c.width), m.Repr c done v → (done ++ l).Nodup → c.size ≤ c.start + (done ++ l).length →
        m.run c (l.map .init) = none := by
      intro l
      induction l with
      | nil =>
        intro done m v h _ hs
        have := h.fits
        simp at hs
        omega
      | cons k l ih =>
        intro done m v h hn hs
        have hk : k ∉ done := by
          rw [List.nodup_append] at hn
          intro hk
          exact hn.2.2 k hk k (List.mem_cons_self ..) rfl
        by_cases hfit : c.start + done.length + 1 < c.size
        · obtain ⟨m', e1, e2⟩ := h.init hk hfit
          have := ih (done ++ [k]) m' v e2 (by simpa using hn) (by simp at hs ⊢; omega)
          simp only [List.map_cons, TlsMem.run, TlsMem.step, e1, Option.map_some, bind, Option.bind_some, this, Option.bind_none]
        · have hr : m.ready k = false := by
            cases e : m.ready k with
            | false => rfl
            | true => exact absurd ((h.ready k).mp e) hk
          have hnx : m.next c = none := by
            have : ¬ (m.counter + 1 > c.start ∧ m.counter + 1 < c.size) := by rw [h.counter]; omega
            simp only [TlsMem.next, this, if_false]
          simp only [List.map_cons, TlsMem.run, TlsMem.step, TlsMem.init, hr, hnx, bind, Option.bind_none]
          rfl
    exact key ks [] _ _ (TlsMem.Repr.initial c) (by simpa using hn) (by simp; omega)
  · intro h
    rw [C36_variables c _ ⟨by rw [inits]; exact hn, fun pre op post k e hw => absurd hw (nowrites ks pre op post k e)⟩ (by rw [inits]; exact h)]
    simp

/-- The variables of a program whose handlers take the types `types`: the current id (error.hpp:551-559) and the slot of each type (error.hpp:132-143). -/
def tlsKeysOf (types : List Nat) : List TlsKey := .tag 0 :: types.map .ptr

/-- **C36: the size the documentation gives as the minimum is one too small.** leaf.adoc:5580: the number of types used as arguments to error handlers, plus one. The current id takes one index too, and the last
element is never used: with that size the assertion of tls_array.hpp:76 fails in every program, in whatever order the variables are initialised; with one element more it never fails. -/
theorem C36_refuted_minimum (c : TlsCfg) (types : List Nat) (hn : types.Nodup) (ks : List TlsKey) (hk : ks.Perm (tlsKeysOf types)) :
    (c.size = c.start + (types.length + 1) → (TlsMem.initial c).run c (ks.map .init) = none) ∧
    (c.size = c.start + (types.length + 2) → (TlsMem.initial c).run c (ks.map .init) ≠ none) := by
  have hnd : (tlsKeysOf types).Nodup := by
    refine List.nodup_cons.mpr ⟨by simp, ?_⟩
    exact List.Pairwise.map _ (fun a b h e => h (TlsKey.ptr.inj e)) hn
  have hl : ks.length = types.length + 1 := by rw [hk.length_eq]; simp [tlsKeysOf]
  have hc := C36_capacity c ks (hk.nodup_iff.mpr hnd)
  constructor
  · intro hs
    apply Classical.byContradiction
    intro h
    have := hc.mp h
    omega
  · intro hs
    exact hc.mpr (by omega)

/-! ## The hypotheses can be met -/

/-- Two types in handlers; an array of three elements is too small, one of four is not. -/
example : (TlsMem.initial ⟨0, 3, 255, 32, by decide, by decide, by decide⟩).run _ ((tlsKeysOf [7, 8]).map .init) = none ∧
    (TlsMem.initial ⟨0, 4, 255, 32, by decide, by decide, by decide⟩).run _ ([.ptr 8, .tag 0, .ptr 7].map .init) = some [] := by decide +kernel

/-- Start index 2, array size 5, 32-bit pointers: two types fit. -/
def exTls : TlsCfg := ⟨2, 5, 255, 32, by decide, by decide, by decide⟩

/-- Two threads; reads before initialization. -/
def exTlsOps : List (TlsOp 32) :=
  [.readPtr 0 7, .init (.tag 0), .writeUint 0 0 9#32, .readUint 1 0, .init (.ptr 7), .writePtr 0 7 77#32, .writePtr 1 7 78#32, .readUint 0 0, .readPtr 0 7, .readPtr 1 7, .readPtr 0 8]

example : (TlsMem.initial exTls).run exTls exTlsOps = some [.ptr 0#32, .uint 0#32, .uint 9#32, .ptr 77#32, .ptr 78#32, .ptr 0#32] := by decide +kernel

/-- A decidable form of `TlsOrderly`. -/
def tlsOrderlyFrom {w : Nat} (done : List TlsKey) : List (TlsOp w) → Bool
  | [] => true
  | .init k :: ops => !done.contains k && tlsOrderlyFrom (k :: done) ops
  | .writePtr _ n _ :: ops => done.contains (.ptr n) && tlsOrderlyFrom done ops
  | .writeUint _ n _ :: ops => done.contains (.tag n) && tlsOrderlyFrom done ops
  | .readPtr _ _ :: ops | .readUint _ _ :: ops => tlsOrderlyFrom done ops

example : TlsOrderly exTlsOps ∧ exTls.start + (tlsInits exTlsOps).length < exTls.size := by
  refine ⟨⟨by decide, ?_⟩, by decide⟩
  intro pre op post k e hw
  have split : ∀ (l pre : List (TlsOp 32)) (op : TlsOp 32) (post : List (TlsOp 32)) (done : List TlsKey), tlsOrderlyFrom done l = true → l = pre ++ op :: post → op.writes = some k →
      k ∈ done ∨ k ∈ tlsInits pre := by
    intro l
    induction l with
    | nil => intro pre op post done _ e; simp at e
    | cons x l ih =>
      intro pre op post done ho e hw
      cases pre with
      | nil =>
        simp only [List.nil_append, List.cons.injEq] at e
        obtain ⟨rfl, _⟩ := e
        cases x <;> simp [TlsOp.writes] at hw <;> subst hw <;> simp [tlsOrderlyFrom] at ho <;> exact Or.inl ho.1
      | cons y pre =>
        simp only [List.cons_append, List.cons.injEq] at e
        obtain ⟨rfl, e⟩ := e
        cases x with
        | init k' =>
          simp [tlsOrderlyFrom] at ho
          rcases ih pre op post _ ho.2 e hw with h | h
          · rcases List.mem_cons.mp h with rfl | h
            · exact Or.inr (by simp [tlsInits])
            · exact Or.inl h
          · exact Or.inr (by simp [tlsInits, h])
        | writePtr t n p => simp [tlsOrderlyFrom] at ho; exact ih pre op post _ ho.2 e hw
        | writeUint t n p => simp [tlsOrderlyFrom] at ho; exact ih pre op post _ ho.2 e hw
        | readPtr t n => simp only [tlsOrderlyFrom] at ho; exact ih pre op post _ ho e hw
        | readUint t n => simp only [tlsOrderlyFrom] at ho; exact ih pre op post _ ho e hw
  rcases split exTlsOps pre op post [] (by decide) e hw with h | h
  · simp at h
  · exact h

end Leaf
