import Verif.ArrModel
import Verif.PropTls
import Verif.GenSim

/-!
# The storage on the TLS array corresponds to the storage on thread-local variables
-/

namespace Leaf

theorem decode_encode {w : Nat} (x : Option Addr) (h : ∀ a, x = some a → a + 1 < 2 ^ w) : decodePtr (encodePtr w x) = x := by
  cases x with
  | none => simp [encodePtr, decodePtr]
  | some a =>
    have := h a rfl
    simp only [encodePtr, decodePtr, BitVec.toNat_ofNat, Nat.mod_eq_of_lt this]
    simp

/-- The number of the thread-local variable of a slot type. -/
def CellTy.num : CellTy → Nat
  | .obj ty => ty + 1
  | .da => 0

theorem CellTy.key_num (k : CellTy) : k.key = .ptr k.num := by cases k <;> rfl

theorem CellTy.num_inj {k k' : CellTy} (h : k.num = k'.num) : k = k' := by
  cases k <;> cases k' <;> simp_all [CellTy.num]

def PtrStore.tlsOf (p : PtrStore) : CellTy → Option Addr
  | .obj ty => p.tls ty
  | .da => p.tlsDa

def PtrStore.setTls (p : PtrStore) (x : Option Addr) : CellTy → PtrStore
  | .obj ty => { p with tls := upd p.tls ty x }
  | .da => { p with tlsDa := x }

theorem PtrStore.tlsOf_setTls (p : PtrStore) (x : Option Addr) (k k' : CellTy) :
    (p.setTls x k).tlsOf k' = if k' = k then x else p.tlsOf k' := by
  cases k <;> cases k' <;> simp [setTls, tlsOf, upd]

theorem PtrStore.setTls_mem (p : PtrStore) (x : Option Addr) (k : CellTy) : (p.setTls x k).mem = p.mem := by cases k <;> rfl
theorem PtrStore.setTls_dmem (p : PtrStore) (x : Option Addr) (k : CellTy) : (p.setTls x k).dmem = p.dmem := by cases k <;> rfl
theorem PtrStore.setTls_next (p : PtrStore) (x : Option Addr) (k : CellTy) : (p.setTls x k).next = p.next := by cases k <;> rfl
theorem PtrStore.setTls_ctxs (p : PtrStore) (x : Option Addr) (k : CellTy) : (p.setTls x k).ctxs = p.ctxs := by cases k <;> rfl

def PCell.kind : PCell → CellTy
  | .obj ty _ => .obj ty
  | .da _ => .da

/-- The array storage `a` of thread `th` corresponds to `p`; `ks`: the types that have an index; `arr0`: the arrays of the other threads. -/
structure ARel {c : TlsCfg} (ks : List TlsKey) (arr0 : Nat → Nat → BitVec c.width) (th : Nat) (a : ArrStore c) (p : PtrStore) : Prop where
  mem : a.mem = p.mem
  dmem : a.dmem = p.dmem
  next : a.next = p.next
  thread : a.th = th
  ctxs : a.ctxs = p.ctxs
  tls : ∃ v, a.tls.Repr c ks v ∧ ∀ k : CellTy, decodePtr (v.ptr th k.num) = p.tlsOf k
  others : ∀ t j, t ≠ th → a.tls.arr t j = arr0 t j
  lim : p.next < 2 ^ c.width
  prev : ∀ x s q, p.mem x = some s → s.prev = some q → q < p.next
  dprev : ∀ x d q, p.dmem x = some d → d.prev = some q → q < p.next
  tlsb : ∀ k q, p.tlsOf k = some q → q < p.next
  ctxb : ∀ f ∈ p.ctxs, ∀ pc ∈ f, (PCell.kind pc).key ∈ ks
  nodeb : ∀ x d, p.dmem x = some d → ∀ n ∈ d.nodes, (CellTy.obj n.1).key ∈ ks

namespace ARel
variable {c : TlsCfg} {ks : List TlsKey} {arr0 : Nat → Nat → BitVec c.width} {th : Nat} {a : ArrStore c} {p : PtrStore}

theorem readTls (h : ARel ks arr0 th a p) (k : CellTy) : a.readTls k = some (p.tlsOf k) := by
  obtain ⟨v, hr, hv⟩ := h.tls
  rw [ArrStore.readTls, h.thread, k.key_num, ← hv k]
  rcases hr.read th (.ptr k.num) with ⟨h1, h2⟩ | ⟨i, hi, e, h2⟩
  · rw [h2, hr.ptrNone th _ h1]; rfl
  · rw [h2, hr.ptr i hi th _ e]; rfl

theorem writeTls (h : ARel ks arr0 th a p) (k : CellTy) (hk : k.key ∈ ks) (x : Option Addr) (hx : ∀ q, x = some q → q < p.next) :
    ∃ a', a.writeTls k x = some a' ∧ ARel ks arr0 th a' (p.setTls x k) := by
  obtain ⟨v, hr, hv⟩ := h.tls
  rw [k.key_num] at hk
  obtain ⟨t, h1, h2⟩ := hr.writePtr th hk (encodePtr c.width x)
  refine ⟨{ a with tls := t }, by rw [ArrStore.writeTls, h.thread, k.key_num, h1]; rfl, ?_⟩
  refine ⟨by rw [p.setTls_mem]; exact h.mem, by rw [p.setTls_dmem]; exact h.dmem, by rw [p.setTls_next]; exact h.next, h.thread, by rw [p.setTls_ctxs]; exact h.ctxs, ⟨_, h2, ?_⟩, ?_,
    by rw [p.setTls_next]; exact h.lim, by rw [p.setTls_next, p.setTls_mem]; exact h.prev, by rw [p.setTls_next, p.setTls_dmem]; exact h.dprev, ?_,
    by rw [p.setTls_ctxs]; exact h.ctxb, by rw [p.setTls_dmem]; exact h.nodeb⟩
  · intro k'
    rw [p.tlsOf_setTls]
    by_cases e : k' = k
    · subst e
      simp only [and_self, if_true]
      exact decode_encode x fun q hq => Nat.lt_of_le_of_lt (hx q hq) h.lim
    · have : ¬ k'.num = k.num := fun hh => e (CellTy.num_inj hh)
      simp only [this, and_false, if_false, e]
      exact hv k'
  · intro t' j ht
    rw [← h.others t' j ht]
    simp only [TlsMem.write] at h1
    split at h1
    · cases h1
      simp [ht]
    · cases h1
  · intro k' q
    rw [p.tlsOf_setTls, p.setTls_next]
    by_cases e : k' = k
    · rw [if_pos e]; exact hx q
    · rw [if_neg e]; exact h.tlsb k' q

theorem alloc (h : ARel ks arr0 th a p) (hl : p.next + 1 < 2 ^ c.width) :
    ∃ a', a.alloc = some (p.next, a') ∧ ARel ks arr0 th a' { p with next := p.next + 1 } := by
  refine ⟨{ a with next := a.next + 1 }, by rw [ArrStore.alloc, h.next, if_pos hl], ?_⟩
  exact ⟨h.mem, h.dmem, by rw [h.next], h.thread, h.ctxs, h.tls, h.others, hl, fun x s q e1 e2 => Nat.lt_succ_of_lt (h.prev x s q e1 e2),
    fun x s q e1 e2 => Nat.lt_succ_of_lt (h.dprev x s q e1 e2), fun k q e => Nat.lt_succ_of_lt (h.tlsb k q e), h.ctxb, h.nodeb⟩

theorem setMem (h : ARel ks arr0 th a p) (x : Addr) (s : Option PSlot) (hs : ∀ s' q, s = some s' → s'.prev = some q → q < p.next) :
    ARel ks arr0 th { a with mem := upd a.mem x s } { p with mem := upd p.mem x s } := by
  refine ⟨by rw [h.mem], h.dmem, h.next, h.thread, h.ctxs, h.tls, h.others, h.lim, ?_, h.dprev, h.tlsb, h.ctxb, h.nodeb⟩
  intro y s' q e1 e2
  simp only [upd] at e1
  split at e1
  · exact hs s' q e1 e2
  · exact h.prev y s' q e1 e2

theorem setDmem (h : ARel ks arr0 th a p) (x : Addr) (d : Option PDa) (hd : ∀ d' q, d = some d' → d'.prev = some q → q < p.next)
    (hn : ∀ d', d = some d' → ∀ n ∈ d'.nodes, (CellTy.obj n.1).key ∈ ks) :
    ARel ks arr0 th { a with dmem := upd a.dmem x d } { p with dmem := upd p.dmem x d } := by
  refine ⟨h.mem, by rw [h.dmem], h.next, h.thread, h.ctxs, h.tls, h.others, h.lim, h.prev, ?_, h.tlsb, h.ctxb, ?_⟩
  · intro y s' q e1 e2
    simp only [upd] at e1
    split at e1
    · exact hd s' q e1 e2
    · exact h.dprev y s' q e1 e2
  · intro y d' e1
    simp only [upd] at e1
    split at e1
    · exact hn d' e1
    · exact h.nodeb y d' e1

theorem slotGet (h : ARel ks arr0 th a p) (ty : Ty) : a.slotGet ty = p.slotGet ty := by
  simp only [ArrStore.slotGet, h.readTls, PtrStore.slotGet, h.mem]
  rfl

theorem daKey (h : ARel ks arr0 th a p) : a.daKey = p.daKey := by
  simp only [ArrStore.daKey, h.readTls, PtrStore.daKey, h.dmem]
  rfl

theorem slotSet (h : ARel ks arr0 th a p) {ty : Ty} {id : Id} {v : Val} {p' : PtrStore} (hp : p.slotSet ty id v = some p') :
    p'.next = p.next ∧ ∃ a', a.slotSet ty id v = some a' ∧ ARel ks arr0 th a' p' := by
  simp only [PtrStore.slotSet] at hp
  simp only [ArrStore.slotSet, h.readTls, PtrStore.tlsOf, h.mem]
  cases h1 : p.tls ty with
  | none => simp [h1] at hp
  | some x =>
    cases h2 : p.mem x with
    | none => simp [h1, h2] at hp
    | some s =>
      simp only [h1, h2, Option.some.injEq] at hp
      subst hp
      refine ⟨rfl, _, by simp [h2]; rfl, ?_⟩
      have := h.setMem x (some { s with cell := some (id, v) }) (fun s' q e1 e2 => by cases e1; exact h.prev x s q h2 e2)
      rw [h.mem] at this
      exact this

theorem freeSlot (h : ARel ks arr0 th a p) {ty : Ty} {x : Addr} {p' : PtrStore} (hp : p.freeSlot ty x = some p') :
    p'.next = p.next ∧ p'.dmem = p.dmem ∧ p'.ctxs = p.ctxs ∧ ∃ a', a.freeSlot ty x = some a' ∧ ARel ks arr0 th a' p' := by
  simp only [PtrStore.freeSlot] at hp
  simp only [ArrStore.freeSlot, h.readTls, PtrStore.tlsOf, h.mem]
  cases h2 : p.mem x with
  | none => simp [h2] at hp
  | some s =>
    simp only [h2] at hp
    by_cases h1 : p.tls ty = some x
    · simp [h1] at hp
    · simp only [h1, if_false, Option.some.injEq] at hp
      subst hp
      refine ⟨rfl, rfl, rfl, _, by simp [h1]; rfl, ?_⟩
      have := h.setMem x none (fun s' q e1 => by cases e1)
      rw [h.mem] at this
      exact this

theorem freeNodes {ns : List (Ty × Addr)} : ∀ {a : ArrStore c} {p p' : PtrStore}, ARel ks arr0 th a p → p.freeNodes ns = some p' →
    p'.next = p.next ∧ p'.dmem = p.dmem ∧ p'.ctxs = p.ctxs ∧ ∃ a', a.freeNodes ns = some a' ∧ ARel ks arr0 th a' p' := by
  induction ns with
  | nil =>
    intro a p p' h hp
    cases hp
    exact ⟨rfl, rfl, rfl, a, rfl, h⟩
  | cons n ns ih =>
    intro a p p' h hp
    obtain ⟨ty, x⟩ := n
    simp only [PtrStore.freeNodes] at hp
    cases h1 : p.freeSlot ty x with
    | none => simp [h1] at hp
    | some p1 =>
      simp only [h1, Option.bind_some] at hp
      obtain ⟨e1, e2, e3, a1, e4, h'⟩ := h.freeSlot h1
      obtain ⟨f1, f2, f3, a2, f4, h''⟩ := ih h' hp
      exact ⟨f1.trans e1, f2.trans e2, f3.trans e3, a2, by simp [ArrStore.freeNodes, e4, f4], h''⟩

theorem daReset (h : ARel ks arr0 th a p) {id : Id} {p' : PtrStore} (hp : p.daReset id = some p') :
    p'.next = p.next ∧ ∃ a', a.daReset id = some a' ∧ ARel ks arr0 th a' p' := by
  simp only [PtrStore.daReset] at hp
  simp only [ArrStore.daReset, h.readTls, PtrStore.tlsOf, h.dmem]
  cases h1 : p.tlsDa with
  | none => simp [h1] at hp
  | some x =>
    cases h2 : p.dmem x with
    | none => simp [h1, h2] at hp
    | some d =>
      cases h3 : p.freeNodes d.nodes with
      | none => simp [h1, h2, h3] at hp
      | some p1 =>
        simp only [h1, h2, h3, Option.some.injEq] at hp
        subst hp
        obtain ⟨e1, e2, e3, a1, e4, h'⟩ := h.freeNodes h3
        refine ⟨e1, _, by simp [h2, e4]; rfl, ?_⟩
        exact h'.setDmem x _ (fun d' q e5 e6 => by cases e5; rw [e1]; exact h.dprev x d q h2 e6) (fun d' e5 n hn => by cases e5; simp at hn)

theorem daAppend (h : ARel ks arr0 th a p) {ty : Ty} {id : Id} {v : Val} {p' : PtrStore} (hp : p.daAppend ty id v = some p') (hl : p'.next < 2 ^ c.width)
    (hk : (CellTy.obj ty).key ∈ ks) : ∃ a', a.daAppend ty id v = some a' ∧ ARel ks arr0 th a' p' := by
  simp only [PtrStore.daAppend] at hp
  simp only [ArrStore.daAppend, h.readTls, PtrStore.tlsOf, h.dmem]
  cases h1 : p.tlsDa with
  | none => simp [h1] at hp
  | some x =>
    cases h2 : p.dmem x with
    | none => simp [h1, h2] at hp
    | some d =>
      by_cases h3 : d.key = 0#32
      · simp [h1, h2, h3] at hp
      · cases h4 : p.tls ty with
        | some y => simp [h1, h2, h3, h4] at hp
        | none =>
          simp only [h1, h2, h3, h4, if_false, Option.some.injEq] at hp
          subst hp
          obtain ⟨a1, e1, r1⟩ := h.alloc hl
          have r2 := r1.setMem p.next (some ⟨some (id, v), none⟩) (fun s' q e5 e6 => by cases e5; simp at e6)
          have r3 := r2.setDmem x (some { d with nodes := d.nodes ++ [(ty, p.next)] })
            (fun d' q e5 e6 => by cases e5; exact Nat.lt_succ_of_lt (h.dprev x d q h2 e6))
            (fun d' e5 n hn => by
              cases e5
              simp only [List.mem_append, List.mem_singleton] at hn
              rcases hn with hn | rfl
              · exact h.nodeb x d h2 n hn
              · exact hk)
          obtain ⟨a', e2, r4⟩ := r3.writeTls (.obj ty) hk (some p.next) (fun q e => by cases e; exact Nat.lt_succ_self _)
          refine ⟨a', ?_, by rw [← h1]; exact r4⟩
          simp only [Option.bind_eq_bind, Option.bind_some, h2, h3, if_false, e1]
          exact e2

theorem activate {spec : List CellTy} : ∀ {a : ArrStore c} {p p' : PtrStore} {ps : List PCell}, ARel ks arr0 th a p → p.activate spec = (ps, p') → p'.next < 2 ^ c.width →
    (∀ k ∈ spec, k.key ∈ ks) → p'.ctxs = p.ctxs ∧ (∀ pc ∈ ps, (PCell.kind pc).key ∈ ks) ∧ ∃ a', a.activate spec = some (ps, a') ∧ ARel ks arr0 th a' p' := by
  have mono : ∀ (spec : List CellTy) (p : PtrStore), p.next ≤ (PtrStore.activate spec p).2.next := by
    intro spec
    induction spec with
    | nil => intro p; exact Nat.le_refl _
    | cons k spec ih =>
      intro p
      cases k with
      | obj ty =>
        exact Nat.le_trans (Nat.le_succ _)
          (ih { p with mem := upd p.mem p.next (some ⟨none, p.tls ty⟩), tls := upd p.tls ty (some p.next), next := p.next + 1 })
      | da =>
        exact Nat.le_trans (Nat.le_succ _)
          (ih { p with dmem := upd p.dmem p.next (some ⟨0#32, [], p.tlsDa⟩), tlsDa := some p.next, next := p.next + 1 })
  induction spec with
  | nil =>
    intro a p p' ps h hp _ _
    cases hp
    exact ⟨rfl, by simp, a, rfl, h⟩
  | cons k spec ih =>
    intro a p p' ps h hp hl hks
    have hk := hks k (by simp)
    cases k with
    | obj ty =>
      cases hq : PtrStore.activate spec { p with mem := upd p.mem p.next (some ⟨none, p.tls ty⟩), tls := upd p.tls ty (some p.next), next := p.next + 1 } with
      | mk qs q =>
        have hm := mono spec { p with mem := upd p.mem p.next (some ⟨none, p.tls ty⟩), tls := upd p.tls ty (some p.next), next := p.next + 1 }
        simp only [PtrStore.activate, hq, Prod.mk.injEq] at hp
        obtain ⟨rfl, rfl⟩ := hp
        rw [hq] at hm
        obtain ⟨a1, e1, r1⟩ := h.alloc (Nat.lt_of_le_of_lt hm hl)
        have e2 := r1.readTls (.obj ty)
        have r2 := r1.setMem p.next (some ⟨none, p.tls ty⟩) (fun s' x e5 e6 => by cases e5; exact Nat.lt_succ_of_lt (h.tlsb (.obj ty) x e6))
        obtain ⟨a2, e3, r3⟩ := r2.writeTls (.obj ty) hk (some p.next) (fun x e => by cases e; exact Nat.lt_succ_self _)
        obtain ⟨f1, f2, a3, f3, f4⟩ := ih r3 hq hl (fun k hk' => hks k (by simp [hk']))
        refine ⟨f1, ?_, a3, ?_, f4⟩
        · intro pc hpc
          simp only [List.mem_cons] at hpc
          rcases hpc with rfl | hpc
          · exact hk
          · exact f2 pc hpc
        · simp only [ArrStore.activate, Option.bind_eq_bind, Option.bind_some, e1, e2]
          simp only [PtrStore.tlsOf]
          rw [e3]
          simp only [Option.bind_some, f3]
          rfl
    | da =>
      cases hq : PtrStore.activate spec { p with dmem := upd p.dmem p.next (some ⟨0#32, [], p.tlsDa⟩), tlsDa := some p.next, next := p.next + 1 } with
      | mk qs q =>
        have hm := mono spec { p with dmem := upd p.dmem p.next (some ⟨0#32, [], p.tlsDa⟩), tlsDa := some p.next, next := p.next + 1 }
        simp only [PtrStore.activate, hq, Prod.mk.injEq] at hp
        obtain ⟨rfl, rfl⟩ := hp
        rw [hq] at hm
        obtain ⟨a1, e1, r1⟩ := h.alloc (Nat.lt_of_le_of_lt hm hl)
        have e2 := r1.readTls .da
        have r2 := r1.setDmem p.next (some ⟨0#32, [], p.tlsDa⟩) (fun s' x e5 e6 => by cases e5; exact Nat.lt_succ_of_lt (h.tlsb .da x e6))
          (fun d' e5 n hn => by cases e5; simp at hn)
        obtain ⟨a2, e3, r3⟩ := r2.writeTls .da hk (some p.next) (fun x e => by cases e; exact Nat.lt_succ_self _)
        obtain ⟨f1, f2, a3, f3, f4⟩ := ih r3 hq hl (fun k hk' => hks k (by simp [hk']))
        refine ⟨f1, ?_, a3, ?_, f4⟩
        · intro pc hpc
          simp only [List.mem_cons] at hpc
          rcases hpc with rfl | hpc
          · exact hk
          · exact f2 pc hpc
        · simp only [ArrStore.activate, Option.bind_eq_bind, Option.bind_some, e1, e2]
          simp only [PtrStore.tlsOf]
          rw [e3]
          simp only [Option.bind_some, f3]
          rfl

theorem push (h : ARel ks arr0 th a p) {spec : List CellTy} {p' : PtrStore} (hp : p.push spec = some p') (hl : p'.next < 2 ^ c.width)
    (hk : ∀ k ∈ spec, k.key ∈ ks) : ∃ a', a.push spec = some a' ∧ ARel ks arr0 th a' p' := by
  simp only [PtrStore.push] at hp
  by_cases hn : spec.Nodup
  · cases hq : p.activate spec with
    | mk ps q =>
      simp only [hn, if_true, hq, Option.some.injEq] at hp
      subst hp
      obtain ⟨e1, e2, a1, e3, r⟩ := h.activate hq hl hk
      refine ⟨_, by simp [ArrStore.push, hn, e3]; rfl, ?_⟩
      refine ⟨r.mem, r.dmem, r.next, r.thread, by rw [r.ctxs], r.tls, r.others, r.lim, r.prev, r.dprev, r.tlsb, ?_, r.nodeb⟩
      intro f hf
      simp only [List.mem_cons] at hf
      rcases hf with rfl | hf
      · exact e2
      · exact r.ctxb f hf
  · simp [hn] at hp

theorem deactSlot (h : ARel ks arr0 th a p) {ty : Ty} {x : Addr} {p' : PtrStore} (hp : p.deactSlot ty x = some p') (hk : (CellTy.obj ty).key ∈ ks) :
    p'.next = p.next ∧ p'.dmem = p.dmem ∧ p'.ctxs = p.ctxs ∧ ∃ a', a.deactSlot ty x = some a' ∧ ARel ks arr0 th a' p' := by
  simp only [PtrStore.deactSlot] at hp
  cases h2 : p.mem x with
  | none => simp [h2] at hp
  | some s =>
    simp only [h2, Option.some.injEq] at hp
    subst hp
    obtain ⟨a', e1, r⟩ := h.writeTls (.obj ty) hk s.prev (fun q e => h.prev x s q h2 e)
    exact ⟨rfl, rfl, rfl, a', by simp only [ArrStore.deactSlot, h.mem, h2]; exact e1, r⟩

theorem deactNodes {ns : List (Ty × Addr)} : ∀ {a : ArrStore c} {p p' : PtrStore}, ARel ks arr0 th a p → p.deactNodes ns = some p' → (∀ n ∈ ns, (CellTy.obj n.1).key ∈ ks) →
    p'.next = p.next ∧ p'.dmem = p.dmem ∧ p'.ctxs = p.ctxs ∧ ∃ a', a.deactNodes ns = some a' ∧ ARel ks arr0 th a' p' := by
  induction ns with
  | nil =>
    intro a p p' h hp _
    cases hp
    exact ⟨rfl, rfl, rfl, a, rfl, h⟩
  | cons n ns ih =>
    intro a p p' h hp hk
    obtain ⟨ty, x⟩ := n
    simp only [PtrStore.deactNodes] at hp
    cases h1 : p.deactSlot ty x with
    | none => simp [h1] at hp
    | some p1 =>
      simp only [h1, Option.bind_some] at hp
      obtain ⟨e1, e2, e3, a1, e4, h'⟩ := h.deactSlot h1 (hk (ty, x) (by simp))
      obtain ⟨f1, f2, f3, a2, f4, h''⟩ := ih h' hp (fun n hn => hk n (by simp [hn]))
      exact ⟨f1.trans e1, f2.trans e2, f3.trans e3, a2, by simp [ArrStore.deactNodes, e4, f4], h''⟩

theorem deactDa (h : ARel ks arr0 th a p) {x : Addr} {p' : PtrStore} (hp : p.deactDa x = some p') (hk : CellTy.da.key ∈ ks) :
    p'.next = p.next ∧ p'.dmem = p.dmem ∧ p'.ctxs = p.ctxs ∧ ∃ a', a.deactDa x = some a' ∧ ARel ks arr0 th a' p' := by
  simp only [PtrStore.deactDa] at hp
  simp only [ArrStore.deactDa, h.dmem]
  cases h2 : p.dmem x with
  | none => simp [h2] at hp
  | some d =>
    simp only [h2] at hp ⊢
    have key : ∀ q, (if d.key ≠ 0#32 then p.deactNodes d.nodes else some p) = some q →
        q.next = p.next ∧ q.dmem = p.dmem ∧ q.ctxs = p.ctxs ∧ ∃ a', (if d.key ≠ 0#32 then a.deactNodes d.nodes else some a) = some a' ∧ ARel ks arr0 th a' q := by
      intro q hq
      by_cases hd : d.key ≠ 0#32
      · rw [if_pos hd] at hq ⊢
        exact h.deactNodes hq (h.nodeb x d h2)
      · rw [if_neg hd] at hq ⊢
        cases hq
        exact ⟨rfl, rfl, rfl, a, rfl, h⟩
    cases h3 : (if d.key ≠ 0#32 then p.deactNodes d.nodes else some p) with
    | none => simp [h3] at hp
    | some q =>
      simp only [h3, Option.some.injEq] at hp
      subst hp
      obtain ⟨e1, e2, e3, a1, e4, r⟩ := key q h3
      obtain ⟨a', e5, r'⟩ := r.writeTls .da hk d.prev (fun y e => by rw [e1]; exact h.dprev x d y h2 e)
      exact ⟨e1, e2, e3, a', by rw [e4]; exact e5, r'⟩

theorem deactivate {f : List PCell} : ∀ {p' : PtrStore}, ARel ks arr0 th a p → p.deactivate f = some p' → (∀ pc ∈ f, (PCell.kind pc).key ∈ ks) →
    p'.next = p.next ∧ p'.dmem = p.dmem ∧ p'.ctxs = p.ctxs ∧ ∃ a', a.deactivate f = some a' ∧ ARel ks arr0 th a' p' := by
  induction f with
  | nil =>
    intro p' h hp _
    cases hp
    exact ⟨rfl, rfl, rfl, a, rfl, h⟩
  | cons pc f ih =>
    intro p' h hp hk
    have hk0 := hk pc (by simp)
    cases pc with
    | obj ty x =>
      simp only [PtrStore.deactivate] at hp
      cases h1 : p.deactivate f with
      | none => simp [h1] at hp
      | some p1 =>
        simp only [h1, Option.bind_some] at hp
        obtain ⟨e1, e2, e3, a1, e4, r⟩ := ih h h1 (fun n hn => hk n (by simp [hn]))
        obtain ⟨f1, f2, f3, a2, f4, r'⟩ := r.deactSlot hp hk0
        exact ⟨f1.trans e1, f2.trans e2, f3.trans e3, a2, by simp [ArrStore.deactivate, e4, f4], r'⟩
    | da x =>
      simp only [PtrStore.deactivate] at hp
      cases h1 : p.deactivate f with
      | none => simp [h1] at hp
      | some p1 =>
        simp only [h1, Option.bind_some] at hp
        obtain ⟨e1, e2, e3, a1, e4, r⟩ := ih h h1 (fun n hn => hk n (by simp [hn]))
        obtain ⟨f1, f2, f3, a2, f4, r'⟩ := r.deactDa hp hk0
        exact ⟨f1.trans e1, f2.trans e2, f3.trans e3, a2, by simp [ArrStore.deactivate, e4, f4], r'⟩

theorem readNodes (h : ARel ks arr0 th a p) (ns : List (Ty × Addr)) : a.readNodes ns = p.readNodes ns := by
  induction ns with
  | nil => rfl
  | cons n ns ih =>
    obtain ⟨ty, x⟩ := n
    simp only [ArrStore.readNodes, PtrStore.readNodes, h.mem, ih]
    cases p.mem x <;> cases p.readNodes ns <;> rfl

theorem readOut (h : ARel ks arr0 th a p) (f : List PCell) : a.readOut f = p.readOut f := by
  induction f with
  | nil => rfl
  | cons pc f ih =>
    cases pc with
    | obj ty x =>
      simp only [ArrStore.readOut, PtrStore.readOut, h.mem, ih]
      cases p.mem x <;> cases p.readOut f <;> rfl
    | da x =>
      simp only [ArrStore.readOut, PtrStore.readOut, h.dmem, h.readNodes, ih]
      cases p.dmem x with
      | none => rfl
      | some d => cases h1 : p.readNodes d.nodes <;> cases h2 : p.readOut f <;> simp [h1]

theorem destroy {f : List PCell} : ∀ {a : ArrStore c} {p p' : PtrStore}, ARel ks arr0 th a p → p.destroy f = some p' →
    p'.next = p.next ∧ p'.ctxs = p.ctxs ∧ ∃ a', a.destroy f = some a' ∧ ARel ks arr0 th a' p' := by
  induction f with
  | nil =>
    intro a p p' h hp
    cases hp
    exact ⟨rfl, rfl, a, rfl, h⟩
  | cons pc f ih =>
    intro a p p' h hp
    cases pc with
    | obj ty x =>
      simp only [PtrStore.destroy] at hp
      cases h1 : p.freeSlot ty x with
      | none => simp [h1] at hp
      | some p1 =>
        simp only [h1, Option.bind_some] at hp
        obtain ⟨e1, e2, e3, a1, e4, r⟩ := h.freeSlot h1
        obtain ⟨f1, f3, a2, f4, r'⟩ := ih r hp
        exact ⟨f1.trans e1, f3.trans e3, a2, by simp [ArrStore.destroy, e4, f4], r'⟩
    | da x =>
      simp only [PtrStore.destroy] at hp
      cases h2 : p.dmem x with
      | none => simp [h2] at hp
      | some d =>
        simp only [h2] at hp
        by_cases h3 : p.tlsDa = some x
        · simp [h3] at hp
        · simp only [h3, if_false] at hp
          cases h4 : p.freeNodes d.nodes with
          | none => simp [h4] at hp
          | some p1 =>
            simp only [h4] at hp
            obtain ⟨e1, e2, e3, a1, e4, r⟩ := h.freeNodes h4
            have r2 := r.setDmem x none (fun d' q e => by cases e) (fun d' e => by cases e)
            obtain ⟨f1, f3, a2, f4, r'⟩ := ih r2 hp
            refine ⟨f1.trans e1, f3.trans e3, a2, ?_, r'⟩
            simp only [ArrStore.destroy, h.dmem, h2, h.readTls, PtrStore.tlsOf, Option.bind_eq_bind, Option.bind_some, h3, if_false, e4]
            exact f4

theorem pop (h : ARel ks arr0 th a p) {cs : List CtxCell} {p' : PtrStore} (hp : p.pop = some (cs, p')) :
    p'.next = p.next ∧ ∃ a', a.pop = some (cs, a') ∧ ARel ks arr0 th a' p' := by
  simp only [PtrStore.pop] at hp
  simp only [ArrStore.pop, h.ctxs]
  cases hc : p.ctxs with
  | nil => simp [hc] at hp
  | cons f fs =>
    simp only [hc] at hp ⊢
    cases h1 : p.deactivate f with
    | none => simp [h1] at hp
    | some p1 =>
      simp only [h1] at hp
      obtain ⟨e1, e2, e3, a1, e4, r⟩ := h.deactivate h1 (h.ctxb f (by rw [hc]; simp))
      rw [e4]
      simp only [r.readOut]
      cases h2 : p1.readOut f with
      | none => simp [h2] at hp
      | some cells =>
        cases h3 : p1.destroy f with
        | none => simp [h2, h3] at hp
        | some p2 =>
          simp only [h2, h3, Option.some.injEq, Prod.mk.injEq] at hp
          obtain ⟨rfl, rfl⟩ := hp
          obtain ⟨f1, f3, a2, f4, r'⟩ := r.destroy h3
          refine ⟨f1.trans e1, { a2 with ctxs := fs }, by rw [f4], ?_⟩
          refine ⟨r'.mem, r'.dmem, r'.next, r'.thread, rfl, r'.tls, r'.others, r'.lim, r'.prev, r'.dprev, r'.tlsb, ?_, r'.nodeb⟩
          intro g hg
          exact h.ctxb g (by rw [hc]; simp [hg])

end ARel

/-! ## Addresses are only ever added -/

namespace PtrStore

theorem next_freeSlot {ty : Ty} {x : Addr} {p p' : PtrStore} (h : p.freeSlot ty x = some p') : p'.next = p.next := by
  simp only [freeSlot] at h
  split at h
  · cases h
  · split at h
    · cases h
    · cases h; rfl

theorem next_freeNodes {ns : List (Ty × Addr)} : ∀ {p p' : PtrStore}, p.freeNodes ns = some p' → p'.next = p.next := by
  induction ns with
  | nil => intro p p' h; cases h; rfl
  | cons n ns ih =>
    intro p p' h
    simp only [freeNodes] at h
    cases h1 : p.freeSlot n.1 n.2 with
    | none => simp [h1] at h
    | some q =>
      simp only [h1, Option.bind_some] at h
      exact (ih h).trans (next_freeSlot h1)

theorem next_slotSet {ty : Ty} {id : Id} {v : Val} {p p' : PtrStore} (h : p.slotSet ty id v = some p') : p'.next = p.next := by
  simp only [slotSet] at h
  split at h
  · cases h
  · split at h
    · cases h
    · cases h; rfl

theorem next_daReset {id : Id} {p p' : PtrStore} (h : p.daReset id = some p') : p'.next = p.next := by
  simp only [daReset] at h
  split at h
  · cases h
  · split at h
    · cases h
    · split at h
      · cases h
      · rename_i h1
        cases h
        have := next_freeNodes h1
        exact this

theorem next_daAppend {ty : Ty} {id : Id} {v : Val} {p p' : PtrStore} (h : p.daAppend ty id v = some p') : p'.next = p.next + 1 := by
  simp only [daAppend] at h
  split at h
  · cases h
  · split at h
    · cases h
    · split at h
      · cases h
      · split at h
        · cases h
        · cases h; rfl

theorem next_activate {spec : List CellTy} : ∀ (p : PtrStore), p.next ≤ (activate spec p).2.next := by
  induction spec with
  | nil => intro p; exact Nat.le_refl _
  | cons k spec ih =>
    intro p
    cases k with
    | obj ty =>
      exact Nat.le_trans (Nat.le_succ _)
        (ih { p with mem := upd p.mem p.next (some ⟨none, p.tls ty⟩), tls := upd p.tls ty (some p.next), next := p.next + 1 })
    | da =>
      exact Nat.le_trans (Nat.le_succ _)
        (ih { p with dmem := upd p.dmem p.next (some ⟨0#32, [], p.tlsDa⟩), tlsDa := some p.next, next := p.next + 1 })

theorem next_push {spec : List CellTy} {p p' : PtrStore} (h : p.push spec = some p') : p.next ≤ p'.next := by
  simp only [push] at h
  split at h
  · cases h; exact next_activate p
  · cases h

theorem next_deactSlot {ty : Ty} {x : Addr} {p p' : PtrStore} (h : p.deactSlot ty x = some p') : p'.next = p.next := by
  simp only [deactSlot] at h
  split at h
  · cases h
  · cases h; rfl

theorem next_deactNodes {ns : List (Ty × Addr)} : ∀ {p p' : PtrStore}, p.deactNodes ns = some p' → p'.next = p.next := by
  induction ns with
  | nil => intro p p' h; cases h; rfl
  | cons n ns ih =>
    intro p p' h
    simp only [deactNodes] at h
    cases h1 : p.deactSlot n.1 n.2 with
    | none => simp [h1] at h
    | some q =>
      simp only [h1, Option.bind_some] at h
      exact (ih h).trans (next_deactSlot h1)

theorem next_deactDa {x : Addr} {p p' : PtrStore} (h : p.deactDa x = some p') : p'.next = p.next := by
  simp only [deactDa] at h
  split at h
  · cases h
  · split at h
    · cases h
    · rename_i h1
      cases h
      split at h1
      · have := next_deactNodes h1
        exact this
      · cases h1; rfl

theorem next_deactivate {f : List PCell} : ∀ {p p' : PtrStore}, p.deactivate f = some p' → p'.next = p.next := by
  induction f with
  | nil => intro p p' h; cases h; rfl
  | cons pc f ih =>
    intro p p' h
    cases pc with
    | obj ty x =>
      simp only [deactivate] at h
      cases h1 : p.deactivate f with
      | none => simp [h1] at h
      | some q =>
        simp only [h1, Option.bind_some] at h
        exact (next_deactSlot h).trans (ih h1)
    | da x =>
      simp only [deactivate] at h
      cases h1 : p.deactivate f with
      | none => simp [h1] at h
      | some q =>
        simp only [h1, Option.bind_some] at h
        exact (next_deactDa h).trans (ih h1)

theorem next_destroy {f : List PCell} : ∀ {p p' : PtrStore}, p.destroy f = some p' → p'.next = p.next := by
  induction f with
  | nil => intro p p' h; cases h; rfl
  | cons pc f ih =>
    intro p p' h
    cases pc with
    | obj ty x =>
      simp only [destroy] at h
      cases h1 : p.freeSlot ty x with
      | none => simp [h1] at h
      | some q =>
        simp only [h1, Option.bind_some] at h
        exact (ih h).trans (next_freeSlot h1)
    | da x =>
      simp only [destroy] at h
      split at h
      · cases h
      · split at h
        · cases h
        · split at h
          · cases h
          · rename_i h1
            have := next_freeNodes h1
            exact (ih h).trans this

theorem next_pop {cs : List CtxCell} {p p' : PtrStore} (h : p.pop = some (cs, p')) : p'.next = p.next := by
  simp only [pop] at h
  split at h
  · cases h
  · split at h
    · cases h
    · rename_i h1
      split at h
      · rename_i h2
        cases h
        have := next_destroy h2
        exact this.trans (next_deactivate h1)
      · cases h

end PtrStore

/-! ## The correspondences -/

/-- The storage with a record does what the storage does. -/
def logSim : StoreSim LogStore PtrStore where
  R l p := l.base = p
  Good _ := True
  slotGet ty m n a h _ e := by subst h; exact e
  daKey m n a h _ e := by subst h; exact e
  slotSet_good _ _ _ _ _ _ _ := trivial
  slotSet ty id v m n n' h _ e := by
    subst h
    exact ⟨_, by show Option.map _ (PtrStore.slotSet ty id v m.base) = _; rw [show PtrStore.slotSet ty id v m.base = some n' from e]; rfl, rfl⟩
  daReset_good _ _ _ _ _ := trivial
  daReset id m n n' h _ e := by
    subst h
    exact ⟨_, by show Option.map _ (PtrStore.daReset id m.base) = _; rw [show PtrStore.daReset id m.base = some n' from e]; rfl, rfl⟩
  daAppend_good _ _ _ _ _ _ _ := trivial
  daAppend ty id v m n n' h _ e := by
    subst h
    exact ⟨_, by show Option.map _ (PtrStore.daAppend ty id v m.base) = _; rw [show PtrStore.daAppend ty id v m.base = some n' from e]; rfl, rfl⟩
  push_good _ _ _ _ _ := trivial
  push spec m n n' h _ e := by
    subst h
    exact ⟨_, by show Option.map _ (PtrStore.push spec m.base) = _; rw [show PtrStore.push spec m.base = some n' from e]; rfl, rfl⟩
  pop_good _ _ _ _ _ := trivial
  pop m n c n' h _ e := by
    subst h
    exact ⟨_, by show Option.map _ (PtrStore.pop m.base) = _; rw [show PtrStore.pop m.base = some (c, n') from e]; rfl, rfl⟩

/-- The storage on the array does what the storage with a record does, if all recorded types have an index and the addresses fit. -/
def arrSim (c : TlsCfg) (ks : List TlsKey) (arr0 : Nat → Nat → BitVec c.width) (th : Nat) : StoreSim (ArrStore c) LogStore where
  R a l := ARel ks arr0 th a l.base
  Good l := (∀ k ∈ l.bound, k.key ∈ ks) ∧ l.base.next < 2 ^ c.width
  slotGet ty m n a h _ e := (h.slotGet ty).trans e
  daKey m n a h _ e := h.daKey.trans e
  slotSet_good ty id v n n' e hg := by
    obtain ⟨b, hb, rfl⟩ := Option.map_eq_some_iff.mp e
    exact ⟨hg.1, by rw [← PtrStore.next_slotSet hb]; exact hg.2⟩
  slotSet ty id v m n n' h hg e := by
    obtain ⟨b, hb, rfl⟩ := Option.map_eq_some_iff.mp e
    exact (h.slotSet hb).2
  daReset_good id n n' e hg := by
    obtain ⟨b, hb, rfl⟩ := Option.map_eq_some_iff.mp e
    exact ⟨hg.1, by rw [← PtrStore.next_daReset hb]; exact hg.2⟩
  daReset id m n n' h hg e := by
    obtain ⟨b, hb, rfl⟩ := Option.map_eq_some_iff.mp e
    exact (h.daReset hb).2
  daAppend_good ty id v n n' e hg := by
    obtain ⟨b, hb, rfl⟩ := Option.map_eq_some_iff.mp e
    refine ⟨fun k hk => hg.1 k (List.mem_cons_of_mem _ hk), ?_⟩
    have := hg.2
    simp only [PtrStore.next_daAppend hb] at this
    exact Nat.lt_of_succ_lt this
  daAppend ty id v m n n' h hg e := by
    obtain ⟨b, hb, rfl⟩ := Option.map_eq_some_iff.mp e
    exact h.daAppend hb hg.2 (hg.1 _ (List.mem_cons_self ..))
  push_good spec n n' e hg := by
    obtain ⟨b, hb, rfl⟩ := Option.map_eq_some_iff.mp e
    exact ⟨fun k hk => hg.1 k (List.mem_append_right _ hk), Nat.lt_of_le_of_lt (PtrStore.next_push hb) hg.2⟩
  push spec m n n' h hg e := by
    obtain ⟨b, hb, rfl⟩ := Option.map_eq_some_iff.mp e
    exact h.push hb hg.2 (fun k hk => hg.1 k (List.mem_append_left _ hk))
  pop_good n cs n' e hg := by
    obtain ⟨⟨cs', b⟩, hb, e'⟩ := Option.map_eq_some_iff.mp e
    simp only [Prod.mk.injEq] at e'
    obtain ⟨rfl, rfl⟩ := e'
    exact ⟨hg.1, by rw [← PtrStore.next_pop hb]; exact hg.2⟩
  pop m n cs n' h hg e := by
    obtain ⟨⟨cs', b⟩, hb, e'⟩ := Option.map_eq_some_iff.mp e
    simp only [Prod.mk.injEq] at e'
    obtain ⟨rfl, rfl⟩ := e'
    exact (h.pop hb).2

end Leaf
