import Verif.ArrLemmas
import Verif.PropFlow

/-!
# C52: programs behave the same with the array based thread-local storage
-/

namespace Leaf

/-! ## Specification -/

/-- Program start: the static variables `alloc_tls_index<T>::idx` of the types `ks` are initialized, in this order (tls_array.hpp:108-109). -/
def startTls (c : TlsCfg) (ks : List TlsKey) : Option (TlsMem c.width) := ks.foldlM (fun t k => t.init c k) (TlsMem.initial c)

/-- A thread that has not used the library yet, in a build with the array based thread-local storage. -/
def initThreadArr {c : TlsCfg} (t : TlsMem c.width) (th : Nat) (n : Id) : World (ArrStore c) :=
  ⟨0#32, n, 0, [], [], ⟨fun _ => none, fun _ => none, 0, th, t, []⟩⟩

/-- The types whose slots are bound (by contexts, or by captured objects) when a program runs in a new thread. -/
def boundTypes (cfg : Cfg) (p : Prog) (n : Id) : List CellTy :=
  match (eval cfg p : Comp LogStore Out) ⟨0#32, n, 0, [], [], ⟨PtrStore.empty, []⟩⟩ with
  | some (_, w) => w.mem.bound
  | none => []

/-! ## Proofs -/

theorem startTls_repr (c : TlsCfg) (ks : List TlsKey) (hn : ks.Nodup) (hfit : c.start + ks.length < c.size) :
    ∃ t, startTls c ks = some t ∧ t.Repr c ks (TlsVars.initial c.width) ∧ ∀ th j, t.arr th j = 0 := by
  suffices h : ∀ (ks done : List TlsKey) (t : TlsMem c.width), (done ++ ks).Nodup → c.start + (done ++ ks).length < c.size → t.Repr c done (TlsVars.initial c.width) →
      (∀ th j, t.arr th j = 0) → ∃ t', ks.foldlM (fun t k => t.init c k) t = some t' ∧ t'.Repr c (done ++ ks) (TlsVars.initial c.width) ∧ ∀ th j, t'.arr th j = 0 by
    exact h ks [] _ hn hfit (TlsMem.Repr.initial c) (fun _ _ => rfl)
  intro ks
  induction ks with
  | nil => intro done t _ _ h h0; exact ⟨t, rfl, by simpa using h, h0⟩
  | cons k ks ih =>
    intro done t hn hfit h h0
    have hk : k ∉ done := by
      rw [List.nodup_append] at hn
      exact fun hk => hn.2.2 k hk k (by simp) rfl
    obtain ⟨t1, e1, h1⟩ := h.init hk (by simp at hfit; omega)
    have h01 : ∀ th j, t1.arr th j = 0 := by
      intro th j
      simp only [TlsMem.init] at e1
      split at e1
      · cases e1
      · simp only [TlsMem.next] at e1
        split at e1
        · cases e1; exact h0 th j
        · cases e1
    obtain ⟨t2, e2, h2, h02⟩ := ih (done ++ [k]) t1 (by simpa using hn) (by simpa using hfit) h1 h01
    exact ⟨t2, by simp only [List.foldlM_cons, e1]; exact e2, by simpa using h2, h02⟩

theorem ssim_run {M N : Type} [Store M] [Store N] (S : StoreSim M N) (cfg : Cfg) (p : Prog) (w : World N) (o : Out) (w' : World N) (m : M)
    (h : (eval cfg p : Comp N Out) w = some (o, w')) (hg : S.Good w'.mem) (hr : S.R m w.mem) :
    ∃ m', (eval cfg p : Comp M Out) (withMem w m) = some (o, withMem w' m') ∧ S.R m' w'.mem := by
  have hs := ssim_eval (S := S) cfg p
  unfold SSim at hs
  exact (hs w o w' h hg).2 m hr

/-! ## The property -/

/-- **C52.** For all configurations of the array, all programs, all orders of initialization of the indices and all threads: whatever a program does in a new thread with thread-local variables,
it does in a new thread of a build with the array based thread-local storage, provided that the types with an index fit the array, that every type whose slots are bound has an index,
and that the addresses fit pointers of the platform. It returns the same, calls the same handlers with the same arguments and leaves the same current id; no assertion about the array fails, no element
outside of it is accessed; at the end each thread-local pointer has the same value; the arrays of other threads are never touched. -/
theorem C52_array (c : TlsCfg) (ks : List TlsKey) (hn : ks.Nodup) (hfit : c.start + ks.length < c.size) (th : Nat) (cfg : Cfg) (p : Prog) (n : Id) (o : Out) (w' : World PtrStore)
    (h : (eval cfg p : Comp PtrStore Out) (initThread n) = some (o, w')) (hb : ∀ k ∈ boundTypes cfg p n, k.key ∈ ks) (ha : w'.mem.next < 2 ^ c.width) :
    ∃ t v, startTls c ks = some t ∧ (eval cfg p : Comp (ArrStore c) Out) (initThreadArr t th n) = some (o, v) ∧
      v.cur = w'.cur ∧ v.counter = w'.counter ∧ v.trace = w'.trace ∧ v.handling = w'.handling ∧
      (∀ ty, v.mem.readTls (.obj ty) = some (w'.mem.tls ty)) ∧ v.mem.readTls .da = some w'.mem.tlsDa ∧
      ∀ th' j, th' ≠ th → v.mem.tls.arr th' j = 0 := by
  obtain ⟨t, e0, hr, h0⟩ := startTls_repr c ks hn hfit
  obtain ⟨l, e1, r1⟩ := ssim_run logSim cfg p _ o w' ⟨PtrStore.empty, []⟩ h trivial rfl
  have hbound : boundTypes cfg p n = l.bound := by
    simp only [boundTypes]
    rw [show (⟨0#32, n, 0, [], [], ⟨PtrStore.empty, []⟩⟩ : World LogStore) = withMem (initThread n) ⟨PtrStore.empty, []⟩ from rfl, e1]
    rfl
  have r1' : l.base = w'.mem := r1
  have hpos : 0 < 2 ^ c.width := Nat.pow_pos (by decide)
  have hrel : ARel ks t.arr th (⟨fun _ => none, fun _ => none, 0, th, t, []⟩ : ArrStore c) PtrStore.empty := by
    refine ⟨rfl, rfl, rfl, rfl, rfl, ⟨_, hr, ?_⟩, fun _ _ _ => rfl, hpos, ?_, ?_, ?_, ?_, ?_⟩
    · intro k; cases k <;> rfl
    · intro x s q e; cases e
    · intro x s q e; cases e
    · intro k q e; cases k <;> cases e
    · intro f hf; cases hf
    · intro x d e; cases e
  obtain ⟨m', e2, r2⟩ := ssim_run (arrSim c ks t.arr th) cfg p _ o _ _ e1
    ⟨fun k hk => hb k (by rw [hbound]; exact hk), by show l.base.next < _; rw [r1']; exact ha⟩ hrel
  have r2' : ARel ks t.arr th m' w'.mem := by rw [← r1']; exact r2
  exact ⟨t, _, e0, e2, rfl, rfl, rfl, rfl, fun ty => r2'.readTls (.obj ty), r2'.readTls .da, fun th' j ht => by rw [← h0 th' j]; exact r2'.others th' j ht⟩

/-! ## Examples -/

/-- As in tls_array_alloc_test: indices from 10, 64 elements, `unsigned char`. -/
def exTlsArr : TlsCfg := ⟨10, 64, 255, 64, by decide, by decide, by decide⟩

/-- Two scopes; an object with an own slot in each, an object captured in between, an object nobody wants. -/
def exArrProg : Prog :=
  .handleAll [[.req 20], []]
    (.bind (.captureAll (.handleSome [[.pred 10 (· == 7)]]
        (.newError [.obj 10 1, .obj 20 5, .obj 30 9] fun a => .ret (.err (.plain a))) (fun _ _ => .ret (.val 9))))
      (fun v => .ret (.val v)) (fun r => .unload r))
    (fun i _ => .ret (.val i))

def exKeys : List TlsKey := [.ptr 31, .tag 0, .ptr 0, .ptr 11, .ptr 21]

/-- The hypotheses hold. -/
example : exKeys.Nodup ∧ exTlsArr.start + exKeys.length < exTlsArr.size := by decide
example : boundTypes exCfg exArrProg 1#32 = [.obj 10, .obj 30, .obj 10, .da, .obj 20] := by decide +kernel
example : ∀ k ∈ boundTypes exCfg exArrProg 1#32, k.key ∈ exKeys := by decide +kernel
example : ((eval exCfg exArrProg : Comp PtrStore Out) (initThread 1#32)).map (fun r => (r.1, r.2.mem.next)) = some (.val 0, 5) := by decide +kernel

/-- The program on the array. -/
def runArr (cfg : Cfg) (c : TlsCfg) (ks : List TlsKey) (p : Prog) : Option (Out × List Event) := do
  let t ← startTls c ks
  let (o, w) ← (eval cfg p : Comp (ArrStore c) Out) (initThreadArr t 3 1#32)
  return (o, w.trace)

example : runArr exCfg exTlsArr exKeys exArrProg = (runFresh exCfg exArrProg).map fun r => (r.1, r.2.2) := by decide +kernel

/-- The conditions are needed: without an index for a type that is bound, memory outside of the array is accessed; with too few elements, the assertion in `next_` fails. -/
example : runArr exCfg exTlsArr [.tag 0, .ptr 0, .ptr 21] exArrProg = none := by decide +kernel
example : runArr exCfg ⟨0, 5, 255, 64, by decide, by decide, by decide⟩ exKeys exArrProg = none := by decide +kernel
example : runArr exCfg ⟨0, 6, 255, 64, by decide, by decide, by decide⟩ exKeys exArrProg ≠ none := by decide +kernel

/-- Types that are only looked up (30, in a program that does not capture) need no index. -/
example : (runArr exCfg exTlsArr [.ptr 11] (.handleAll [[.pred 10 (· == 1)], []] (.newError [.obj 10 1, .obj 30 9] fun a => .ret (.err (.plain a))) (fun i _ => .ret (.val i)))).map (·.1) =
    some (.val 0) := by decide +kernel

end Leaf
