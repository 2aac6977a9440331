import Verif.KeepLemmas

/-!
# Properties C10, C11: thread-local bindings and lifetime of error storage

Stated on the pointer-level storage (`PtrStore`): thread-local pointers, slots at addresses. Every access to storage that is not
alive, and every violated assertion, is the outcome `none`.
-/

namespace Leaf

/-- The state of a thread before it used LEAF; `c` is the current value of the id counter shared with other threads. -/
def initThread (c : Id) : World PtrStore := ⟨0#32, c, 0, [], [], PtrStore.empty⟩

/-- States of a thread at which a piece of user code may run: the storage is consistent, the current id is empty or valid. -/
structure ThreadOk (w : World PtrStore) : Prop where
  inv : PtrStore.Inv w.mem
  good : (absW w).Good

theorem threadOk_init {c : Id} (hc : c.Tagged) : ThreadOk (initThread c) :=
  ⟨PtrStore.inv_empty, ⟨Or.inl rfl, hc, by simp [absW, initThread], by
    intro f hf; simp [absW, initThread, PtrStore.abs, PtrStore.empty, PtrStore.absFrames] at hf⟩⟩

/-- A pointer to error storage of type `ty`: `storage w ty = some a` when the thread-local pointer for `ty` refers to address `a`. -/
def binding (w : World PtrStore) (ty : Ty) : Option Addr := w.mem.tls ty

/-- Number of active scopes. -/
def activeScopes (w : World PtrStore) : Nat := w.mem.ctxs.length

/-- `a` is storage inside a capturing scope that is active in `w`. -/
def InCapturingScope (w : World PtrStore) (ty : Ty) (a : Addr) : Prop :=
  ∃ ctx ∈ w.mem.ctxs, ∃ d da, PCell.da d ∈ ctx ∧ w.mem.dmem d = some da ∧ (ty, a) ∈ da.nodes

/-- No capturing scope is active. -/
def NoCapturingScope (w : World PtrStore) : Prop := ∀ ctx ∈ w.mem.ctxs, ∀ d, PCell.da d ∉ ctx

theorem noDa_of {w : World PtrStore} (h : NoCapturingScope w) : NoDa (shape (absW w).mem.frames) := by
  intro c hc
  simp only [absW, PtrStore.abs, PtrStore.absFrames, shape, List.map_map, List.mem_map, Function.comp] at hc
  obtain ⟨f, hf, rfl⟩ := hc
  intro hd
  simp only [PtrStore.absFrame, List.map_map, List.mem_map, Function.comp] at hd
  obtain ⟨x, hx, he⟩ := hd
  cases x with
  | obj t a => simp [PtrStore.absCell, CtxCell.cellTy] at he
  | da a => exact h f hf a hx

theorem inCapturing_of {m m0 : PtrStore} {ty : Ty} {a d : Addr} (hc : m.ctxs = m0.ctxs) (hd : d ∈ PtrStore.allDas m0.ctxs)
    (hp : (ty, a) ∈ PtrStore.nodesOf m.dmem d) :
    ∃ ctx ∈ m.ctxs, ∃ d da, PCell.da d ∈ ctx ∧ m.dmem d = some da ∧ (ty, a) ∈ da.nodes := by
  simp only [PtrStore.allDas, PtrStore.frameDas, List.mem_flatMap] at hd
  obtain ⟨f, hf, c, hcf, hd⟩ := hd
  cases c with
  | obj t b => simp [PtrStore.cellDas] at hd
  | da b =>
    simp only [PtrStore.cellDas, List.mem_singleton] at hd
    subst hd
    unfold PtrStore.nodesOf at hp
    cases hx : m.dmem d with
    | none => simp [hx] at hp
    | some da =>
      simp only [hx] at hp
      exact ⟨f, hc ▸ hf, d, da, hcf, hx, hp⟩

/-- **C10.** Whatever a well-formed program does (any nesting of scopes, guards, captures, any outcome), when it finishes the
thread-local binding of every type is what it was, except that a type without binding may have got storage inside a capturing scope
that was active already; the scopes active are the same. -/
theorem C10_bindings_restored (cfg : Cfg) (p : Prog) {da : Bool} (hp : p.WF cfg da) (w : World PtrStore) (hw : ThreadOk w)
    (hda : da = false → NoCapturingScope w) :
    ∃ o w', eval cfg p w = some (o, w') ∧ ThreadOk w' ∧ activeScopes w' = activeScopes w ∧ w'.mem.tlsDa = w.mem.tlsDa ∧
      ∀ ty, binding w' ty = binding w ty ∨
        (binding w ty = none ∧ ∃ a, binding w' ty = some a ∧ InCapturingScope w' ty a) := by
  obtain ⟨o, v, h1, h2, _, _⟩ := tot_eval cfg p hp _ (fun h => noDa_of (hda h)) (absW w) hw.good rfl
  obtain ⟨w', e1, e2, e3, e4⟩ := sim_run (sim_eval (n := 0) cfg p) w.mem w o v hw.inv (.refl _) h1
  have hc : w'.mem.ctxs = w.mem.ctxs := by
    obtain ⟨pre, hl, hc⟩ := e4.ctxs
    rw [hc, List.eq_nil_of_length_eq_zero hl]; rfl
  refine ⟨o, w', e1, ⟨e3, e2 ▸ h2⟩, by simp [activeScopes, hc], e4.tlsDa hw.inv e3, fun ty => ?_⟩
  rcases e4.tls hw.inv e3 ty with h | ⟨h, a, d, h3, h4, h5⟩
  · exact Or.inl h
  · exact Or.inr ⟨h, a, h3, inCapturing_of hc h4 h5⟩

/-- **C10**, second part: when no scope is active, nothing is bound. -/
theorem C10_nothing_bound (w : World PtrStore) (hw : ThreadOk w) (h : activeScopes w = 0) (ty : Ty) :
    binding w ty = none ∧ w.mem.tlsDa = none := by
  have hc : w.mem.ctxs = [] := List.eq_nil_of_length_eq_zero h
  constructor
  · have := hw.inv.tls ty
    rw [hc] at this
    exact this
  · have := hw.inv.tlsDa
    rw [hc] at this
    exact this

/-- A program with nested scopes, a guard, a capture, an exception. -/
def exProg : Prog :=
  .bind
    (.handleSome [[.req 10], [.ptr 11, .diag]]
      (.onError [.item (.obj 12 7)]
        (.bind (.captureAll (.newError [.obj 10 1, .obj 13 2] (fun id => .ret (.exc ⟨5, true, .base id, [(14, 3)], true⟩))))
          (fun v => .ret (.val v)) (fun r => .ret (.err r))))
      (fun _ _ => .ret (.val 0)))
    (fun _ => .newError [.obj 10 1] (fun id => .ret (.err (.plain id)))) (fun r => .ret (.err r))

def exCfg : Cfg := ⟨true, fun _ => false, fun _ => 0, fun _ => 0⟩

/-- The hypotheses of C10 and C11 hold for it. -/
example : exProg.WF exCfg false := by
  refine ⟨⟨⟨?_, ⟨⟨rfl, ?_, ?_⟩, ?_, ?_⟩⟩, ?_⟩, ?_, ?_⟩
  · simp [OnItem.Ok, Item.Ok]
  · simp [Item.Ok]
  · intro id h; exact h
  · intro v; trivial
  · intro r h; exact h
  · intro _ _ _; trivial
  · intro _; exact ⟨by simp [Item.Ok], fun id _ => trivial⟩
  · intro r h; exact h

/-- **C11 (partial).** No well-formed program accesses storage that is not alive, or violates an assertion, starting from any
consistent state; afterwards every thread-local pointer refers to live storage. *Missing from the full claim*: with
`BOOST_LEAF_CFG_CAPTURE`, functions taking `E &` passed to `load`/`on_error` (`Item.accum`) inside a capturing scope, and `try_capture_all` with a function
returning `void`: for these the claim is false, see `C11_refuted_accumulate` and `C11_refuted_capture_void`. -/
theorem C11_no_dead_storage_partial (cfg : Cfg) (p : Prog) {da : Bool} (hp : p.WF cfg da) (w : World PtrStore) (hw : ThreadOk w)
    (hda : da = false → NoCapturingScope w) :
    ∃ o w', eval cfg p w = some (o, w') ∧
      (∀ ty a, binding w' ty = some a → ∃ s, w'.mem.mem a = some s) ∧
      (∀ d, w'.mem.tlsDa = some d → ∃ x, w'.mem.dmem d = some x) := by
  obtain ⟨o, w', h1, h2, _⟩ := C10_bindings_restored cfg p hp w hw hda
  exact ⟨o, w', h1, h2.inv.live.1, h2.inv.live.2⟩

/-- Inside `try_capture_all`, an error is reported with an object of type 10, then a second error with a function taking an object
of type 11 by reference. -/
def accumulateProg : Prog :=
  .captureAll (.newError [.obj 10 1] (fun _ => .newError [.accum 11 0 (· + 1)] (fun id => .ret (.err (.plain id)))))

/-- **C11 refuted (accumulation).** The second report destroys the node that holds the object of type 10 while the thread-local
pointer for type 10 still refers to it (error.hpp:345-355): undefined behaviour (assertion in `~slot`). -/
theorem C11_refuted_accumulate : eval exCfg accumulateProg (initThread 1#32) = none := by
  rw [← Option.isNone_iff_eq_none]
  decide +kernel

/-- **C11 refuted (`void` capture).** `try_capture_all([]{ })` destroys its slot while it is bound (handle_errors.hpp:786-790). -/
theorem C11_refuted_capture_void : eval exCfg (.captureAllVoid (.ret (.val 0))) (initThread 1#32) = none := by decide

end Leaf
