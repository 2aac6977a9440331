import Verif.PropTravel

/-!
# C27, C28, C40: captured errors

`try_capture_all` returns a `result` that contains the objects of the failing error, and the exception if there was one. Handling that result,
possibly in another thread, makes the objects available and rethrows the exception.

C27 and C28 are false as stated; the refuting witnesses are at the end, and the theorems (`_partial`) state the exact conditions.
-/

namespace Leaf

/-! ## Specification -/

/-- The result carries error `id` together with the objects `A` and, if given, exception `e`. -/
def Carries (r : ErrRes) (id : Id) (A : Ty → Option Val) (e : Option Exc) : Prop :=
  ∃ ns : List (Ty × Cell), r = .captured id (ns.map (fun n => .obj n.1 n.2) ++ (e.map CapNode.exc).toList) ∧ (ns.map Prod.fst).Nodup ∧
    ∀ ty v, (ty, some (id, v)) ∈ ns ↔ A ty = some v

/-- The captured objects of error `id`, in order. -/
def heldItems (id : Id) (nodes : List CapNode) : List Item :=
  nodes.filterMap fun
    | .obj ty (some (k, v)) => if k = id then some (.obj ty v) else none
    | _ => none

/-! ## Capturing -/

section
variable {cfg : Cfg} {block : Prog} {da : Bool} {w w1 : World PtrStore} {o : Out} {r : ErrRes} {e : Exc} {s : Scope} {ss : List Scope}

theorem captureAll_err {M : Type} [Store M] {cfg : Cfg} {block : Comp M Out} {w w1 w2 : World M} {r : ErrRes} {cells : List CtxCell}
    (hc : cfg.capture = true) (h : attemptRaw [.da] block w = some (.err r, w1)) (h2 : popCtx w1 = some (cells, w2)) :
    tryCaptureAll cfg block w = extractCaptured r.errId cells w2.handling.head? w2 := by
  unfold attemptRaw at h
  unfold tryCaptureAll
  simp only [hc, Bool.not_true]
  show (pushCtx [.da] >>= _) w = _
  rw [bind_apply] at h ⊢
  cases h0 : pushCtx [.da] w with
  | none => simp [h0] at h
  | some p =>
    simp only [h0, Option.bind_some] at h ⊢
    rw [bind_apply, h, Option.bind_some]
    simp only [bind_apply, h2, Option.bind_some]
    rfl

theorem captureAll_exc {M : Type} [Store M] {cfg : Cfg} {block : Comp M Out} {w w1 w2 : World M} {e e' : Exc} {id : Id} {cells : List CtxCell}
    (hc : cfg.capture = true) (h : attemptRaw [.da] block w = some (.exc e, w1)) (h2 : popCtx w1 = some (cells, w2))
    (hu : unpackId e w2 = some ((id, e'), w2)) : tryCaptureAll cfg block w = extractCaptured id cells (some e') w2 := by
  unfold attemptRaw at h
  unfold tryCaptureAll
  simp only [hc, Bool.not_true]
  show (pushCtx [.da] >>= _) w = _
  rw [bind_apply] at h ⊢
  cases h0 : pushCtx [.da] w with
  | none => simp [h0] at h
  | some p =>
    simp only [h0, Option.bind_some] at h ⊢
    rw [bind_apply, h, Option.bind_some]
    simp only [bind_apply, h2, Option.bind_some, hu]

theorem extractCaptured_eq {M : Type} {id : Id} (hid : id.Tagged) (key : Id) (ns : List (Ty × Cell)) (ex : Option Exc) (w : World M) :
    extractCaptured id [.da key ns] ex w =
      some (.err (.captured id ((if key = id then ns.map (fun n => CapNode.obj n.1 n.2) else []) ++ (ex.map CapNode.exc).toList)), w) := by
  unfold extractCaptured
  simp only [bind_apply, assertTagged, hid, if_true, Option.bind_some]
  cases ex <;> rfl

theorem attemptRaw_handling {slots : List CellTy} (h : attemptRaw slots (eval cfg block) w = some (o, w1)) : w1.handling = w.handling := by
  unfold attemptRaw at h
  rw [bind_apply] at h
  cases h0 : pushCtx slots w with
  | none => simp [h0] at h
  | some p =>
    simp only [h0, Option.bind_some] at h
    rw [eval_handling h]
    unfold pushCtx at h0
    cases hx : Store.push slots w.mem with
    | none => simp [hx] at h0
    | some m => simp only [hx, Option.map_some, Option.some.injEq] at h0; rw [← h0]

/-- How the block of `try_capture_all` failed: the error id and the exception captured. -/
def captureFailure (o : Out) (w1 : World PtrStore) : Option (Id × Option Exc) :=
  match o with
  | .val _ => none
  | .err r => some (r.errId, w1.handling.head?)
  | .exc e => some (e.seenId w1.cur, some e.examined)

theorem capture_eval (hp : (Prog.captureAll block).WF cfg da) (hw : ThreadOk w) (h : attemptRaw [.da] (eval cfg block) w = some (o, w1))
    {key : Id} {ns : List (Ty × Cell)} (hs : scopes w1 = [.da key ns] :: ss) {id : Id} {ex : Option Exc} (hf : captureFailure o w1 = some (id, ex)) :
    ∃ w', eval cfg (.captureAll block) w = some (.err (.captured id ((if key = id then ns.map (fun n => CapNode.obj n.1 n.2) else []) ++
        (ex.map CapNode.exc).toList)), w') ∧ ThreadOk w' ∧ scopes w' = ss ∧ w'.cur = w1.cur ∧ w'.trace = w1.trace ∧ id.Tagged := by
  obtain ⟨o', w1', s', ss', h1, _, h2, h3, h4, h5, h6⟩ := attemptRaw_ptr (slots := [.da]) (by simp) hp.2 hw (by simp)
  rw [h] at h1
  simp only [Option.some.injEq, Prod.mk.injEq] at h1
  obtain ⟨rfl, rfl⟩ := h1
  obtain ⟨w3, e1, e2, e3⟩ := popCtx_ptr h2 hs
  obtain ⟨f1, f2, f3, f4, f5, f6⟩ := threadOk_of_absW e2
  cases o with
  | val v => simp [captureFailure] at hf
  | err r =>
    simp only [captureFailure, Option.some.injEq, Prod.mk.injEq] at hf
    obtain ⟨rfl, rfl⟩ := hf
    refine ⟨w3, ?_, e3, f6, f2, f1, errId_tagged r⟩
    show tryCaptureAll cfg (eval cfg block) w = _
    rw [captureAll_err hp.1 h e1, extractCaptured_eq (errId_tagged r), f4]
    rfl
  | exc e =>
    simp only [captureFailure, Option.some.injEq, Prod.mk.injEq] at hf
    obtain ⟨rfl, rfl⟩ := hf
    have hid := seenId_tagged (e := e) h3 w1.cur
    have hu := unpackId_eq (M := PtrStore) (e := e) (w := w3) e3.good.1
    rw [f2] at hu
    have hu' : unpackId e w3 = some ((e.seenId w1.cur, e.examined), w3) := hu
    refine ⟨w3, ?_, e3, f6, f2, f1, hid⟩
    show tryCaptureAll cfg (eval cfg block) w = _
    rw [captureAll_exc hp.1 h e1 hu', extractCaptured_eq hid]

/-- Objects of the failing error at the end of the block are in the capturing scope or further out. -/
theorem capture_split {id key : Id} {ns : List (Ty × Cell)} {ty : Ty} {v : Val} (h : available ty id ([.da key ns] :: ss) = some v) :
    (ty, some (id, v)) ∈ ns ∨ ((∀ c, (ty, c) ∉ ns) ∧ available ty id ss = some v) := by
  rw [← avail_eq, avail_eq_cells, cellsOf_cons, slotsOf_da] at h
  rw [← avail_eq, avail_eq_cells]
  cases hl : (ns.filter fun n => n.1 = ty) with
  | nil =>
    right
    rw [List.filter_eq_nil_iff] at hl
    refine ⟨fun c hc => hl _ hc (by simp), ?_⟩
    rw [(List.filter_eq_nil_iff).mpr hl] at h
    simpa using h
  | cons n l =>
    left
    rw [hl] at h
    simp only [List.map_cons, List.cons_append, List.head?_cons, Option.bind_some, hasValue_eq_some] at h
    have hm : n ∈ ns.filter fun n => n.1 = ty := by rw [hl]; simp
    rw [List.mem_filter] at hm
    obtain ⟨t, c⟩ := n
    simp only [decide_eq_true_eq] at hm h
    obtain ⟨hm, rfl⟩ := hm
    rw [← h]
    exact hm

/-- **C27 (partial), capturing, any block.** If the block fails with error `id`, the result contains every object that is available for `id` at
the end of the block and is not stored in an enclosing scope; the enclosing scopes are left as the block left them. *Condition*: the first
error for which the capturing scope stored an object was `id` (`key` is the id of that error, `0` if none); see `C27_refuted_abandoned`. -/
theorem C27_block_partial (hp : (Prog.captureAll block).WF cfg da) (hw : ThreadOk w) (h : attemptRaw [.da] (eval cfg block) w = some (o, w1))
    {key : Id} {ns : List (Ty × Cell)} (hs : scopes w1 = [.da key ns] :: ss) {id : Id} {ex : Option Exc} (hf : captureFailure o w1 = some (id, ex))
    (hkey : key = id ∨ key = 0#32) :
    ∃ nodes w', eval cfg (.captureAll block) w = some (.err (.captured id nodes), w') ∧ scopes w' = ss ∧
      ∀ ty v, available ty id (scopes w1) = some v →
        .obj ty (some (id, v)) ∈ nodes ∨ available ty id (scopes w') = some v := by
  obtain ⟨w', e1, e2, e3, e4, e5, e6⟩ := capture_eval hp hw h hs hf
  obtain ⟨_, _, _, _, h1, _, h2, _⟩ := attemptRaw_ptr (slots := [.da]) (by simp) hp.2 hw (by simp)
  rw [h] at h1
  simp only [Option.some.injEq, Prod.mk.injEq] at h1
  obtain ⟨rfl, rfl⟩ := h1
  refine ⟨_, w', e1, e3, fun ty v hv => ?_⟩
  rw [hs] at hv
  rcases capture_split hv with hm | ⟨_, hm⟩
  · left
    rcases hkey with rfl | rfl
    · simp only [if_true, List.mem_append, List.mem_map]
      exact Or.inl ⟨_, hm, rfl⟩
    · have := (scopes_cons_good h2 hs _ (List.mem_singleton.mpr rfl)).1 (.da 0#32 ns) (List.mem_singleton.mpr rfl) rfl
      rw [this] at hm
      simp at hm
  · right
    rw [e3]
    exact hm

end

section
variable {cfg : Cfg} {ls : List Layer} {items : List Item} {f : Option (Id → Exc)} {da : Bool} {w : World PtrStore}

theorem nodup_fst_unique {ns : List (Ty × Cell)} (hn : (ns.map Prod.fst).Nodup) {t : Ty} {c d : Cell} (h1 : (t, c) ∈ ns) (h2 : (t, d) ∈ ns) : c = d := by
  induction ns with
  | nil => simp at h1
  | cons n ns ih =>
    simp only [List.map_cons, List.nodup_cons, List.mem_map] at hn
    simp only [List.mem_cons] at h1 h2
    rcases h1 with rfl | h1
    · rcases h2 with h2 | h2
      · exact (congrArg Prod.snd h2).symm
      · exact absurd ⟨_, h2, rfl⟩ hn.1
    · rcases h2 with rfl | h2
      · exact absurd ⟨_, h1, rfl⟩ hn.1
      · exact ih hn.2 h1 h2

theorem frameStep_single {id : Id} {s : List CtxCell} (h : FrameStep id [.da 0#32 []] s) : ∃ k ns, s = [.da k ns] ∧ (k = 0#32 ∨ k = id) := by
  cases s with
  | nil => exact h.elim
  | cons x s =>
    cases x with
    | obj t c => exact h.elim
    | da k ns =>
      cases s with
      | cons y s => exact h.2.elim
      | nil =>
        refine ⟨k, ns, rfl, ?_⟩
        rcases h.1 with h | h
        · exact Or.inl h
        · exact Or.inr h.2

/-- **C27 (partial), capturing a reported error.** An error is reported with some objects and leaves through any number of layers, none of which
handles it, into `try_capture_all`. No handler is called. The result contains every object attached to the error which is not stored in an enclosing scope, and
nothing else; if it was thrown, the exception. (If no exception was thrown, no exception must be being handled: `C28_refuted`.) -/
theorem C27_captured_partial (hp : (Prog.captureAll (within ls (report items f))).WF cfg da) (hw : ThreadOk w) (hf : FreshId cfg w)
    (hid : ∀ g, f = some g → (g (nextId cfg w)).seenId (nextId cfg w) = nextId cfg w)
    (hpass : PassesAll cfg items (visible (f.map (· (nextId cfg w)))) f.isSome ls) (hh : f = none → w.handling = []) :
    ∃ r w', eval cfg (.captureAll (within ls (report items f))) w = some (.err r, w') ∧ ThreadOk w' ∧
      Carries r (nextId cfg w) (fun ty => if available ty (nextId cfg w) (scopes w') = none then attached cfg items ls ty else none)
        (f.map fun g => (g (nextId cfg w)).examined) ∧
      (∀ ty v, available ty (nextId cfg w) (scopes w') = some v → attached cfg items ls ty = some v) ∧ NoHandlerCalled w w' ∧
      .gen (nextId cfg w) ∈ w'.trace := by
  have hr := reports_within hid ls hp.2 hpass
  obtain ⟨w0, g1, _, g3, g4⟩ := push_ptr hw (spec := [.da]) (by simp)
  obtain ⟨f1, f2⟩ := freshId_push hf g1 g4
  obtain ⟨o, w1, h1, h2, h3, h4, h5, h6, h7⟩ := hr w0 g3 (by simp) f1 f2 (by simp)
  have hraw : attemptRaw [.da] (eval cfg (within ls (report items f))) w = some (o, w1) := by
    unfold attemptRaw
    rw [bind_apply, g1, Option.bind_some]
    exact h1
  obtain ⟨_, _, s, ss, k1, _, k2, k3, k4, _⟩ := attemptRaw_ptr (slots := [.da]) (by simp) hp.2 hw (by simp)
  rw [hraw] at k1
  simp only [Option.some.injEq, Prod.mk.injEq] at k1
  obtain ⟨rfl, rfl⟩ := k1
  rw [g4, k4] at h5
  obtain ⟨key, ns, rfl, hkey⟩ := frameStep_single h5.1
  have hgood := scopes_cons_good k2 k4 _ (List.mem_singleton.mpr rfl)
  have hnd : (ns.map Prod.fst).Nodup := by simpa [frameTys, CtxCell.tys] using hgood.2
  have hfail : captureFailure o w1 = some (nextId cfg w, f.map fun g => (g (nextId cfg w)).examined) := by
    cases f with
    | none =>
      obtain ⟨k, rfl, hk⟩ := h2
      have : w1.handling = [] := by rw [attemptRaw_handling hraw, hh rfl]
      simp only [captureFailure, this]
      rw [← hk]
      rfl
    | some g =>
      obtain ⟨e', rfl, he⟩ := h2
      simp only [captureFailure, h3, seenId_examined _ e' _ he, hid g rfl, he]
      rfl
  obtain ⟨w', e1, e2, e3, e4, e5, e6⟩ := capture_eval hp hw hraw k4 hfail
  refine ⟨_, w', e1, e2, ?_, ?_, ?_, by rw [e5]; exact h7⟩
  rotate_right
  · exact noHandler_trans (noHandler_eq (pushCtx_trace g1)) (noHandler_trans h6 (noHandler_eq e5))
  · have hns : (if key = nextId cfg w then ns.map (fun n => CapNode.obj n.1 n.2) else []) = ns.map (fun n => CapNode.obj n.1 n.2) := by
      rcases hkey with hk | hk
      · rw [hgood.1 _ (List.mem_singleton.mpr rfl) hk]
        simp
      · rw [if_pos hk]
    rw [hns]
    refine ⟨ns, rfl, hnd, fun ty v => ?_⟩
    have hwant : wanted cfg ty (scopes w1) = true := by
      rw [wanted_iff, k4]
      exact Or.inr ⟨hp.1, _, List.mem_cons_self .., key, ns, by simp⟩
    have hav := h4.1 ty hwant
    rw [k4] at hav
    have htop := h4.2 ty
    rw [k4] at htop
    rw [avail_eq_cells, cellsOf_cons, slotsOf_da] at hav
    rw [cellsOf_cons, slotsOf_da] at htop
    simp only []
    rw [e3, ← avail_eq, avail_eq_cells]
    cases hl : (ns.filter fun n => n.1 = ty) with
    | nil =>
      rw [hl] at hav htop
      simp only [List.map_nil, List.nil_append] at hav htop
      rw [hav]
      rw [List.filter_eq_nil_iff] at hl
      constructor
      · intro hm
        exact absurd (hl _ hm) (by simp)
      · intro h
        cases hA : attached cfg items ls ty with
        | none => rw [hA] at h; simp at h
        | some x => rw [hA] at h; simp at h
    | cons n l =>
      rw [hl] at hav htop
      simp only [List.map_cons, List.cons_append, List.head?_cons, Option.bind_some, List.tail_cons] at hav htop
      have hnone : (cellsOf ty ss).head?.bind (Cell.hasValue · (nextId cfg w)) = none := by
        cases hc : cellsOf ty ss with
        | nil => rfl
        | cons d l2 => simp [htop d (by rw [hc]; simp)]
      rw [hnone, if_pos rfl, ← hav, hasValue_eq_some]
      have hm : n ∈ ns.filter fun n => n.1 = ty := by rw [hl]; simp
      rw [List.mem_filter] at hm
      obtain ⟨t, c⟩ := n
      simp only [decide_eq_true_eq] at hm ⊢
      obtain ⟨hm, rfl⟩ := hm
      constructor
      · intro h2
        exact nodup_fst_unique hnd hm h2
      · rintro rfl
        exact hm
  · intro ty v hv
    rw [e3] at hv
    have hwant : wanted cfg ty (scopes w1) = true := by
      rw [wanted_iff, k4]
      exact Or.inr ⟨hp.1, _, List.mem_cons_self .., key, ns, by simp⟩
    have hav := h4.1 ty hwant
    have htop := h4.2 ty
    rw [← hav]
    rw [k4, cellsOf_cons, slotsOf_da] at htop
    rw [← avail_eq, avail_eq_cells] at hv
    rw [k4, avail_eq_cells, cellsOf_cons, slotsOf_da]
    cases hl : (ns.filter fun n => n.1 = ty) with
    | nil => simpa using hv
    | cons n l =>
      exfalso
      rw [hl] at htop
      cases hc : cellsOf ty ss with
      | nil => rw [hc] at hv; simp at hv
      | cons d l2 =>
        rw [hc] at hv
        simp only [List.head?_cons, Option.bind_some] at hv
        rw [htop d (by rw [hc]; simp)] at hv
        simp at hv

end

/-! ## Receiving -/

section
variable {cfg : Cfg} {id : Id} {A : Ty → Option Val} {e : Option Exc} {r : ErrRes} {w : World PtrStore} {da : Bool}

theorem capObjs_carried (ns : List (Ty × Cell)) (e : Option Exc) : capObjs (ns.map (fun n => .obj n.1 n.2) ++ (e.map CapNode.exc).toList) = ns := by
  induction ns with
  | nil => cases e <;> rfl
  | cons n ns ih => simp only [List.map_cons, List.cons_append, capObjs, ih]

theorem capExc_carried (ns : List (Ty × Cell)) (e : Option Exc) : capExc (ns.map (fun n => .obj n.1 n.2) ++ (e.map CapNode.exc).toList) = e := by
  induction ns with
  | nil => cases e <;> rfl
  | cons n ns ih => simp only [List.map_cons, List.cons_append, capExc, ih]

theorem topOnly_unloadDaFs {fs : List (List CtxCell)} (ns : List (Ty × Cell)) (h : TopOnly id fs) : TopOnly id (unloadDaFs cfg id ns fs) := by
  induction ns generalizing fs with
  | nil => exact h
  | cons n ns ih =>
    refine ih ?_
    unfold unloadObj
    split
    · exact topOnly_putObj h
    · exact h

theorem attached_received {fs : List (List CtxCell)} {ns : List (Ty × Cell)} (hn : (ns.map Prod.fst).Nodup) (hA : ∀ ty v, (ty, some (id, v)) ∈ ns ↔ A ty = some v)
    (hf : ∀ ty v, ¬ Stored ty id v fs) : Attached cfg id A (unloadDaFs cfg id ns fs) := by
  have h0 := attached_fresh (cfg := cfg) hf
  refine ⟨fun ty hw => ?_, topOnly_unloadDaFs ns h0.2⟩
  have hw' : wanted cfg ty fs = true := by rw [← hw, wanted_unloadDaFs]
  rw [avail_unloadDaFs cfg id ns hn hw', h0.1 ty hw']
  simp only [Option.none_or]
  cases hc : nodeCell ty ns with
  | none =>
    simp only [Option.bind_none]
    cases hAt : A ty with
    | none => rfl
    | some v =>
      exfalso
      have hm := (hA ty v).mpr hAt
      clear hA hn
      induction ns with
      | nil => simp at hm
      | cons n ns ih =>
        obtain ⟨t, c⟩ := n
        simp only [nodeCell] at hc
        split at hc
        · simp at hc
        · rename_i hne
          simp only [List.mem_cons, Prod.mk.injEq] at hm
          rcases hm with ⟨rfl, _⟩ | hm
          · exact hne rfl
          · exact ih (by rw [← hw, wanted_unloadDaFs, wanted_unloadDaFs]) hc hm
  | some c =>
    simp only [Option.bind_some]
    have hm := nodeCell_mem hc
    cases hv : c.hasValue id with
    | some v =>
      rw [hasValue_eq_some] at hv
      subst hv
      exact ((hA ty v).mp hm).symm
    | none =>
      cases hAt : A ty with
      | none => rfl
      | some v =>
        have := nodup_fst_unique hn hm ((hA ty v).mpr hAt)
        subst this
        simp [Cell.hasValue] at hv

theorem transports_quiet (id : Id) (ns : List (Ty × Cell)) : ∀ id' ex k args, .handled id' ex k args ∉ transports id ns := by
  intro id' ex k args h
  induction ns with
  | nil => simp [transports] at h
  | cons n ns ih =>
    obtain ⟨ty, c⟩ := n
    rw [transports, List.mem_append] at h
    rcases h with h | h
    · exact ih h
    · split at h <;> simp at h

/-- Entering a scope and unloading a captured result there. -/
theorem attempt_received {slots : List CellTy} (hsl : slots.Nodup) (hid : id.Tagged) (hr : Carries r id A e) (hw : ThreadOk w)
    (hf : ∀ ty v, ¬ Stored ty id v (scopes w)) :
    ∃ w1 s ss, attempt cfg slots (eval cfg (.ret (.err r))) w = some ((match e with | some e => .exc e | none => .err (.captured id [])), w1) ∧
      scopes w1 = s :: ss ∧ Attached cfg id A (s :: ss) ∧ w1.cur = id ∧ w1.handling = w.handling ∧ ThreadOk w1 ∧ s.map CtxCell.cellTy = slots ∧
      NoHandlerCalled w w1 ∧ w1.counter = w.counter ∧ w1.ticks = w.ticks ∧ ∀ ty k v, Stored ty k v ss → Stored ty k v (scopes w) ∨ k = id := by
  obtain ⟨ns, rfl, hn, hA⟩ := hr
  obtain ⟨w0, h1, habs, h3, h4⟩ := push_ptr hw hsl
  obtain ⟨w1, g1, g2, g3, g4, g5, g6, g7, g8⟩ := resultUnload_captured cfg id (ns.map (fun n => .obj n.1 n.2) ++ (e.map CapNode.exc).toList) h3
  rw [capObjs_carried, makeErrorId_of_tagged hid] at g7
  rw [makeErrorId_of_tagged hid] at g3
  rw [capExc_carried] at g1
  have hsh : shape (scopes w1) = slots :: shape (scopes w) := by
    rw [g7, unloadDaFs_shape, h4]
    simp only [shape, List.map_cons, List.map_map, List.cons.injEq, and_true]
    have : ∀ t : CellTy, (CtxCell.cellTy ∘ CellTy.empty) t = t := fun t => by cases t <;> rfl
    rw [List.map_congr_left (fun t _ => this t)]
    simp
  have hfr : ∀ ty v, ¬ Stored ty id v (scopes w0) := by
    intro ty v
    rw [h4, stored_cons]
    rintro (hm | h)
    · clear hsh h1 h4 hsl habs
      induction slots with
      | nil => simp [slotsIn_nil] at hm
      | cons t spec ih => cases t <;> simp [CellTy.empty, slotsIn_obj, slotsIn_da] at hm <;> exact ih hm
    · exact hf ty v h
  cases hc : scopes w1 with
  | nil => simp [hc, shape] at hsh
  | cons s ss =>
    rw [hc] at hsh
    simp only [shape, List.map_cons, List.cons.injEq] at hsh
    refine ⟨w1, s, ss, ?_, hc, ?_, g3, ?_, g2, hsh.1, noHandler_trans (noHandler_eq (pushCtx_trace h1)) ⟨_, g6, transports_quiet _ _⟩, ?_, ?_, ?_⟩
    · unfold attempt
      rw [bind_apply, h1, Option.bind_some, bind_apply]
      show (some (Out.err _, w0)).bind _ = _
      exact g1
    · rw [← hc, g7]
      exact attached_received hn hA hfr
    · rw [g5]
      unfold pushCtx at h1
      cases hx : Store.push slots w.mem with
      | none => simp [hx] at h1
      | some m => simp only [hx, Option.map_some, Option.some.injEq] at h1; rw [← (Prod.mk.inj h1).2]
    · rw [g4]
      unfold pushCtx at h1
      cases hx : Store.push slots w.mem with
      | none => simp [hx] at h1
      | some m => simp only [hx, Option.map_some, Option.some.injEq] at h1; rw [← (Prod.mk.inj h1).2]
    · rw [g8]
      unfold pushCtx at h1
      cases hx : Store.push slots w.mem with
      | none => simp [hx] at h1
      | some m => simp only [hx, Option.map_some, Option.some.injEq] at h1; rw [← (Prod.mk.inj h1).2]
    · intro ty k v hst
      have hst' : Stored ty k v (scopes w1) := by rw [hc]; exact stored_cons.mpr (Or.inr hst)
      rw [g7] at hst'
      rcases stored_unloadDaFs hst' with hst' | ⟨h, _⟩
      · rw [h4] at hst'
        rcases stored_cons.mp hst' with hst' | hst'
        · exact absurd hst' stored_empty
        · exact Or.inl hst'
      · exact Or.inr h

/-- **C27, receiving.** A captured result is handled by `try_handle_all`, in any thread, in any scopes, as long as these do not hold objects of the
same error already. The handler called, and the arguments it gets, are as for an error with the captured objects attached. -/
theorem C27_received {specs : List (List Arg)} {body : Nat → List ArgVal → Prog} (hid : id.Tagged) (hr : Carries r id A e)
    (he : ∀ x, e = some x → x.seenId id = id) (hp : (Prog.handleAll specs (.ret (.err r)) body).WF cfg da) (hw : ThreadOk w)
    (hda : da = false → NoCapturingScope w) (hf : ∀ ty v, ¬ Stored ty id v (scopes w)) :
    ∃ i vals o w', eval cfg (.handleAll specs (.ret (.err r)) body) w = some (o, w') ∧ Handled cfg w A id (visible e) specs body i vals o w' := by
  obtain ⟨w1, s, ss, h1, h2, h3, h4, h5, h6, h7, h8, _⟩ := attempt_received (cfg := cfg) (deduce_nodup cfg specs) hid hr hw hf
  have hg := scopes_cons_good h6 h2
  have hfail : ∃ hnd, failure (match e with | some e => .exc e | none => .err (.captured id [])) w1 = some (id, visible e, hnd) := by
    cases e with
    | none => exact ⟨w1.handling, by simp only [failure, ErrRes.errId, makeErrorId_of_tagged hid]; rfl⟩
    | some x => exact ⟨x.examined :: w1.handling, by simp only [failure, h4, he x rfl]; rfl⟩
  obtain ⟨hnd, hfail⟩ := hfail
  obtain ⟨i, hd, vals, wh, o, wr, w', e1, e2, e3, e4, e5, e6, e7, e8⟩ := C15_handle_all hp hw hda h1 h2 hfail
  refine ⟨i, vals, o, w', e6, (firstSuitable_of h7 hg h3).mp e1, hd, w1, wh, wr, e2, e3.1, fun j a x ha hx => ?_, h8, e4.trace, e5, e7⟩
  rw [e4.scopes]
  exact receives_of h7 hg h3 (List.mem_of_getElem? e2) (List.mem_of_getElem? ha) (e3.2 j a x ha hx)

end

section
variable {cfg : Cfg} {id : Id} {w : World PtrStore}

theorem heldItems_cons (ty : Ty) (c : Cell) (ns : List (Ty × Cell)) :
    heldItems id (((ty, c) :: ns).map (fun n => .obj n.1 n.2)) = (match c.hasValue id with | some v => [Item.obj ty v] | none => []) ++
      heldItems id (ns.map (fun n => .obj n.1 n.2)) := by
  unfold heldItems
  simp only [List.map_cons]
  cases c with
  | none => rfl
  | some p =>
    obtain ⟨k, v⟩ := p
    by_cases hk : k = id <;> simp [Cell.hasValue, hk]

theorem unloadDaFs_putItems (ns : List (Ty × Cell)) (hn : (ns.map Prod.fst).Nodup) (fs : List (List CtxCell)) (hf : ∀ ty ∈ ns.map Prod.fst, avail ty id fs = none) :
    unloadDaFs cfg id ns fs = putItems cfg false id (heldItems id (ns.map (fun n => .obj n.1 n.2))) fs := by
  induction ns generalizing fs with
  | nil => rfl
  | cons n ns ih =>
    obtain ⟨ty, c⟩ := n
    simp only [List.map_cons, List.nodup_cons] at hn
    show unloadDaFs cfg id ns (unloadObj cfg id ty c fs) = _
    rw [heldItems_cons]
    have hkeep : ∀ t ∈ ns.map Prod.fst, avail t id (unloadObj cfg id ty c fs) = none := by
      intro t ht
      have hne : ty ≠ t := fun h => hn.1 (h ▸ ht)
      unfold unloadObj
      cases c.hasValue id with
      | none => exact hf t (by simp [ht])
      | some v => simp only; rw [avail_putObj_ne _ _ _ _ _ _ (Ne.symm hne)]; exact hf t (by simp [ht])
    rw [ih hn.2 _ hkeep]
    have h0 := hf ty (by simp)
    unfold unloadObj
    cases hc : c.hasValue id with
    | none => rfl
    | some v =>
      show _ = putItems cfg false id (.obj ty v :: _) fs
      show _ = putItems cfg false id _ (putItem cfg false id (.obj ty v) fs)
      congr 1
      show putObj cfg true id ty v fs = putObj cfg false id ty v fs
      unfold avail at h0
      unfold putObj
      cases hb : boundCell ty fs with
      | none => rfl
      | some p =>
        rw [hb] at h0
        simp only [Option.bind_some] at h0
        simp [h0]

/-- **C27, as if loaded directly.** Unloading captured objects changes the scopes in exactly the way loading them with `load` does (in any state
that does not hold objects of that error already). -/
theorem C27_as_loaded (hid : id.Tagged) (ns : List (Ty × Cell)) (hn : (ns.map Prod.fst).Nodup) (e : Option Exc) (hw : ThreadOk w)
    (hf : ∀ ty v, ¬ Stored ty id v (scopes w)) :
    ∃ o w1 w2, resultUnload cfg (.captured id (ns.map (fun n => .obj n.1 n.2) ++ (e.map CapNode.exc).toList)) w = some (o, w1) ∧
      errorIdLoad cfg id (heldItems id (ns.map (fun n => .obj n.1 n.2))) w = some ((), w2) ∧ scopes w1 = scopes w2 ∧ w1.cur = id := by
  obtain ⟨w1, g1, g2, g3, g4, g5, g6, g7, _⟩ := resultUnload_captured cfg id (ns.map (fun n => .obj n.1 n.2) ++ (e.map CapNode.exc).toList) hw
  rw [capObjs_carried, makeErrorId_of_tagged hid] at g7
  rw [makeErrorId_of_tagged hid] at g3
  obtain ⟨w2, h1, h2, h3⟩ := load_ptr cfg hid (heldItems id (ns.map (fun n => .obj n.1 n.2))) w hw (by
    rintro ⟨i, hi, ha⟩
    unfold heldItems at hi
    rw [List.mem_filterMap] at hi
    obtain ⟨x, _, hx⟩ := hi
    exfalso
    cases x with
    | exc e => simp at hx
    | obj t c =>
      cases c with
      | none => simp at hx
      | some p =>
        simp only [Option.ite_none_right_eq_some, Option.some.injEq] at hx
        rw [← hx.2] at ha
        simp [Item.isAccum] at ha)
  refine ⟨_, w1, w2, g1, h1, ?_, g3⟩
  have : scopes w2 = putItems cfg false id (heldItems id (ns.map (fun n => .obj n.1 n.2))) (scopes w) := by unfold scopes; rw [h3]; rfl
  rw [this, g7]
  refine unloadDaFs_putItems ns hn _ fun ty _ => ?_
  cases ha : avail ty id (scopes w) with
  | none => rfl
  | some v => exact absurd (avail_stored ha) (hf ty v)

end

/-! ## From one thread to another -/

section
variable {cfg : Cfg} {ls : List Layer} {items : List Item} {f : Option (Id → Exc)} {da da2 : Bool} {w w2 : World PtrStore}
  {specs : List (List Arg)} {body : Nat → List ArgVal → Prog}

theorem carries_ok {r : ErrRes} {id : Id} {A : Ty → Option Val} {e : Option Exc} (h : Carries r id A e) (he : ∀ x, e = some x → x.Ok) : r.Ok := by
  obtain ⟨ns, rfl, _, _⟩ := h
  intro n hn
  simp only [List.mem_append, List.mem_map] at hn
  rcases hn with ⟨m, _, rfl⟩ | hn
  · trivial
  · cases e with
    | none => simp at hn
    | some x => simp only [Option.map_some, Option.toList_some, List.mem_singleton] at hn; subst hn; exact he x rfl

theorem seenId_again (e : Exc) (id : Id) (h : e.seenId id = id) : e.examined.seenId id = id := by
  rw [seenId_examined e e.examined id (examined_twice e)]
  exact h

theorem capture_alone (hp : (Prog.captureAll (within ls (report items f))).WF cfg da) (hw : ThreadOk w) (hsc : scopes w = []) (hf : nextId cfg w ≠ w.cur)
    (hid : ∀ g, f = some g → (g (nextId cfg w)).seenId (nextId cfg w) = nextId cfg w ∧ (g (nextId cfg w)).Ok)
    (hpass : PassesAll cfg items (visible (f.map (· (nextId cfg w)))) f.isSome ls) (hh : f = none → w.handling = []) :
    ∃ r w', eval cfg (.captureAll (within ls (report items f))) w = some (.err r, w') ∧ r.Ok ∧
      Carries r (nextId cfg w) (attached cfg items ls) (f.map fun g => (g (nextId cfg w)).examined) ∧ NoHandlerCalled w w' ∧
      .gen (nextId cfg w) ∈ w'.trace := by
  have hfresh : FreshId cfg w := ⟨hf, by rw [hsc]; exact fun _ _ => stored_nil⟩
  obtain ⟨r, w', h1, h2, h3, _, h5, h6⟩ := C27_captured_partial hp hw hfresh (fun g hg => (hid g hg).1) hpass hh
  obtain ⟨_, _, e1, _, _, e4, _⟩ := tot_ptr (sim_eval (n := 0) cfg _) (tot_eval cfg _ hp _ (fun h x hx => by
    have : scopes w = [] := hsc
    rw [this] at hx
    simp [shape] at hx)) hw rfl
  rw [h1] at e1
  simp only [Option.some.injEq, Prod.mk.injEq] at e1
  obtain ⟨_, rfl⟩ := e1
  have hsc' : scopes w' = [] := by
    rw [hsc] at e4
    simpa [shape] using e4
  have hA : (fun ty => if available ty (nextId cfg w) (scopes w') = none then attached cfg items ls ty else none) = attached cfg items ls := by
    funext ty
    rw [hsc']
    simp [available]
  rw [hA] at h3
  have hok : r.Ok := carries_ok h3 (by
    intro x hx
    cases f with
    | none => simp at hx
    | some g => simp only [Option.map_some, Option.some.injEq] at hx; subst hx; exact examined_ok (hid g rfl).2)
  exact ⟨r, w', h1, hok, h3, h5, h6⟩

/-- What handlers receive for a captured error. -/
theorem receive_captured {id : Id} (hidt : id.Tagged) {r : ErrRes} (hok : r.Ok) (hr : Carries r id (attached cfg items ls) (f.map fun g => (g id).examined))
    (hid : ∀ g, f = some g → (g id).seenId id = id)
    (hall : ValidAll specs) (hbody : ∀ i args, (∀ a ∈ args, ArgVal.Ok a) → (body i args).WF cfg da2 ∧ (body i args).NoErr)
    (hw2 : ThreadOk w2) (hda2 : da2 = false → NoCapturingScope w2) (hf2 : ∀ ty v, ¬ Stored ty id v (scopes w2)) :
    ∃ i vals o w3, eval cfg (.handleAll specs (.ret (.err r)) body) w2 = some (o, w3) ∧
        Handled cfg w2 (attached cfg items ls) id (visible (f.map (· id))) specs body i vals o w3 := by
  have hvis : visible (f.map fun g => (g id).examined) = visible (f.map (· id)) := by
    cases f with
    | none => rfl
    | some g => simp only [visible, Option.map_some, Option.bind_some, examined_twice]
  rw [← hvis]
  refine C27_received (da := da2) hidt hr ?_ ⟨hall, hok, hbody⟩ hw2 hda2 hf2
  intro x hx
  cases f with
  | none => simp at hx
  | some g => simp only [Option.map_some, Option.some.injEq] at hx; subst hx; exact seenId_again _ _ (hid g rfl)

/-- **C27 (partial), end to end.** A thread with no scopes runs `try_capture_all` around code that reports an error and does not handle it. Another
thread (or the same one, later) handles the result with `try_handle_all`. The handler called, and the arguments it gets, are determined by the
objects attached to the error in the first thread. -/
theorem C27_partial (hp : (Prog.captureAll (within ls (report items f))).WF cfg da) (hw : ThreadOk w) (hsc : scopes w = []) (hf : nextId cfg w ≠ w.cur)
    (hid : ∀ g, f = some g → (g (nextId cfg w)).seenId (nextId cfg w) = nextId cfg w ∧ (g (nextId cfg w)).Ok)
    (hpass : PassesAll cfg items (visible (f.map (· (nextId cfg w)))) f.isSome ls) (hh : f = none → w.handling = [])
    (hall : ValidAll specs) (hbody : ∀ i args, (∀ a ∈ args, ArgVal.Ok a) → (body i args).WF cfg da2 ∧ (body i args).NoErr)
    (hw2 : ThreadOk w2) (hda2 : da2 = false → NoCapturingScope w2) (hf2 : ∀ ty v, ¬ Stored ty (nextId cfg w) v (scopes w2)) :
    ∃ r w', eval cfg (.captureAll (within ls (report items f))) w = some (.err r, w') ∧ NoHandlerCalled w w' ∧
      ∃ i vals o w3, eval cfg (.handleAll specs (.ret (.err r)) body) w2 = some (o, w3) ∧
        Handled cfg w2 (attached cfg items ls) (nextId cfg w) (visible (f.map (· (nextId cfg w)))) specs body i vals o w3 := by
  obtain ⟨r, w', h1, h2, h3, h4, _⟩ := capture_alone hp hw hsc hf hid hpass hh
  exact ⟨r, w', h1, h4, receive_captured (nextId_tagged (w := absW w) hw.good) h2 h3 (fun g hg => (hid g hg).1) hall hbody hw2 hda2 hf2⟩

end

/-! ## C28: exceptions in captured results -/

section
variable {cfg : Cfg} {block : Prog} {da : Bool} {w w1 : World PtrStore} {ss : List Scope}

/-- The objects of error `id` in the list (distinct types) are available in the scopes `fs'` that want them, except where an object of this error
was available before. -/
def MadeAvailable (cfg : Cfg) (id : Id) (ns : List (Ty × Cell)) (fs fs' : List Scope) : Prop :=
  ∀ ty v, (ty, some (id, v)) ∈ ns → wanted cfg ty fs = true →
    available ty id fs' = some ((available ty id fs).getD v)

theorem madeAvailable_unload {id : Id} {ns : List (Ty × Cell)} (hn : (ns.map Prod.fst).Nodup) (fs : List Scope) :
    MadeAvailable cfg id ns fs (unloadDaFs cfg id ns fs) := by
  intro ty v hm hwant
  rw [← avail_eq, ← avail_eq, avail_unloadDaFs cfg id ns hn hwant]
  have : nodeCell ty ns = some (some (id, v)) := by
    cases hc : nodeCell ty ns with
    | some c => rw [nodup_fst_unique hn (nodeCell_mem hc) hm]
    | none =>
      exfalso
      clear hn
      induction ns with
      | nil => simp at hm
      | cons n ns ih =>
        obtain ⟨t, c⟩ := n
        simp only [nodeCell] at hc
        split at hc
        · simp at hc
        · rename_i hne
          simp only [List.mem_cons, Prod.mk.injEq] at hm
          rcases hm with ⟨rfl, _⟩ | hm
          · exact hne rfl
          · exact ih hm hc
  rw [this]
  simp only [Option.bind_some, Cell.hasValue, if_true]
  cases avail ty id fs <;> rfl

/-- **C28, capturing an exception.** If the block of `try_capture_all` throws, the captured list consists of objects followed by the exception
(after LEAF examined it, which does not change what it is). -/
theorem C28_thrown {e : Exc} (hp : (Prog.captureAll block).WF cfg da) (hw : ThreadOk w)
    (h : attemptRaw [.da] (eval cfg block) w = some (.exc e, w1)) :
    ∃ (objs : List (Ty × Cell)) (w' : World PtrStore), eval cfg (.captureAll block) w = some (.err (.captured (e.seenId w1.cur) (objs.map (fun n => .obj n.1 n.2) ++ [.exc e.examined])), w') ∧
      (objs.map Prod.fst).Nodup := by
  obtain ⟨_, _, s, ss, k1, _, k2, k3, k4, k6, _⟩ := attemptRaw_ptr (slots := [.da]) (by simp) hp.2 hw (by simp)
  rw [h] at k1
  simp only [Option.some.injEq, Prod.mk.injEq] at k1
  obtain ⟨rfl, rfl⟩ := k1
  obtain ⟨key, ns, rfl⟩ : ∃ key ns, s = [.da key ns] := by
    cases s with
    | nil => simp at k6
    | cons x s =>
      cases s with
      | cons y s => simp at k6
      | nil =>
        cases x with
        | obj t c => simp [CtxCell.cellTy] at k6
        | da key ns => exact ⟨key, ns, rfl⟩
  have hgood := scopes_cons_good k2 k4 _ (List.mem_singleton.mpr rfl)
  have hnd : (ns.map Prod.fst).Nodup := by simpa [frameTys, CtxCell.tys] using hgood.2
  obtain ⟨w', e1, _⟩ := capture_eval hp hw h k4 (id := e.seenId w1.cur) (ex := some e.examined) rfl
  by_cases hk : key = e.seenId w1.cur
  · refine ⟨ns, w', ?_, hnd⟩
    rw [e1, if_pos hk]
    rfl
  · refine ⟨[], w', ?_, by simp⟩
    rw [e1, if_neg hk]
    rfl

/-- **C28 (partial), capturing a failed result.** If the block of `try_capture_all` returns a failed result, no exception is captured. *Condition*: no
exception is being handled when `try_capture_all` is called (see `C28_refuted`). -/
theorem C28_returned_partial {r : ErrRes} (hp : (Prog.captureAll block).WF cfg da) (hw : ThreadOk w) (hh : w.handling = [])
    (h : attemptRaw [.da] (eval cfg block) w = some (.err r, w1)) :
    ∃ (objs : List (Ty × Cell)) (w' : World PtrStore), eval cfg (.captureAll block) w = some (.err (.captured r.errId (objs.map (fun n => .obj n.1 n.2))), w') ∧
      (objs.map Prod.fst).Nodup := by
  obtain ⟨_, _, s, ss, k1, _, k2, k3, k4, k6, _⟩ := attemptRaw_ptr (slots := [.da]) (by simp) hp.2 hw (by simp)
  rw [h] at k1
  simp only [Option.some.injEq, Prod.mk.injEq] at k1
  obtain ⟨rfl, rfl⟩ := k1
  obtain ⟨key, ns, rfl⟩ : ∃ key ns, s = [.da key ns] := by
    cases s with
    | nil => simp at k6
    | cons x s =>
      cases s with
      | cons y s => simp at k6
      | nil =>
        cases x with
        | obj t c => simp [CtxCell.cellTy] at k6
        | da key ns => exact ⟨key, ns, rfl⟩
  have hgood := scopes_cons_good k2 k4 _ (List.mem_singleton.mpr rfl)
  have hnd : (ns.map Prod.fst).Nodup := by simpa [frameTys, CtxCell.tys] using hgood.2
  have hf : captureFailure (.err r) w1 = some (r.errId, none) := by
    simp only [captureFailure, attemptRaw_handling h, hh]
    rfl
  obtain ⟨w', e1, _⟩ := capture_eval hp hw h k4 hf
  by_cases hk : key = r.errId
  · refine ⟨ns, w', ?_, hnd⟩
    rw [e1, if_pos hk]
    simp
  · refine ⟨[], w', ?_, by simp⟩
    rw [e1, if_neg hk]
    rfl

/-- **C28, unloading.** Unloading a list of objects followed by an exception makes all the objects available and then throws that exception;
without an exception in the list nothing is thrown. This is what every handling function does first with a captured result. -/
theorem C28_unloaded {id : Id} (hid : id.Tagged) {objs : List (Ty × Cell)} (hn : (objs.map Prod.fst).Nodup) (e : Option Exc) (hw : ThreadOk w) :
    ∃ w', resultUnload cfg (.captured id (objs.map (fun n => .obj n.1 n.2) ++ (e.map CapNode.exc).toList)) w =
        some ((match e with | some e => .exc e | none => .err (.captured id [])), w') ∧
      MadeAvailable cfg id objs (scopes w) (scopes w') := by
  obtain ⟨w1, g1, g2, g3, g4, g5, g6, g7, _⟩ := resultUnload_captured cfg id (objs.map (fun n => .obj n.1 n.2) ++ (e.map CapNode.exc).toList) hw
  rw [capObjs_carried, makeErrorId_of_tagged hid] at g7
  rw [capExc_carried] at g1
  exact ⟨w1, g1, by rw [g7]; exact madeAvailable_unload hn _⟩

/-! ## C40: `value()` of a failed result -/

/-- **C40, failed result without captured objects.** `value()` throws `bad_result` with the id of the result and has no other effect. -/
theorem C40_value_plain {id : Id} (hid : id.Tagged) (tag : Nat) (w : World PtrStore) :
    ∃ e, eval cfg (.value (.plain id) tag) w = some (.exc e, w) ∧ e.isStd = true ∧ (e.cast tyBadResult).isSome ∧ e.idSrc = .base id := by
  refine ⟨badResultExc id tag, ?_, rfl, rfl, rfl⟩
  show resultValue cfg (.plain id) tag w = _
  unfold resultValue
  simp only [resultUnload, bind_apply, pure_apply, Option.bind_some, ErrRes.errId, makeErrorId_of_tagged hid]

/-- **C40, failed result with captured objects.** `value()` makes the captured objects available and then rethrows the captured exception, if there is
one, and otherwise throws `bad_result` with the id of the result. -/
theorem C40_value_captured {id : Id} (hid : id.Tagged) {objs : List (Ty × Cell)} (hn : (objs.map Prod.fst).Nodup) (ex : Option Exc) (tag : Nat)
    (hw : ThreadOk w) :
    ∃ e w', eval cfg (.value (.captured id (objs.map (fun n => .obj n.1 n.2) ++ (ex.map CapNode.exc).toList)) tag) w = some (.exc e, w') ∧
      MadeAvailable cfg id objs (scopes w) (scopes w') ∧
      (∀ x, ex = some x → e = x) ∧ (ex = none → e.isStd = true ∧ (e.cast tyBadResult).isSome ∧ e.idSrc = .base id) := by
  obtain ⟨w', h1, h2⟩ := C28_unloaded (cfg := cfg) hid hn ex hw
  cases ex with
  | none =>
    refine ⟨badResultExc id tag, w', ?_, h2, by simp, fun _ => ⟨rfl, rfl, rfl⟩⟩
    show resultValue cfg _ tag w = _
    unfold resultValue
    rw [bind_apply, h1, Option.bind_some]
    simp only [ErrRes.errId, makeErrorId_of_tagged hid]
    rfl
  | some x =>
    refine ⟨x, w', ?_, h2, by simp, by simp⟩
    show resultValue cfg _ tag w = _
    unfold resultValue
    rw [bind_apply, h1, Option.bind_some]
    rfl

/-- **C26, in programs.** A program lets a `leaf::exception` with error id `id` escape, and user code swallows it (`catch(...)`): then there is no
current error if it was that error and LEAF has not examined the exception; otherwise the current error stays. Nothing else changes. -/
theorem C26_swallowed_by_user {p : Prog} {e : Exc} {id : Id} {w1 : World PtrStore} (hb : eval cfg p w = some (.exc e, w1)) (he : e.idSrc = .base id)
    (v : Val) :
    eval cfg (.cppCatch p (fun _ => .ret (.val v))) w =
      some (.val v, { w1 with cur := if e.clear = true ∧ w1.cur = id then 0#32 else w1.cur }) := by
  show cppCatch_ _ _ w = _
  unfold cppCatch_
  rw [bind_apply, hb, Option.bind_some]
  simp only [bind_apply, pushHandling, popHandling, destroyExc, he, eval, getCur, pure_apply, Option.bind_some, List.tail_cons]
  split <;> simp_all [setCur, pure_apply]

/-- **C40, swallowed.** Swallowing the exception thrown by `value()` does not leave a current error behind, and has no other effect. -/
theorem C40_value_swallowed {id : Id} (hid : id.Tagged) (tag : Nat) (v : Val) (w : World PtrStore) :
    eval cfg (.cppCatch (.value (.plain id) tag) (fun _ => .ret (.val v))) w =
      some (.val v, { w with cur := if w.cur = id then 0#32 else w.cur }) := by
  have h : eval cfg (.value (.plain id) tag) w = some (.exc (badResultExc id tag), w) := by
    show resultValue cfg (.plain id) tag w = _
    unfold resultValue
    simp only [resultUnload, bind_apply, pure_apply, Option.bind_some, ErrRes.errId, makeErrorId_of_tagged hid]
  rw [C26_swallowed_by_user h rfl v]
  simp [badResultExc]

/-- An error is reported, `value()` called on the result, and the exception swallowed: the error is not the current one any more. -/
example : ((eval exCfg (.newError [] fun id => .cppCatch (.value (.plain id) 3) (fun _ => .ret (.val 1))) : Comp PtrStore Out) (initThread 1#32)).map
    (fun r => (r.1, r.2.cur)) = some (.val 1, 0#32) := by
  decide +kernel

end

/-! ## What does not hold -/

/-- **C27 refuted (abandoned error).** An error is reported and dropped, then the block fails with another one: the objects of the error that
the block fails with are not in the result, because the capturing scope keeps the id of the first error it stored an object for
(error.hpp:333-343) and `value_or_default` (detail/optional.hpp:166-175, handle_errors.hpp:736) compares with that. -/
theorem C27_refuted_abandoned :
    runFresh exCfg (.captureAll (.newError [.obj 10 1] fun _ => .newError [.obj 11 2] fun id => .ret (.err (.plain id)))) =
      some (.err (.captured 9#32 []), [], [.offered 9#32 11 2, .gen 9#32, .offered 5#32 10 1, .gen 5#32]) := by
  decide +kernel

/-- **C27 refuted (nested capture).** A block that returns a captured result: the objects in it are lost (the list of the returned result is
dropped with it, handle_errors.hpp:733-737). -/
theorem C27_refuted_nested :
    runFresh exCfg (.captureAll (.captureAll (.newError [.obj 10 1] fun id => .ret (.err (.plain id))))) =
      some (.err (.captured 5#32 []), [], [.offered 5#32 10 1, .gen 5#32]) := by
  decide +kernel

/-- **C28 refuted.** `try_capture_all` in a `catch` block: the block returns a failed result without throwing; the exception being handled, which
has nothing to do with it, is captured (error.hpp:303), and thrown when the result is handled. -/
theorem C28_refuted :
    runFresh exCfg (.cppCatch (.ret (.exc ⟨7, true, .none, [(20, 3)], false⟩))
      (fun _ => .captureAll (.newError [] fun id => .ret (.err (.plain id))))) =
      some (.err (.captured 5#32 [.exc ⟨7, true, .none, [(20, 3)], false⟩]), [], [.gen 5#32]) ∧
    runFresh exCfg (.handleAll [[.catch_ fun _ => true], []] (.ret (.err (.captured 5#32 [.exc ⟨7, true, .none, [(20, 3)], false⟩]))) (fun i _ => .ret (.val i))) =
      some (.val 0, [], [.handled 5#32 (some ⟨7, true, .none, [(20, 3)], false⟩) 0 [.exc ⟨7, true, .none, [(20, 3)], false⟩]]) := by
  constructor <;> decide +kernel

/-! ## The hypotheses can be met -/

/-- The hypotheses of `C27_partial` (and of `C27_captured_partial`, `C27_received`, `C28_returned_partial`, which it combines). -/
example : (Prog.captureAll (within exLayers (report [.obj 10 1, .obj 11 2] none))).WF exCfg false ∧ ThreadOk (initThread 1#32) ∧
    scopes (initThread 1#32) = [] ∧ nextId exCfg (initThread 1#32) ≠ (initThread 1#32).cur ∧
    PassesAll exCfg [.obj 10 1, .obj 11 2] (visible none) false exLayers ∧ (initThread 1#32).handling = [] ∧ ValidAll [[.req 12], [.req 10, .ptr 13], []] ∧
    ThreadOk (initThread 101#32) ∧ NoCapturingScope (initThread 101#32) ∧ ∀ ty v, ¬ Stored ty (nextId exCfg (initThread 1#32)) v (scopes (initThread 101#32)) :=
  ⟨⟨rfl, exLayers_wf _⟩, threadOk_init (by decide), rfl, by decide, exLayers_passes, rfl, ⟨[[.req 12], [.req 10, .ptr 13]], [], rfl, rfl⟩,
    threadOk_init (by decide), by intro x hx; simp [initThread, PtrStore.empty] at hx, fun _ _ => stored_nil⟩

/-- A block reporting an error through a scope and a guard is captured; the result is handled in another scope. -/
example : runFresh exCfg (.captureAll (within exLayers (report [.obj 10 1, .obj 11 2] none))) =
      some (.err (.captured 5#32 [.obj 13 (some (5#32, 4)), .obj 11 (some (5#32, 2)), .obj 10 (some (5#32, 1))]), [],
        [.offered 5#32 10 9, .offered 5#32 13 4, .offered 5#32 11 2, .offered 5#32 10 1, .gen 5#32]) ∧
    runFresh exCfg (.handleAll [[.req 12], [.req 10, .ptr 13], []]
      (.ret (.err (.captured 5#32 [.obj 13 (some (5#32, 4)), .obj 11 (some (5#32, 2)), .obj 10 (some (5#32, 1))]))) (fun i _ => .ret (.val i))) =
      some (.val 1, [], [.handled 5#32 none 1 [.obj 10 1, .ptr 13 (some 4)], .transported 5#32 10 1, .transported 5#32 11 2, .transported 5#32 13 4]) := by
  constructor <;> decide +kernel

/-- An exception captured and thrown again (`C28_thrown`, `C28_unloaded`, `C40_value_captured`). -/
example : runFresh exCfg (.captureAll (.newError [.obj 10 1] fun id => .ret (.exc ⟨0, true, .base id, [(20, 7)], true⟩))) =
      some (.err (.captured 5#32 [.obj 10 (some (5#32, 1)), .exc ⟨0, true, .base 5#32, [(20, 7)], false⟩]), [], [.offered 5#32 10 1, .gen 5#32]) ∧
    runFresh exCfg (.handleAll [[.req 10, .catch_ fun e => (e.cast 20).isSome], []]
      (.value (.captured 5#32 [.obj 10 (some (5#32, 1)), .exc ⟨0, true, .base 5#32, [(20, 7)], false⟩]) 99) (fun i _ => .ret (.val i))) =
      some (.val 0, [], [.handled 5#32 (some ⟨0, true, .base 5#32, [(20, 7)], false⟩) 0 [.obj 10 1, .exc ⟨0, true, .base 5#32, [(20, 7)], false⟩],
        .transported 5#32 10 1]) := by
  constructor <;> decide +kernel

/-- `value()` of a failed result: `bad_result` with its id is thrown. -/
example : runFresh exCfg (.handleAll [[.ptr 10, .catch_ fun e => (e.cast tyBadResult).isSome], []]
      (.value (.captured 5#32 [.obj 10 (some (5#32, 1))]) 99) (fun i _ => .ret (.val i))) =
      some (.val 0, [], [.handled 5#32 (some ⟨99, true, .base 5#32, [(tyBadResult, 0)], false⟩) 0
        [.ptr 10 (some 1), .exc ⟨99, true, .base 5#32, [(tyBadResult, 0)], false⟩], .transported 5#32 10 1]) := by
  decide +kernel

end Leaf
