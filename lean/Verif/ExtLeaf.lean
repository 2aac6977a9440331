import Verif.ExtLemmas
import Verif.FlowLemmas

/-!
# External result types: programs that use only error codes of LEAF's category
-/

namespace Leaf

/-- Both computations run without undefined behaviour, reach the same state, and their results are related. -/
def Both {α β : Type} (s s' : List (List CellTy)) (x : Comp PtrStore α) (y : Comp PtrStore β) (R : α → β → Prop) : Prop :=
  ∀ w : World PtrStore, ThreadOk w → shape (scopes w) = s →
    ∃ a b w', x w = some (a, w') ∧ y w = some (b, w') ∧ ThreadOk w' ∧ shape (scopes w') = s' ∧ R a b

theorem Both.pure {α β : Type} {s : List (List CellTy)} {a : α} {b : β} {R : α → β → Prop} (h : R a b) : Both s s (Pure.pure a) (Pure.pure b) R :=
  fun w hw hs => ⟨a, b, w, rfl, rfl, hw, hs, h⟩

theorem Both.bind {α β γ δ : Type} {s s' s'' : List (List CellTy)} {x : Comp PtrStore α} {y : Comp PtrStore β} {f : α → Comp PtrStore γ}
    {g : β → Comp PtrStore δ} {P : α → β → Prop} {Q : γ → δ → Prop} (hx : Both s s' x y P) (hf : ∀ a b, P a b → Both s' s'' (f a) (g b) Q) :
    Both s s'' (x >>= f) (y >>= g) Q := by
  intro w hg hs
  obtain ⟨a, b, w1, e1, e2, g1, s1, p1⟩ := hx w hg hs
  obtain ⟨c, d, w2, f1, f2, g2, s2, p2⟩ := hf a b p1 w1 g1 s1
  exact ⟨c, d, w2, by rw [bind_apply, e1]; exact f1, by rw [bind_apply, e2]; exact f2, g2, s2, p2⟩

theorem Both.of_tot {α : Type} {s : List (List CellTy)} {x : Comp PtrStore α} {y : Comp AbsStore α} (h : Sim 0 0 x y) {Q : α → Prop}
    (ht : Tot s s y Q) : Both s s x x (fun a b => a = b ∧ Q a) := by
  intro w hw hs
  obtain ⟨a, w', h1, _, h2, h3, h4⟩ := tot_ptr h ht hw hs
  exact ⟨a, a, w', h1, h1, h2, h3, rfl, h4⟩

/-- The computation on the right does something that leaves the state as it is. -/
theorem Both.right {α β γ : Type} {s s' : List (List CellTy)} {x : Comp PtrStore α} {y : Comp PtrStore β} {g : γ → Comp PtrStore β} {c : γ}
    {z : Comp PtrStore γ} {R : α → β → Prop} (hz : z = Pure.pure c) (h : Both s s' x y R) (hg : g c = y) : Both s s' x (z >>= g) R := by
  subst hz hg
  exact h

theorem Both.left {α β γ : Type} {s s' : List (List CellTy)} {x : Comp PtrStore α} {y : Comp PtrStore β} {g : γ → Comp PtrStore α} {c : γ}
    {z : Comp PtrStore γ} {R : α → β → Prop} (hz : z = Pure.pure c) (h : Both s s' x y R) (hg : g c = x) : Both s s' (z >>= g) y R := by
  subst hz hg
  exact h

theorem both_push (s : List (List CellTy)) {spec : List CellTy} (h : spec.Nodup) :
    Both s (spec :: s) (pushCtx spec) (pushCtx spec) (fun _ _ => True) := by
  intro w hw hs
  obtain ⟨w', h1, h2, h3, h4⟩ := push_ptr hw h
  refine ⟨(), (), w', h1, h1, h3, ?_, trivial⟩
  have : (spec.map CellTy.empty).map CtxCell.cellTy = spec := by
    rw [List.map_map]
    have : CtxCell.cellTy ∘ CellTy.empty = id := by
      funext t; cases t <;> rfl
    simp [this]
  rw [h4]
  simp only [shape, List.map_cons, this]
  rw [show (scopes w).map _ = s from hs]

theorem both_pop (c : List CellTy) (s : List (List CellTy)) : Both (c :: s) s popCtx popCtx (fun a b => a = b) := by
  intro w hw hs
  cases hc : scopes w with
  | nil => simp [hc, shape] at hs
  | cons f fs =>
    obtain ⟨w', h1, h2, h3⟩ := popCtx_ptr hw hc
    refine ⟨f, f, w', h1, h1, h3, ?_, rfl⟩
    have : scopes w' = fs := by unfold scopes; rw [h2]; rfl
    rw [this]
    rw [hc] at hs
    simp only [shape, List.map_cons, List.cons.injEq] at hs
    exact hs.2

/-- The outcomes of a program with an external result type and with `leaf::result`. -/
def SameOut : XOut → Out → Prop
  | .val v, .val v' => v' = v
  | .err ec, .err r => r = .plain ec.value ∧ ec.cat = leafCat ∧ Id.Tagged ec.value
  | .exc e, .exc e' => e' = e ∧ e.Ok
  | _, _ => False

theorem errorIdOf_leaf (cfg : Cfg) {ec : ErrorCode} (h1 : ec.cat = leafCat) (h2 : Id.Tagged ec.value) :
    (errorIdOf cfg ec : Comp PtrStore Id) = Pure.pure ec.value := by
  unfold errorIdOf importCode importErrorCode
  simp only [tagged_ne_zero h2, ne_eq, not_false_eq_true, if_true, h1, h2]
  rw [show (ec.value &&& ~~~3#32) ||| 1#32 = ec.value from makeErrorId_of_tagged h2]

theorem errId_plain_tagged {id : Id} (h : Id.Tagged id) : (ErrRes.plain id).errId = id := makeErrorId_of_tagged h

theorem both_callHandler (s : List (List CellTy)) (cfg : Cfg) {specs : List (List Arg)} {bx : Nat → List ArgVal → Comp PtrStore XOut}
    {b : Nat → List ArgVal → Comp PtrStore Out} {R : XOut → Out → Prop}
    (hb : ∀ i args, (∀ a ∈ args, ArgVal.Ok a) → Both s s (bx i args) (b i args) R) {cells : List CtxCell} {id : Id} {ex : Option Exc}
    {loc : Option Val} {i : Nat} (hid : id.Tagged) (hex : ∀ e, ex = some e → e.Ok) {args : List Arg} (hi : specs[i]? = some args)
    (hc : matchesAny args = true ∨ checkArgs cfg cells id ex args = true) :
    Both s s (callHandlerX cfg specs bx cells id ex loc i) (callHandler cfg specs b cells id ex loc i) R := by
  unfold callHandlerX callHandler
  obtain ⟨vs, hv⟩ := getArgs_some cfg cells id ex loc hc
  simp only [hi, hv]
  exact Both.bind (Both.of_tot (sim_emit _) (tot_emit s _)) (fun _ _ _ => hb i vs (getArgs_ok hid hex hv))

theorem both_catchPath (c : List CellTy) (s : List (List CellTy)) (cfg : Cfg) {specs : List (List Arg)}
    {bx : Nat → List ArgVal → Comp PtrStore XOut} {b : Nat → List ArgVal → Comp PtrStore Out} {R : XOut → Out → Prop}
    (hb : ∀ i args, (∀ a ∈ args, ArgVal.Ok a) → Both s s (bx i args) (b i args) R) (hR : ∀ e, Exc.Ok e → R (.exc e) (.exc e)) {e : Exc} (he : e.Ok) :
    Both (c :: s) s (catchPathX cfg specs bx e) (catchPath cfg specs b e) (fun p q => R p.1 q.1 ∧ p.2 = q.2) := by
  unfold catchPathX catchPath
  refine Both.bind (both_pop c s) (fun cells _ hcc => ?_)
  subst hcc
  refine Both.bind (Both.of_tot (sim_unpackId e) (tot_unpackId s he)) (fun p q hp => ?_)
  obtain ⟨rfl, hp⟩ := hp
  obtain ⟨id, e'⟩ := p
  refine Both.bind (Both.of_tot (sim_pushHandling _) (tot_pushHandling s hp.2)) (fun _ _ _ => ?_)
  refine Both.bind (Both.of_tot (sim_ctxLoc _ _) (tot_ctxLoc s hp.1 cells)) (fun loc loc' hl => ?_)
  obtain ⟨rfl, -⟩ := hl
  have hex : ∀ x, (if e'.isStd = true then some e' else none) = some x → x.Ok := by
    intro x hx
    by_cases h : e'.isStd = true <;> simp [h] at hx
    exact hx ▸ hp.2
  cases hi : selectSome cfg cells id (if e'.isStd = true then some e' else none) specs with
  | some i =>
    obtain ⟨j, args, h1, h2, h3⟩ := selectSomeFrom_spec hi
    have hij : i = j := by omega
    subst hij
    refine Both.bind (both_callHandler s cfg hb hp.1 hex h2 h3) (fun o o' ho => ?_)
    refine Both.bind (Both.of_tot sim_popHandling (tot_popHandling s)) (fun _ _ _ => ?_)
    exact Both.bind (Both.of_tot (sim_destroyExc _) (tot_destroyExc s e')) (fun _ _ _ => Both.pure ⟨ho, rfl⟩)
  | none =>
    refine Both.bind (Both.of_tot (sim_unloadCells _ _ _) (tot_unloadCells s cfg hp.1 cells)) (fun _ _ _ => ?_)
    exact Both.bind (Both.of_tot sim_popHandling (tot_popHandling s)) (fun _ _ _ => Both.pure ⟨hR _ hp.2, rfl⟩)

/-- Unloading what a handler, or the block, returned. -/
theorem both_unload (s : List (List CellTy)) (cfg : Cfg) (cells : List CtxCell) {x : XOut} {o : Out} (h : SameOut x o) :
    Both s s (do unloadFailed cfg cells x; return x) (do
      match o with
      | .err r' => unloadCells cfg r'.errId cells
      | _ => pure ()
      return o) SameOut := by
  cases x with
  | val v => cases o <;> first | exact h.elim | exact Both.pure h
  | exc e => cases o <;> first | exact h.elim | exact Both.pure h
  | err ec =>
    cases o with
    | val v => exact h.elim
    | exc e => exact h.elim
    | err r =>
      have h' := h
      obtain ⟨rfl, h1, h2⟩ := h
      have hx : (do unloadFailed cfg cells (.err ec); return XOut.err ec : Comp PtrStore XOut) = unloadCells cfg ec.value cells >>= fun _ => pure (.err ec) := by
        have : (unloadFailed cfg cells (.err ec) : Comp PtrStore Unit) = errorIdOf cfg ec >>= fun id => unloadCells cfg id cells := rfl
        rw [this, errorIdOf_leaf cfg h1 h2]
        rfl
      rw [hx]
      simp only [errId_plain_tagged h2]
      exact Both.bind (Both.of_tot (sim_unloadCells _ _ _) (tot_unloadCells s cfg h2 cells)) (fun _ _ _ => Both.pure h')

theorem both_checkId (s : List (List CellTy)) (cfg : Cfg) (saved : Id) (x : XOut) (o : Out) :
    SameOut x o → Both s s (checkId cfg saved (match x with | .exc _ => true | _ => false)) (checkId cfg saved (match o with | .exc _ => true | _ => false))
      (fun a b => a = b ∧ Id.Ok a) := by
  intro h
  have hb : ∀ b, Both s s (checkId cfg saved b) (checkId cfg saved b) (fun a b => a = b ∧ Id.Ok a) :=
    fun b => Both.of_tot (sim_checkId _ _ _) (tot_checkId s cfg saved b)
  cases x <;> cases o <;> first | exact hb _ | exact h.elim

theorem both_noErr (s : List (List CellTy)) {x : XOut} {o : Out} (h : SameOut x o) (hx : ∀ ec, x ≠ .err ec) :
    Both s s (noErrX x) (noErr o) SameOut := by
  cases x with
  | val v => cases o <;> first | exact h.elim | exact Both.pure h
  | exc e => cases o <;> first | exact h.elim | exact Both.pure h
  | err ec => exact absurd rfl (hx ec)

theorem both_of_noErr {s s' : List (List CellTy)} {cfg : Cfg} {p : XProg} {y : Comp PtrStore Out} (h : Both s s' (evalX cfg p) y SameOut) (hp : p.NoErr) :
    Both s s' (evalX cfg p) y (fun x o => SameOut x o ∧ ∀ ec, x ≠ .err ec) := by
  intro w hg hs
  obtain ⟨o, o', w', h1, h1', h2, h3, h4⟩ := h w hg hs
  exact ⟨o, o', w', h1, h1', h2, h3, h4, post_evalX cfg p hp w o w' h1⟩

theorem evalBind_eq (cfg : Cfg) (p : Prog) (k : Val → Prog) (ke : ErrRes → Prog) : (eval cfg (.bind p k ke) : Comp PtrStore Out) = do
    match ← eval cfg p with
    | .val v => eval cfg (k v)
    | .err r => eval cfg (ke r)
    | .exc e => return .exc e := by rw [eval]; rfl

theorem both_evalX (cfg : Cfg) (p : XProg) {da : Bool} (hp : p.WF cfg da) (hl : p.LeafCodes) (s : List (List CellTy)) (hda : da = false → NoDa s) :
    Both s s (evalX cfg p) (eval cfg p.withLeaf) SameOut := by
  induction p generalizing s da with
  | ret o =>
    cases o with
    | val v => exact Both.pure rfl
    | exc e => exact Both.pure ⟨rfl, hp⟩
    | err ec =>
      have h1 := hl ec rfl
      have h2 : Id.Tagged ec.value := hp.2 h1
      exact Both.right (errorIdOf_leaf cfg h1 h2) (Both.pure (b := Out.err (.plain ec.value)) (R := SameOut) ⟨rfl, h1, h2⟩) rfl
  | call p k ke ih2 ih3 =>
    unfold evalX XProg.withLeaf
    rw [evalBind_eq]
    refine Both.bind (Both.of_tot (sim_eval _ _) (tot_eval cfg p hp.1 s hda)) (fun o o' ho => ?_)
    obtain ⟨rfl, ho⟩ := ho
    cases o with
    | val v => exact ih2 v (hp.2.1 v) (hl.1 v) s hda
    | err r => exact ih3 r (hp.2.2 r ho) (hl.2 r) s hda
    | exc e => exact Both.pure ⟨rfl, ho⟩
  | bind p k ke ih1 ih2 ih3 =>
    unfold evalX XProg.withLeaf eval
    refine Both.bind (ih1 hp.1 hl.1 s hda) (fun x o ho => ?_)
    cases x with
    | val v =>
      cases o with
      | val v' => cases ho; exact ih2 v (hp.2.1 v) (hl.2.1 v) s hda
      | err r => exact ho.elim
      | exc e => exact ho.elim
    | err ec =>
      cases o with
      | val v' => exact ho.elim
      | err r =>
        obtain ⟨rfl, h1, h2⟩ := ho
        have he : ec = toErrorCode ec.value := by
          cases ec
          simp only at h1
          subst h1
          rfl
        simp only [errId_plain_tagged h2, ← he]
        refine ih3 ec (hp.2.2 ec ⟨tagged_ne_zero h2, fun _ => h2⟩) ?_ s hda
        rw [he]
        exact hl.2.2 _
      | exc e => exact ho.elim
    | exc e =>
      cases o with
      | val v' => exact ho.elim
      | err r => exact ho.elim
      | exc e' => exact Both.pure ho
  | onError items body ih =>
    unfold evalX XProg.withLeaf eval onErrorX onErrorGuard
    refine Both.bind (Both.of_tot sim_currentId (tot_currentId s)) (fun saved saved' hs => ?_)
    obtain ⟨rfl, -⟩ := hs
    refine Both.bind (ih hp.2 hl s hda) (fun x o ho => ?_)
    refine Both.bind (both_checkId s cfg saved x o ho) (fun id id' hid => ?_)
    obtain ⟨rfl, hid⟩ := hid
    by_cases h : id = 0#32
    · simp only [h, ne_eq, not_true_eq_false, if_false]; exact Both.pure ho
    · simp only [h, ne_eq, not_false_eq_true, if_true]
      have ht : id.Tagged := hid.resolve_left h
      exact Both.bind (Both.of_tot (sim_assertTagged _) (tot_assertTagged s ht))
        (fun _ _ _ => Both.bind (Both.of_tot (sim_triggerItems _ _ _) (tot_triggerItems s cfg ht hda hp.1)) (fun _ _ _ => Both.pure ho))
  | handleAll specs block body ih1 ih2 =>
    unfold evalX XProg.withLeaf eval tryHandleAllX tryHandleAll
    refine Both.bind (both_push s (deduce_nodup cfg specs)) (fun _ _ _ => ?_)
    refine Both.bind (ih1 hp.2.1 hl.1 _ (noDa_push hda)) (fun x o ho => ?_)
    have hb : ∀ i args, (∀ a ∈ args, ArgVal.Ok a) → Both s s (evalX cfg (body i args)) (eval cfg (body i args).withLeaf)
        (fun x o => SameOut x o ∧ ∀ ec, x ≠ .err ec) :=
      fun i args ha => both_of_noErr (ih2 i args (hp.2.2 i args ha).1 (hl.2 i args) s hda) (hp.2.2 i args ha).2
    cases x with
    | val v =>
      cases o with
      | val v' =>
        exact Both.right rfl (Both.bind (both_pop _ s) (fun _ _ _ => Both.pure (R := SameOut) ho)) rfl
      | err r => exact ho.elim
      | exc e => exact ho.elim
    | err ec =>
      cases o with
      | val v' => exact ho.elim
      | err r =>
        obtain ⟨rfl, h1, h2⟩ := ho
        refine Both.right rfl (Both.right rfl (Both.left (errorIdOf_leaf cfg h1 h2) ?_ rfl) rfl) rfl
        simp only [errId_plain_tagged h2]
        refine Both.bind (both_pop _ s) (fun cells cells' hc => ?_)
        subst hc
        refine Both.bind (Both.of_tot (sim_ctxLoc _ _) (tot_ctxLoc s h2 cells)) (fun loc loc' hl => ?_)
        obtain ⟨rfl, -⟩ := hl
        obtain ⟨i, hi⟩ := selectAllFrom_total cfg cells ec.value none 0 hp.1
        obtain ⟨j, args, g1, g2, g3⟩ := selectAllFrom_spec hi
        have hij : i = j := by omega
        subst hij
        simp only [selectAll, hi]
        exact Both.bind (both_callHandler s cfg hb h2 (by simp) g2 g3) (fun x o ho => both_noErr s ho.1 ho.2)
      | exc e => exact ho.elim
    | exc e =>
      cases o with
      | val v' => exact ho.elim
      | err r => exact ho.elim
      | exc e' =>
        obtain ⟨rfl, he⟩ := ho
        refine Both.right rfl (Both.bind (both_catchPath _ s cfg hb (fun e he => ⟨⟨rfl, he⟩, by simp⟩) he) (fun p q hpq => ?_)) rfl
        exact both_noErr s hpq.1.1 hpq.1.2
  | handleSome specs block body ih1 ih2 =>
    unfold evalX XProg.withLeaf eval tryHandleSomeX tryHandleSome
    refine Both.bind (both_push s (deduce_nodup cfg specs)) (fun _ _ _ => ?_)
    refine Both.bind (ih1 hp.1 hl.1 _ (noDa_push hda)) (fun x o ho => ?_)
    have hb : ∀ i args, (∀ a ∈ args, ArgVal.Ok a) → Both s s (evalX cfg (body i args)) (eval cfg (body i args).withLeaf) SameOut :=
      fun i args ha => ih2 i args (hp.2 i args ha) (hl.2 i args) s hda
    cases x with
    | val v =>
      cases o with
      | val v' =>
        exact Both.right rfl (Both.bind (both_pop _ s) (fun _ _ _ => Both.pure (R := SameOut) ho)) rfl
      | err r => exact ho.elim
      | exc e => exact ho.elim
    | err ec =>
      cases o with
      | val v' => exact ho.elim
      | err r =>
        obtain ⟨rfl, h1, h2⟩ := ho
        refine Both.right rfl (Both.right rfl (Both.left (errorIdOf_leaf cfg h1 h2) ?_ rfl) rfl) rfl
        simp only [errId_plain_tagged h2]
        refine Both.bind (both_pop _ s) (fun cells cells' hc => ?_)
        subst hc
        refine Both.bind (Both.of_tot (sim_ctxLoc _ _) (tot_ctxLoc s h2 cells)) (fun loc loc' hl => ?_)
        obtain ⟨rfl, -⟩ := hl
        cases hi : selectSome cfg cells ec.value none specs with
        | none =>
          exact Both.bind (Both.pure (a := XOut.err ec) (b := Out.err (.plain ec.value)) (R := SameOut) ⟨rfl, h1, h2⟩)
            (fun _ _ ho => both_unload s cfg cells ho)
        | some i =>
          obtain ⟨j, args, g1, g2, g3⟩ := selectSomeFrom_spec hi
          have hij : i = j := by omega
          subst hij
          exact Both.bind (both_callHandler s cfg hb h2 (by simp) g2 g3) (fun _ _ ho => both_unload s cfg cells ho)
      | exc e => exact ho.elim
    | exc e =>
      cases o with
      | val v' => exact ho.elim
      | err r => exact ho.elim
      | exc e' =>
        obtain ⟨rfl, he⟩ := ho
        refine Both.right rfl (Both.bind (both_catchPath _ s cfg hb (fun e he => ⟨rfl, he⟩) he) (fun p q hpq => ?_)) rfl
        obtain ⟨h1, h2⟩ := hpq
        obtain ⟨x, cells⟩ := p
        obtain ⟨o, cells'⟩ := q
        simp only at h1 h2
        subst h2
        exact both_unload s cfg cells h1
  | tryCatch specs block body ih1 ih2 =>
    unfold evalX XProg.withLeaf eval tryCatchX tryCatch
    refine Both.bind (both_push s (deduce_nodup cfg specs)) (fun _ _ _ => ?_)
    refine Both.bind (ih1 hp.1 hl.1 _ (noDa_push hda)) (fun x o ho => ?_)
    have hb : ∀ i args, (∀ a ∈ args, ArgVal.Ok a) → Both s s (evalX cfg (body i args)) (eval cfg (body i args).withLeaf) SameOut :=
      fun i args ha => ih2 i args (hp.2 i args ha) (hl.2 i args) s hda
    cases x with
    | val v => cases o <;> first | exact ho.elim | exact Both.bind (both_pop _ s) (fun _ _ _ => Both.pure ho)
    | err ec => cases o <;> first | exact ho.elim | exact Both.bind (both_pop _ s) (fun _ _ _ => Both.pure ho)
    | exc e =>
      cases o with
      | val v' => exact ho.elim
      | err r => exact ho.elim
      | exc e' =>
        obtain ⟨rfl, he⟩ := ho
        exact Both.bind (both_catchPath _ s cfg hb (fun e he => ⟨rfl, he⟩) he) (fun p q hpq => Both.pure hpq.1)
  | cppCatch block h ih1 ih2 =>
    unfold evalX XProg.withLeaf eval cppCatchX cppCatch_
    refine Both.bind (ih1 hp.1 hl.1 s hda) (fun x o ho => ?_)
    cases x with
    | val v => cases o <;> first | exact ho.elim | exact Both.pure ho
    | err ec => cases o <;> first | exact ho.elim | exact Both.pure ho
    | exc e =>
      cases o with
      | val v' => exact ho.elim
      | err r => exact ho.elim
      | exc e' =>
        obtain ⟨rfl, he⟩ := ho
        refine Both.bind (Both.of_tot (sim_pushHandling _) (tot_pushHandling s he)) (fun _ _ _ => ?_)
        refine Both.bind (ih2 _ (hp.2 _ he) (hl.2 _) s hda) (fun o2 o2' ho2 => ?_)
        exact Both.bind (Both.of_tot sim_popHandling (tot_popHandling s))
          (fun _ _ _ => Both.bind (Both.of_tot (sim_destroyExc _) (tot_destroyExc s _)) (fun _ _ _ => Both.pure ho2))

end Leaf
