import Verif.ExtModel
import Verif.Flow

/-!
# External result types: well-formed programs run without undefined behaviour
-/

namespace Leaf

/-! ## Pointers -/

theorem sim_errorIdOf {n : Nat} (cfg : Cfg) (ec : ErrorCode) : Sim n n (errorIdOf cfg ec) (errorIdOf cfg ec) := sim_importCode _ _ _
macro_rules | `(tactic| simstep) => `(tactic| with_reducible exact sim_errorIdOf _ _)

theorem sim_noErrX {n : Nat} (o : XOut) : Sim n n (noErrX o) (noErrX o) := by
  unfold noErrX; sim
macro_rules | `(tactic| simstep) => `(tactic| with_reducible exact sim_noErrX _)

theorem sim_unloadFailed {n : Nat} (cfg : Cfg) (cells : List CtxCell) (o : XOut) : Sim n n (unloadFailed cfg cells o) (unloadFailed cfg cells o) := by
  unfold unloadFailed; sim
macro_rules | `(tactic| simstep) => `(tactic| with_reducible exact sim_unloadFailed _ _ _)

theorem sim_callHandlerX {n : Nat} (cfg : Cfg) (specs : List (List Arg)) {b1 : Nat → List ArgVal → Comp PtrStore XOut}
    {b2 : Nat → List ArgVal → Comp AbsStore XOut} (hb : ∀ i a, Sim n n (b1 i a) (b2 i a)) (cells : List CtxCell) (id : Id)
    (ex : Option Exc) (loc : Option Val) (i : Nat) :
    Sim n n (callHandlerX cfg specs b1 cells id ex loc i) (callHandlerX cfg specs b2 cells id ex loc i) := by
  unfold callHandlerX
  repeat (first | with_reducible exact hb _ _ | simstep1)

theorem sim_catchPathX {n : Nat} (cfg : Cfg) (specs : List (List Arg)) {b1 : Nat → List ArgVal → Comp PtrStore XOut}
    {b2 : Nat → List ArgVal → Comp AbsStore XOut} (hb : ∀ i a, Sim n n (b1 i a) (b2 i a)) (e : Exc) :
    Sim (n + 1) n (catchPathX cfg specs b1 e) (catchPathX cfg specs b2 e) := by
  unfold catchPathX
  repeat (first | with_reducible exact sim_callHandlerX cfg specs hb _ _ _ _ _ | simstep1)

theorem sim_evalX {n : Nat} (cfg : Cfg) (p : XProg) : Sim n n (evalX cfg p) (evalX cfg p) := by
  induction p generalizing n with
  | ret o => unfold evalX; sim
  | call p k ke ih1 ih2 =>
    unfold evalX
    refine Sim.bind (sim_eval cfg p) (fun o => ?_)
    cases o with
    | val v => exact ih1 v
    | err r => exact ih2 r
    | exc e => exact Sim.pure _
  | bind p k ke ih1 ih2 ih3 =>
    unfold evalX
    refine Sim.bind ih1 (fun o => ?_)
    cases o with
    | val v => exact ih2 v
    | err r => exact ih3 r
    | exc e => exact Sim.pure _
  | onError items body ih => unfold evalX onErrorX; repeat (first | with_reducible exact ih | simstep1)
  | handleAll specs block body ih1 ih2 =>
    unfold evalX tryHandleAllX
    repeat (first | with_reducible exact ih1 | with_reducible exact sim_callHandlerX cfg specs (fun i a => ih2 i a) _ _ _ _ _ |
      with_reducible exact sim_catchPathX cfg specs (fun i a => ih2 i a) _ | simstep1)
  | handleSome specs block body ih1 ih2 =>
    unfold evalX tryHandleSomeX
    repeat (first | with_reducible exact ih1 | with_reducible exact sim_callHandlerX cfg specs (fun i a => ih2 i a) _ _ _ _ _ |
      with_reducible exact sim_catchPathX cfg specs (fun i a => ih2 i a) _ | simstep1)
  | tryCatch specs block body ih1 ih2 =>
    unfold evalX tryCatchX
    repeat (first | with_reducible exact ih1 | with_reducible exact sim_catchPathX cfg specs (fun i a => ih2 i a) _ | simstep1)
  | cppCatch block h ih1 ih2 =>
    unfold evalX cppCatchX
    repeat (first | with_reducible exact ih1 | with_reducible exact ih2 _ | simstep1)

/-! ## No undefined behaviour -/

theorem tot_errorIdOf (s : List (List CellTy)) (cfg : Cfg) {ec : ErrorCode} (he : ec.Ok) : Tot s s (errorIdOf cfg ec) Id.Tagged := by
  unfold errorIdOf importCode importErrorCode
  simp only [he.1, ne_eq, not_false_eq_true, if_true]
  by_cases h2 : ec.cat = leafCat
  · have h3 : Id.Tagged ec.value := he.2 h2
    simp only [h2, h3, if_true]; exact Tot.pure (makeErrorId_tagged ec.value)
  · simp only [h2, if_false]
    refine Tot.bind (tot_newId s cfg) (fun id hid => ?_)
    refine Tot.bind (tot_emit s _) (fun _ _ => ?_)
    exact Tot.bind (tot_loadSlot s cfg false hid _ _) (fun _ _ => Tot.pure (makeErrorId_tagged id))

theorem tot_callHandlerX (s : List (List CellTy)) (cfg : Cfg) {specs : List (List Arg)} {body : Nat → List ArgVal → Comp AbsStore XOut}
    {Q : XOut → Prop}
    (hb : ∀ i args, (∀ a ∈ args, ArgVal.Ok a) → Tot s s (body i args) Q) {cells : List CtxCell} {id : Id} {ex : Option Exc}
    {loc : Option Val} {i : Nat} (hid : id.Tagged) (hex : ∀ e, ex = some e → e.Ok) {args : List Arg} (hi : specs[i]? = some args)
    (hc : matchesAny args = true ∨ checkArgs cfg cells id ex args = true) :
    Tot s s (callHandlerX cfg specs body cells id ex loc i) Q := by
  unfold callHandlerX
  obtain ⟨vs, hv⟩ := getArgs_some cfg cells id ex loc hc
  simp only [hi, hv]
  exact Tot.bind (tot_emit s _) (fun _ _ => hb i vs (getArgs_ok hid hex hv))

theorem tot_catchPathX (c : List CellTy) (s : List (List CellTy)) (cfg : Cfg) {specs : List (List Arg)}
    {body : Nat → List ArgVal → Comp AbsStore XOut} {Q : XOut → Prop}
    (hb : ∀ i args, (∀ a ∈ args, ArgVal.Ok a) → Tot s s (body i args) Q) (hQ : ∀ e, Exc.Ok e → Q (.exc e)) {e : Exc} (he : e.Ok) :
    Tot (c :: s) s (catchPathX cfg specs body e) (fun p => Q p.1) := by
  unfold catchPathX
  refine Tot.bind (tot_popCtx c s) (fun cells _ => ?_)
  refine Tot.bind (tot_unpackId s he) (fun p hp => ?_)
  obtain ⟨id, e'⟩ := p
  refine Tot.bind (tot_pushHandling s hp.2) (fun _ _ => ?_)
  refine Tot.bind (tot_ctxLoc s hp.1 cells) (fun loc _ => ?_)
  have hex : ∀ x, (if e'.isStd = true then some e' else none) = some x → x.Ok := by
    intro x hx
    by_cases h : e'.isStd = true <;> simp [h] at hx
    exact hx ▸ hp.2
  split
  · rename_i i hi
    obtain ⟨j, args, h1, h2, h3⟩ := selectSomeFrom_spec hi
    have hij : i = j := by omega
    subst hij
    refine Tot.bind (tot_callHandlerX s cfg hb hp.1 hex h2 h3) (fun o ho => ?_)
    refine Tot.bind (tot_popHandling s) (fun _ _ => ?_)
    exact Tot.bind (tot_destroyExc s e') (fun _ _ => Tot.pure ho)
  · refine Tot.bind (tot_unloadCells s cfg hp.1 cells) (fun _ _ => ?_)
    exact Tot.bind (tot_popHandling s) (fun _ _ => Tot.pure (hQ _ hp.2))

theorem tot_unloadFailed (s : List (List CellTy)) (cfg : Cfg) (cells : List CtxCell) {o : XOut} (ho : o.Ok) :
    Tot s s (unloadFailed cfg cells o) T := by
  cases o with
  | val v => exact Tot.pure trivial
  | err ec => exact Tot.bind (tot_errorIdOf s cfg ho) (fun id hid => tot_unloadCells s cfg hid cells)
  | exc e => exact Tot.pure trivial

def XOut.NoErr (o : XOut) : Prop := ∀ ec, o ≠ .err ec

theorem post_noErrX {M : Type} (o : XOut) : Post (noErrX o : Comp M XOut) XOut.NoErr := by
  cases o with
  | val v => exact Post.pure (by simp [XOut.NoErr])
  | err r => exact Post.ub
  | exc e => exact Post.pure (by simp [XOut.NoErr])

theorem post_callHandlerX {M : Type} (cfg : Cfg) {specs : List (List Arg)} {body : Nat → List ArgVal → Comp M XOut} {Q : XOut → Prop}
    (hb : ∀ i args, Post (body i args) Q) (cells : List CtxCell) (id : Id) (ex : Option Exc) (loc : Option Val) (i : Nat) :
    Post (callHandlerX cfg specs body cells id ex loc i) Q := by
  unfold callHandlerX
  cases specs[i]? with
  | none => exact Post.ub
  | some args =>
    dsimp only
    cases getArgs cfg cells id ex loc args with
    | none => exact Post.ub
    | some vs => exact Post.bind' (fun _ => hb _ _)

theorem post_catchPathX {M : Type} [Store M] (cfg : Cfg) {specs : List (List Arg)} {body : Nat → List ArgVal → Comp M XOut} {Q : XOut → Prop}
    (hb : ∀ i args, Post (body i args) Q) (hQ : ∀ e, Q (.exc e)) (e : Exc) :
    Post (catchPathX cfg specs body e) (fun p => Q p.1) := by
  unfold catchPathX
  refine Post.bind' (fun cells => Post.bind' (fun p => ?_))
  obtain ⟨id, e'⟩ := p
  refine Post.bind' (fun _ => Post.bind' (fun loc => ?_))
  split
  · refine Post.bind (post_callHandlerX cfg hb _ _ _ _ _) (fun o ho => ?_)
    exact Post.bind' (fun _ => Post.bind' (fun _ => Post.pure ho))
  · exact Post.bind' (fun _ => Post.bind' (fun _ => Post.pure (hQ _)))

theorem post_evalX {M : Type} [Store M] (cfg : Cfg) (p : XProg) (hp : p.NoErr) : Post (evalX (M := M) cfg p) XOut.NoErr := by
  induction p with
  | ret o => exact Post.pure hp
  | call p k ke ih2 ih3 =>
    unfold evalX
    refine Post.bind' (fun o => ?_)
    cases o with
    | val v => exact ih2 v (hp.1 v)
    | err r => exact ih3 r (hp.2 r)
    | exc e => exact Post.pure (by simp [XOut.NoErr])
  | bind p k ke ih1 ih2 ih3 =>
    unfold evalX
    refine Post.bind' (fun o => ?_)
    cases o with
    | val v => exact ih2 v (hp.1 v)
    | err r => exact ih3 r (hp.2 r)
    | exc e => exact Post.pure (by simp [XOut.NoErr])
  | onError items body ih =>
    unfold evalX onErrorX
    refine Post.bind' (fun saved => Post.bind (ih hp) (fun o ho => Post.bind' (fun id => ?_)))
    by_cases h : id = 0#32
    · simp only [h, ne_eq, not_true_eq_false, if_false]; exact Post.pure ho
    · simp only [h, ne_eq, not_false_eq_true, if_true]
      exact Post.bind' (fun _ => Post.bind' (fun _ => Post.pure ho))
  | handleAll specs block body ih1 ih2 =>
    unfold evalX tryHandleAllX
    refine Post.bind' (fun _ => Post.bind' (fun o2 => ?_))
    cases o2 with
    | val v => exact Post.bind' (fun _ => Post.pure (by simp [XOut.NoErr]))
    | err r =>
      refine Post.bind' (fun _ => Post.bind' (fun cells => Post.bind' (fun loc => ?_)))
      split
      · exact Post.bind' (fun o => post_noErrX o)
      · exact Post.ub
    | exc e => exact Post.bind' (fun p => post_noErrX p.1)
  | handleSome specs block body ih1 ih2 => exact absurd hp (by simp [XProg.NoErr])
  | tryCatch specs block body ih1 ih2 =>
    unfold evalX tryCatchX
    refine Post.bind' (fun _ => Post.bind (ih1 hp.1) (fun o ho => ?_))
    cases o with
    | val v => exact Post.bind' (fun _ => Post.pure ho)
    | err r => exact Post.bind' (fun _ => Post.pure ho)
    | exc e =>
      exact Post.bind (post_catchPathX cfg (fun i a => ih2 i a (hp.2 i a)) (by simp [XOut.NoErr]) e) (fun p hp => Post.pure hp)
  | cppCatch block h ih1 ih2 =>
    unfold evalX cppCatchX
    refine Post.bind (ih1 hp.1) (fun o ho => ?_)
    cases o with
    | val v => exact Post.pure ho
    | err r => exact Post.pure ho
    | exc e =>
      refine Post.bind' (fun _ => Post.bind (ih2 e (hp.2 e)) (fun o2 ho2 => ?_))
      exact Post.bind' (fun _ => Post.bind' (fun _ => Post.pure ho2))

theorem tot_of_noErrX {s s' : List (List CellTy)} {cfg : Cfg} {p : XProg} (h : Tot s s' (evalX cfg p) XOut.Ok) (hp : p.NoErr) :
    Tot s s' (evalX cfg p) (fun o => o.Ok ∧ ∀ ec, o ≠ .err ec) := by
  intro w hg hs
  obtain ⟨o, w', h1, h2, h3, h4⟩ := h w hg hs
  exact ⟨o, w', h1, h2, h3, h4, post_evalX cfg p hp w o w' h1⟩

theorem tot_noErrX (s : List (List CellTy)) {o : XOut} (h : o.Ok ∧ ∀ ec, o ≠ .err ec) : Tot s s (noErrX o) XOut.Ok := by
  cases o with
  | val v => exact Tot.pure h.1
  | err r => exact absurd rfl (h.2 r)
  | exc e => exact Tot.pure h.1

theorem tot_evalX (cfg : Cfg) (p : XProg) {da : Bool} (hp : p.WF cfg da) (s : List (List CellTy)) (hda : da = false → NoDa s) :
    Tot s s (evalX cfg p) XOut.Ok := by
  induction p generalizing s da with
  | ret o => exact Tot.pure hp
  | call p k ke ih2 ih3 =>
    unfold evalX
    refine Tot.bind (tot_eval cfg p hp.1 s hda) (fun o ho => ?_)
    cases o with
    | val v => exact ih2 v (hp.2.1 v) s hda
    | err r => exact ih3 r (hp.2.2 r ho) s hda
    | exc e => exact Tot.pure ho
  | bind p k ke ih1 ih2 ih3 =>
    unfold evalX
    refine Tot.bind (ih1 hp.1 s hda) (fun o ho => ?_)
    cases o with
    | val v => exact ih2 v (hp.2.1 v) s hda
    | err r => exact ih3 r (hp.2.2 r ho) s hda
    | exc e => exact Tot.pure ho
  | onError items body ih =>
    unfold evalX onErrorX
    refine Tot.bind (tot_currentId s) (fun saved _ => ?_)
    refine Tot.bind (ih hp.2 s hda) (fun o ho => ?_)
    refine Tot.bind (tot_checkId s cfg saved _) (fun id hid => ?_)
    by_cases h : id = 0#32
    · simp only [h, ne_eq, not_true_eq_false, if_false]; exact Tot.pure ho
    · simp only [h, ne_eq, not_false_eq_true, if_true]
      have ht : id.Tagged := hid.resolve_left h
      exact Tot.bind (tot_assertTagged s ht) (fun _ _ => Tot.bind (tot_triggerItems s cfg ht hda hp.1) (fun _ _ => Tot.pure ho))
  | handleAll specs block body ih1 ih2 =>
    unfold evalX tryHandleAllX
    refine Tot.bind (tot_pushCtx s (deduce_nodup cfg specs)) (fun _ _ => ?_)
    refine Tot.bind (ih1 hp.2.1 _ (noDa_push hda)) (fun o ho => ?_)
    have hb : ∀ i args, (∀ a ∈ args, ArgVal.Ok a) → Tot s s (evalX cfg (body i args)) (fun o => o.Ok ∧ ∀ r, o ≠ .err r) :=
      fun i args ha => tot_of_noErrX (ih2 i args (hp.2.2 i args ha).1 s hda) (hp.2.2 i args ha).2
    cases o with
    | val v => exact Tot.bind (tot_popCtx _ s) (fun _ _ => Tot.pure trivial)
    | err ec =>
      refine Tot.bind (tot_errorIdOf _ cfg ho) (fun id hid => ?_)
      refine Tot.bind (tot_popCtx _ s) (fun cells _ => ?_)
      refine Tot.bind (tot_ctxLoc s hid cells) (fun loc _ => ?_)
      obtain ⟨i, hi⟩ := selectAllFrom_total cfg cells id none 0 hp.1
      obtain ⟨j, args, h1, h2, h3⟩ := selectAllFrom_spec hi
      have hij : i = j := by omega
      subst hij
      simp only [selectAll, hi]
      exact Tot.bind (tot_callHandlerX s cfg hb hid (by simp) h2 h3) (fun o ho => tot_noErrX s ho)
    | exc e =>
      refine Tot.bind (tot_catchPathX _ s cfg hb (fun e he => ⟨he, by simp⟩) ho) (fun p hp => ?_)
      exact tot_noErrX s hp
  | handleSome specs block body ih1 ih2 =>
    unfold evalX tryHandleSomeX
    refine Tot.bind (tot_pushCtx s (deduce_nodup cfg specs)) (fun _ _ => ?_)
    refine Tot.bind (ih1 hp.1 _ (noDa_push hda)) (fun o ho => ?_)
    have hb : ∀ i args, (∀ a ∈ args, ArgVal.Ok a) → Tot s s (evalX cfg (body i args)) XOut.Ok :=
      fun i args ha => ih2 i args (hp.2 i args ha) s hda
    cases o with
    | val v => exact Tot.bind (tot_popCtx _ s) (fun _ _ => Tot.pure trivial)
    | err ec =>
      refine Tot.bind (tot_errorIdOf _ cfg ho) (fun id hid => ?_)
      refine Tot.bind (tot_popCtx _ s) (fun cells _ => ?_)
      refine Tot.bind (tot_ctxLoc s hid cells) (fun loc _ => ?_)
      cases hi : selectSome cfg cells id none specs with
      | none =>
        exact Tot.bind (Tot.pure (a := XOut.err ec) (Q := XOut.Ok) ho)
          (fun o ho => Tot.bind (tot_unloadFailed s cfg cells ho) (fun _ _ => Tot.pure ho))
      | some i =>
        obtain ⟨j, args, h1, h2, h3⟩ := selectSomeFrom_spec hi
        have hij : i = j := by omega
        subst hij
        exact Tot.bind (tot_callHandlerX s cfg hb hid (by simp) h2 h3)
          (fun o ho => Tot.bind (tot_unloadFailed s cfg cells ho) (fun _ _ => Tot.pure ho))
    | exc e =>
      refine Tot.bind (tot_catchPathX _ s cfg hb (fun e he => he) ho) (fun p hp => ?_)
      exact Tot.bind (tot_unloadFailed s cfg p.2 hp) (fun _ _ => Tot.pure hp)
  | tryCatch specs block body ih1 ih2 =>
    unfold evalX tryCatchX
    refine Tot.bind (tot_pushCtx s (deduce_nodup cfg specs)) (fun _ _ => ?_)
    refine Tot.bind (ih1 hp.1 _ (noDa_push hda)) (fun o ho => ?_)
    have hb : ∀ i args, (∀ a ∈ args, ArgVal.Ok a) → Tot s s (evalX cfg (body i args)) XOut.Ok :=
      fun i args ha => ih2 i args (hp.2 i args ha) s hda
    cases o with
    | val v => exact Tot.bind (tot_popCtx _ s) (fun _ _ => Tot.pure ho)
    | err r => exact Tot.bind (tot_popCtx _ s) (fun _ _ => Tot.pure ho)
    | exc e => exact Tot.bind (tot_catchPathX _ s cfg hb (fun e he => he) ho) (fun p hp => Tot.pure hp)
  | cppCatch block h ih1 ih2 =>
    unfold evalX cppCatchX
    refine Tot.bind (ih1 hp.1 s hda) (fun o ho => ?_)
    cases o with
    | val v => exact Tot.pure ho
    | err r => exact Tot.pure ho
    | exc e =>
      refine Tot.bind (tot_pushHandling s ho) (fun _ _ => ?_)
      refine Tot.bind (ih2 e (hp.2 e ho) s hda) (fun o2 ho2 => ?_)
      exact Tot.bind (tot_popHandling s) (fun _ _ => Tot.bind (tot_destroyExc s e) (fun _ _ => Tot.pure ho2))

end Leaf
