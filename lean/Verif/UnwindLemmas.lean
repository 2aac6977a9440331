import Verif.UnwindModel
import Verif.Flow

/-!
# Destructors: lemmas
-/

namespace Leaf

/-! ## Pointers -/

theorem sim_evalU {n : Nat} (cfg : Cfg) (old : Bool) (f : Nat) (p : UProg) : Sim n n (evalU cfg old f p) (evalU cfg old f p) := by
  induction p generalizing n f with
  | ret o => unfold evalU; sim
  | newError items k ih => unfold evalU; exact Sim.bind (sim_newError _ _) (fun _ => ih _ f)
  | load id items k ih => unfold evalU; exact Sim.bind (sim_errorIdLoad _ _ _) (fun _ => ih f)
  | importCode ec v k ih => unfold evalU; exact Sim.bind (sim_importCode _ _ _) (fun _ => ih _ f)
  | currentError k ih => unfold evalU; exact Sim.bind sim_currentError (fun _ => ih _ f)
  | bind p k ke ih1 ih2 ih3 =>
    unfold evalU
    refine Sim.bind (ih1 f) (fun o => ?_)
    cases o with
    | val v => exact ih2 v f
    | err r => exact ih3 r f
    | exc e => exact Sim.pure _
  | onError items body ih => unfold evalU onErrorU; repeat (first | with_reducible exact (ih f) | simstep1)
  | monNew k ih => unfold evalU; exact Sim.bind sim_currentId (fun _ => ih _ f)
  | monCheck m k ih => unfold evalU; exact Sim.bind (sim_checkId _ _ _) (fun _ => ih _ f)
  | monAssigned m k ih => unfold evalU; exact Sim.bind (sim_getId _ _) (fun _ => ih _ f)
  | handleAll specs block body ih1 ih2 => unfold evalU; exact sim_tryHandleAll cfg specs (ih1 f) (fun i a => ih2 i a f)
  | handleSome specs block body ih1 ih2 => unfold evalU; exact sim_tryHandleSome cfg specs (ih1 f) (fun i a => ih2 i a f)
  | tryCatch specs block body ih1 ih2 => unfold evalU; exact sim_tryCatch cfg specs (ih1 f) (fun i a => ih2 i a f)
  | captureAll block ih => unfold evalU tryCaptureAll; repeat (first | with_reducible exact (ih f) | simstep1)
  | captureAllVoid block ih => unfold evalU tryCaptureAllVoid; repeat (first | with_reducible exact (ih f) | simstep1)
  | excToResult tys block ih => unfold evalU exceptionToResult; repeat (first | with_reducible exact (ih f) | simstep1)
  | cppCatch block h ih1 ih2 =>
    unfold evalU cppCatch_
    repeat (first | with_reducible exact (ih1 f) | with_reducible exact ih2 _ f | simstep1)
  | cppRethrow block h ih1 ih2 =>
    unfold evalU cppRethrow_
    repeat (first | with_reducible exact (ih1 f) | with_reducible exact ih2 _ f | simstep1)
  | unload r => unfold evalU; sim
  | value r tag => unfold evalU; sim

  | cleanup p q ih1 ih2 =>
    unfold evalU cppCatch_
    repeat (first | with_reducible exact (ih1 f) | with_reducible exact (ih2 _) | simstep1)

/-! ## No undefined behaviour -/

theorem post_evalU {M : Type} [Store M] (cfg : Cfg) (old : Bool) (f : Nat) (p : UProg) (hp : p.NoErr) : Post (evalU (M := M) cfg old f p) Out.NoErr := by
  induction p generalizing f with
  | ret o => exact Post.pure hp
  | newError items k ih => exact Post.bind' (fun id => ih id f (hp id))
  | load id items k ih => exact Post.bind' (fun _ => ih f hp)
  | importCode ec v k ih => exact Post.bind' (fun id => ih id f (hp id))
  | currentError k ih => exact Post.bind' (fun id => ih id f (hp id))
  | bind p k ke ih1 ih2 ih3 =>
    unfold evalU
    refine Post.bind' (fun o => ?_)
    cases o with
    | val v => exact ih2 v f (hp.1 v)
    | err r => exact ih3 r f (hp.2 r)
    | exc e => exact Post.pure (by simp [Out.NoErr])
  | onError items body ih =>
    unfold evalU onErrorU
    refine Post.bind' (fun saved => Post.bind (ih f hp) (fun o ho => Post.bind' (fun id => ?_)))
    by_cases h : id = 0#32
    · simp only [h, ne_eq, not_true_eq_false, if_false]; exact Post.pure ho
    · simp only [h, ne_eq, not_false_eq_true, if_true]
      exact Post.bind' (fun _ => Post.bind' (fun _ => Post.pure ho))
  | monNew k ih => exact Post.bind' (fun id => ih _ f (hp _))
  | monCheck m k ih => exact Post.bind' (fun id => ih _ f (hp _))
  | monAssigned m k ih => exact Post.bind' (fun id => ih _ f (hp _))
  | handleAll specs block body ih1 ih2 =>
    unfold evalU tryHandleAll
    refine Post.bind' (fun _ => Post.bind' (fun o => Post.bind' (fun o2 => ?_)))
    cases o2 with
    | val v => exact Post.bind' (fun _ => Post.pure (by simp [Out.NoErr]))
    | err r =>
      refine Post.bind' (fun _ => Post.bind' (fun cells => Post.bind' (fun loc => ?_)))
      split
      · exact Post.bind' (fun o => post_noErr o)
      · exact Post.ub
    | exc e => exact Post.bind' (fun p => post_noErr p.1)
  | handleSome specs block body ih1 ih2 => exact absurd hp (by simp [UProg.NoErr])
  | tryCatch specs block body ih1 ih2 =>
    unfold evalU tryCatch
    refine Post.bind' (fun _ => Post.bind (ih1 f hp.1) (fun o ho => ?_))
    cases o with
    | val v => exact Post.bind' (fun _ => Post.pure ho)
    | err r => exact Post.bind' (fun _ => Post.pure ho)
    | exc e =>
      exact Post.bind (post_catchPath cfg (fun i a => ih2 i a f (hp.2 i a)) (by simp [Out.NoErr]) e) (fun p hp => Post.pure hp)
  | captureAll block ih => exact absurd hp (by simp [UProg.NoErr])
  | captureAllVoid block ih => exact absurd hp (by simp [UProg.NoErr])
  | excToResult tys block ih => exact absurd hp (by simp [UProg.NoErr])
  | cppCatch block h ih1 ih2 =>
    unfold evalU cppCatch_
    refine Post.bind (ih1 f hp.1) (fun o ho => ?_)
    cases o with
    | val v => exact Post.pure ho
    | err r => exact Post.pure ho
    | exc e =>
      refine Post.bind' (fun _ => Post.bind (ih2 e f (hp.2 e)) (fun o2 ho2 => ?_))
      exact Post.bind' (fun _ => Post.bind' (fun _ => Post.pure ho2))
  | cppRethrow block h ih1 ih2 =>
    unfold evalU cppRethrow_
    refine Post.bind (ih1 f hp) (fun o ho => ?_)
    cases o with
    | val v => exact Post.pure ho
    | err r => exact Post.pure ho
    | exc e =>
      refine Post.bind' (fun _ => Post.bind' (fun o2 => Post.bind' (fun _ => ?_)))
      cases o2 with
      | val v => exact Post.pure ho
      | err r => exact Post.pure ho
      | exc e' => exact Post.bind' (fun _ => Post.pure (by simp [Out.NoErr]))
  | unload r => exact absurd hp (by simp [UProg.NoErr])
  | value r tag =>
    unfold evalU resultValue
    refine Post.bind' (fun o => ?_)
    cases o <;> exact Post.pure (by simp [Out.NoErr])

  | cleanup p q ih1 ih2 =>
    unfold evalU
    exact Post.bind (ih1 f hp) (fun o ho => Post.bind' (fun _ => Post.pure ho))

theorem tot_of_noErrU {s s' : List (List CellTy)} {cfg : Cfg} {old : Bool} {f : Nat} {p : UProg} (h : Tot s s' (evalU cfg old f p) Out.Ok) (hp : p.NoErr) :
    Tot s s' (evalU cfg old f p) (fun o => o.Ok ∧ ∀ r, o ≠ .err r) := by
  intro w hg hs
  obtain ⟨o, w', h1, h2, h3, h4⟩ := h w hg hs
  exact ⟨o, w', h1, h2, h3, h4, post_evalU cfg old f p hp w o w' h1⟩

theorem tot_evalU (cfg : Cfg) (old : Bool) (f : Nat) (p : UProg) {da : Bool} (hp : p.WF cfg da) (s : List (List CellTy)) (hda : da = false → NoDa s) :
    Tot s s (evalU cfg old f p) Out.Ok := by
  induction p generalizing s da f with
  | ret o => exact Tot.pure hp
  | newError items k ih => exact Tot.bind (tot_newError s cfg hda hp.1) (fun id hid => ih id f (hp.2 id hid) s hda)
  | load id items k ih => exact Tot.bind (tot_errorIdLoad s cfg hp.1 hda hp.2.1) (fun _ _ => ih f hp.2.2 s hda)
  | importCode ec v k ih => exact Tot.bind (tot_importCode s cfg hp.1 v) (fun id hid => ih id f (hp.2 id hid) s hda)
  | currentError k ih => exact Tot.bind (tot_currentError s) (fun id hid => ih id f (hp id hid) s hda)
  | bind p k ke ih1 ih2 ih3 =>
    unfold evalU
    refine Tot.bind (ih1 f hp.1 s hda) (fun o ho => ?_)
    cases o with
    | val v => exact ih2 v f (hp.2.1 v) s hda
    | err r => exact ih3 r f (hp.2.2 r ho) s hda
    | exc e => exact Tot.pure ho
  | onError items body ih =>
    unfold evalU onErrorU
    refine Tot.bind (tot_currentId s) (fun saved _ => ?_)
    refine Tot.bind (ih f hp.2 s hda) (fun o ho => ?_)
    refine Tot.bind (tot_checkId s cfg saved _) (fun id hid => ?_)
    by_cases h : id = 0#32
    · simp only [h, ne_eq, not_true_eq_false, if_false]; exact Tot.pure ho
    · simp only [h, ne_eq, not_false_eq_true, if_true]
      have ht : id.Tagged := hid.resolve_left h
      exact Tot.bind (tot_assertTagged s ht) (fun _ _ => Tot.bind (tot_triggerItems s cfg ht hda hp.1) (fun _ _ => Tot.pure ho))
  | monNew k ih => exact Tot.bind (tot_currentId s) (fun id hid => ih ⟨id, f⟩ f (hp ⟨id, f⟩ hid) s hda)
  | monCheck m k ih => exact Tot.bind (tot_checkId s cfg m.saved _) (fun id _ => ih _ f (hp _ (makeErrorId_tagged id)) s hda)
  | monAssigned m k ih => exact Tot.bind (tot_getId s cfg m.saved) (fun id _ => ih _ f (hp _ (makeErrorId_tagged id)) s hda)
  | handleAll specs block body ih1 ih2 =>
    unfold evalU tryHandleAll
    refine Tot.bind (tot_pushCtx s (deduce_nodup cfg specs)) (fun _ _ => ?_)
    refine Tot.bind (ih1 f hp.2.1 _ (noDa_push hda)) (fun o ho => ?_)
    refine Tot.bind (tot_unloadOut _ cfg ho) (fun o2 ho2 => ?_)
    have hb : ∀ i args, (∀ a ∈ args, ArgVal.Ok a) → Tot s s (evalU cfg old f (body i args)) (fun o => o.Ok ∧ ∀ r, o ≠ .err r) :=
      fun i args ha => tot_of_noErrU (ih2 i args f (hp.2.2 i args ha).1 s hda) (hp.2.2 i args ha).2
    cases o2 with
    | val v => exact Tot.bind (tot_popCtx _ s) (fun _ _ => Tot.pure trivial)
    | err r =>
      refine Tot.bind (tot_resultUnload _ cfg ho2) (fun _ _ => ?_)
      refine Tot.bind (tot_popCtx _ s) (fun cells _ => ?_)
      refine Tot.bind (tot_ctxLoc s (errId_tagged r) cells) (fun loc _ => ?_)
      obtain ⟨i, hi⟩ := selectAllFrom_total cfg cells r.errId none 0 hp.1
      obtain ⟨j, args, h1, h2, h3⟩ := selectAllFrom_spec hi
      have hij : i = j := by omega
      subst hij
      simp only [selectAll, hi]
      exact Tot.bind (tot_callHandler s cfg hb (errId_tagged r) (by simp) h2 h3) (fun o ho => tot_noErr s ho)
    | exc e =>
      refine Tot.bind (tot_catchPath _ s cfg hb (fun e he => ⟨he, by simp⟩) ho2) (fun p hp => ?_)
      exact tot_noErr s hp
  | handleSome specs block body ih1 ih2 =>
    unfold evalU tryHandleSome
    refine Tot.bind (tot_pushCtx s (deduce_nodup cfg specs)) (fun _ _ => ?_)
    refine Tot.bind (ih1 f hp.1 _ (noDa_push hda)) (fun o ho => ?_)
    refine Tot.bind (tot_unloadOut _ cfg ho) (fun o2 ho2 => ?_)
    have hb : ∀ i args, (∀ a ∈ args, ArgVal.Ok a) → Tot s s (evalU cfg old f (body i args)) Out.Ok :=
      fun i args ha => ih2 i args f (hp.2 i args ha) s hda
    cases o2 with
    | val v => exact Tot.bind (tot_popCtx _ s) (fun _ _ => Tot.pure trivial)
    | err r =>
      refine Tot.bind (tot_resultUnload _ cfg ho2) (fun _ _ => ?_)
      refine Tot.bind (tot_popCtx _ s) (fun cells _ => ?_)
      refine Tot.bind (tot_ctxLoc s (errId_tagged r) cells) (fun loc _ => ?_)
      have hr : ∀ o : Out, o.Ok → Tot s s (do
          match o with
          | .err r' => unloadCells cfg r'.errId cells
          | _ => pure ()
          return o) Out.Ok := by
        intro o ho
        cases o with
        | val v => exact Tot.pure ho
        | err r' => exact Tot.bind (tot_unloadCells s cfg (errId_tagged r') cells) (fun _ _ => Tot.pure ho)
        | exc e => exact Tot.pure ho
      cases hi : selectSome cfg cells r.errId none specs with
      | none => exact hr _ ho2
      | some i =>
        obtain ⟨j, args, h1, h2, h3⟩ := selectSomeFrom_spec hi
        have hij : i = j := by omega
        subst hij
        exact Tot.bind (tot_callHandler s cfg hb (errId_tagged r) (by simp) h2 h3) (fun o ho => hr o ho)
    | exc e =>
      refine Tot.bind (tot_catchPath _ s cfg hb (fun e he => he) ho2) (fun p hp => ?_)
      obtain ⟨o, cells⟩ := p
      cases o with
      | val v => exact Tot.pure hp
      | err r' => exact Tot.bind (tot_unloadCells s cfg (errId_tagged r') cells) (fun _ _ => Tot.pure hp)
      | exc e => exact Tot.pure hp
  | tryCatch specs block body ih1 ih2 =>
    unfold evalU tryCatch
    refine Tot.bind (tot_pushCtx s (deduce_nodup cfg specs)) (fun _ _ => ?_)
    refine Tot.bind (ih1 f hp.1 _ (noDa_push hda)) (fun o ho => ?_)
    have hb : ∀ i args, (∀ a ∈ args, ArgVal.Ok a) → Tot s s (evalU cfg old f (body i args)) Out.Ok :=
      fun i args ha => ih2 i args f (hp.2 i args ha) s hda
    cases o with
    | val v => exact Tot.bind (tot_popCtx _ s) (fun _ _ => Tot.pure ho)
    | err r => exact Tot.bind (tot_popCtx _ s) (fun _ _ => Tot.pure ho)
    | exc e => exact Tot.bind (tot_catchPath _ s cfg hb (fun e he => he) ho) (fun p hp => Tot.pure hp)
  | captureAll block ih =>
    unfold evalU tryCaptureAll
    simp only [hp.1, Bool.not_true, Bool.false_eq_true, if_false]
    refine Tot.bind (tot_pushCtx s (by simp)) (fun _ _ => ?_)
    refine Tot.bind (ih f hp.2 _ (by simp)) (fun o ho => ?_)
    cases o with
    | val v => exact Tot.bind (tot_popCtx _ s) (fun _ _ => Tot.pure ho)
    | err r =>
      refine Tot.bind (tot_popCtx _ s) (fun cells _ => ?_)
      exact Tot.bind (tot_currentException s) (fun ex hex => tot_extractCaptured s (errId_tagged r) cells hex)
    | exc e =>
      refine Tot.bind (tot_popCtx _ s) (fun cells _ => ?_)
      refine Tot.bind (tot_unpackId s ho) (fun p hp => ?_)
      exact tot_extractCaptured s hp.1 cells (fun x hx => by cases hx; exact hp.2)
  | captureAllVoid block ih => exact absurd hp (by simp [UProg.WF])
  | excToResult tys block ih =>
    unfold evalU exceptionToResult
    refine Tot.bind (ih f hp s hda) (fun o ho => ?_)
    cases o with
    | val v => exact Tot.pure ho
    | err r => exact Tot.pure ho
    | exc e => exact Tot.bind (tot_catchHelper s cfg e _) (fun _ _ => Tot.pure trivial)
  | cppCatch block h ih1 ih2 =>
    unfold evalU cppCatch_
    refine Tot.bind (ih1 f hp.1 s hda) (fun o ho => ?_)
    cases o with
    | val v => exact Tot.pure ho
    | err r => exact Tot.pure ho
    | exc e =>
      refine Tot.bind (tot_pushHandling s ho) (fun _ _ => ?_)
      refine Tot.bind (ih2 e f (hp.2 e ho) s hda) (fun o2 ho2 => ?_)
      exact Tot.bind (tot_popHandling s) (fun _ _ => Tot.bind (tot_destroyExc s e) (fun _ _ => Tot.pure ho2))
  | cppRethrow block h ih1 ih2 =>
    unfold evalU cppRethrow_
    refine Tot.bind (ih1 f hp.1 s hda) (fun o ho => ?_)
    cases o with
    | val v => exact Tot.pure ho
    | err r => exact Tot.pure ho
    | exc e =>
      refine Tot.bind (tot_pushHandling s ho) (fun _ _ => ?_)
      refine Tot.bind (ih2 e f (hp.2 e ho) s hda) (fun o2 ho2 => ?_)
      refine Tot.bind (tot_popHandling s) (fun _ _ => ?_)
      cases o2 with
      | val v => exact Tot.pure ho
      | err r => exact Tot.pure ho
      | exc e' => exact Tot.bind (tot_destroyExc s e) (fun _ _ => Tot.pure ho2)
  | unload r => exact tot_resultUnload s cfg hp
  | value r tag => exact tot_resultValue s cfg hp tag

  | cleanup p q ih1 ih2 =>
    unfold evalU
    refine Tot.bind (ih1 f hp.1 s hda) (fun o ho => Tot.bind (P := fun _ : Out => True) ?_ (fun _ _ => Tot.pure ho))
    unfold cppCatch_
    refine Tot.bind (ih2 _ hp.2 s hda) (fun o2 ho2 => ?_)
    cases o2 with
    | val v => exact Tot.pure trivial
    | err r => exact Tot.pure trivial
    | exc e =>
      refine Tot.bind (tot_pushHandling s ho2) (fun _ _ => ?_)
      refine Tot.bind (Tot.pure (Q := fun _ => True) trivial) (fun o2 _ => ?_)
      exact Tot.bind (tot_popHandling s) (fun _ _ => Tot.bind (tot_destroyExc s e) (fun _ _ => Tot.pure trivial))

/-! ## The two builds -/

theorem inFlight_false (n m : Nat) : inFlight false n m = decide (m < n) := rfl
theorem inFlight_same {old : Bool} (n : Nat) (h : old = false ∨ n = 0) : inFlight old n n = false := by
  rcases h with rfl | rfl <;> (try cases old) <;> simp [inFlight]

theorem inFlight_out {old : Bool} {n : Nat} (h : old = false ∨ n = 0) (o : Out) : inFlight old (o.flying n) n = (match o with | .exc _ => true | _ => false) := by
  rcases h with rfl | rfl <;> (try cases old) <;> cases o <;> simp [inFlight, Out.flying]

theorem onErrorU_plain {M : Type} [Store M] (cfg : Cfg) {old : Bool} {n : Nat} (h : old = false ∨ n = 0) (items : List OnItem) (body : Comp M Out) :
    onErrorU cfg old n items body = onErrorGuard cfg items body := by
  unfold onErrorU onErrorGuard
  simp only [inFlight_out h]
  rfl

/-- A program without destructors does the same whatever is in flight, and in both builds if nothing is. -/
theorem evalU_plain {M : Type} [Store M] (cfg : Cfg) {old : Bool} {n : Nat} (h : old = false ∨ n = 0) (p : Prog) :
    (evalU cfg old n (p.plain n) : Comp M Out) = eval cfg p := by
  induction p with
  | bind p k ke ih1 ih2 ih3 =>
    simp only [Prog.plain, evalU, eval, ih1]
    congr 1
    funext o
    cases o <;> simp only [ih2, ih3]
  | _ => simp only [Prog.plain, evalU, eval, onErrorU_plain cfg h, inFlight_same n h, *]

/-- Without guards, nothing depends on the build. -/
theorem evalU_noGuards {M : Type} [Store M] (cfg : Cfg) (old old' : Bool) (n : Nat) (p : UProg) (hp : p.NoGuards) :
    (evalU cfg old n p : Comp M Out) = evalU cfg old' n p := by
  induction p generalizing n with
  | ret o => rfl
  | newError items k ih => simp only [evalU]; congr 1; funext id; exact ih id n (hp id)
  | load id items k ih => simp only [evalU]; congr 1; funext _; exact ih n hp
  | importCode ec v k ih => simp only [evalU]; congr 1; funext id; exact ih id n (hp id)
  | currentError k ih => simp only [evalU]; congr 1; funext id; exact ih id n (hp id)
  | bind p k ke ih1 ih2 ih3 =>
    simp only [evalU, ih1 n hp.1]
    congr 1
    funext o
    cases o with
    | val v => exact ih2 v n (hp.2.1 v)
    | err r => exact ih3 r n (hp.2.2 r)
    | exc e => rfl
  | onError items body ih => exact hp.elim
  | monNew k ih => simp only [evalU]; congr 1; funext id; exact ih _ n (hp _)
  | monCheck m k ih => exact hp.elim
  | monAssigned m k ih => simp only [evalU]; congr 1; funext id; exact ih _ n (hp _)
  | handleAll specs block body ih1 ih2 => simp only [evalU, ih1 n hp.1, fun i args => ih2 i args n (hp.2 i args)]
  | handleSome specs block body ih1 ih2 => simp only [evalU, ih1 n hp.1, fun i args => ih2 i args n (hp.2 i args)]
  | tryCatch specs block body ih1 ih2 => simp only [evalU, ih1 n hp.1, fun i args => ih2 i args n (hp.2 i args)]
  | captureAll block ih => simp only [evalU, ih n hp]
  | captureAllVoid block ih => simp only [evalU, ih n hp]
  | excToResult tys block ih => simp only [evalU, ih n hp]
  | cppCatch block h ih1 ih2 => simp only [evalU, ih1 n hp.1, fun e => ih2 e n (hp.2 e)]
  | cppRethrow block h ih1 ih2 => simp only [evalU, ih1 n hp.1, fun e => ih2 e n (hp.2 e)]
  | unload r => rfl
  | value r tag => rfl
  | cleanup p q ih1 ih2 => simp only [evalU, ih1 n hp.1, fun o : Out => ih2 (o.flying n) hp.2]

theorem evalU_plainDestructors {M : Type} [Store M] (cfg : Cfg) (p : UProg) (hp : p.PlainDestructors) :
    (evalU cfg true 0 p : Comp M Out) = evalU cfg false 0 p := by
  induction p with
  | ret o => rfl
  | newError items k ih => simp only [evalU]; congr 1; funext id; exact ih id (hp id)
  | load id items k ih => simp only [evalU]; congr 1; funext _; exact ih hp
  | importCode ec v k ih => simp only [evalU]; congr 1; funext id; exact ih id (hp id)
  | currentError k ih => simp only [evalU]; congr 1; funext id; exact ih id (hp id)
  | bind p k ke ih1 ih2 ih3 =>
    simp only [evalU, ih1 hp.1]
    congr 1
    funext o
    cases o with
    | val v => exact ih2 v (hp.2.1 v)
    | err r => exact ih3 r (hp.2.2 r)
    | exc e => rfl
  | onError items body ih => simp only [evalU, ih hp, onErrorU_plain cfg (.inr rfl)]
  | monNew k ih => simp only [evalU]; congr 1; funext id; exact ih _ (hp _)
  | monCheck m k ih =>
    have h : inFlight true 0 m.uncaught = inFlight false 0 m.uncaught := by simp [inFlight]
    simp only [evalU, h]
    congr 1
    funext id
    exact ih _ (hp _)
  | monAssigned m k ih => simp only [evalU]; congr 1; funext id; exact ih _ (hp _)
  | handleAll specs block body ih1 ih2 => simp only [evalU, ih1 hp.1, fun i args => ih2 i args (hp.2 i args)]
  | handleSome specs block body ih1 ih2 => simp only [evalU, ih1 hp.1, fun i args => ih2 i args (hp.2 i args)]
  | tryCatch specs block body ih1 ih2 => simp only [evalU, ih1 hp.1, fun i args => ih2 i args (hp.2 i args)]
  | captureAll block ih => simp only [evalU, ih hp]
  | captureAllVoid block ih => simp only [evalU, ih hp]
  | excToResult tys block ih => simp only [evalU, ih hp]
  | cppCatch block h ih1 ih2 => simp only [evalU, ih1 hp.1, fun e => ih2 e (hp.2 e)]
  | cppRethrow block h ih1 ih2 => simp only [evalU, ih1 hp.1, fun e => ih2 e (hp.2 e)]
  | unload r => rfl
  | value r tag => rfl
  | cleanup p q ih1 ih2 =>
    simp only [evalU, ih1 hp.1]
    congr 1
    funext o
    rw [evalU_noGuards cfg true false _ q hp.2]

end Leaf
