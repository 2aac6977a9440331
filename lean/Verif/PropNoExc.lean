import Verif.NoExcModel
import Verif.Handling
import Verif.Flow
import Verif.PropFlow

/-!
# C47: building without exceptions does not change programs that do not use them

The claim is false for programs using `try_catch` around code that returns failed results (`C47_refuted_try_catch`): without exceptions it is
just a function call, with exceptions it destroys the error objects on the way (F13). The theorem is for all programs without `try_catch`.
-/

namespace Leaf

/-! ## Specification -/

/-- The result holds no captured exception. -/
def ErrRes.ExcFree : ErrRes → Prop
  | .plain _ => True
  | .captured _ nodes => ∀ e, CapNode.exc e ∉ nodes

def Out.ExcFree : Out → Prop
  | .val _ => True
  | .err r => r.ExcFree
  | .exc _ => False

/-- The argument shows no exception. -/
def ArgVal.ExcFree : ArgVal → Prop
  | .exc _ => False
  | .info _ ex _ => ex = none
  | .diag _ ex _ _ => ex = none
  | .details _ ex _ _ _ => ex = none
  | _ => True

/-- The program contains no `throw`, `try`, `try_catch`, `exception_to_result` and `value()` on failed results, as long as it is not given an exception by
the library. -/
def Prog.ExcFree : Prog → Prop
  | .ret o => o.ExcFree
  | .newError _ k => ∀ id, (k id).ExcFree
  | .load _ _ k => k.ExcFree
  | .importCode _ _ k => ∀ id, (k id).ExcFree
  | .currentError k => ∀ id, (k id).ExcFree
  | .bind p k ke => p.ExcFree ∧ (∀ v, (k v).ExcFree) ∧ ∀ r, r.ExcFree → (ke r).ExcFree
  | .onError _ body => body.ExcFree
  | .monNew k => ∀ id, (k id).ExcFree
  | .monCheck _ k => ∀ id, (k id).ExcFree
  | .monAssigned _ k => ∀ id, (k id).ExcFree
  | .handleAll _ block body => block.ExcFree ∧ ∀ i args, (∀ a ∈ args, a.ExcFree) → (body i args).ExcFree
  | .handleSome _ block body => block.ExcFree ∧ ∀ i args, (∀ a ∈ args, a.ExcFree) → (body i args).ExcFree
  | .captureAll block => block.ExcFree
  | .unload r => r.ExcFree
  | .tryCatch _ _ _ | .captureAllVoid _ | .excToResult _ _ | .cppCatch _ _ | .cppRethrow _ _ | .value _ _ => False

/-! ## Lemmas -/

theorem peekNE_eq (cfg : Cfg) (cells : List CtxCell) (id : Id) (ty : Ty) : peekNE cfg cells id ty = peek cfg cells id none ty := by
  unfold peekNE peek
  split
  · rfl
  · cases ha : cfg.isAbstract ty
    · simp only [Bool.false_eq_true, if_false]
      cases (findCell ty cells).bind (Cell.hasValue · id) <;> rfl
    · simp

theorem checkNE_eq (cfg : Cfg) (cells : List CtxCell) (id : Id) : Arg.checkNE cfg cells id = Arg.check cfg cells id none := by
  funext a
  cases a <;> simp only [Arg.checkNE, Arg.check, peekNE_eq] <;> rfl

theorem getNE_eq (cfg : Cfg) (cells : List CtxCell) (id : Id) (loc : Option Val) (a : Arg) :
    a.getNE cfg cells id loc = a.get cfg cells id none loc := by
  cases a <;> simp only [Arg.getNE, Arg.get, peekNE_eq, Option.map_none]

theorem getArgsNE_eq (cfg : Cfg) (cells : List CtxCell) (id : Id) (loc : Option Val) (as : List Arg) :
    getArgsNE cfg cells id loc as = getArgs cfg cells id none loc as := by
  induction as with
  | nil => rfl
  | cons a as ih => simp only [getArgsNE, getArgs, getNE_eq, ih]

theorem selectSomeNE_eq (cfg : Cfg) (cells : List CtxCell) (id : Id) (i : Nat) (hs : List (List Arg)) :
    selectSomeNE cfg cells id i hs = selectSomeFrom cfg cells id none i hs := by
  induction hs generalizing i with
  | nil => rfl
  | cons h hs ih => simp only [selectSomeNE, selectSomeFrom, checkNE_eq, ih]; rfl

theorem selectAllNE_eq (cfg : Cfg) (cells : List CtxCell) (id : Id) (i : Nat) (hs : List (List Arg)) :
    selectAllNE cfg cells id i hs = selectAllFrom cfg cells id none i hs := by
  induction hs generalizing i with
  | nil => rfl
  | cons h hs ih =>
    cases hs with
    | nil => rfl
    | cons h' hs => simp only [selectAllNE, selectAllFrom, checkNE_eq, ih]; rfl

theorem getArgs_excFree {cfg : Cfg} {cells : List CtxCell} {id : Id} {loc : Option Val} {as : List Arg} {vs : List ArgVal}
    (h : getArgs cfg cells id none loc as = some vs) : ∀ v ∈ vs, v.ExcFree := by
  induction as generalizing vs with
  | nil => simp only [getArgs, Option.some.injEq] at h; subst h; simp
  | cons a as ih =>
    simp only [getArgs, Option.bind_eq_bind, Option.bind_eq_some_iff] at h
    obtain ⟨v, h1, vs', h2, h3⟩ := h
    cases h3
    intro x hx
    rcases List.mem_cons.mp hx with rfl | hx
    · cases a with
      | req ty => simp only [Arg.get, Option.map_eq_some_iff] at h1; obtain ⟨_, _, rfl⟩ := h1; trivial
      | ptr ty => cases h1; trivial
      | pred ty p => simp only [Arg.get, Option.map_eq_some_iff] at h1; obtain ⟨_, _, rfl⟩ := h1; trivial
      | catch_ p => simp [Arg.get] at h1
      | _ => cases h1; rfl
    · exact ih h2 x hx

section
variable {M : Type}

/-- Started while no exception is handled, `y` does what `x` does, and the outcome involves no exceptions. -/
def Agree (x y : Comp M Out) : Prop :=
  ∀ w, w.handling = [] → y w = x w ∧ ∀ o w', x w = some (o, w') → o.ExcFree ∧ w'.handling = []

unseal Hd in
theorem Hd.run {α : Type} {m : Comp M α} (hm : Hd [] [] m) {w w' : World M} {a : α} (hw : w.handling = []) (h : m w = some (a, w')) : w'.handling = [] :=
  hm w a w' hw h

theorem Agree.bind {α : Type} {m : Comp M α} {f g : α → Comp M Out} (hm : Hd [] [] m) (h : ∀ a, Agree (f a) (g a)) : Agree (m >>= f) (m >>= g) := by
  intro w hw
  rw [bind_apply, bind_apply]
  cases hx : m w with
  | none => simp
  | some p => exact h p.1 p.2 (hm.run hw hx)

theorem Agree.seq {x y : Comp M Out} {f g : Out → Comp M Out} (hx : Agree x y) (h : ∀ o, o.ExcFree → Agree (f o) (g o)) :
    Agree (x >>= f) (y >>= g) := by
  intro w hw
  rw [bind_apply, bind_apply]
  obtain ⟨h1, h2⟩ := hx w hw
  rw [h1]
  cases hxw : x w with
  | none => simp
  | some p =>
    obtain ⟨h3, h4⟩ := h2 p.1 p.2 hxw
    exact h p.1 h3 p.2 h4

theorem Agree.pure {o : Out} (h : o.ExcFree) : Agree (Pure.pure o : Comp M Out) (Pure.pure o) := by
  intro w hw
  refine ⟨rfl, fun o' w' he => ?_⟩
  rw [pure_apply] at he
  cases he
  exact ⟨h, hw⟩

theorem Agree.ub : Agree (Leaf.ub : Comp M Out) Leaf.ub := by
  intro w _
  exact ⟨rfl, fun o w' he => by simp [ub_apply] at he⟩

variable [Store M]

theorem unloadNodes_excFree {cfg : Cfg} {id : Id} {nodes : List CapNode} (h : ∀ e, CapNode.exc e ∉ nodes) {w w' : World M} {x : Option Exc}
    (he : unloadNodes cfg id nodes w = some (x, w')) : x = none := by
  induction nodes generalizing w with
  | nil => cases he; rfl
  | cons n ns ih =>
    cases n with
    | exc e => exact absurd (by simp) (h e)
    | obj ty c =>
      have key : ∀ w0 : World M, (slotUnload cfg id ty c >>= fun _ => unloadNodes cfg id ns) w0 = some (x, w') → x = none := by
        intro w0 he
        rw [bind_apply] at he
        cases hs : slotUnload cfg id ty c w0 with
        | none => simp [hs] at he
        | some p =>
          rw [hs, Option.bind_some] at he
          exact ih (fun e hm => h e (by simp [hm])) he
      simp only [unloadNodes] at he
      cases hc : c.hasValue id with
      | none => simp only [hc] at he; exact key _ he
      | some v => simp only [hc] at he; exact key { w with trace := .transported id ty v :: w.trace } he

theorem resultUnload_excFree {cfg : Cfg} {r : ErrRes} (h : r.ExcFree) {w w' : World M} {o : Out} (he : resultUnload cfg r w = some (o, w')) :
    ∃ r', o = .err r' ∧ r'.ExcFree := by
  cases r with
  | plain id => cases he; exact ⟨_, rfl, trivial⟩
  | captured id nodes =>
    simp only [resultUnload, bind_apply, setCur, Option.bind_some] at he
    cases hn : unloadNodes cfg (ErrRes.captured id nodes).errId nodes { w with cur := (ErrRes.captured id nodes).errId } with
    | none => simp [hn] at he
    | some p =>
      rw [hn, Option.bind_some, unloadNodes_excFree h (w' := p.2) (x := p.1) hn] at he
      cases he
      exact ⟨_, rfl, fun e => by simp⟩

theorem agree_resultUnload (cfg : Cfg) {r : ErrRes} (h : r.ExcFree) : Agree (resultUnload cfg r : Comp M Out) (resultUnload cfg r) := by
  intro w hw
  refine ⟨rfl, fun o w' he => ?_⟩
  obtain ⟨r', rfl, hr⟩ := resultUnload_excFree h he
  exact ⟨hr, (hd_resultUnload cfg r).run hw he⟩

/-- The build with exceptions unloads twice, which is the same as once. -/
theorem agree_unload (cfg : Cfg) {r : ErrRes} (h : r.ExcFree) {f g : Out → Comp M Out} {f' : ErrRes → Comp M Out}
    (hf : ∀ r', f (.err r') = (resultUnload cfg r' >>= fun _ => f' r'))
    (hg : ∀ r', r'.ExcFree → r'.errId = r.errId → Agree (f' r') (g (.err r'))) :
    Agree (resultUnload cfg r >>= f) (resultUnload cfg r >>= g) := by
  intro w hw
  rw [bind_apply, bind_apply]
  cases hu : resultUnload cfg r w with
  | none => simp
  | some p =>
    obtain ⟨o, w'⟩ := p
    obtain ⟨r', rfl, hr⟩ := resultUnload_excFree h hu
    obtain ⟨ha, hid⟩ := resultUnload_again hu
    simp only [Option.bind_some, hf]
    rw [bind_apply, ha, Option.bind_some]
    exact hg r' hr hid w' ((hd_resultUnload cfg r).run hw hu)

omit [Store M] in
theorem agree_callHandler (cfg : Cfg) (specs : List (List Arg)) {f g : Nat → List ArgVal → Comp M Out} (cells : List CtxCell) (id : Id)
    (loc : Option Val) (i : Nat) (h : ∀ i args, (∀ a ∈ args, a.ExcFree) → Agree (f i args) (g i args)) :
    Agree (callHandler cfg specs f cells id none loc i) (callHandlerNE cfg specs g cells id loc i) := by
  unfold callHandler callHandlerNE
  simp only [getArgsNE_eq]
  cases specs[i]? with
  | none => exact Agree.ub
  | some args =>
    simp only
    cases hg : getArgs cfg cells id none loc args with
    | none => exact Agree.ub
    | some vals => exact Agree.bind (hd_emit _) fun _ => h i vals (getArgs_excFree hg)

omit [Store M] in
theorem agree_noErr {o : Out} (h : o.ExcFree) : Agree (noErr o : Comp M Out) (noErr o) := by
  cases o with
  | err r => exact Agree.ub
  | val v => exact Agree.pure h
  | exc e => exact h.elim

theorem agree_tryHandleAll (cfg : Cfg) (specs : List (List Arg)) {x y : Comp M Out} {f g : Nat → List ArgVal → Comp M Out} (hx : Agree x y)
    (h : ∀ i args, (∀ a ∈ args, a.ExcFree) → Agree (f i args) (g i args)) : Agree (tryHandleAll cfg specs x f) (tryHandleAllNE cfg specs y g) := by
  unfold tryHandleAll tryHandleAllNE
  refine Agree.bind (hd_pushCtx _) fun _ => Agree.seq hx fun o ho => ?_
  cases o with
  | exc e => exact ho.elim
  | val v => exact Agree.bind hd_popCtx fun _ => Agree.pure (o := .val v) trivial
  | err r =>
    refine agree_unload cfg ho (fun r' => rfl) fun r' hr hid => ?_
    refine Agree.bind hd_popCtx fun cells => ?_
    rw [hid]
    refine Agree.bind (hd_ctxLoc _ _) fun loc => ?_
    rw [selectAllNE_eq]
    cases hs : selectAll cfg cells r.errId none specs with
    | none => unfold selectAll at hs; rw [hs]; exact Agree.ub
    | some i =>
      unfold selectAll at hs
      rw [hs]
      exact Agree.seq (agree_callHandler cfg specs cells _ loc i h) fun o ho => agree_noErr ho

theorem agree_tryHandleSome (cfg : Cfg) (specs : List (List Arg)) {x y : Comp M Out} {f g : Nat → List ArgVal → Comp M Out} (hx : Agree x y)
    (h : ∀ i args, (∀ a ∈ args, a.ExcFree) → Agree (f i args) (g i args)) : Agree (tryHandleSome cfg specs x f) (tryHandleSomeNE cfg specs y g) := by
  unfold tryHandleSome tryHandleSomeNE
  refine Agree.bind (hd_pushCtx _) fun _ => Agree.seq hx fun o ho => ?_
  cases o with
  | exc e => exact ho.elim
  | val v => exact Agree.bind hd_popCtx fun _ => Agree.pure (o := .val v) trivial
  | err r =>
    refine agree_unload cfg ho (fun r' => rfl) fun r' hr hid => ?_
    refine Agree.bind hd_popCtx fun cells => ?_
    rw [hid]
    refine Agree.bind (hd_ctxLoc _ _) fun loc => ?_
    rw [selectSomeNE_eq]
    cases hs : selectSome cfg cells r.errId none specs with
    | none =>
      unfold selectSome at hs
      rw [hs]
      refine Agree.seq (Agree.pure (o := .err r') hr) fun o ho => ?_
      cases o with
      | exc e => exact ho.elim
      | val v => exact Agree.pure ho
      | err r => exact Agree.bind (hd_unloadCells _ _ _) fun _ => Agree.pure (o := .err r) ho
    | some i =>
      unfold selectSome at hs
      rw [hs]
      refine Agree.seq (agree_callHandler cfg specs cells _ loc i h) fun o ho => ?_
      cases o with
      | exc e => exact ho.elim
      | val v => exact Agree.pure ho
      | err r => exact Agree.bind (hd_unloadCells _ _ _) fun _ => Agree.pure (o := .err r) ho

theorem agree_tryCaptureAll (cfg : Cfg) {x y : Comp M Out} (hx : Agree x y) : Agree (tryCaptureAll cfg x) (tryCaptureAllNE cfg y) := by
  unfold tryCaptureAll tryCaptureAllNE
  have main : Agree
      (do pushCtx [.da]
          match ← x with
          | .val v => do let _ ← popCtx; return .val v
          | .err r => do let cells ← popCtx; extractCaptured r.errId cells (← currentException)
          | .exc e => do let cells ← popCtx; let (id, e) ← unpackId e; extractCaptured id cells (some e))
      (do pushCtx [.da]
          match ← y with
          | .val v => do let _ ← popCtx; return .val v
          | .err r => do let cells ← popCtx; extractCapturedNE r.errId cells
          | .exc _ => ub) := by
    refine Agree.bind (hd_pushCtx _) fun _ => Agree.seq hx fun o ho => ?_
    cases o with
    | exc e => exact ho.elim
    | val v => exact Agree.bind hd_popCtx fun _ => Agree.pure (o := .val v) trivial
    | err r =>
      refine Agree.bind hd_popCtx fun cells => ?_
      intro w hw
      have hce : currentException w = some (none, w) := by
        show some (w.handling.head?, w) = _
        rw [hw]; rfl
      show extractCapturedNE r.errId cells w = (currentException >>= fun x => extractCaptured r.errId cells x) w ∧
        ∀ o w', (currentException >>= fun x => extractCaptured r.errId cells x) w = some (o, w') → _
      rw [bind_apply, hce, Option.bind_some]
      unfold extractCaptured extractCapturedNE
      simp only [List.append_nil]
      refine ⟨rfl, fun o w' he => ?_⟩
      rw [bind_apply] at he
      cases ht : (assertTagged r.errId : Comp M Unit) w with
      | none => simp [ht] at he
      | some p =>
        rw [ht, Option.bind_some, pure_apply] at he
        cases he
        refine ⟨fun e hm => ?_, (hd_assertTagged _).run hw ht⟩
        split at hm
        · split at hm <;> simp at hm
        · simp at hm
  cases cfg.capture with
  | true => exact main
  | false => exact Agree.bind (m := (Leaf.ub : Comp M Unit)) Hd.ub fun _ => main

theorem agree_onError (cfg : Cfg) (items : List OnItem) {x y : Comp M Out} (hx : Agree x y) : Agree (onErrorGuard cfg items x) (onErrorGuardNE cfg items y) := by
  unfold onErrorGuard onErrorGuardNE
  refine Agree.bind hd_currentId fun saved => Agree.seq hx fun o ho => ?_
  cases o with
  | exc e => exact ho.elim
  | val v =>
    refine Agree.bind (m := checkIdNE saved) (by unfold checkIdNE; hd) fun id => ?_
    split
    · exact Agree.bind (hd_assertTagged _) fun _ => Agree.bind (hd_triggerItems _ _ _) fun _ => Agree.pure (o := .val v) ho
    · exact Agree.pure (o := .val v) ho
  | err r =>
    refine Agree.bind (m := checkIdNE saved) (by unfold checkIdNE; hd) fun id => ?_
    split
    · exact Agree.bind (hd_assertTagged _) fun _ => Agree.bind (hd_triggerItems _ _ _) fun _ => Agree.pure (o := .err r) ho
    · exact Agree.pure (o := .err r) ho

theorem agree_eval (cfg : Cfg) {p : Prog} (h : p.ExcFree) : Agree (eval cfg p : Comp M Out) (evalNE cfg p) := by
  induction p with
  | ret o =>
    cases o with
    | exc e => exact h.elim
    | _ => exact Agree.pure h
  | newError items k ih => exact Agree.bind (hd_newError _ _) fun id => ih id (h id)
  | load id items k ih => exact Agree.bind (hd_errorIdLoad _ _ _) fun _ => ih h
  | importCode ec v k ih => exact Agree.bind (hd_importCode _ _ _) fun id => ih id (h id)
  | currentError k ih => exact Agree.bind hd_currentError fun id => ih id (h id)
  | bind p k ke ih1 ih2 ih3 =>
    unfold eval evalNE
    refine Agree.seq (ih1 h.1) fun o ho => ?_
    cases o with
    | exc e => exact ho.elim
    | val v => exact ih2 v (h.2.1 v)
    | err r => exact ih3 r (h.2.2 r ho)
  | onError items body ih => exact agree_onError cfg items (ih h)
  | monNew k ih => exact Agree.bind hd_currentId fun id => ih id (h id)
  | monCheck m k ih =>
    refine Agree.bind ?_ fun id => ih _ (h _)
    exact hd_checkId cfg m false
  | monAssigned m k ih => exact Agree.bind (hd_getId _ _) fun id => ih _ (h _)
  | handleAll specs block body ih1 ih2 => exact agree_tryHandleAll cfg specs (ih1 h.1) fun i args ha => ih2 i args (h.2 i args ha)
  | handleSome specs block body ih1 ih2 => exact agree_tryHandleSome cfg specs (ih1 h.1) fun i args ha => ih2 i args (h.2 i args ha)
  | captureAll block ih => exact agree_tryCaptureAll cfg (ih h)
  | unload r => exact agree_resultUnload cfg h
  | _ => exact h.elim

end

/-! ## Theorems -/

/-- **C47.** A program that does not use exceptions, started while no exception is being handled, does in a build without exceptions exactly what it
does in a build with exceptions: same outcome, same final state of the thread, same handlers called with the same arguments, same undefined
behaviour. -/
theorem C47_same_partial (cfg : Cfg) (p : Prog) (hp : p.ExcFree) (w : World PtrStore) (hw : w.handling = []) : evalNE cfg p w = eval cfg p w :=
  (agree_eval cfg hp w hw).1

/-- **C47, no exceptions.** Built with exceptions, such a program does not throw, and no result or handler argument it sees holds an exception. -/
theorem C47_no_exception (cfg : Cfg) (p : Prog) (hp : p.ExcFree) (w w' : World PtrStore) (hw : w.handling = []) (o : Out)
    (he : eval cfg p w = some (o, w')) : (∀ e, o ≠ .exc e) ∧ ∀ id nodes e, o = .err (.captured id nodes) → .exc e ∉ nodes := by
  have h := ((agree_eval cfg hp w hw).2 o w' he).1
  cases o with
  | exc e => exact h.elim
  | val v => simp
  | err r =>
    refine ⟨by simp, fun id nodes e hr => ?_⟩
    cases hr
    exact h e

/-- A program with guards, nested scopes, capturing and unloading. -/
def exNoExc : Prog :=
  .handleAll [[.req 10, .ptr 12], [.details]]
    (.onError [.item (.obj 12 3)]
      (.bind (.captureAll (.handleSome [[.pred 10 (· == 7)]] (.newError [.obj 10 1] fun id => .ret (.err (.plain id))) (fun _ _ => .ret (.val 0))))
        (fun v => .ret (.val v)) (fun r => .unload r)))
    (fun i _ => .ret (.val i))

/-- The hypotheses hold for it. -/
example : exNoExc.ExcFree := by
  refine ⟨⟨⟨fun id => trivial, fun i args _ => trivial⟩, fun v => trivial, fun r hr => hr⟩, fun i args _ => trivial⟩

example : (initThread 1#32).handling = [] := rfl

def runFreshNE (cfg : Cfg) (p : Prog) : Option (Out × List Scope × List Event) :=
  ((evalNE cfg p : Comp PtrStore Out) (initThread 1#32)).map fun r => (r.1, scopes r.2, r.2.trace)

example : runFreshNE exCfg exNoExc = runFresh exCfg exNoExc := by decide +kernel

example : (runFreshNE exCfg exNoExc).map (·.1) = some (.val 0) := by decide +kernel

/-- **C47 refuted for `try_catch`.** The error reported inside `try_catch` is handled by the first handler in a build without exceptions, by the second one
in a build with exceptions (the object is destroyed by `try_catch`, see F13). No exception is thrown in either. -/
theorem C47_refuted_try_catch :
    let p : Prog := .handleAll [[.req 10], []] (.tryCatch [[.req 10]] (.newError [.obj 10 1] fun id => .ret (.err (.plain id))) (fun _ _ => .ret (.val 0)))
      (fun i _ => .ret (.val i))
    (runFreshNE exCfg p).map (·.1) = some (.val 0) ∧ (runFresh exCfg p).map (·.1) = some (.val 1) := by
  decide +kernel

end Leaf
