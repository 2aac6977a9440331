import Verif.PropExt
import Verif.PropExamples

/-!
# C55 and C48: ideal error handling with an external result type

The programs of `Direct`, with functions that return an external result type instead of `leaf::result`.
-/

namespace Leaf

/-! ## The programs -/

/-- The program with an external result type whose error is a `std::error_code`: `return new_error(...)` stores the id in the code; `BOOST_LEAF_AUTO` and
`BOOST_LEAF_CHECK` return `r.error()`, the code (error.hpp:25-60, which uses nothing specific to `leaf::result`); `load` is
`error_id(r.error()).load(items...)`. Not supported: see `Direct.External`. -/
def Direct.external : Direct → XProg
  | .ret v => .ret (.val v)
  | .fail items none => .call (report items none) (fun v => .ret (.val v)) (fun r => .ret (.err (toErrorCode r.errId)))
  | .fail items (some f) => .call (report items (some f)) (fun v => .ret (.val v)) (fun _ => .ret (.val 0))
  | .seq p k => .bind p.external (fun v => (k v).external) (fun ec => .ret (.err ec))
  | .next p k => .bind p.external (fun v => (k v).external) (fun _ => .ret (.val 0))
  | .orElse p k h => .bind p.external (fun v => (k v).external) (fun _ => h.external)
  | .catch_ p h => .cppCatch p.external (fun _ => h.external)
  | .guard items p => .onError items p.external
  | .load items p => .bind p.external (fun v => .ret (.val v))
      (fun ec => .call (.importCode ec ec.toVal fun id => .load id items (.ret (.val 0))) (fun _ => .ret (.err ec)) (fun _ => .ret (.err ec)))
  | .handleAll specs p body => .handleAll specs p.external (fun i args => (body i args).external)
  | .handleSome specs p _ body => .handleSome specs p.external (fun i args => (body i args).external)
  | .tryCatch specs p body => .tryCatch specs p.external (fun i args => (body i args).external)
  | .failCode _ _ | .monitor _ _ | .value _ _ | .toResult _ _ => .ret (.val 0)

/-- What there is with external result types: not error codes of other categories (`C55_refuted_guard`, `C55_refuted_identity`), not `exception_to_result` and
`value()`, which are LEAF's. (Error monitors, and handlers that return the error they were called for, are left out for simplicity.) -/
def Direct.External : Direct → Prop
  | .ret _ => True
  | .fail _ _ => True
  | .seq p k => p.External ∧ ∀ v, (k v).External
  | .next p k => p.External ∧ ∀ v, (k v).External
  | .orElse p k h => p.External ∧ (∀ v, (k v).External) ∧ h.External
  | .catch_ p h => p.External ∧ h.External
  | .guard _ p => p.External
  | .load _ p => p.External
  | .handleAll _ p body => p.External ∧ ∀ i args, (body i args).External
  | .handleSome _ p again body => p.External ∧ (∀ i args, again i args = none) ∧ ∀ i args, (body i args).External
  | .tryCatch _ p body => p.External ∧ ∀ i args, (body i args).External
  | .failCode _ _ | .monitor _ _ | .value _ _ | .toResult _ _ => False

/-! ## They do the same as with `leaf::result` -/

/-- Not a failed result with captured objects. -/
def Out.IsPlain (o : Out) : Prop := ∀ r, o = .err r → ∃ id, r = .plain id

theorem errId_ok (r : ErrRes) : (toErrorCode r.errId).Ok := ⟨fun h => absurd (errId_tagged r) (by rw [show r.errId = 0#32 from h]; decide), fun _ => errId_tagged r⟩

theorem importCode_own {M : Type} [Store M] (cfg : Cfg) (r : ErrRes) (v : Val) :
    (importCode cfg (toErrorCode r.errId) v : Comp M Id) = pure r.errId := by
  have h1 : r.errId ≠ 0#32 := fun h => absurd (errId_tagged r) (by rw [h]; decide)
  have h2 := makeErrorId_of_tagged (errId_tagged r)
  unfold makeErrorId at h2
  simp only [importCode, importErrorCode, toErrorCode, h1, ne_eq, not_false_eq_true, if_true, errId_tagged r, h2]

theorem external_noErr (p : Direct) (hx : p.External) (h : p.prog.NoErr) : p.external.NoErr := by
  induction p with
  | ret v => intro ec; simp
  | fail items t =>
    cases t with
    | none => exact absurd rfl (h 0#32 _)
    | some f => exact ⟨fun v ec => by simp, fun r ec => by simp⟩
  | failCode ec v => exact hx.elim
  | seq p k ih1 ih2 => exact absurd rfl (h.2 (.plain 0#32) _)
  | next p k ih1 ih2 => exact ⟨fun v => ih2 v (hx.2 v) (h.1 v), fun _ ec => by simp⟩
  | orElse p k q ih1 ih2 ih3 => exact ⟨fun v => ih2 v (hx.2.1 v) (h.1 v), fun _ => ih3 hx.2.2 (h.2 (.plain 0#32))⟩
  | catch_ p q ih1 ih2 => exact ⟨ih1 hx.1 h.1, fun _ => ih2 hx.2 (h.2 ⟨0, true, .none, [], true⟩)⟩
  | guard items p ih => exact ih hx h
  | load items p ih => exact absurd rfl (h.2 (.plain 0#32) _)
  | monitor items p ih => exact hx.elim
  | value tag p ih => exact hx.elim
  | toResult tys p ih => exact hx.elim
  | handleAll specs p body ih1 ih2 => trivial
  | handleSome specs p again body ih1 ih2 => exact h.elim
  | tryCatch specs p body ih1 ih2 => exact ⟨ih1 hx.1 h.1, fun i args => ih2 i args (hx.2 i args) (h.2 i args)⟩

theorem external_wf {cfg : Cfg} (p : Direct) (hx : p.External) {da : Bool} (h : p.prog.WF cfg da) : p.external.WF cfg da := by
  induction p generalizing da with
  | ret v => trivial
  | fail items t =>
    cases t with
    | none => exact ⟨h, fun _ => trivial, fun r _ => errId_ok r⟩
    | some f => exact ⟨h, fun _ => trivial, fun r _ => trivial⟩
  | failCode ec v => exact hx.elim
  | seq p k ih1 ih2 => exact ⟨ih1 hx.1 h.1, fun v => ih2 v (hx.2 v) (h.2.1 v), fun ec hec => hec⟩
  | next p k ih1 ih2 => exact ⟨ih1 hx.1 h.1, fun v => ih2 v (hx.2 v) (h.2.1 v), fun ec hec => trivial⟩
  | orElse p k q ih1 ih2 ih3 => exact ⟨ih1 hx.1 h.1, fun v => ih2 v (hx.2.1 v) (h.2.1 v), fun _ _ => ih3 hx.2.2 (h.2.2 (.plain 0#32) trivial)⟩
  | catch_ p q ih1 ih2 => exact ⟨ih1 hx.1 h.1, fun e he => ih2 hx.2 (h.2 e he)⟩
  | guard items p ih => exact ⟨h.1, ih hx h.2⟩
  | load items p ih =>
    refine ⟨ih hx h.1, fun _ => trivial, fun ec hec => ⟨⟨fun hc => .inr (hec.2 hc), fun id hid => ⟨hid, (h.2.2 (.plain 0#32) trivial).2.1, trivial⟩⟩, fun _ => hec, fun _ _ => hec⟩⟩
  | monitor items p ih => exact hx.elim
  | value tag p ih => exact hx.elim
  | toResult tys p ih => exact hx.elim
  | handleAll specs p body ih1 ih2 =>
    exact ⟨h.1, ih1 hx.1 h.2.1, fun i args ha => ⟨ih2 i args (hx.2 i args) (h.2.2 i args ha).1, external_noErr _ (hx.2 i args) (h.2.2 i args ha).2⟩⟩
  | handleSome specs p again body ih1 ih2 =>
    refine ⟨ih1 hx.1 h.1, fun i args ha => ih2 i args (hx.2.2 i args) ?_⟩
    have := h.2 i args ha
    dsimp only at this
    rw [hx.2.1 i args] at this
    exact this
  | tryCatch specs p body ih1 ih2 => exact ⟨ih1 hx.1 h.1, fun i args ha => ih2 i args (hx.2 i args) (h.2 i args ha)⟩

theorem external_leafCodes (p : Direct) (hx : p.External) : p.external.LeafCodes := by
  induction p with
  | ret v => intro ec h; cases h
  | fail items t =>
    cases t with
    | none => exact ⟨fun v ec h => (by cases h), fun r ec h => by cases h; rfl⟩
    | some f => exact ⟨fun v ec h => (by cases h), fun r ec h => by cases h⟩
  | failCode ec v => exact hx.elim
  | seq p k ih1 ih2 => exact ⟨ih1 hx.1, fun v => ih2 v (hx.2 v), fun id ec h => by cases h; rfl⟩
  | next p k ih1 ih2 => exact ⟨ih1 hx.1, fun v => ih2 v (hx.2 v), fun id ec h => by cases h⟩
  | orElse p k q ih1 ih2 ih3 => exact ⟨ih1 hx.1, fun v => ih2 v (hx.2.1 v), fun _ => ih3 hx.2.2⟩
  | catch_ p q ih1 ih2 => exact ⟨ih1 hx.1, fun _ => ih2 hx.2⟩
  | guard items p ih => exact ih hx
  | load items p ih => exact ⟨ih hx, fun v ec h => (by cases h), fun id => ⟨fun _ ec h => by cases h; rfl, fun _ ec h => by cases h; rfl⟩⟩
  | monitor items p ih => exact hx.elim
  | value tag p ih => exact hx.elim
  | toResult tys p ih => exact hx.elim
  | handleAll specs p body ih1 ih2 => exact ⟨ih1 hx.1, fun i args => ih2 i args (hx.2 i args)⟩
  | handleSome specs p again body ih1 ih2 => exact ⟨ih1 hx.1, fun i args => ih2 i args (hx.2.2 i args)⟩
  | tryCatch specs p body ih1 ih2 => exact ⟨ih1 hx.1, fun i args => ih2 i args (hx.2 i args)⟩

theorem post_evalBind {M : Type} [Store M] {cfg : Cfg} {p : Prog} {k : Val → Prog} {ke : ErrRes → Prog} {P Q : Out → Prop} (h : Post (eval (M := M) cfg p) P)
    (hk : ∀ v, P (.val v) → Post (eval (M := M) cfg (k v)) Q) (hke : ∀ r, P (.err r) → Post (eval (M := M) cfg (ke r)) Q) (he : ∀ e, P (.exc e) → Q (.exc e)) :
    Post (eval (M := M) cfg (.bind p k ke)) Q := by
  unfold eval
  refine Post.bind h fun o ho => ?_
  cases o with
  | val v => exact hk v ho
  | err r => exact hke r ho
  | exc e => exact Post.pure (he e ho)

/-- None of these programs returns a result with captured objects. -/
theorem external_plain {M : Type} [Store M] (cfg : Cfg) (p : Direct) (hx : p.External) : Post (eval (M := M) cfg p.prog) Out.IsPlain := by
  have hv : ∀ v, Out.IsPlain (.val v) := fun v r h => by cases h
  have he : ∀ e, Out.IsPlain (.exc e) := fun e r h => by cases h
  have hp : ∀ id, Out.IsPlain (.err (.plain id)) := fun id r h => by cases h; exact ⟨id, rfl⟩
  have hn : ∀ o, Post (noErr o : Comp M Out) Out.IsPlain := fun o w a w' h r hr => absurd hr (post_noErr o w a w' h r)
  have hu : ∀ o, o.IsPlain → Post (unloadOut cfg o : Comp M Out) Out.IsPlain := by
    intro o ho
    cases o with
    | val v => exact Post.pure ho
    | exc e => exact Post.pure ho
    | err r =>
      obtain ⟨id, rfl⟩ := ho r rfl
      exact Post.pure ho
  induction p with
  | ret v => exact Post.pure (hv v)
  | fail items t =>
    cases t with
    | none => exact Post.bind' fun id => Post.pure (hp id)
    | some f => exact Post.bind' fun id => Post.pure (he _)
  | failCode ec v => exact hx.elim
  | seq p k ih1 ih2 =>
    exact post_evalBind (ih1 hx.1) (fun v _ => ih2 v (hx.2 v)) (fun r hr => by obtain ⟨id, rfl⟩ := hr r rfl; exact Post.pure (hp _)) (fun e _ => he e)
  | next p k ih1 ih2 => exact post_evalBind (ih1 hx.1) (fun v _ => ih2 v (hx.2 v)) (fun r _ => Post.pure (hv _)) (fun e _ => he e)
  | orElse p k q ih1 ih2 ih3 => exact post_evalBind (ih1 hx.1) (fun v _ => ih2 v (hx.2.1 v)) (fun r _ => ih3 hx.2.2) (fun e _ => he e)
  | catch_ p q ih1 ih2 =>
    refine Post.bind (ih1 hx.1) fun o ho => ?_
    cases o with
    | val v => exact Post.pure ho
    | err r => exact Post.pure ho
    | exc e =>
      refine Post.bind' (fun _ => Post.bind (ih2 hx.2) (fun o2 ho2 => ?_))
      exact Post.bind' (fun _ => Post.bind' (fun _ => Post.pure ho2))
  | guard items p ih =>
    refine Post.bind' (fun saved => Post.bind (ih hx) (fun o ho => Post.bind' (fun id => ?_)))
    by_cases h : id = 0#32
    · simp only [h, ne_eq, not_true_eq_false, if_false]; exact Post.pure ho
    · simp only [h, ne_eq, not_false_eq_true, if_true]
      exact Post.bind' (fun _ => Post.bind' (fun _ => Post.pure ho))
  | load items p ih =>
    exact post_evalBind (ih hx) (fun v _ => Post.pure (hv _)) (fun r hr => by obtain ⟨id, rfl⟩ := hr r rfl; exact Post.bind' fun _ => Post.pure (hp _)) (fun e _ => he e)
  | monitor items p ih => exact hx.elim
  | value tag p ih => exact hx.elim
  | toResult tys p ih => exact hx.elim
  | handleAll specs p body ih1 ih2 =>
    refine Post.bind' (fun _ => Post.bind' (fun o => Post.bind' (fun o2 => ?_)))
    cases o2 with
    | val v => exact Post.bind' (fun _ => Post.pure (hv _))
    | err r =>
      refine Post.bind' (fun _ => Post.bind' (fun cells => Post.bind' (fun loc => ?_)))
      split
      · exact Post.bind' (fun o => hn o)
      · exact Post.ub
    | exc e => exact Post.bind' (fun p => hn p.1)
  | handleSome specs p again body ih1 ih2 =>
    have hb : ∀ i args, Post (eval (M := M) cfg (match again i args with | some items => returnSame items args | none => (body i args).prog)) Out.IsPlain := by
      intro i args
      rw [hx.2.1 i args]
      exact ih2 i args (hx.2.2 i args)
    refine Post.bind' (fun _ => Post.bind (ih1 hx.1) (fun o ho => Post.bind (hu o ho) (fun o2 ho2 => ?_)))
    cases o2 with
    | val v => exact Post.bind' (fun _ => Post.pure (hv _))
    | err r =>
      refine Post.bind' (fun _ => Post.bind' (fun cells => Post.bind' (fun loc => ?_)))
      split
      · exact Post.bind (post_callHandler cfg hb _ _ _ _ _) fun rr hrr => by
          dsimp only
          split
          · exact Post.bind' fun _ => Post.pure hrr
          · exact Post.pure hrr
      · exact Post.bind (Post.pure ho2) fun rr hrr => by
          dsimp only
          split
          · exact Post.bind' fun _ => Post.pure hrr
          · exact Post.pure hrr
    | exc e =>
      refine Post.bind (post_catchPath cfg hb he e) fun p hp => ?_
      obtain ⟨o, cells⟩ := p
      dsimp only
      split
      · exact Post.bind' fun _ => Post.pure hp
      · exact Post.pure hp
  | tryCatch specs p body ih1 ih2 =>
    refine Post.bind' (fun _ => Post.bind (ih1 hx.1) (fun o ho => ?_))
    cases o with
    | val v => exact Post.bind' (fun _ => Post.pure ho)
    | err r => exact Post.bind' (fun _ => Post.pure ho)
    | exc e => exact Post.bind (post_catchPath cfg (fun i a => ih2 i a (hx.2 i a)) he e) (fun p hp => Post.pure hp)

theorem evalBind_congr {M : Type} [Store M] {cfg : Cfg} {p q : Prog} {k k' : Val → Prog} {ke ke' : ErrRes → Prog} (h : eval (M := M) cfg p = eval cfg q)
    (hq : Post (eval (M := M) cfg q) Out.IsPlain) (hk : ∀ v, eval (M := M) cfg (k v) = eval cfg (k' v))
    (hke : ∀ id, eval (M := M) cfg (ke (.plain id)) = eval cfg (ke' (.plain id))) : eval (M := M) cfg (.bind p k ke) = eval cfg (.bind q k' ke') := by
  unfold eval
  rw [h]
  funext w
  rw [bind_apply, bind_apply]
  cases hw : eval cfg q w with
  | none => rfl
  | some r =>
    obtain ⟨o, w'⟩ := r
    simp only [Option.bind_some]
    cases o with
    | val v => exact congrFun (hk v) w'
    | exc e => rfl
    | err r =>
      obtain ⟨id, rfl⟩ := hq w _ w' hw r rfl
      exact congrFun (hke id) w'

/-- The same program with `leaf::result` is the program we started from. -/
theorem external_withLeaf {M : Type} [Store M] (cfg : Cfg) (p : Direct) (hx : p.External) : eval (M := M) cfg p.external.withLeaf = eval cfg p.prog := by
  have own : ∀ id v (k : Id → Prog), eval (M := M) cfg (.importCode (toErrorCode (ErrRes.plain id).errId) v k) = eval cfg (k (makeErrorId id)) := by
    intro id v k
    show (importCode cfg _ v >>= fun id => eval cfg (k id)) = _
    rw [importCode_own]
    rfl
  induction p with
  | ret v => rfl
  | fail items t =>
    cases t with
    | none =>
      simp only [Direct.external, XProg.withLeaf, Direct.prog, report, eval, bind_assoc, pure_bind, importCode_own, newError]
      congr 1
      funext id
      rw [show (ErrRes.plain (makeErrorId id)).errId = makeErrorId id from makeErrorId_of_tagged (makeErrorId_tagged id)]
    | some f => simp only [Direct.external, XProg.withLeaf, Direct.prog, report, eval, bind_assoc, pure_bind]
  | failCode ec v => exact hx.elim
  | seq p k ih1 ih2 => exact evalBind_congr (ih1 hx.1) (external_plain cfg p hx.1) (fun v => ih2 v (hx.2 v)) (fun id => own id _ _)
  | next p k ih1 ih2 => exact evalBind_congr (ih1 hx.1) (external_plain cfg p hx.1) (fun v => ih2 v (hx.2 v)) (fun id => rfl)
  | orElse p k q ih1 ih2 ih3 => exact evalBind_congr (ih1 hx.1) (external_plain cfg p hx.1) (fun v => ih2 v (hx.2.1 v)) (fun id => ih3 hx.2.2)
  | catch_ p q ih1 ih2 =>
    show cppCatch_ (eval cfg p.external.withLeaf) (fun _ => eval cfg q.external.withLeaf) = cppCatch_ (eval cfg p.prog) (fun _ => eval cfg q.prog)
    rw [ih1 hx.1, ih2 hx.2]
  | guard items p ih =>
    show onErrorGuard cfg items (eval cfg p.external.withLeaf) = onErrorGuard cfg items (eval cfg p.prog)
    rw [ih hx]
  | load items p ih =>
    refine evalBind_congr (ih hx) (external_plain cfg p hx) (fun v => rfl) (fun id => ?_)
    simp only [XProg.withLeaf, eval, bind_assoc, pure_bind, importCode_own]
    rfl
  | monitor items p ih => exact hx.elim
  | value tag p ih => exact hx.elim
  | toResult tys p ih => exact hx.elim
  | handleAll specs p body ih1 ih2 =>
    show tryHandleAll cfg specs (eval cfg p.external.withLeaf) (fun i args => eval cfg (body i args).external.withLeaf) =
      tryHandleAll cfg specs (eval cfg p.prog) (fun i args => eval cfg (body i args).prog)
    rw [ih1 hx.1]
    congr 1
    funext i args
    exact ih2 i args (hx.2 i args)
  | handleSome specs p again body ih1 ih2 =>
    show tryHandleSome cfg specs (eval cfg p.external.withLeaf) (fun i args => eval cfg (body i args).external.withLeaf) =
      tryHandleSome cfg specs (eval cfg p.prog)
        (fun i args => eval cfg (match again i args with | some items => returnSame items args | none => (body i args).prog))
    rw [ih1 hx.1]
    congr 1
    funext i args
    rw [hx.2.1 i args]
    exact ih2 i args (hx.2.2 i args)
  | tryCatch specs p body ih1 ih2 =>
    show tryCatch cfg specs (eval cfg p.external.withLeaf) (fun i args => eval cfg (body i args).external.withLeaf) =
      tryCatch cfg specs (eval cfg p.prog) (fun i args => eval cfg (body i args).prog)
    rw [ih1 hx.1]
    congr 1
    funext i args
    exact ih2 i args (hx.2 i args)

/-- With an external result type the program does the same as with `leaf::result`. -/
theorem external_same {cfg : Cfg} {p : Direct} {da : Bool} (hx : p.External) (hp : p.prog.WF cfg da) {w : World PtrStore} (hw : ThreadOk w)
    (hda : da = false → NoCapturingScope w) : ∃ o w', eval cfg p.prog w = some (o, w') ∧ evalX cfg p.external w = some (o.toX, w') := by
  obtain ⟨o, w', h1, h2⟩ := C55_leaf (external_wf p hx hp) (external_leafCodes p hx) hw hda
  exact ⟨o, w', by rw [← external_withLeaf cfg p hx]; exact h1, h2⟩

/-- What the program returned, in an external result, or threw is what the ideal outcome says. -/
def Outcome.IsX : Outcome → XOut → Prop
  | .ok v, o => o = .val v
  | .failed id _ none, o => o = .err ⟨id, leafCat⟩
  | .failed _ _ (some e), o => ∃ e', o = .exc e' ∧ e'.examined = e.examined

/-- **C55, ideal error handling with external results.** A program whose functions return an external result type, and report errors with `new_error` or by throwing,
implements ideal error handling as with `leaf::result` (`C48_ideal`): the same handlers are called, in the same order, for the same errors, with the same arguments; it
returns the code that is the id of the error, or throws the same exception; and the objects available for the error it fails with are those the error has in the ideal
run. -/
theorem C55_ideal {cfg : Cfg} {c : Id} {p : Direct} {da : Bool} (hx : p.External) (hp : p.prog.WF cfg da) (hd : p.Ok) {w : World PtrStore} (hw : ThreadOk w)
    (hda : da = false → NoCapturingScope w) {n : Nat} (hn : gens cfg.interf n ≤ 2 ^ 30) (hs : Start cfg c n w) {x : XOut} {w' : World PtrStore}
    (h : evalX cfg p.external w = some (x, w')) (hf : w'.ticks ≤ n) :
    ∃ io l, Ideal cfg c p w.ticks io w'.ticks l ∧ io.IsX x ∧ callsIn w'.trace = l.reverse ++ callsIn w.trace ∧ io.Available cfg w' ∧
      ThreadOk w' ∧ Start cfg c n w' := by
  obtain ⟨o, w1, h1, h2⟩ := external_same hx hp hw hda
  rw [h] at h2
  simp only [Option.some.injEq, Prod.mk.injEq] at h2
  obtain ⟨rfl, rfl⟩ := h2
  obtain ⟨io, l, a1, a2, a3⟩ := C48_ideal hp hd hw hda hn hs h1 hf
  refine ⟨io, l, a1, ?_, a3⟩
  cases io with
  | ok v => rw [show o = .val v from a2]; rfl
  | failed id A ex =>
    cases ex with
    | none =>
      obtain ⟨k, rfl, rfl⟩ := a2
      rfl
    | some e =>
      obtain ⟨e', rfl, he⟩ := a2
      exact ⟨e', rfl, he⟩

/-- **C55, existence:** the program runs to its end without undefined behaviour. -/
theorem external_safe {cfg : Cfg} {p : Direct} {da : Bool} (hx : p.External) (hp : p.prog.WF cfg da) {w : World PtrStore} (hw : ThreadOk w)
    (hda : da = false → NoCapturingScope w) : ∃ x w', evalX cfg p.external w = some (x, w') := by
  obtain ⟨o, w', _, h⟩ := external_same hx hp hw hda
  exact ⟨_, _, h⟩

/-! ## Examples -/

/-- A function fails, a guard adds an object, a scope that has no suitable handler is passed, `load` adds another object. -/
def exExternal : Direct :=
  .handleAll [[.req 12], [.req 10, .req 11, .ptr 13], []]
    (.load [.obj 13 4]
      (.handleSome [[.req 14]]
        (.guard [.item (.obj 11 2)] (.seq (.orElse (.fail [.obj 12 9] none) .ret (.ret 5)) fun _ => .fail [.obj 10 1] none))
        (fun _ _ => none) fun _ _ => .ret 0))
    fun i _ => .ret i

/-- The hypotheses of `C55_ideal`, and what the program does. -/
example : exExternal.External ∧ exExternal.prog.WF exCfg false ∧ exExternal.Ok ∧ Start exCfg 1#32 8 (initThread 1#32) ∧
    (runFreshX exCfg exExternal.external).map (fun r => r.1) = some (.val 1) ∧
    (runFreshX exCfg exExternal.external).map (fun r => callsIn r.2.2) = some [(9#32, none, 1, [.obj 10 1, .obj 11 2, .ptr 13 (some 4)])] := by
  refine ⟨?_, ?_, ?_, start_init exCfg (by decide) 8, by decide +kernel, by decide +kernel⟩
  · simp [exExternal, Direct.External]
  · refine ⟨⟨[_, _], [], rfl, rfl⟩, ⟨⟨⟨by simp [OnItem.Ok, Item.Ok], ⟨⟨by simp [Item.Ok], fun _ _ => trivial⟩, fun _ => trivial, fun _ _ => trivial⟩,
      fun _ => ⟨by simp [Item.Ok], fun _ _ => trivial⟩, fun r h => ?_⟩, fun _ _ _ => trivial⟩, fun _ => trivial, fun r hr => ⟨.inr (errId_tagged r), by simp [Item.Ok], ?_⟩⟩,
      fun _ _ _ => ⟨trivial, fun r => nofun⟩⟩
    · cases r <;> exact h
    · cases r <;> exact hr
  · simp [exExternal, Direct.Ok]

/-! ## print_file_system_result -/

namespace PrintFile

theorem main_external (arg : Option Val) (os : Os) : (main arg os).External := by
  refine ⟨⟨?_, fun name => ⟨?_, fun _ => ⟨?_, fun _ => ⟨?_, fun _ => ?_⟩⟩⟩⟩, fun _ _ => trivial⟩
  · unfold parseCommandLine; split <;> trivial
  · unfold fileOpen; split <;> trivial
  · show Direct.External (if _ then _ else _)
    split
    · trivial
    · split
      · trivial
      · split <;> trivial
  · unfold fileRead
    split
    · trivial
    · split <;> trivial
  · unfold writeOutput; split <;> trivial

/-- **C62, print_file_system_result.cpp:** the same with `boost::system::result` (example/print_file/print_file_system_result.cpp:35-41; the rest of the program, 61-210,
is that of print_file_leaf_result.cpp). -/
theorem C62_print_file_system {cfg : Cfg} {c : Id} {w : World PtrStore} (hs : Storable cfg) (hw : Ready cfg c 7 w) (arg : Option Val) (os : Os) :
    ∃ code calls w', Reaction arg os code calls ∧ evalX cfg (main arg os).external w = some (.val code, w') ∧
      callsIn w'.trace = calls.map (fun (i, args) => (errorNo cfg c w.ticks, none, i, args)) ++ callsIn w.trace := by
  obtain ⟨code, calls, h1, w', h2, h3⟩ := C62_print_file hs hw arg os
  obtain ⟨o, w1, k1, k2⟩ := external_same (main_external arg os) (main_part arg os).wf hw.ok fun _ => hw.plain
  rw [h2] at k1
  cases k1
  exact ⟨code, calls, w', h1, k2, h3⟩

/-- The size of the file cannot be determined. -/
example : (runFreshX exCfg (main (some 77) ⟨none, some 29, none, none, 0, none, false, none⟩).external).map (fun r => r.1) = some (.val 3) ∧
    (runFreshX exCfg (main (some 77) ⟨none, some 29, none, none, 0, none, false, none⟩).external).map (fun r => callsIn r.2.2) =
      some [(5#32, none, 2, [.obj tyCode sizeError, .ptr tyErrno (some 29), .obj tyFileName 77])] := by
  refine ⟨by decide +kernel, by decide +kernel⟩

end PrintFile

end Leaf
