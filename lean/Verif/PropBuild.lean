import Verif.BuildLemmas
import Verif.PropFlow
import Verif.PropGuards

/-!
# C51: build options do not change programs that do not use them

The options are `BOOST_LEAF_CFG_CAPTURE` and `BOOST_LEAF_CFG_DIAGNOSTICS`. The program is compared in two builds, the second one having the same or fewer options enabled.
-/

namespace Leaf

/-! ## Specification (see also `Verif/BuildSpec.lean`) -/

/-- The thread is left in the same state: current error, counter, exceptions being handled, all scopes and the objects in them. -/
structure SameState (w w' : World PtrStore) : Prop where
  cur : w'.cur = w.cur
  counter : w'.counter = w.counter
  ticks : w'.ticks = w.ticks
  handling : w'.handling = w.handling
  scopes : scopes w' = scopes w

/-- The handler calls in a record. -/
def handlerCalls (t : List Event) : List Event := t.filter fun | .handled .. => true | _ => false

/-- The ids generated. -/
def idsMade (t : List Event) : List Id := t.filterMap fun | .gen id => some id | _ => none

/-- The functions called. -/
def functionsCalled (t : List Event) : List Nat := t.filterMap fun | .called tag => some tag | _ => none

/-! ## Lemmas -/

theorem handlerCalls_cons (e : Event) (t : List Event) : handlerCalls (e :: t) = handlerCalls [e] ++ handlerCalls t := by
  unfold handlerCalls
  rw [← List.filter_append]; rfl

theorem idsMade_cons (e : Event) (t : List Event) : idsMade (e :: t) = idsMade [e] ++ idsMade t := by
  unfold idsMade
  rw [← List.filterMap_append]; rfl

theorem functionsCalled_cons (e : Event) (t : List Event) : functionsCalled (e :: t) = functionsCalled [e] ++ functionsCalled t := by
  unfold functionsCalled
  rw [← List.filterMap_append]; rfl

theorem sameEvents_handlers {d x : Bool} {t t' : List Event} (h : SameEvents d x t t') :
    (handlerCalls t').map Event.unlisted = (handlerCalls t).map Event.unlisted ∧ (d = true → handlerCalls t' = handlerCalls t) := by
  induction h with
  | nil => exact ⟨rfl, fun _ => rfl⟩
  | @same e e' t t' h1 h2 _ ih =>
    rw [handlerCalls_cons e', handlerCalls_cons e, List.map_append, List.map_append, ih.1]
    refine ⟨?_, fun hd => by rw [ih.2 hd, h1 hd]⟩
    congr 1
    cases e <;> cases e' <;> simp_all [handlerCalls, Event.unlisted]
  | extra _ _ ih => exact ih

theorem sameEvents_ids {d x : Bool} {t t' : List Event} (h : SameEvents d x t t') : idsMade t' = idsMade t := by
  induction h with
  | nil => rfl
  | @same e e' t t' h1 h2 _ ih =>
    rw [idsMade_cons e', idsMade_cons e, ih]
    congr 1
    cases e <;> cases e' <;> simp_all [idsMade, Event.unlisted]
  | extra _ _ ih => exact ih

theorem sameEvents_calls {d x : Bool} {t t' : List Event} (h : SameEvents d x t t') :
    List.Sublist (functionsCalled t') (functionsCalled t) ∧ (x = false → functionsCalled t' = functionsCalled t) := by
  induction h with
  | nil => exact ⟨.slnil, fun _ => rfl⟩
  | @same e e' t t' h1 h2 _ ih =>
    have he : functionsCalled [e'] = functionsCalled [e] := by cases e <;> cases e' <;> simp_all [functionsCalled, Event.unlisted]
    rw [functionsCalled_cons e', functionsCalled_cons e, he]
    exact ⟨(List.Sublist.refl _).append ih.1, fun hx => by rw [ih.2 hx]⟩
  | extra hx _ ih => exact ⟨.cons _ ih.1, fun h => by rw [hx] at h; cases h⟩

theorem sameEvents_exact {d x : Bool} {t t' : List Event} (h : SameEvents d x t t') (hd : d = true) (hx : x = false) : t' = t := by
  induction h with
  | nil => rfl
  | same h1 _ _ ih => rw [h1 hd, ih]
  | extra h _ _ => rw [hx] at h; cases h

theorem getArgsB_true (cfg : Cfg) (cells : List CtxCell) (id : Id) (ex : Option Exc) (loc : Option Val) (as : List Arg) :
    getArgsB true cfg cells id ex loc as = getArgs cfg cells id ex loc as := by
  induction as with
  | nil => rfl
  | cons a as ih =>
    have h : a.getB true cfg cells id ex loc = a.get cfg cells id ex loc := by cases a <;> rfl
    simp only [getArgsB, getArgs, h, ih]

theorem deduceB_true (cfg : Cfg) (specs : List (List Arg)) : deduceB true cfg specs = deduce cfg specs := by
  have h : Arg.contextTypesB true cfg = Arg.contextTypes cfg := by funext a; cases a <;> simp [Arg.contextTypesB, Arg.contextTypes]
  unfold deduceB deduce
  rw [h]

section
variable {M : Type} [Store M]

omit [Store M] in
theorem callHandlerB_true (cfg : Cfg) (specs : List (List Arg)) (body : Nat → List ArgVal → Comp M Out) :
    callHandlerB true cfg specs body = callHandler cfg specs body := by
  funext cells id ex loc i
  unfold callHandlerB callHandler
  simp only [getArgsB_true]
  rfl

theorem catchPathB_true (cfg : Cfg) (specs : List (List Arg)) (body : Nat → List ArgVal → Comp M Out) (e : Exc) :
    catchPathB true cfg specs body e = catchPath cfg specs body e := by
  unfold catchPathB catchPath
  simp only [callHandlerB_true]
  rfl

end

/-! ## Theorems -/

/-- With `BOOST_LEAF_CFG_DIAGNOSTICS`, `evalB` is `eval`. -/
theorem evalB_true {M : Type} [Store M] (cfg : Cfg) (p : Prog) : (evalB true cfg p : Comp M Out) = eval cfg p := by
  induction p with
  | handleAll specs block body ih ihb =>
    simp only [evalB, eval, tryHandleAllB, tryHandleAll, deduceB_true, callHandlerB_true, catchPathB_true, ih, ihb]; rfl
  | handleSome specs block body ih ihb =>
    simp only [evalB, eval, tryHandleSomeB, tryHandleSome, deduceB_true, callHandlerB_true, catchPathB_true, ih, ihb]; rfl
  | tryCatch specs block body ih ihb =>
    simp only [evalB, eval, tryCatchB, tryCatch, deduceB_true, catchPathB_true, ih, ihb]; rfl
  | bind p k ke ih ihk ihe => simp only [evalB, eval, ih, ihk, ihe]; rfl
  | _ => simp_all only [evalB, eval]

/-- **C51.** A well-formed program without capturing scopes, whose handlers do not depend on the listings of `diagnostic_info`, if the second build has none, does the same
in both builds. -/
theorem C51_same (cfg cfg2 : Cfg) (hl : Lesser cfg cfg2) (d : Bool) (p : Prog) (hwf : p.WF cfg false) (hp : p.Plain cfg) (hb : d = false → p.Blind)
    (w : World PtrStore) (hw : ThreadOk w) (hs : NoCapturingScope w) :
    ∃ o w1 w2, eval cfg p w = some (o, w1) ∧ evalB d cfg2 p w = some (o, w2) ∧ SameState w1 w2 ∧ ThreadOk w2 ∧
      SameEvents d (lostCapture cfg cfg2) w1.trace w2.trace := by
  obtain ⟨o, w1, e1⟩ := eval_total hwf hw (fun _ => hs)
  obtain ⟨e2, t1, _, _⟩ := eval_abs hwf hw (fun _ => hs) e1
  have hr : BRel d (lostCapture cfg cfg2) (absW w) (absW w) := by
    exact ⟨noDaFs_of hs, rfl, .refl _ _ _⟩
  obtain ⟨_, v2, e3, r⟩ := beqvO_evalB hl id p hp hb _ _ hr o _ e2
  have hg : v2.Good := by
    rw [r.eq]
    exact ⟨t1.good.cur, t1.good.counter, t1.good.handling, t1.good.frames⟩
  obtain ⟨w2, e4, e5, t2⟩ := run_abs (sim_evalB d cfg2 p) hw e3 hg
  subst e5
  refine ⟨o, w1, w2, e1, e4, ?_, t2, r.trace⟩
  have he := r.eq
  have h1 : w2.cur = w1.cur := by have := congrArg World.cur he; exact this
  have h2 : w2.counter = w1.counter := by have := congrArg World.counter he; exact this
  have h3 : w2.ticks = w1.ticks := by have := congrArg World.ticks he; exact this
  have h4 : w2.handling = w1.handling := by have := congrArg World.handling he; exact this
  have h5 : scopes w2 = scopes w1 := by have := congrArg (fun v : World AbsStore => v.mem.frames) he; exact this
  exact ⟨h1, h2, h3, h4, h5⟩

/-- **C51, handlers.** The same handlers are called for the same errors, in the same order, with the same arguments (but for the listings, if the second build has none);
the same ids are generated. -/
theorem C51_handlers (cfg cfg2 : Cfg) (hl : Lesser cfg cfg2) (d : Bool) (p : Prog) (hwf : p.WF cfg false) (hp : p.Plain cfg) (hb : d = false → p.Blind)
    (w : World PtrStore) (hw : ThreadOk w) (hs : NoCapturingScope w) (o1 o2 : Out) (w1 w2 : World PtrStore) (h1 : eval cfg p w = some (o1, w1))
    (h2 : evalB d cfg2 p w = some (o2, w2)) :
    o2 = o1 ∧ (handlerCalls w2.trace).map Event.unlisted = (handlerCalls w1.trace).map Event.unlisted ∧ (d = true → handlerCalls w2.trace = handlerCalls w1.trace) ∧
      idsMade w2.trace = idsMade w1.trace := by
  obtain ⟨o, v1, v2, e1, e2, _, _, h⟩ := C51_same cfg cfg2 hl d p hwf hp hb w hw hs
  rw [h1] at e1
  rw [h2] at e2
  cases e1
  cases e2
  exact ⟨rfl, (sameEvents_handlers h).1, (sameEvents_handlers h).2, sameEvents_ids h⟩

/-- **C51, functions.** The second build calls no function the first one does not call; it calls all of them, unless it has lost `BOOST_LEAF_CFG_CAPTURE`. -/
theorem C51_functions (cfg cfg2 : Cfg) (hl : Lesser cfg cfg2) (d : Bool) (p : Prog) (hwf : p.WF cfg false) (hp : p.Plain cfg) (hb : d = false → p.Blind)
    (w : World PtrStore) (hw : ThreadOk w) (hs : NoCapturingScope w) (o1 o2 : Out) (w1 w2 : World PtrStore) (h1 : eval cfg p w = some (o1, w1))
    (h2 : evalB d cfg2 p w = some (o2, w2)) :
    List.Sublist (functionsCalled w2.trace) (functionsCalled w1.trace) ∧ (cfg2.capture = cfg.capture → functionsCalled w2.trace = functionsCalled w1.trace) := by
  obtain ⟨o, v1, v2, e1, e2, _, _, h⟩ := C51_same cfg cfg2 hl d p hwf hp hb w hw hs
  rw [h1] at e1
  rw [h2] at e2
  cases e1
  cases e2
  exact ⟨(sameEvents_calls h).1, fun hc => (sameEvents_calls h).2 (by simp [lostCapture, hc])⟩

/-! ## Examples -/

/-- Without `BOOST_LEAF_CFG_CAPTURE`. -/
def exCfgNoCapture : Cfg := { exCfg with capture := false }

theorem exLesser : Lesser exCfg exCfgNoCapture := ⟨rfl, rfl, rfl, fun _ => rfl⟩

/-- A failed operation, partly handled, with a guard and functions making error objects. -/
def exBuild : Prog :=
  .handleAll [[.req 20, .diag], []]
    (.onError [.item (.obj 20 5)]
      (.handleSome [[.pred 10 (· == 7)]] (.newError [.obj 10 1, .deferred 30 8 3, .deferred 20 9 4] fun a => .ret (.err (.plain a))) (fun _ _ => .ret (.val 9))))
    (fun i _ => .ret (.val i))

example : exBuild.WF exCfg false ∧ exBuild.Plain exCfg ∧ exBuild.Blind := by
  refine ⟨⟨⟨[[.req 20, .diag]], [], rfl, rfl⟩, ⟨?_, ⟨?_, fun id _ => trivial⟩, fun i args _ => trivial⟩, fun i args _ => ⟨trivial, by simp [Prog.NoErr]⟩⟩,
    ⟨by decide, ⟨by decide, fun id => trivial, fun i args => trivial⟩, fun i args => trivial⟩,
    ⟨⟨fun id => trivial, fun i args => trivial, fun i args => rfl⟩, fun i args => trivial, fun i args => rfl⟩⟩
  · simp [OnItem.Ok, Item.Ok]
  · simp [Item.Ok]

def runBuild (d : Bool) (cfg : Cfg) (p : Prog) : Option (Out × List Event) :=
  ((evalB d cfg p : Comp PtrStore Out) (initThread 1#32)).map fun r => (r.1, r.2.trace)

/-- The function for type 30, which nobody wants, is called in the first build only. -/
example : (runBuild true exCfg exBuild).map (fun r => (r.1, functionsCalled r.2)) = some (.val 0, [9, 8]) ∧
    (runBuild false exCfgNoCapture exBuild).map (fun r => (r.1, functionsCalled r.2)) = some (.val 0, [9]) := by decide +kernel

/-- The listing of the first build is not empty. -/
example : (runBuild true exCfg exBuild).map (fun r => handlerCalls r.2) ≠ (runBuild false exCfg exBuild).map (fun r => handlerCalls r.2) := by decide +kernel

/-- **C51 needs the hypothesis on capturing scopes.** In a build with `BOOST_LEAF_CFG_CAPTURE`, whether `BOOST_LEAF_CFG_DIAGNOSTICS` is enabled decides which handler deals
with the error: a handler taking `diagnostic_details`, although it is not called, makes the scope capture, so the propagated error becomes the current one. The `on_error` guard
then attaches its object to this error, not to the one last reported. -/
theorem C51_refuted_details :
    let p : Prog := .handleAll [[.req 20], []]
      (.onError [.item (.obj 20 5)]
        (.handleSome [[.req 99, .details]] (.newError [.obj 10 1] fun a => .newError [] fun _ => .ret (.err (.plain a))) (fun _ _ => .ret (.val 9))))
      (fun i _ => .ret (.val i))
    p.WF exCfg false ∧ (runBuild true exCfg p).map (·.1) = some (.val 0) ∧ (runBuild false exCfg p).map (·.1) = some (.val 1) ∧
      (runBuild true exCfgNoCapture p).map (·.1) = some (.val 1) := by
  refine ⟨⟨⟨[[.req 20]], [], rfl, rfl⟩, ⟨?_, ⟨?_, fun id _ => ⟨by simp, fun _ _ => trivial⟩⟩, fun i args _ => trivial⟩, fun i args _ => ⟨trivial, by simp [Prog.NoErr]⟩⟩, ?_⟩
  · simp [OnItem.Ok, Item.Ok]
  · simp [Item.Ok]
  · decide +kernel

end Leaf
