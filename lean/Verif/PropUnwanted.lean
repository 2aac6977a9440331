import Verif.UnwantedLemmas
import Verif.CalledLemmas
import Verif.PropBuild

/-!
# C77: error objects that no handler takes make no difference
-/

namespace Leaf

variable {U : Ty → Bool}

/-- No active scope of the thread captures, or has a slot for a type in `U`. -/
structure Unheard (U : Ty → Bool) (w : World PtrStore) : Prop where
  noCapture : NoCapturingScope w
  noSlot : ∀ s ∈ scopes w, ∀ ty x, CtxCell.obj ty x ∈ s → U ty = false

theorem Unheard.free {w : World PtrStore} (h : Unheard U w) : FramesFree U (absW w).mem.frames := by
  intro f hf c hc
  cases c with
  | obj t x => exact ⟨t, x, rfl, h.noSlot f hf t x hc⟩
  | da k ns => exact absurd hc (noDaFs_of h.noCapture f hf k ns)

/-- **C77.** Let no handler of the program, and no scope it runs in, take objects of the types `U`, and let nothing capture. If all items of `new_error`, `load` and `on_error` that
report objects of these types are left out, the program does the same: same outcome, same state of error storage, current error, id counter and exceptions; in the same order, the same
ids are generated, the same functions called, the same objects of other types reported and transported, and the same handlers called for the same errors with the same arguments. -/
theorem C77_same (cfg : Cfg) (p : Prog) (hwf : p.WF cfg false) (hp : p.Ignores cfg U) (w : World PtrStore) (hw : ThreadOk w) (hu : Unheard U w) :
    ∃ o w1 w2, eval cfg p w = some (o, w1) ∧ eval cfg (p.without cfg U) w = some (o, w2) ∧ SameState w1 w2 ∧ ThreadOk w2 ∧
      withoutOffers U w2.trace = withoutOffers U w1.trace := by
  obtain ⟨o, w1, e1⟩ := eval_total hwf hw (fun _ => hu.noCapture)
  obtain ⟨e2, t1, _, _⟩ := eval_abs hwf hw (fun _ => hu.noCapture) e1
  obtain ⟨_, v2, e3, r⟩ := ueqv_eval p hp _ _ ⟨hu.free, rfl, rfl⟩ o _ e2
  have hg : v2.Good := by
    rw [r.eq]
    exact ⟨t1.good.cur, t1.good.counter, t1.good.handling, t1.good.frames⟩
  obtain ⟨w2, e4, e5, t2⟩ := run_abs (sim_eval cfg (p.without cfg U)) hw e3 hg
  subst e5
  refine ⟨o, w1, w2, e1, e4, ?_, t2, r.trace⟩
  have he := r.eq
  have h1 : w2.cur = w1.cur := by have := congrArg World.cur he; exact this
  have h2 : w2.counter = w1.counter := by have := congrArg World.counter he; exact this
  have h3 : w2.ticks = w1.ticks := by have := congrArg World.ticks he; exact this
  have h4 : w2.handling = w1.handling := by have := congrArg World.handling he; exact this
  have h5 : scopes w2 = scopes w1 := by have := congrArg (fun v : World AbsStore => v.mem.frames) he; exact this
  exact ⟨h1, h2, h3, h4, h5⟩

theorem withoutOffers_handlers (t : List Event) : handlerCalls (withoutOffers U t) = handlerCalls t := by
  unfold handlerCalls withoutOffers
  rw [List.filter_filter]
  apply List.filter_congr
  intro e _
  cases e <;> simp

theorem withoutOffers_functions (t : List Event) : functionsCalled (withoutOffers U t) = functionsCalled t := by
  induction t with
  | nil => rfl
  | cons e t ih =>
    rw [withoutOffers_cons, functionsCalled_cons e t, ← ih]
    unfold functionsCalled
    rw [List.filterMap_append]
    congr 1
    cases e with
    | offered id ty v => cases h : U ty <;> simp [withoutOffers, h]
    | _ => rfl

/-- **C77, handlers and functions.** Whatever the objects of the types `U` are, and whatever the functions that would make them or modify them: the same handlers are called with the same
arguments, and the functions called are those called by the program without them. -/
theorem C77_calls (cfg : Cfg) (p : Prog) (hwf : p.WF cfg false) (hp : p.Ignores cfg U) (w : World PtrStore) (hw : ThreadOk w) (hu : Unheard U w)
    (o1 o2 : Out) (w1 w2 : World PtrStore) (h1 : eval cfg p w = some (o1, w1)) (h2 : eval cfg (p.without cfg U) w = some (o2, w2)) :
    o2 = o1 ∧ handlerCalls w2.trace = handlerCalls w1.trace ∧ functionsCalled w2.trace = functionsCalled w1.trace := by
  obtain ⟨o, v1, v2, e1, e2, _, _, h⟩ := C77_same cfg p hwf hp w hw hu
  rw [h1] at e1
  rw [h2] at e2
  cases e1
  cases e2
  refine ⟨rfl, ?_, ?_⟩
  · rw [← withoutOffers_handlers (U := U) w2.trace, h, withoutOffers_handlers]
  · rw [← withoutOffers_functions (U := U) w2.trace, h, withoutOffers_functions]

/-- **C77, two programs.** Programs that become the same without these items do the same. -/
theorem C77_agree (cfg : Cfg) (p q : Prog) (hpq : p.without cfg U = q.without cfg U) (hp1 : p.WF cfg false) (hp2 : p.Ignores cfg U) (hq1 : q.WF cfg false) (hq2 : q.Ignores cfg U)
    (w : World PtrStore) (hw : ThreadOk w) (hu : Unheard U w) (o1 o2 : Out) (w1 w2 : World PtrStore) (h1 : eval cfg p w = some (o1, w1)) (h2 : eval cfg q w = some (o2, w2)) :
    o2 = o1 ∧ SameState w1 w2 ∧ withoutOffers U w2.trace = withoutOffers U w1.trace := by
  obtain ⟨o, v1, v, e1, e2, s1, _, t1⟩ := C77_same cfg p hp1 hp2 w hw hu
  obtain ⟨o', v2, v', e3, e4, s2, _, t2⟩ := C77_same cfg q hq1 hq2 w hw hu
  rw [h1] at e1
  rw [h2] at e3
  rw [← hpq, e2] at e4
  cases e1
  cases e3
  cases e4
  refine ⟨rfl, ⟨?_, ?_, ?_, ?_, ?_⟩, t2.symm.trans t1⟩
  · exact s2.cur.symm.trans s1.cur
  · exact s2.counter.symm.trans s1.counter
  · exact s2.ticks.symm.trans s1.ticks
  · exact s2.handling.symm.trans s1.handling
  · exact s2.scopes.symm.trans s1.scopes

/-- **C77, functions.** The functions called while the program runs are all among those passed as items that make or modify objects of other types. So a function that makes or modifies an
object of a type in `U` is not called. -/
theorem C77_functions (cfg : Cfg) (p : Prog) (hwf : p.WF cfg false) (hp : p.Ignores cfg U) (P : Nat → Prop) (ht : (p.without cfg U).Tags P) (w : World PtrStore) (hw : ThreadOk w)
    (hu : Unheard U w) (o : Out) (w1 : World PtrStore) (h1 : eval cfg p w = some (o, w1)) :
    ∃ l, functionsCalled w1.trace = l ++ functionsCalled w.trace ∧ ∀ t ∈ l, P t := by
  obtain ⟨o', v1, v2, e1, e2, _, _, h⟩ := C77_same cfg p hwf hp w hw hu
  rw [h1] at e1
  cases e1
  obtain ⟨l, hl, hP⟩ := calls_eval (cfg := cfg) _ ht w _ _ e2
  refine ⟨l, ?_, hP⟩
  rw [← withoutOffers_functions (U := U) w1.trace, ← h, withoutOffers_functions]
  exact hl

/-- With no function at all left, no function is called. -/
theorem C77_no_functions (cfg : Cfg) (p : Prog) (hwf : p.WF cfg false) (hp : p.Ignores cfg U) (ht : (p.without cfg U).Tags fun _ => False) (w : World PtrStore) (hw : ThreadOk w)
    (hu : Unheard U w) (o : Out) (w1 : World PtrStore) (h1 : eval cfg p w = some (o, w1)) : functionsCalled w1.trace = functionsCalled w.trace := by
  obtain ⟨l, hl, hP⟩ := C77_functions cfg p hwf hp _ ht w hw hu o w1 h1
  cases l with
  | nil => exact hl
  | cons t l => exact (hP t (List.mem_cons_self ..)).elim

/-! ## Examples -/

/-- Types 30 and 31. -/
def exUnheard (ty : Ty) : Bool := ty == 30 || ty == 31

/-- A failed operation, partly handled, with a guard; objects of types 30 and 31, which nobody wants, are reported, made and modified by functions. -/
def exUnwanted : Prog :=
  .handleAll [[.req 20, .diag], []]
    (.onError [.item (.accum 31 7 (· + 1)), .item (.obj 20 5)]
      (.handleSome [[.pred 10 (· == 7)]] (.newError [.obj 30 2, .obj 10 1, .accum 30 8 (· + 1), .deferred 20 9 4] fun a => .load a [.obj 31 6] (.ret (.err (.plain a))))
        (fun _ _ => .ret (.val 9))))
    (fun i _ => .ret (.val i))

example : exUnwanted.WF exCfg false ∧ exUnwanted.Ignores exCfg exUnheard ∧ Unheard exUnheard (initThread 1#32) := by
  refine ⟨⟨⟨[[.req 20, .diag]], [], rfl, rfl⟩, ⟨?_, ⟨?_, fun id hid => ⟨.inr hid, by simp [Item.Ok], trivial⟩⟩, fun i args _ => trivial⟩, fun i args _ => ⟨trivial, by simp [Prog.NoErr]⟩⟩,
    ⟨by simp [NotTaken, Arg.contextTypes, exUnheard, tySrcLoc], ⟨by simp [NotTaken, Arg.contextTypes, exUnheard], fun id => trivial, fun i args => trivial⟩, fun i args => trivial⟩, ?_⟩
  · simp [OnItem.Ok, Item.Ok, capturing]
  · simp [Item.Ok, capturing]
  · exact ⟨(noCapturing_iff _).mpr (by intro f hf; cases hf), by intro s hs; cases hs⟩

/-- Of its functions 7, 8 and 9 only 9 is left. -/
example : (exUnwanted.without exCfg exUnheard).Tags (· = 9) ∧ ¬ exUnwanted.Tags (· = 9) := by
  refine ⟨⟨⟨?_, ⟨?_, fun id => ⟨?_, trivial⟩⟩, fun _ _ => trivial⟩, fun _ _ => trivial⟩, ?_⟩
  · simp [exUnheard, OnItem.unwanted, Item.unwanted, OnItem.Tags, Item.Tags]
  · simp [exUnheard, Item.unwanted, Item.Tags]
  · simp [exUnheard, Item.unwanted, Item.Tags]
  · intro h
    exact absurd (h.1.1 _ (List.mem_cons_self ..)) (by simp [OnItem.Tags, Item.Tags])

/-- It is not the same program without them; it does the same. -/
example : (runBuild true exCfg exUnwanted).map (fun r => (r.1, functionsCalled r.2, handlerCalls r.2)) =
      (runBuild true exCfg (exUnwanted.without exCfg exUnheard)).map (fun r => (r.1, functionsCalled r.2, handlerCalls r.2)) ∧
    (runBuild true exCfg exUnwanted).map (fun r => (r.1, functionsCalled r.2)) = some (.val 0, [9]) ∧
    (runBuild true exCfg exUnwanted).map (·.2.length) ≠ (runBuild true exCfg (exUnwanted.without exCfg exUnheard)).map (·.2.length) := by decide +kernel

/-- **C77 needs the hypothesis on capturing scopes.** A handler taking `diagnostic_details` makes the scope capture: although no handler takes type 30, reporting an object of this type
decides what a guard further out does, as the error that is passed on becomes the current one again (see `C51_refuted_details`). -/
theorem C77_refuted_capture :
    let p (items : List Item) : Prog := .handleAll [[.req 20], []]
      (.onError [.item (.obj 20 5)]
        (.handleSome [[.req 99, .details]] (.newError items fun a => .newError [] fun _ => .ret (.err (.plain a))) (fun _ _ => .ret (.val 9))))
      (fun i _ => .ret (.val i))
    (p [.obj 30 1]).without exCfg exUnheard = p [] ∧ (p [.obj 30 1]).WF exCfg false ∧ (runBuild true exCfg (p [.obj 30 1])).map (·.1) = some (.val 0) ∧
      (runBuild true exCfg (p [])).map (·.1) = some (.val 1) := by
  refine ⟨rfl, ⟨⟨[[.req 20]], [], rfl, rfl⟩, ⟨?_, ⟨?_, fun id _ => ⟨by simp, fun _ _ => trivial⟩⟩, fun i args _ => trivial⟩, fun i args _ => ⟨trivial, by simp [Prog.NoErr]⟩⟩, ?_⟩
  · simp [OnItem.Ok, Item.Ok]
  · simp [Item.Ok]
  · decide +kernel

end Leaf
