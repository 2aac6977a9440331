import Verif.SplitBoth
import Verif.PropBuild
import Verif.PropGuards

/-!
# C78: handlers may be given in one list or in two nested scopes
-/

namespace Leaf

variable {cfg : Cfg} {H1 H2 : List (List Arg)}

/-- No scope the thread is in captures, or has a slot of a type that is taken by `H1` and not by `H2`. -/
structure Unconcerned (H1 H2 : List (List Arg)) (w : World PtrStore) : Prop where
  noCapture : NoCapturingScope w
  noSlot : ∀ s ∈ scopes w, ∀ t x, CtxCell.obj t x ∈ s → TakesObj H1 t → TakesObj H2 t

theorem takes_of_deduce {H : List (List Arg)} (hp : PlainSpecs H) {t : Ty} (h : CellTy.obj t ∈ deduce cfg H) : TakesObj H t ∧ cfg.isAbstract t = false := by
  unfold deduce at h
  rw [List.mem_filter, mem_mpUnique, List.mem_flatten] at h
  obtain ⟨⟨l, hl, htl⟩, he⟩ := h
  obtain ⟨a, ha, rfl⟩ := List.mem_map.mp hl
  obtain ⟨args, h1, h2⟩ := List.mem_flatten.mp ha
  have hpl := hp args h1 a h2
  refine ⟨⟨args, h1, a, h2, ?_⟩, by simpa [CellTy.excluded] using he⟩
  cases a <;> simp [Arg.contextTypes, Arg.Plain] at htl hpl <;> simp [htl]

theorem deduce_of_takes {H : List (List Arg)} {t : Ty} (h : TakesObj H t) (ha : cfg.isAbstract t = false) : CellTy.obj t ∈ deduce cfg H := by
  obtain ⟨args, h1, a, h2, h3⟩ := h
  refine mem_deduce h1 h2 ?_ ha
  rcases h3 with rfl | rfl | ⟨f, rfl⟩ <;> simp [Arg.contextTypes]

theorem Unconcerned.around {w : World PtrStore} (h : Unconcerned H1 H2 w) (hp : PlainSpecs H1) : Around cfg H1 H2 (absW w).mem.frames := by
  have hd := noDaFs_of h.noCapture
  refine ⟨?_, ?_⟩
  · have : ∀ fs, NoDaFs fs → boundDa fs = none := by
      intro fs hfs
      induction fs with
      | nil => rfl
      | cons f fs ih =>
        rw [boundDa, (frameDa_none_iff f).mpr (hfs f (List.mem_cons_self ..))]
        exact ih fun g hg => hfs g (List.mem_cons_of_mem _ hg)
    exact this _ hd
  · intro t h1 h2
    obtain ⟨k1, ka⟩ := takes_of_deduce hp h1
    have hno : ∀ f ∈ (absW w).mem.frames, ∀ x, CtxCell.obj t x ∉ f := fun f hf x hx => h2 (deduce_of_takes (h.noSlot f hf t x hx k1) ka)
    have : ∀ fs, NoDaFs fs → (∀ f ∈ fs, ∀ x, CtxCell.obj t x ∉ f) → boundCell t fs = none := by
      intro fs hfs hn
      induction fs with
      | nil => rfl
      | cons f fs ih =>
        have hpl : PlainCells f := by
          intro hm
          obtain ⟨c, hc, e⟩ := List.mem_map.mp hm
          cases c with
          | obj _ _ => cases e
          | da k ns => exact hfs f (List.mem_cons_self ..) k ns hc
        rw [boundCell, (frameCell_none_iff hpl).mpr (by
          intro hm
          obtain ⟨c, hc, e⟩ := List.mem_map.mp hm
          cases c with
          | obj u x => cases e; exact hn f (List.mem_cons_self ..) x hc
          | da k ns => cases e)]
        exact ih (fun g hg => hfs g (List.mem_cons_of_mem _ hg)) fun g hg => hn g (List.mem_cons_of_mem _ hg)
    exact this _ hd hno

/-- From the two runs on abstract error storage to the threads. -/
theorem split_transfer {p q : Prog} (hwf : p.WF cfg false) {w : World PtrStore} (hw : ThreadOk w) (hn : NoCapturingScope w)
    (h : ∀ o v, eval cfg p (absW w) = some (o, v) → ∃ v', eval cfg q (absW w) = some (o, v') ∧ AgreeBelow Eq 0 v v') :
    ∃ o w1 w2, eval cfg p w = some (o, w1) ∧ eval cfg q w = some (o, w2) ∧ SameState w1 w2 ∧ ThreadOk w2 ∧ w2.trace.map Event.anyIndex = w1.trace.map Event.anyIndex := by
  obtain ⟨o, w1, e1⟩ := eval_total hwf hw (fun _ => hn)
  obtain ⟨e2, t1, _, _⟩ := eval_abs hwf hw (fun _ => hn) e1
  obtain ⟨v2, e3, a⟩ := h _ _ e2
  obtain ⟨top, b, b', ht, f1, f2, rfl⟩ := a.frames
  have hf : v2.mem.frames = (absW w1).mem.frames := by rw [f1, f2]
  have hg : v2.Good := by
    refine ⟨?_, ?_, ?_, ?_⟩
    · rw [a.cur]; exact t1.good.cur
    · rw [a.counter]; exact t1.good.counter
    · rw [a.handling]; exact t1.good.handling
    · rw [hf]; exact t1.good.frames
  obtain ⟨w2, e4, e5, t2⟩ := run_abs (sim_eval cfg q) hw e3 hg
  subst e5
  exact ⟨o, w1, w2, e1, e4, ⟨a.cur, a.counter, a.ticks, a.handling, hf⟩, t2, a.trace⟩

theorem joined_first (g : Nat → List ArgVal → Val) (b2 : Nat → List ArgVal → Prog) (i : Nat) (args : List ArgVal) (h : i < H1.length) :
    (eval cfg (joined H1 g b2 i args) : Comp AbsStore Out) = pure (.val (g i args)) := by
  unfold joined
  rw [if_pos h]
  rfl

theorem joined_second (g : Nat → List ArgVal → Val) (b2 : Nat → List ArgVal → Prog) (i : Nat) (args : List ArgVal) :
    Same Eq 0 0 (eval cfg (b2 i args) : Comp AbsStore Out) (eval cfg (joined H1 g b2 (i + H1.length) args)) := by
  unfold joined
  rw [if_neg (by omega), Nat.add_sub_cancel]
  exact keeps_eval below_eq _

/-- **C78, try_handle_all.** A `try_handle_some` with handlers `H1` that return values, directly in a `try_handle_all` with handlers `H2`, does the same as one `try_handle_all` with the
handlers `H1` followed by `H2`, whatever the block does: same outcome, same state of error storage, current error, id counter and exceptions; in the same order, the same ids are generated, the
same functions called, the same objects reported and transported, and handlers called for the same errors with the same arguments. -/
theorem C78_all (p : Prog) (g : Nat → List ArgVal → Val) (b2 : Nat → List ArgVal → Prog) (hp1 : PlainSpecs H1) (hp2 : PlainSpecs H2)
    (hwf : (Prog.handleAll H2 (.handleSome H1 p fun i args => .ret (.val (g i args))) b2).WF cfg false) (w : World PtrStore) (hw : ThreadOk w) (hu : Unconcerned H1 H2 w) :
    ∃ o w1 w2, eval cfg (.handleAll H2 (.handleSome H1 p fun i args => .ret (.val (g i args))) b2) w = some (o, w1) ∧
      eval cfg (.handleAll (H1 ++ H2) p (joined H1 g b2)) w = some (o, w2) ∧ SameState w1 w2 ∧ ThreadOk w2 ∧ w2.trace.map Event.anyIndex = w1.trace.map Event.anyIndex :=
  split_transfer hwf hw hu.noCapture fun _ _ h =>
    split_all hp1 hp2 hwf.1 (hu.around hp1) (keeps_eval (below_split _ _) p) (fun _ _ => rfl) (joined_first g b2) (joined_second g b2) h

/-- **C78, try_handle_some.** The same for `try_handle_some` in `try_handle_some`; the handlers `H2` may do anything but return an error. -/
theorem C78_some (p : Prog) (g : Nat → List ArgVal → Val) (b2 : Nat → List ArgVal → Prog) (hp1 : PlainSpecs H1) (hp2 : PlainSpecs H2) (hne : ∀ i args, (b2 i args).NoErr)
    (hwf : (Prog.handleSome H2 (.handleSome H1 p fun i args => .ret (.val (g i args))) b2).WF cfg false) (w : World PtrStore) (hw : ThreadOk w) (hu : Unconcerned H1 H2 w) :
    ∃ o w1 w2, eval cfg (.handleSome H2 (.handleSome H1 p fun i args => .ret (.val (g i args))) b2) w = some (o, w1) ∧
      eval cfg (.handleSome (H1 ++ H2) p (joined H1 g b2)) w = some (o, w2) ∧ SameState w1 w2 ∧ ThreadOk w2 ∧ w2.trace.map Event.anyIndex = w1.trace.map Event.anyIndex :=
  split_transfer hwf hw hu.noCapture fun _ _ h =>
    split_some hp1 hp2 (hu.around hp1) (keeps_eval (below_split _ _) p) (fun _ _ => rfl) (joined_first g b2) (joined_second g b2) (fun i args => post_eval cfg _ (hne i args)) h

/-- **C78, try_catch.** The same for `try_catch` in `try_catch`. -/
theorem C78_catch (p : Prog) (g : Nat → List ArgVal → Val) (b2 : Nat → List ArgVal → Prog) (hp1 : PlainSpecs H1) (hp2 : PlainSpecs H2)
    (hwf : (Prog.tryCatch H2 (.tryCatch H1 p fun i args => .ret (.val (g i args))) b2).WF cfg false) (w : World PtrStore) (hw : ThreadOk w) (hu : Unconcerned H1 H2 w) :
    ∃ o w1 w2, eval cfg (.tryCatch H2 (.tryCatch H1 p fun i args => .ret (.val (g i args))) b2) w = some (o, w1) ∧
      eval cfg (.tryCatch (H1 ++ H2) p (joined H1 g b2)) w = some (o, w2) ∧ SameState w1 w2 ∧ ThreadOk w2 ∧ w2.trace.map Event.anyIndex = w1.trace.map Event.anyIndex :=
  split_transfer hwf hw hu.noCapture fun _ _ h =>
    split_catch hp1 hp2 (hu.around hp1) (keeps_eval (below_split _ _) p) (fun _ _ => rfl) (joined_first g b2) (joined_second g b2) h

/-! ## Examples -/

/-- An operation that fails with objects of types 10 and 20; a guard adds another one of type 30. -/
def exSplitBlock : Prog := .onError [.item (.obj 30 4)] (.newError [.obj 10 1, .obj 20 2] fun a => .ret (.err (.plain a)))

/-- The same with an exception. -/
def exSplitThrow : Prog := .newError [.obj 10 1, .obj 20 2] fun a => .ret (.exc { tag := 1, isStd := true, idSrc := .base a, casts := [], clear := true })

/-- The first handlers: for a 10 that is 7; for 20 and 40. -/
def exSplit1 : List (List Arg) := [[.pred 10 (· == 7), .ptr 30], [.req 20, .req 40]]

/-- The other handlers: for 40; for any error, with 20 and 30 if available. -/
def exSplit2 : List (List Arg) := [[.req 40], [.ptr 20, .ptr 30, .info]]

def exSplitVal : List ArgVal → Val
  | [.ptr _ (some a), .ptr _ (some b), .info ..] => 10 * a + b
  | _ => 0

def exSplitNested (p : Prog) : Prog := .handleAll exSplit2 (.handleSome exSplit1 p fun i _ => .ret (.val i)) fun _ args => .ret (.val (exSplitVal args))
def exSplitFlat (p : Prog) : Prog := .handleAll (exSplit1 ++ exSplit2) p (joined exSplit1 (fun i _ => i) fun _ args => .ret (.val (exSplitVal args)))
def exSplitSome (p : Prog) : Prog := .handleSome exSplit2 (.handleSome exSplit1 p fun i _ => .ret (.val i)) fun _ args => .ret (.val (exSplitVal args))
def exSplitCatch (p : Prog) : Prog := .tryCatch exSplit2 (.tryCatch exSplit1 p fun i _ => .ret (.val i)) fun _ args => .ret (.val (exSplitVal args))

/-- The hypotheses hold. -/
example : PlainSpecs exSplit1 ∧ PlainSpecs exSplit2 ∧ (exSplitNested exSplitBlock).WF exCfg false ∧ (exSplitSome exSplitBlock).WF exCfg false ∧ (exSplitCatch exSplitThrow).WF exCfg false ∧
    Unconcerned exSplit1 exSplit2 (initThread 1#32) := by
  have hb : ∀ da, exSplitBlock.WF exCfg da := fun da => ⟨by simp [OnItem.Ok, Item.Ok], by simp [Item.Ok], fun id hid => trivial⟩
  have ht : ∀ da, exSplitThrow.WF exCfg da := fun da => ⟨by simp [Item.Ok], fun id hid => hid⟩
  exact ⟨by simp [PlainSpecs, exSplit1, Arg.Plain, tySrcLoc], by simp [PlainSpecs, exSplit2, Arg.Plain, tySrcLoc],
    ⟨⟨[[.req 40]], _, rfl, rfl⟩, ⟨hb _, fun i args _ => trivial⟩, fun i args _ => ⟨trivial, by simp [Prog.NoErr]⟩⟩, ⟨⟨hb _, fun i args _ => trivial⟩, fun i args _ => trivial⟩,
    ⟨⟨ht _, fun i args _ => trivial⟩, fun i args _ => trivial⟩, ⟨(noCapturing_iff _).mpr (by intro f hf; cases hf), by intro s hs; cases hs⟩⟩

/-- Both run the last handler, with the objects of types 20 and 30. -/
example : (eval exCfg (exSplitNested exSplitBlock) (initThread 1#32)).map (·.1) = some (.val 24) ∧
    (eval exCfg (exSplitFlat exSplitBlock) (initThread 1#32)).map (·.1) = some (.val 24) := by
  decide +kernel

/-! ## The enclosing scopes -/

/-- A scope that takes 10 and knows the last error; in it, an error with a 10 is handled, by `h`. -/
def exSplitAround (h : Prog) : Prog :=
  .handleAll [[.ptr 10]] (.bind h (fun _ => .currentError fun a => .ret (.err (.plain a))) (fun r => .ret (.err r)))
    (fun _ args => match args with | [.ptr _ (some v)] => .ret (.val v) | _ => .ret (.val 0))

def exSplitFail : Prog := .newError [.obj 10 5] fun a => .ret (.err (.plain a))

/-- **C78, refuted without the condition on the enclosing scopes.** If an enclosing scope has a slot for a type that is taken by the first handlers but not by the others, an error that is handled by
the outer one of two nested scopes leaves its object there: it is unloaded from the inner scope directly into the enclosing one, past the scope that handles the error. With a single scope it is not. -/
theorem C78_refuted_enclosing :
    (eval exCfg (exSplitAround (.handleAll [[]] (.handleSome [[.pred 10 (· == 7)]] exSplitFail fun _ _ => .ret (.val 0)) fun _ _ => .ret (.val 1))) (initThread 1#32)).map (·.1) = some (.val 5) ∧
    (eval exCfg (exSplitAround (.handleAll ([[.pred 10 (· == 7)]] ++ [[]]) exSplitFail (joined [[.pred 10 (· == 7)]] (fun _ _ => 0) fun _ _ => .ret (.val 1)))) (initThread 1#32)).map (·.1) =
      some (.val 0) := by
  decide +kernel

/-- A scope that takes 10; in it, an error is handled by `h`, which returns an error. -/
def exSplitIn (h : Prog) : Prog := .handleAll [[.ptr 10]] h (fun _ args => match args with | [.ptr _ (some v)] => .ret (.val v) | _ => .ret (.val 0))

/-- Reports error 5 with a 10, and then another error, which it returns. -/
def exSplitTwo : Prog := .newError [.obj 10 1] fun _ => .newError [] fun b => .ret (.err (.plain b))

/-- **C78, refuted for handlers that return errors.** If one of the other handlers of `try_handle_some` returns an error, and this is an error reported before the one it handles, the object of that
error is passed on by a single scope, but not by nested scopes: the inner one passes on objects of the error it did not handle only. -/
theorem C78_refuted_returned :
    (eval exCfg (exSplitIn (.handleSome [[.ptr 10]] (.handleSome [[.pred 10 (· == 7)]] exSplitTwo fun _ _ => .ret (.val 0)) fun _ _ => .ret (.err (.plain 5#32)))) (initThread 1#32)).map (·.1) =
      some (.val 0) ∧
    (eval exCfg (exSplitIn (.handleSome ([[.pred 10 (· == 7)]] ++ [[.ptr 10]]) exSplitTwo (joined [[.pred 10 (· == 7)]] (fun _ _ => 0) fun _ _ => .ret (.err (.plain 5#32))))) (initThread 1#32)).map
      (·.1) = some (.val 1) := by
  decide +kernel

end Leaf
