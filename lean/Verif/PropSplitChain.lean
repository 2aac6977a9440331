import Verif.PropSplit

/-!
# C78: any number of nested scopes
-/

namespace Leaf

variable {cfg : Cfg}

/-! ## Specification -/

/-- The handlers of a scope, which return values. -/
abbrev Group := List (List Arg) × (Nat → List ArgVal → Val)

/-- The block in one `try_handle_some` for each of the groups; the first group is the innermost. -/
def inSome (p : Prog) : List Group → Prog
  | [] => p
  | G :: gs => inSome (.handleSome G.1 p fun i args => .ret (.val (G.2 i args))) gs

/-- The same with `try_catch`. -/
def inCatch (p : Prog) : List Group → Prog
  | [] => p
  | G :: gs => inCatch (.tryCatch G.1 p fun i args => .ret (.val (G.2 i args))) gs

/-- All the handlers, in this order, in one list. -/
def chainSpecs (H : List (List Arg)) : List Group → List (List Arg)
  | [] => H
  | G :: gs => G.1 ++ chainSpecs H gs

/-- What they do. -/
def chainBody (b : Nat → List ArgVal → Prog) : List Group → Nat → List ArgVal → Prog
  | [], i, args => b i args
  | G :: gs, i, args => if i < G.1.length then .ret (.val (G.2 i args)) else chainBody b gs (i - G.1.length) args

/-- Both programs end with the same outcome, in the same state; they report the same events, but for the positions of handlers in their lists. -/
def SameRuns (cfg : Cfg) (p q : Prog) (w : World PtrStore) : Prop :=
  ∃ o w1 w2, eval cfg p w = some (o, w1) ∧ eval cfg q w = some (o, w2) ∧ SameState w1 w2 ∧ w2.trace.map Event.anyIndex = w1.trace.map Event.anyIndex

/-! ## Proofs -/

theorem SameRuns.trans {p q r : Prog} {w : World PtrStore} (h : SameRuns cfg p q w) (h' : SameRuns cfg q r w) : SameRuns cfg p r w := by
  obtain ⟨o, w1, w2, e1, e2, s, t⟩ := h
  obtain ⟨o', w3, w4, e3, e4, s', t'⟩ := h'
  rw [e2] at e3
  cases e3
  exact ⟨o, w1, w4, e1, e4, ⟨s'.cur.trans s.cur, s'.counter.trans s.counter, s'.ticks.trans s.ticks, s'.handling.trans s.handling, s'.scopes.trans s.scopes⟩, t'.trans t⟩

theorem capturing_plain {H : List (List Arg)} (h : PlainSpecs H) : capturing cfg H = false := by
  unfold capturing
  rw [Bool.and_eq_false_iff]
  right
  rw [Bool.eq_false_iff]
  intro hc
  obtain ⟨args, h1, h2⟩ := List.any_eq_true.mp hc
  obtain ⟨a, h3, h4⟩ := List.any_eq_true.mp h2
  have := h args h1 a h3
  cases a <;> simp [Arg.Plain] at this h4

theorem plain_chain {H : List (List Arg)} (h : PlainSpecs H) : ∀ {gs : List Group}, (∀ G ∈ gs, PlainSpecs G.1) → PlainSpecs (chainSpecs H gs)
  | [], _ => h
  | G :: gs, hg => by
    intro args ha
    rcases List.mem_append.mp ha with h1 | h1
    · exact hg G (List.mem_cons_self ..) args h1
    · exact plain_chain h (fun G' h' => hg G' (List.mem_cons_of_mem _ h')) args h1

theorem valid_chain {H : List (List Arg)} (h : ValidAll H) : ∀ gs : List Group, ValidAll (chainSpecs H gs)
  | [] => h
  | G :: gs => by
    obtain ⟨init, last, e, hm⟩ := valid_chain h gs
    exact ⟨G.1 ++ init, last, by rw [chainSpecs, e, List.append_assoc], hm⟩

theorem takes_chain {H : List (List Arg)} {t : Ty} (h : TakesObj H t) : ∀ gs : List Group, TakesObj (chainSpecs H gs) t
  | [] => h
  | G :: gs => by
    obtain ⟨args, h1, h2⟩ := takes_chain h gs
    exact ⟨args, List.mem_append_right _ h1, h2⟩

theorem body_chain {P : Prog → Prop} (hv : ∀ v, P (.ret (.val v))) {b : Nat → List ArgVal → Prog} {args : List ArgVal} (h : ∀ i, P (b i args)) :
    ∀ (gs : List Group) (i : Nat), P (chainBody b gs i args)
  | [], i => h i
  | G :: gs, i => by
    unfold chainBody
    split
    · exact hv _
    · exact body_chain hv h gs _

theorem chainBody_joined (b : Nat → List ArgVal → Prog) (G : Group) (gs : List Group) : chainBody b (G :: gs) = joined G.1 G.2 (chainBody b gs) := rfl

theorem unconcerned_chain {H : List (List Arg)} {G : Group} {gs : List Group} {w : World PtrStore} (h : Unconcerned ((G :: gs).flatMap (·.1)) H w) :
    Unconcerned G.1 (chainSpecs H gs) w ∧ Unconcerned (gs.flatMap (·.1)) H w := by
  refine ⟨⟨h.noCapture, fun s hs t x hx ht => takes_chain (h.noSlot s hs t x hx ?_) gs⟩, ⟨h.noCapture, fun s hs t x hx ht => h.noSlot s hs t x hx ?_⟩⟩
  · obtain ⟨args, h1, h2⟩ := ht
    exact ⟨args, by rw [List.flatMap_cons]; exact List.mem_append_left _ h1, h2⟩
  · obtain ⟨args, h1, h2⟩ := ht
    exact ⟨args, by rw [List.flatMap_cons]; exact List.mem_append_right _ h1, h2⟩

theorem sameRuns_self {p : Prog} (hwf : p.WF cfg false) {w : World PtrStore} (hw : ThreadOk w) (hn : NoCapturingScope w) : SameRuns cfg p p w := by
  obtain ⟨o, w1, e1⟩ := eval_total hwf hw (fun _ => hn)
  exact ⟨o, w1, w1, e1, e1, ⟨rfl, rfl, rfl, rfl, rfl⟩, rfl⟩

/-! ## The properties -/

/-- **C78, any number of scopes.** A block in any number of nested `try_handle_some`, the handlers of which return values, in a `try_handle_all`, does the same as one `try_handle_all` with the handlers
of all of them, those of the innermost scope first. -/
theorem C78_chain_all (H : List (List Arg)) (b : Nat → List ArgVal → Prog) (hp : PlainSpecs H) (hv : ValidAll H)
    (hb : ∀ i args, (∀ a ∈ args, ArgVal.Ok a) → (b i args).WF cfg false ∧ (b i args).NoErr) (w : World PtrStore) (hw : ThreadOk w) :
    ∀ (gs : List Group) (p : Prog), p.WF cfg false → (∀ G ∈ gs, PlainSpecs G.1) → Unconcerned (gs.flatMap (·.1)) H w →
      SameRuns cfg (.handleAll H (inSome p gs) b) (.handleAll (chainSpecs H gs) p (chainBody b gs)) w
  | [], p, hwf, _, hu => sameRuns_self (p := .handleAll H p b) ⟨hv, by rw [capturing_plain hp]; exact hwf, hb⟩ hw hu.noCapture
  | G :: gs, p, hwf, hg, hu => by
    have hG := hg G (List.mem_cons_self ..)
    have hgs : ∀ G' ∈ gs, PlainSpecs G'.1 := fun G' h' => hg G' (List.mem_cons_of_mem _ h')
    obtain ⟨u1, u2⟩ := unconcerned_chain hu
    have hin : (Prog.handleSome G.1 p fun i args => .ret (.val (G.2 i args))).WF cfg false := ⟨by rw [capturing_plain hG]; exact hwf, fun _ _ _ => trivial⟩
    refine (C78_chain_all H b hp hv hb w hw gs _ hin hgs u2).trans ?_
    obtain ⟨o, w1, w2, e1, e2, s, _, t⟩ := C78_all p G.2 (chainBody b gs) hG (plain_chain hp hgs)
      ⟨valid_chain hv gs, by rw [capturing_plain (plain_chain hp hgs)]; exact hin, fun i args ha => body_chain (P := fun q => q.WF cfg false ∧ q.NoErr) (fun v => ⟨trivial, by simp [Prog.NoErr]⟩)
        (fun i => hb i args ha) gs i⟩ w hw u1
    exact ⟨o, w1, w2, e1, e2, s, t⟩

/-- **C78, any number of scopes,** in a `try_handle_some`. -/
theorem C78_chain_some (H : List (List Arg)) (b : Nat → List ArgVal → Prog) (hp : PlainSpecs H) (hb : ∀ i args, (∀ a ∈ args, ArgVal.Ok a) → (b i args).WF cfg false)
    (hne : ∀ i args, (b i args).NoErr) (w : World PtrStore) (hw : ThreadOk w) :
    ∀ (gs : List Group) (p : Prog), p.WF cfg false → (∀ G ∈ gs, PlainSpecs G.1) → Unconcerned (gs.flatMap (·.1)) H w →
      SameRuns cfg (.handleSome H (inSome p gs) b) (.handleSome (chainSpecs H gs) p (chainBody b gs)) w
  | [], p, hwf, _, hu => sameRuns_self (p := .handleSome H p b) ⟨by rw [capturing_plain hp]; exact hwf, hb⟩ hw hu.noCapture
  | G :: gs, p, hwf, hg, hu => by
    have hG := hg G (List.mem_cons_self ..)
    have hgs : ∀ G' ∈ gs, PlainSpecs G'.1 := fun G' h' => hg G' (List.mem_cons_of_mem _ h')
    obtain ⟨u1, u2⟩ := unconcerned_chain hu
    have hin : (Prog.handleSome G.1 p fun i args => .ret (.val (G.2 i args))).WF cfg false := ⟨by rw [capturing_plain hG]; exact hwf, fun _ _ _ => trivial⟩
    refine (C78_chain_some H b hp hb hne w hw gs _ hin hgs u2).trans ?_
    obtain ⟨o, w1, w2, e1, e2, s, _, t⟩ := C78_some p G.2 (chainBody b gs) hG (plain_chain hp hgs)
      (fun i args => body_chain (P := Prog.NoErr) (fun v => by simp [Prog.NoErr]) (fun i => hne i args) gs i)
      ⟨by rw [capturing_plain (plain_chain hp hgs)]; exact hin, fun i args ha => body_chain (P := fun q => q.WF cfg false) (fun v => trivial) (fun i => hb i args ha) gs i⟩ w hw u1
    exact ⟨o, w1, w2, e1, e2, s, t⟩

/-- **C78, any number of scopes,** with `try_catch`. -/
theorem C78_chain_catch (H : List (List Arg)) (b : Nat → List ArgVal → Prog) (hp : PlainSpecs H) (hb : ∀ i args, (∀ a ∈ args, ArgVal.Ok a) → (b i args).WF cfg false)
    (w : World PtrStore) (hw : ThreadOk w) :
    ∀ (gs : List Group) (p : Prog), p.WF cfg false → (∀ G ∈ gs, PlainSpecs G.1) → Unconcerned (gs.flatMap (·.1)) H w →
      SameRuns cfg (.tryCatch H (inCatch p gs) b) (.tryCatch (chainSpecs H gs) p (chainBody b gs)) w
  | [], p, hwf, _, hu => sameRuns_self (p := .tryCatch H p b) ⟨by rw [capturing_plain hp]; exact hwf, hb⟩ hw hu.noCapture
  | G :: gs, p, hwf, hg, hu => by
    have hG := hg G (List.mem_cons_self ..)
    have hgs : ∀ G' ∈ gs, PlainSpecs G'.1 := fun G' h' => hg G' (List.mem_cons_of_mem _ h')
    obtain ⟨u1, u2⟩ := unconcerned_chain hu
    have hin : (Prog.tryCatch G.1 p fun i args => .ret (.val (G.2 i args))).WF cfg false := ⟨by rw [capturing_plain hG]; exact hwf, fun _ _ _ => trivial⟩
    refine (C78_chain_catch H b hp hb w hw gs _ hin hgs u2).trans ?_
    obtain ⟨o, w1, w2, e1, e2, s, _, t⟩ := C78_catch p G.2 (chainBody b gs) hG (plain_chain hp hgs)
      ⟨by rw [capturing_plain (plain_chain hp hgs)]; exact hin, fun i args ha => body_chain (P := fun q => q.WF cfg false) (fun v => trivial) (fun i => hb i args ha) gs i⟩ w hw u1
    exact ⟨o, w1, w2, e1, e2, s, t⟩

/-! ## Examples -/

/-- Two groups: for a 10 that is 7, with a 30; for 20 and 40. -/
def exChain : List Group := [([[.pred 10 (· == 7), .ptr 30]], fun _ _ => 1), ([[.req 20, .req 40], [.req 40]], fun i _ => i + 2)]

/-- The hypotheses hold. -/
example : PlainSpecs exSplit2 ∧ ValidAll exSplit2 ∧ (∀ G ∈ exChain, PlainSpecs G.1) ∧ Unconcerned (exChain.flatMap (·.1)) exSplit2 (initThread 1#32) ∧ exSplitBlock.WF exCfg false :=
  ⟨by simp [PlainSpecs, exSplit2, Arg.Plain, tySrcLoc], ⟨[[.req 40]], _, rfl, rfl⟩, by simp [exChain, PlainSpecs, Arg.Plain, tySrcLoc],
    ⟨(noCapturing_iff _).mpr (by intro f hf; cases hf), by intro s hs; cases hs⟩, ⟨by simp [OnItem.Ok, Item.Ok], by simp [Item.Ok], fun id hid => trivial⟩⟩

/-- The error passes both groups and is handled by the last handler, with its objects. -/
example : (eval exCfg (.handleAll exSplit2 (inSome exSplitBlock exChain) fun _ args => .ret (.val (exSplitVal args))) (initThread 1#32)).map (·.1) = some (.val 24) ∧
    (eval exCfg (.handleAll (chainSpecs exSplit2 exChain) exSplitBlock (chainBody (fun _ args => .ret (.val (exSplitVal args))) exChain)) (initThread 1#32)).map (·.1) = some (.val 24) := by
  decide +kernel

end Leaf
