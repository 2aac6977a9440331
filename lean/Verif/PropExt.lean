import Verif.ExtTravel

/-!
# C55: external result types

Programs whose functions return a result type with a `std::error_code` (`XProg`, ExtModel.lean). The theorems:

* no undefined behaviour (`C55_safe`);
* if all codes come from `error_id`s, the program does what it does with `leaf::result` (`C55_leaf`);
* a code of another category passes any number of scopes without suitable handlers, and the first suitable handler is called with it
  (`C55_passes`, `C55_handled_all`, `C55_handled_some`).
-/

namespace Leaf

/-! ## Specification -/

/-- What a layer of code around the function that returned the code does. -/
inductive XLayer
  /-- `try_handle_some` -/
  | handle (specs : List (List Arg)) (body : Nat → List ArgVal → XProg)
  /-- `try_catch` -/
  | catch_ (specs : List (List Arg)) (body : Nat → List ArgVal → XProg)
  /-- `auto g = on_error(items...)` -/
  | guard (items : List OnItem)
  /-- `if( auto r = f() ) { ... } else return r.error();` -/
  | forward (onValue : Val → XProg)

/-- Put a layer around a program. -/
def XLayer.around : XLayer → XProg → XProg
  | .handle specs body, p => .handleSome specs p body
  | .catch_ specs body, p => .tryCatch specs p body
  | .guard items, p => .onError items p
  | .forward k, p => .bind p k (fun ec => .ret (.err ec))

/-- `return ec;` in the given layers, outermost first. -/
def returned (ls : List XLayer) (ec : ErrorCode) : XProg := ls.foldr XLayer.around (.ret (.err ec))

/-- The layer has no handler for an error of which nothing but the code is known. -/
def XLayer.Passes (cfg : Cfg) (ec : ErrorCode) : XLayer → Prop
  | .handle specs _ => ∀ hd ∈ specs, ¬ SuitableOf cfg (codeOnly ec) none hd
  | _ => True

/-- The handler starts, in a state in which the scope has been left: it is called with `vals`, for an error `id` which is the current error; what
it gets is determined by the code alone. No other handler has been called since `w`. -/
structure CodeHandled (cfg : Cfg) (c : Id) (n : Nat) (ec : ErrorCode) (specs : List (List Arg)) (i : Nat) (w : World PtrStore) (vals : List ArgVal)
    (wh : World PtrStore) : Prop where
  gets : Gets cfg specs (codeOnly ec) wh.cur none i vals
  calls : callsIn wh.trace = (wh.cur, none, i, vals) :: callsIn w.trace
  scopes : shape (scopes wh) = shape (scopes w)
  handling : wh.handling = w.handling
  ok : ThreadOk wh
  start : Start cfg c n wh

/-! ## Safety -/

/-- **C55, safety.** A well-formed program with external results runs without undefined behaviour. -/
theorem C55_safe {cfg : Cfg} {p : XProg} {da : Bool} (hp : p.WF cfg da) {w : World PtrStore} (hw : ThreadOk w) (hda : da = false → NoCapturingScope w) :
    ∃ o w', evalX cfg p w = some (o, w') ∧ o.Ok ∧ ThreadOk w' ∧ shape (scopes w') = shape (scopes w) := by
  obtain ⟨o, w', h1, _, h3, h4, h5⟩ := tot_ptr (sim_evalX (n := 0) cfg p) (tot_evalX cfg p hp _ (fun h => noDa_of (hda h))) hw rfl
  exact ⟨o, w', h1, h5, h3, h4⟩

/-! ## Codes that are error ids -/

theorem sameOut_toX {x : XOut} {o : Out} (h : SameOut x o) : o.toX = x := by
  cases x with
  | val v => cases o <;> simp_all [SameOut, Out.toX]
  | exc e => cases o <;> simp_all [SameOut, Out.toX]
  | err ec =>
    cases o with
    | val v => exact h.elim
    | exc e => exact h.elim
    | err r =>
      obtain ⟨rfl, h2, h3⟩ := h
      cases ec with
      | mk v cat =>
        simp only at h2 h3
        subst h2
        simp only [Out.toX, ErrRes.errId, makeErrorId_of_tagged h3]
        rfl

/-- **C55, the same as `leaf::result`.** If every error code returned is an error id, then the program with `leaf::result` in place of the external
result type does the same: same outcome, same final state, which includes all handlers called, in order, with their arguments. -/
theorem C55_leaf {cfg : Cfg} {p : XProg} {da : Bool} (hp : p.WF cfg da) (hl : p.LeafCodes) {w : World PtrStore} (hw : ThreadOk w)
    (hda : da = false → NoCapturingScope w) : ∃ o w', eval cfg p.withLeaf w = some (o, w') ∧ evalX cfg p w = some (o.toX, w') := by
  obtain ⟨x, o, w', h1, h2, _, _, h5⟩ := both_evalX cfg p hp hl _ (fun h => noDa_of (hda h)) w hw rfl
  exact ⟨o, w', h2, by rw [h1, sameOut_toX h5]⟩

/-! ## Other codes -/

section
variable {cfg : Cfg} {c : Id} {n : Nat} {ec : ErrorCode}

theorem codes_returned (he : ec.Foreign) {ls : List XLayer} (hl : ∀ l ∈ ls, l.Passes cfg ec) : Codes cfg c n ec (2 * ls.length) (returned ls ec) := by
  induction ls with
  | nil => exact codes_ret
  | cons l ls ih =>
    have ih := ih fun x hx => hl x (List.mem_cons_of_mem _ hx)
    have h := hl l (by simp)
    have mono : ∀ {p : XProg}, Codes cfg c n ec (2 * ls.length) p → Codes cfg c n ec (2 * (l :: ls).length) p := by
      intro p hc da w a b d e
      obtain ⟨w1, e1, e2, e3, e4⟩ := hc da w a b d (e.le (by simp only [List.length_cons]; omega))
      exact ⟨w1, e1, e2, Nat.le_trans e3 (by simp only [List.length_cons]; omega), e4⟩
    cases l with
    | handle specs body => exact codes_handle he ih h
    | catch_ specs body => exact mono (codes_catch ih)
    | guard items => exact mono (codes_guard ih)
    | forward k => exact mono (codes_forward ih)

theorem start_of {w : World PtrStore} (h : IdealInv cfg c (fun _ => True) 0 n (absW w)) : Start cfg c n w := ⟨h.counter, h.cur, h.stored⟩

/-- **C55, the code passes scopes.** A code returned through any layers none of which has a handler for it comes out unchanged; no handler is
called. (Each `try_handle_some` generates two ids.) -/
theorem C55_passes (he : ec.Foreign) {ls : List XLayer} {da : Bool} (hp : (returned ls ec).WF cfg da) (hl : ∀ l ∈ ls, l.Passes cfg ec) {w : World PtrStore}
    (hw : ThreadOk w) (hda : da = false → NoCapturingScope w) (hs : Start cfg c n w) (hn : w.ticks + 2 * ls.length ≤ n) (hg : gens cfg.interf n ≤ 2 ^ 30) :
    ∃ w', evalX cfg (returned ls ec) w = some (.err ec, w') ∧ callsIn w'.trace = callsIn w.trace ∧ shape (scopes w') = shape (scopes w) ∧
      w'.handling = w.handling ∧ ThreadOk w' ∧ Start cfg c n w' ∧ w'.ticks ≤ w.ticks + 2 * ls.length := by
  obtain ⟨v, h1, h2, h3, h4, h5, h6, h7, h8⟩ := codes_returned (c := c) (n := n) he hl da (absW w) hp (hs.inv hg hw) (fun h => noDa_of (hda h)) ⟨hn, hg⟩
  obtain ⟨w', e1, rfl, e3⟩ := run_abs (sim_evalX (n := 0) cfg _) hw h1 h4.good
  exact ⟨w', e1, h5, h7, h8, e3, start_of h4, h3⟩

/-- **C55, `try_handle_all`.** The first handler suitable for the code is called, once, with the code, whatever the scopes hold for other errors; what
it returns is returned. -/
theorem C55_handled_all (he : ec.Foreign) {ls : List XLayer} {specs : List (List Arg)} {body : Nat → List ArgVal → XProg} {da : Bool}
    (hp : (XProg.handleAll specs (returned ls ec) body).WF cfg da) (hl : ∀ l ∈ ls, l.Passes cfg ec) {w : World PtrStore} (hw : ThreadOk w)
    (hda : da = false → NoCapturingScope w) (hs : Start cfg c n w) (hn : w.ticks + 2 * ls.length + 1 ≤ n) (hg : gens cfg.interf n ≤ 2 ^ 30) {i : Nat}
    (hi : FirstSuitableOf cfg (codeOnly ec) none specs i) :
    ∃ vals wh o wr, CodeHandled cfg c n ec specs i w vals wh ∧ evalX cfg (body i vals) wh = some (o, wr) ∧
      evalX cfg (.handleAll specs (returned ls ec) body) w = some (o, wr) := by
  obtain ⟨id, vals, s, wh, h⟩ := (codes_returned (c := c) (n := n) he hl).enter he hw hp.2.1 (hs.inv hg hw) (fun h => noDa_of (hda h)) ⟨hn, hg⟩ hi body
  obtain ⟨o, wr, e1, e2, _⟩ := C55_safe (hp.2.2 i vals h.args).1 h.ok (fun h0 => (noCapturing_iff wh).mpr (h.shape ▸ noDa_of (hda h0)))
  have hno := post_evalX cfg _ (hp.2.2 i vals h.args).2 _ _ _ e1
  refine ⟨vals, wh, o, wr, ⟨h.cur ▸ h.gets, h.cur ▸ h.calls, h.shape, h.handling, h.ok, start_of h.inv⟩, e1, ?_⟩
  rw [h.all hp.1, bind_apply, e1, Option.bind_some]
  cases o with
  | err ec => exact absurd rfl (hno ec)
  | _ => rfl

/-- **C55, `try_handle_some`.** The same; if the handler returns an error, the objects stored for *that* error move on, and no further handler is
called. -/
theorem C55_handled_some (he : ec.Foreign) {ls : List XLayer} {specs : List (List Arg)} {body : Nat → List ArgVal → XProg} {da : Bool}
    (hp : (XProg.handleSome specs (returned ls ec) body).WF cfg da) (hl : ∀ l ∈ ls, l.Passes cfg ec) {w : World PtrStore} (hw : ThreadOk w)
    (hda : da = false → NoCapturingScope w) (hs : Start cfg c n w) (hn : w.ticks + 2 * ls.length + 1 ≤ n) (hg : gens cfg.interf n ≤ 2 ^ 30) {i : Nat}
    (hi : FirstSuitableOf cfg (codeOnly ec) none specs i) :
    ∃ vals wh o wr w', CodeHandled cfg c n ec specs i w vals wh ∧ evalX cfg (body i vals) wh = some (o, wr) ∧
      evalX cfg (.handleSome specs (returned ls ec) body) w = some (o, w') ∧ callsIn w'.trace = callsIn wr.trace := by
  obtain ⟨id, vals, s, wh, h⟩ := (codes_returned (c := c) (n := n) he hl).enter he hw hp.1 (hs.inv hg hw) (fun h => noDa_of (hda h)) ⟨hn, hg⟩ hi body
  obtain ⟨o, wr, e1, e2, e3, _⟩ := C55_safe (hp.2 i vals h.args) h.ok (fun h0 => (noCapturing_iff wh).mpr (h.shape ▸ noDa_of (hda h0)))
  obtain ⟨w', f1, _, f3⟩ := unloadFailed_ptr (cfg := cfg) e2 h.scope e3
  refine ⟨vals, wh, o, wr, w', ⟨h.cur ▸ h.gets, h.cur ▸ h.calls, h.shape, h.handling, h.ok, start_of h.inv⟩, e1, ?_, f3⟩
  rw [h.some, bind_apply, e1, Option.bind_some, bind_apply, f1]
  rfl

end

/-! ## The hypotheses can be met -/

/-- A program run in a fresh thread. -/
def runFreshX (cfg : Cfg) (p : XProg) : Option (XOut × List Scope × List Event) :=
  ((evalX cfg p : Comp PtrStore XOut) (initThread 1#32)).map fun r => (r.1, scopes r.2, r.2.trace)

/-- Code 7 of the second category. -/
def exCode : ErrorCode := ⟨7#32, 1⟩

theorem exCode_ok : exCode.Foreign ∧ exCode.Ok := by
  refine ⟨⟨by decide, by decide⟩, by decide, fun h => absurd h (by decide)⟩

/-- A guard around a scope with a handler for something else, around a `try_catch`. -/
def exXLayers : List XLayer :=
  [.guard [.item (.obj 13 4)], .handle [[.req 10]] (fun i _ => .ret (.val i)), .catch_ [[]] (fun i _ => .ret (.val i)), .forward (fun v => .ret (.val v))]

def exSpecsX : List (List Arg) := [[.req 13], [.pred tyErrorCode (· == exCode.toVal), .ptr 13], []]

theorem exXLayers_wf (cfg : Cfg) (da : Bool) : (returned exXLayers exCode).WF cfg da := by
  refine ⟨by simp [OnItem.Ok, Item.Ok], ⟨⟨⟨exCode_ok.2, fun _ => trivial, fun ec h => h⟩, fun _ _ _ => trivial⟩, fun _ _ _ => trivial⟩⟩

theorem exXLayers_pass : ∀ l ∈ exXLayers, l.Passes exCfg exCode := by
  intro l hl
  simp only [exXLayers, List.mem_cons, List.not_mem_nil, or_false] at hl
  rcases hl with rfl | rfl | rfl | rfl
  · trivial
  · intro hd hm h
    simp only [List.mem_singleton] at hm
    subst hm
    obtain ⟨v, h⟩ := h (.req 10) (by simp)
    rcases h with ⟨_, h⟩ | ⟨_, e, h, _⟩
    · exact absurd h (by simp [codeOnly, tyErrorCode])
    · cases h
  · trivial
  · trivial

theorem exSpecs_first : FirstSuitableOf exCfg (codeOnly exCode) none exSpecsX 1 := by
  refine ⟨⟨_, rfl, ?_⟩, ?_⟩
  · intro a ha
    simp only [List.mem_cons, List.not_mem_nil, or_false] at ha
    rcases ha with rfl | rfl
    · exact ⟨exCode.toVal, Or.inl ⟨rfl, rfl⟩, by simp⟩
    · trivial
  · intro j hj hd hh h
    cases (Nat.lt_one_iff.mp hj)
    cases hh
    obtain ⟨v, h⟩ := h (.req 13) (by simp)
    rcases h with ⟨_, h⟩ | ⟨_, e, h, _⟩
    · exact absurd h (by simp [codeOnly, tyErrorCode])
    · cases h

/-- Hypotheses of `C55_passes`, `C55_handled_all` and `C55_handled_some`. -/
example : exCode.Foreign ∧ (XProg.handleAll exSpecsX (returned exXLayers exCode) (fun i _ => .ret (.val i))).WF exCfg false ∧
    (XProg.handleSome exSpecsX (returned exXLayers exCode) (fun i _ => .ret (.val i))).WF exCfg false ∧ (∀ l ∈ exXLayers, l.Passes exCfg exCode) ∧
    ThreadOk (initThread 5#32) ∧ NoCapturingScope (initThread 5#32) ∧ Start exCfg 5#32 10 (initThread 5#32) ∧
    (initThread 5#32).ticks + 2 * exXLayers.length + 1 ≤ 10 ∧ gens exCfg.interf 10 ≤ 2 ^ 30 ∧ FirstSuitableOf exCfg (codeOnly exCode) none exSpecsX 1 :=
  ⟨exCode_ok.1, ⟨⟨[[.req 13], [.pred tyErrorCode (· == exCode.toVal), .ptr 13]], [], rfl, rfl⟩, exXLayers_wf _ _, fun _ _ _ => ⟨trivial, by intro r; simp⟩⟩,
    ⟨exXLayers_wf _ _, fun _ _ _ => trivial⟩, exXLayers_pass, threadOk_init (by decide), (fun ctx h => nomatch h), start_init _ (by decide) _, by decide, by decide,
    exSpecs_first⟩

/-- What happens then: the code is imported three times; the object loaded by the guard belongs to the second id. -/
example : runFreshX exCfg (.handleAll exSpecsX (returned exXLayers exCode) (fun i _ => .ret (.val i))) =
    some (.val 1, [], [.handled 13#32 none 1 [.obj tyErrorCode exCode.toVal, .ptr 13 none], .offered 13#32 tyErrorCode exCode.toVal, .gen 13#32,
      .offered 9#32 13 4, .offered 9#32 tyErrorCode exCode.toVal, .gen 9#32, .offered 5#32 tyErrorCode exCode.toVal, .gen 5#32]) := by
  decide +kernel

/-- A function returning `new_error(obj)` as an external result; the objects pass a scope and a guard adds one. -/
def exLeafCodes : XProg :=
  .handleAll [[.req 10, .ptr 13], []]
    (.onError [.item (.obj 13 4)]
      (.handleSome [[.req 12]] (.call (report [.obj 10 1] none) (fun v => .ret (.val v)) (fun r => .ret (.err (toErrorCode r.errId)))) (fun i _ => .ret (.val i))))
    (fun i _ => .ret (.val i))

/-- Hypotheses of `C55_safe` and `C55_leaf`. -/
example : exLeafCodes.WF exCfg false ∧ exLeafCodes.LeafCodes ∧ ThreadOk (initThread 1#32) ∧ NoCapturingScope (initThread 1#32) := by
  refine ⟨⟨⟨[[.req 10, .ptr 13]], [], rfl, rfl⟩, ⟨by simp [OnItem.Ok, Item.Ok], ⟨⟨?_, fun _ => trivial, fun r _ => ⟨?_, fun _ => errId_tagged r⟩⟩, fun _ _ _ => trivial⟩⟩,
    fun _ _ _ => ⟨trivial, by intro r; simp⟩⟩, ⟨?_, fun _ _ => by intro r; simp⟩, threadOk_init (by decide), (fun ctx h => nomatch h)⟩
  · refine ⟨by simp [Item.Ok], fun id _ => trivial⟩
  · exact tagged_ne_zero (errId_tagged r)
  · exact ⟨⟨fun _ => by intro r; simp, fun r ec h => by cases h; rfl⟩, fun _ _ => by intro r; simp⟩

example : runFreshX exCfg exLeafCodes = some (.val 0, [], [.handled 5#32 none 0 [.obj 10 1, .ptr 13 (some 4)], .offered 5#32 13 4, .offered 5#32 10 1, .gen 5#32]) ∧
    runFresh exCfg exLeafCodes.withLeaf =
      some (.val 0, [], [.handled 5#32 none 0 [.obj 10 1, .ptr 13 (some 4)], .offered 5#32 13 4, .offered 5#32 10 1, .gen 5#32]) := by
  refine ⟨by decide +kernel, by decide +kernel⟩

/-! ## What does not hold for codes of other categories -/

/-- **Objects attached by a guard do not reach the handler.** `on_error` looks at the current error, but a function returning a code of another
category reports no error: an id is generated only when the scope imports the code. With `leaf::result` the handler gets the object. -/
theorem C55_refuted_guard :
    let p : XProg := .handleAll [[.req 13], []] (.onError [.item (.obj 13 4)] (.ret (.err exCode))) (fun i _ => .ret (.val i))
    runFreshX exCfg p = some (.val 1, [], [.handled 5#32 none 1 [], .offered 5#32 tyErrorCode exCode.toVal, .gen 5#32]) ∧
      runFresh exCfg p.withLeaf =
        some (.val 0, [], [.handled 5#32 none 0 [.obj 13 4], .offered 5#32 13 4, .offered 5#32 tyErrorCode exCode.toVal, .gen 5#32]) := by
  refine ⟨by decide +kernel, by decide +kernel⟩

/-- **The error has a different id in every scope.** The inner scope's handler sees id 5 and returns the code again; the outer scope's handler gets id
13. With `leaf::result` both see the same id. -/
theorem C55_refuted_identity :
    runFreshX exCfg (.handleAll [[.info]] (.handleSome [[.info]] (.ret (.err exCode)) (fun _ _ => .ret (.err exCode))) (fun i _ => .ret (.val i))) =
      some (.val 0, [], [.handled 13#32 none 0 [.info 13#32 none none], .offered 13#32 tyErrorCode exCode.toVal, .gen 13#32,
        .offered 9#32 tyErrorCode exCode.toVal, .gen 9#32, .handled 5#32 none 0 [.info 5#32 none none], .offered 5#32 tyErrorCode exCode.toVal, .gen 5#32]) := by
  decide +kernel

/-- **A failed result with a zero code** (not an error for `std::error_code`, but possible in some result types): no id is generated, so
`try_handle_some` without a suitable handler unloads its scope for id 0, which fails an assertion; `try_handle_all` calls a handler for the empty
error. -/
theorem C55_refuted_zero :
    runFreshX exCfg (.handleSome [[.req 10]] (.ret (.err ⟨0#32, 1⟩)) (fun i _ => .ret (.val i))) = none ∧
      runFreshX exCfg (.handleAll [[.req 10], []] (.ret (.err ⟨0#32, 1⟩)) (fun i _ => .ret (.val i))) = some (.val 1, [], [.handled 0#32 none 1 []]) := by
  refine ⟨by decide +kernel, by decide +kernel⟩

end Leaf
