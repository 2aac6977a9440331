import Verif.ThrowModel
import Verif.PropGuards

/-!
# C42, C43, C44: `throw_exception`, source locations, `result::load`
-/

namespace Leaf

/-! ## Spec -/

/-- A call of `throw_exception`: optionally an error id, then optionally an exception object, then error objects. -/
structure ThrowCall where
  id : Option Id
  ex : Option (List (Ty × Val))
  items : List Item

/-- The arguments of the call. -/
def ThrowCall.args (c : ThrowCall) : List ThrowArg := (c.id.map .errId).toList ++ (c.ex.map .ex).toList ++ c.items.map .item

/-- `e` is the exception object of call `c`, with error id `id`. -/
structure ThrownBy (c : ThrowCall) (tag : Nat) (std : List (Ty × Val)) (id : Id) (e : Exc) : Prop where
  /-- it derives from `std::exception` -/
  isStd : e.isStd = true
  /-- and carries the id -/
  id : e.idSrc = .base id
  /-- it is the object passed, or else a `std::exception` -/
  casts : e.casts = c.ex.getD std
  tag : e.tag = tag
  /-- destroying it, when LEAF has not seen it, resets the current error -/
  clear : e.clear = true

/-! ## Lemmas -/

theorem throwItems_items (items : List Item) : throwItems (items.map .item) = some items := by
  induction items with
  | nil => rfl
  | cons i is ih => simp [throwItems, ih]

theorem throwItems_some {as : List ThrowArg} {items : List Item} (h : throwItems as = some items) : as = items.map .item := by
  induction as generalizing items with
  | nil => simp only [throwItems, Option.some.injEq] at h; subst h; rfl
  | cons a as ih =>
    cases a with
    | item i =>
      simp only [throwItems, Option.map_eq_some_iff] at h
      obtain ⟨js, h1, rfl⟩ := h
      rw [ih h1]; rfl
    | _ => simp [throwItems] at h

section
variable {M : Type} [Store M] {cfg : Cfg} {std : List (Ty × Val)}

theorem makeException_given (id : Id) (ex : Option (List (Ty × Val))) (items : List Item) :
    makeException (M := M) cfg std (ThrowCall.args ⟨some id, ex, items⟩) = some (do errorIdLoad cfg id items; return (id, ex.getD std)) := by
  cases ex with
  | some c =>
    show (throwItems (items.map .item)).map _ = _
    rw [throwItems_items]; rfl
  | none =>
    cases items with
    | nil =>
      show some _ = some _
      congr 1
      funext w
      unfold errorIdLoad
      rw [bind_apply]
      split <;> rfl
    | cons i is =>
      show (throwItems ((i :: is).map .item)).map _ = _
      rw [throwItems_items]; rfl

theorem newError_nil (items : List Item) {α : Type} (k : Id → Comp M α) :
    (do let id ← newError cfg []; errorIdLoad cfg id items; k id : Comp M α) = (do let id ← newError cfg items; k id) := by
  funext w
  unfold newError
  simp only [bind_apply, pure_apply]
  cases newId cfg w with
  | none => rfl
  | some p =>
    obtain ⟨i, w1⟩ := p
    simp only [Option.bind_some]
    have : errorIdLoad cfg (makeErrorId i) [] w1 = some ((), w1) := by unfold errorIdLoad loadItems; split <;> rfl
    rw [this]
    simp only [Option.bind_some]
    cases errorIdLoad cfg (makeErrorId i) items w1 <;> rfl

theorem makeException_new (ex : Option (List (Ty × Val))) (items : List Item) :
    makeException (M := M) cfg std (ThrowCall.args ⟨none, ex, items⟩) = some (do let id ← newError cfg items; return (id, ex.getD std)) := by
  cases ex with
  | some c =>
    show (throwItems (items.map .item)).map _ = _
    rw [throwItems_items]
    exact congrArg some (newError_nil items _)
  | none =>
    cases items with
    | nil => rfl
    | cons i is =>
      show (throwItems ((i :: is).map .item)).map _ = _
      rw [throwItems_items]
      exact congrArg some (newError_nil _ _)

theorem makeException_some {as : List ThrowArg} {m : Comp M (Id × List (Ty × Val))} (h : makeException cfg std as = some m) : ∃ c : ThrowCall, as = c.args := by
  have key : ∀ {α : Type} {as : List ThrowArg} {f : List Item → α} {m : α}, (throwItems as).map f = some m → ∃ items : List Item, as = items.map .item := by
    intro α as f m h
    rw [Option.map_eq_some_iff] at h
    obtain ⟨items, h, _⟩ := h
    exact ⟨items, throwItems_some h⟩
  cases as with
  | nil => exact ⟨⟨none, none, []⟩, rfl⟩
  | cons a as =>
    cases a with
    | errId id =>
      cases as with
      | nil => exact ⟨⟨some id, none, []⟩, rfl⟩
      | cons b as =>
        cases b with
        | ex casts =>
          obtain ⟨items, rfl⟩ := key h
          exact ⟨⟨some id, some casts, items⟩, rfl⟩
        | errId id' =>
          have : makeException (M := M) cfg std (.errId id :: .errId id' :: as) = none := rfl
          rw [this] at h
          simp at h
        | item i =>
          obtain ⟨items, h⟩ := key (as := .item i :: as) h
          exact ⟨⟨some id, none, items⟩, by rw [h]; rfl⟩
    | ex casts =>
      obtain ⟨items, rfl⟩ := key h
      exact ⟨⟨none, some casts, items⟩, rfl⟩
    | item i =>
      obtain ⟨items, h⟩ := key (as := .item i :: as) h
      exact ⟨⟨none, none, items⟩, by rw [h]; rfl⟩

theorem throwException_given (tag : Nat) (id : Id) (ex : Option (List (Ty × Val))) (items : List Item) :
    throwException (M := M) cfg tag std (ThrowCall.args ⟨some id, ex, items⟩) =
      some (do errorIdLoad cfg id items; return .exc (thrownExc tag id (ex.getD std))) := by
  unfold throwException
  rw [makeException_given]
  simp only [Option.map_some, Option.some.injEq]
  funext w
  simp only [bind_apply, pure_apply]
  cases errorIdLoad cfg id items w <;> rfl

theorem throwException_new (tag : Nat) (ex : Option (List (Ty × Val))) (items : List Item) :
    throwException (M := M) cfg tag std (ThrowCall.args ⟨none, ex, items⟩) =
      some (do let id ← newError cfg items; return .exc (thrownExc tag id (ex.getD std))) := by
  unfold throwException
  rw [makeException_new]
  simp only [Option.map_some, Option.some.injEq]
  funext w
  simp only [bind_apply, pure_apply]
  cases newError cfg items w <;> rfl

theorem loadItems_append (keep : Bool) (id : Id) (a b : List Item) (w : World M) :
    loadItems cfg keep id (a ++ b) w = (loadItems cfg keep id a >>= fun _ => loadItems cfg keep id b) w := by
  induction a generalizing w with
  | nil => rfl
  | cons i a ih =>
    simp only [List.cons_append, loadItems, bind_apply]
    cases loadItem cfg keep id i w with
    | none => rfl
    | some p =>
      simp only [Option.bind_some]
      rw [ih p.2, bind_apply]

theorem errorIdLoad_append (id : Id) (a b : List Item) (w : World M) :
    errorIdLoad cfg id (a ++ b) w = (errorIdLoad cfg id a >>= fun _ => errorIdLoad cfg id b) w := by
  unfold errorIdLoad
  split
  · exact loadItems_append _ _ _ _ _
  · rfl

theorem loadSourceLocation_eq (loc : Val) {id : Id} (hid : id ≠ 0#32) : loadSourceLocation (M := M) cfg loc id = errorIdLoad cfg id [.obj tySrcLoc loc] := by
  unfold loadSourceLocation
  rw [if_neg hid]

theorem makeErrorId_ne (id : Id) : makeErrorId id ≠ 0#32 := tagged_ne_zero (makeErrorId_tagged id)

end

/-! ## C42: `throw_exception` -/

section
variable {cfg : Cfg} {std : List (Ty × Val)} {tag : Nat} {w : World PtrStore}

/-- **C42, which calls compile.** Exactly those with an optional error id first, then an optional exception object, then error objects. -/
theorem C42_compiles (cfg : Cfg) (std : List (Ty × Val)) (tag : Nat) (args : List ThrowArg) :
    (throwException (M := PtrStore) cfg tag std args).isSome ↔ ∃ c : ThrowCall, args = c.args := by
  constructor
  · intro h
    unfold throwException at h
    cases hm : makeException (M := PtrStore) cfg std args with
    | none => simp [hm] at h
    | some m => exact makeException_some hm
  · rintro ⟨⟨id, ex, items⟩, rfl⟩
    unfold throwException
    cases id with
    | some id => rw [makeException_given]; rfl
    | none => rw [makeException_new]; rfl

/-- **C42, new error.** Without an error id among the arguments, the call generates exactly one id, delivers the error objects for it, in order, and
throws the exception object with that id. -/
theorem C42_new_error (c : ThrowCall) (hc : c.id = none) (hw : ThreadOk w) (ha : AccumulateOk cfg (nextId cfg w) c.items (scopes w)) :
    ∃ run e w', throwException cfg tag std c.args = some run ∧ run w = some (.exc e, w') ∧ ThrownBy c tag std (nextId cfg w) e ∧
      DeliveredAll cfg false (nextId cfg w) c.items (scopes w) (scopes w') ∧ w'.cur = nextId cfg w ∧ w'.counter = nextId cfg w ∧
      w'.handling = w.handling ∧ ThreadOk w' := by
  obtain ⟨id, ex, items⟩ := c
  subst hc
  obtain ⟨w', h1, h2, h3, h4, h5, h6⟩ := C09_new_error_partial cfg items w hw ha
  refine ⟨_, thrownExc tag (nextId cfg w) (ex.getD std), w', throwException_new tag ex items, ?_, ⟨rfl, rfl, rfl, rfl, rfl⟩, h3, h4, h5, h6, h2⟩
  simp only [bind_apply, h1, Option.bind_some, pure_apply]

/-- **C42, given error.** With an error id among the arguments, the call generates no id: it delivers the error objects for the given one, in order,
and throws the exception object with that id. -/
theorem C42_given_error (c : ThrowCall) {id : Id} (hc : c.id = some id) (hid : id.Tagged) (hw : ThreadOk w) (ha : AccumulateOk cfg id c.items (scopes w)) :
    ∃ run e w', throwException cfg tag std c.args = some run ∧ run w = some (.exc e, w') ∧ ThrownBy c tag std id e ∧
      DeliveredAll cfg false id c.items (scopes w) (scopes w') ∧ SameOtherwise w w' ∧ ThreadOk w' := by
  obtain ⟨_, ex, items⟩ := c
  subst hc
  obtain ⟨w', h1, h2, h3, h4⟩ := C09_load_partial cfg hid items w hw ha
  refine ⟨_, thrownExc tag id (ex.getD std), w', throwException_given tag id ex items, ?_, ⟨rfl, rfl, rfl, rfl, rfl⟩, h3, h4, h2⟩
  simp only [bind_apply, h1, Option.bind_some, pure_apply]

/-- **C42, empty id.** With an empty error id (which converts to false), the error objects are discarded. -/
theorem C42_empty_id (c : ThrowCall) (hc : c.id = some 0#32) (w : World PtrStore) :
    ∃ run e, throwException cfg tag std c.args = some run ∧ run w = some (.exc e, w) ∧ ThrownBy c tag std 0#32 e := by
  obtain ⟨_, ex, items⟩ := c
  subst hc
  exact ⟨_, thrownExc tag 0#32 (ex.getD std), throwException_given tag 0#32 ex items, rfl, ⟨rfl, rfl, rfl, rfl, rfl⟩⟩

/-- **C42, as a program.** A call without an error id does the same as the reporting function of C22. Hence the theorems about whole programs apply:
the exception, and the error objects, arrive at the first suitable handler through any number of scopes. -/
theorem C42_reports {M : Type} [Store M] (cfg : Cfg) (std : List (Ty × Val)) (tag : Nat) (c : ThrowCall) (hc : c.id = none) :
    throwException (M := M) cfg tag std c.args = some (eval cfg (report c.items (some fun id => thrownExc tag id (c.ex.getD std)))) := by
  obtain ⟨_, ex, items⟩ := c
  subst hc
  rw [throwException_new]
  rfl

/-- A program that throws an exception with an empty id is not covered by the theorems about whole programs (`Exc.Ok`): when such an exception leaves a
scope unhandled, an assertion fails (error.hpp:414). -/
theorem C42_refuted_empty_id : runFresh exCfg (.tryCatch [[.req 10]] (.ret (.exc (thrownExc 1 0#32 []))) (fun _ _ => .ret (.val 0))) = none ∧
    ¬ (thrownExc 1 0#32 []).Ok := by
  exact ⟨by decide +kernel, by simp [thrownExc, Exc.Ok, Id.Tagged]⟩

end

/-! ## C43: source locations -/

section
variable {M : Type} [Store M] {cfg : Cfg} {std : List (Ty × Val)} {tag : Nat} {loc : Val}

/-- **C43, `BOOST_LEAF_NEW_ERROR`.** The macro does what `new_error` does with the source location as an additional, last, error object. -/
theorem C43_new_error (cfg : Cfg) (loc : Val) (items : List Item) : newErrorLoc (M := M) cfg loc items = newError cfg (items ++ [.obj tySrcLoc loc]) := by
  funext w
  unfold newErrorLoc newError
  simp only [bind_apply, pure_apply]
  cases newId cfg w with
  | none => rfl
  | some p =>
    obtain ⟨i, w1⟩ := p
    simp only [Option.bind_some]
    rw [errorIdLoad_append, bind_apply]
    cases errorIdLoad cfg (makeErrorId i) items w1 with
    | none => rfl
    | some q =>
      simp only [Option.bind_some, loadSourceLocation_eq loc (makeErrorId_ne i)]

/-- The call with one more error object at the end. -/
def ThrowCall.with (c : ThrowCall) (i : Item) : ThrowCall := { c with items := c.items ++ [i] }

/-- **C43, `BOOST_LEAF_THROW_EXCEPTION`.** The macro does what `throw_exception` does with the source location as an additional, last, error object,
unless it is given an empty error id. -/
theorem C43_throw_exception (cfg : Cfg) (std : List (Ty × Val)) (tag : Nat) (loc : Val) (c : ThrowCall) (hc : c.id ≠ some 0#32) :
    throwExceptionLoc (M := M) cfg tag std loc c.args = throwException cfg tag std (c.with (.obj tySrcLoc loc)).args := by
  obtain ⟨id, ex, items⟩ := c
  unfold throwExceptionLoc throwException
  cases id with
  | some id =>
    have hid : id ≠ 0#32 := fun h => hc (by rw [h])
    show Option.map _ (makeException cfg std (ThrowCall.args ⟨some id, ex, items⟩)) =
      Option.map _ (makeException cfg std (ThrowCall.args ⟨some id, ex, items ++ [.obj tySrcLoc loc]⟩))
    rw [makeException_given, makeException_given]
    simp only [Option.map_some, Option.some.injEq]
    funext w
    simp only [bind_apply, pure_apply]
    rw [errorIdLoad_append, bind_apply]
    cases errorIdLoad cfg id items w with
    | none => rfl
    | some q =>
      simp only [Option.bind_some, loadSourceLocation_eq loc hid]
      cases errorIdLoad cfg id [.obj tySrcLoc loc] q.2 <;> rfl
  | none =>
    show Option.map _ (makeException cfg std (ThrowCall.args ⟨none, ex, items⟩)) =
      Option.map _ (makeException cfg std (ThrowCall.args ⟨none, ex, items ++ [.obj tySrcLoc loc]⟩))
    rw [makeException_new, makeException_new]
    simp only [Option.map_some, Option.some.injEq]
    rw [← C43_new_error cfg loc items]
    funext w
    unfold newErrorLoc
    simp only [bind_apply, pure_apply]
    cases newError cfg items w with
    | none => rfl
    | some q =>
      simp only [Option.bind_some]
      cases loadSourceLocation cfg loc q.1 q.2 <;> rfl

/-- **C43, empty id.** Given an empty error id, the macro fails an assertion (error.hpp:742). -/
theorem C43_empty_id (cfg : Cfg) (std : List (Ty × Val)) (tag : Nat) (loc : Val) (c : ThrowCall) (hc : c.id = some 0#32) (w : World M) :
    ∃ run, throwExceptionLoc (M := M) cfg tag std loc c.args = some run ∧ run w = none := by
  obtain ⟨id, ex, items⟩ := c
  subst hc
  unfold throwExceptionLoc
  rw [makeException_given]
  exact ⟨_, rfl, rfl⟩

end

theorem objects_last (cfg : Cfg) (items : List Item) (ty : Ty) (v : Val) : objects cfg (items ++ [.obj ty v]) ty = some v := by
  unfold objects
  rw [List.foldl_append]
  simp [Item.step, Item.ty, Item.isAccum, Item.objFor]

section
variable {cfg : Cfg} {specs : List (List Arg)} {ls : List Layer} {items : List Item} {f : Option (Id → Exc)} {body : Nat → List ArgVal → Prog} {da : Bool}
  {w : World PtrStore} {loc : Val}

/-- The source location a handler sees in an argument, if it has an argument that shows it. -/
def ArgVal.shownLoc : ArgVal → Option (Option Val)
  | .info _ _ l => some l
  | .diag _ _ l _ => some l
  | .details _ _ l _ _ => some l
  | _ => none

/-- **C43, end to end.** An error is reported by `BOOST_LEAF_NEW_ERROR` or `BOOST_LEAF_THROW_EXCEPTION`, and travels through any number of scopes that do
not handle it, to `try_handle_all`. Every `error_info`, `diagnostic_info` or `diagnostic_details` argument of the handler called shows the source
location, provided that some handler there takes `diagnostic_info`, `diagnostic_details` or the location itself. -/
theorem C43_handled (hp : (Prog.handleAll specs (within ls (report (items ++ [.obj tySrcLoc loc]) f)) body).WF cfg da) (hw : ThreadOk w)
    (hda : da = false → NoCapturingScope w) (hf : FreshId cfg w) (hid : ∀ g, f = some g → (g (nextId cfg w)).seenId (nextId cfg w) = nextId cfg w)
    (hpass : PassesAll cfg (items ++ [.obj tySrcLoc loc]) (visible (f.map (· (nextId cfg w)))) f.isSome ls)
    (hn : ∀ is, .guard is ∈ ls → ∀ t tag g, .accum t tag g ∈ onItems is → t ≠ tySrcLoc) (hm : Mentions cfg specs tySrcLoc) :
    ∃ i vals o w', eval cfg (.handleAll specs (within ls (report (items ++ [.obj tySrcLoc loc]) f)) body) w = some (o, w') ∧
      Handled cfg w (attached cfg (items ++ [.obj tySrcLoc loc]) ls) (nextId cfg w) (visible (f.map (· (nextId cfg w)))) specs body i vals o w' ∧
      ∀ x ∈ vals, ∀ l, x.shownLoc = some l → l = some loc := by
  obtain ⟨i, vals, o, w', h1, h2⟩ := C22_handle_all_partial hp hw hda hf hid hpass
  refine ⟨i, vals, o, w', h1, h2, fun x hx l hl => ?_⟩
  obtain ⟨hd, w1, wh, wr, e1, e2, e3, _⟩ := h2.called
  obtain ⟨j, hj, rfl⟩ := List.getElem_of_mem hx
  have hA := C22_guards_keep cfg (items ++ [.obj tySrcLoc loc]) ls tySrcLoc loc hn (objects_last cfg items tySrcLoc loc)
  have hr := e3 j (hd[j]'(by rw [← e2]; exact hj)) vals[j] (by simp) (by simp)
  revert hr hl
  generalize vals[j] = x
  generalize (hd[j]'(by rw [← e2]; exact hj)) = a
  intro hl hr
  cases x <;> simp only [ArgVal.shownLoc, Option.some.injEq, reduceCtorEq] at hl <;> cases a <;> simp only [ReceivesOf] at hr
  · subst hl; exact (hr.2.2 loc).mpr ⟨hm, hA⟩
  · subst hl; exact (hr.2.2.1 loc).mpr ⟨hm, hA⟩
  · subst hl; exact (hr.2.2.1 loc).mpr ⟨hm, hA⟩

end

/-- **C43 refuted for `error_info`.** A handler that takes `error_info` but no other argument that mentions the location is shown none, although the error
was reported by `BOOST_LEAF_NEW_ERROR` (here, location 7). -/
theorem C43_refuted_error_info :
    runFresh exCfg (.handleAll [[.info]] (.newError [.obj 10 1, .obj tySrcLoc 7] (fun id => .ret (.err (.plain id)))) (fun i _ => .ret (.val i))) =
      some (.val 0, [], [.handled 5#32 none 0 [.info 5#32 none none], .offered 5#32 tySrcLoc 7, .offered 5#32 10 1, .gen 5#32]) ∧
    runFresh exCfg (.handleAll [[.info, .diag]] (.newError [.obj 10 1, .obj tySrcLoc 7] (fun id => .ret (.err (.plain id)))) (fun i _ => .ret (.val i))) =
      some (.val 0, [], [.handled 5#32 none 0 [.info 5#32 none (some 7), .diag 5#32 none (some 7) [(tySrcLoc, 7)]], .offered 5#32 tySrcLoc 7,
        .offered 5#32 10 1, .gen 5#32]) := by
  constructor <;> decide +kernel

/-! ## C44: `result::load` -/

section
variable {cfg : Cfg} {w : World PtrStore}

/-- **C44, failed result.** The objects are delivered for the error of the result, in order; the id returned is that of the result. -/
theorem C44_failed (r : ErrRes) (items : List Item) (hw : ThreadOk w) (ha : AccumulateOk cfg r.errId items (scopes w)) :
    ∃ w', resultLoad cfg (some r) items w = some (r.errId, w') ∧ DeliveredAll cfg false r.errId items (scopes w) (scopes w') ∧ SameOtherwise w w' ∧
      ThreadOk w' := by
  obtain ⟨w', h1, h2, h3, h4⟩ := C09_load_partial cfg (errId_tagged r) items w hw ha
  refine ⟨w', ?_, h3, h4, h2⟩
  unfold resultLoad resultErrorId
  simp only [bind_apply, h1, Option.bind_some, pure_apply]

/-- **C44, result with a value.** Nothing happens: nothing is stored, no function is called. The id returned converts to false. -/
theorem C44_value (items : List Item) (w : World PtrStore) : ∃ id, resultLoad cfg none items w = some (id, w) ∧ id.truthy = false :=
  ⟨0#32, rfl, by decide⟩

end

/-! ## The hypotheses can be met -/

/-- `throw_exception(my_exception{}, e1, e2)`, as the code stands, in a scope for type 10. -/
def exCall : ThrowCall := ⟨none, some [(20, 7)], [.obj 10 1, .obj 11 2]⟩

example : exCall.args = [.ex [(20, 7)], .item (.obj 10 1), .item (.obj 11 2)] := rfl

example : exCall.id = none ∧ ThreadOk (initThread 1#32) ∧ AccumulateOk exCfg (nextId exCfg (initThread 1#32)) exCall.items (scopes (initThread 1#32)) :=
  ⟨rfl, threadOk_init (by decide), by rintro ⟨i, hi, h⟩; simp [exCall] at hi; rcases hi with rfl | rfl <;> simp [Item.isAccum] at h⟩

/-- Calls that do not compile: an exception object after an error object; two error ids. -/
example : (throwException (M := PtrStore) exCfg 0 [] [.item (.obj 10 1), .ex []]).isSome = false ∧
    (throwException (M := PtrStore) exCfg 0 [] [.errId 5#32, .errId 9#32]).isSome = false := ⟨rfl, rfl⟩

/-- What the handlers get. -/
example : runFresh exCfg (.tryCatch [[.req 12], [.req 10, .catch_ (fun _ => true), .info, .ptr tySrcLoc]]
    (report ((exCall.with (.obj tySrcLoc 99)).items) (some fun id => thrownExc 3 id (exCall.ex.getD []))) (fun i _ => .ret (.val i))) =
    some (.val 1, [], [.handled 5#32 (some ⟨3, true, .base 5#32, [(20, 7)], false⟩) 1 [.obj 10 1, .exc ⟨3, true, .base 5#32, [(20, 7)], false⟩,
      .info 5#32 (some ⟨3, true, .base 5#32, [(20, 7)], false⟩) (some 99), .ptr tySrcLoc (some 99)],
      .offered 5#32 tySrcLoc 99, .offered 5#32 11 2, .offered 5#32 10 1, .gen 5#32]) := by decide +kernel

end Leaf
