import Verif.PropCapture

/-!
# C31, C32, C33: short-circuit macros, `exception_to_result`, `to_variant`
-/

namespace Leaf

/-! ## C31: `BOOST_LEAF_ASSIGN`, `BOOST_LEAF_AUTO`, `BOOST_LEAF_CHECK` -/

/-- `BOOST_LEAF_AUTO(v, call); rest` in a function returning a `result` (error.hpp:25-59): evaluate the call; if it failed,
`return r.error();`, otherwise continue with the value. -/
def checked (call : Prog) (rest : Val → Prog) : Prog := .bind call rest (fun r => .ret (.err r.forward))

/-- A function body that is a sequence of checked calls; each call, and the code at the end, may use the values obtained so far
(newest first). -/
def checkedAll : List (List Val → Prog) → List Val → (List Val → Prog) → Prog
  | [], vs, last => last vs
  | c :: cs, vs, last => checked (c vs) (fun v => checkedAll cs (v :: vs) last)

section
variable {M : Type} [Store M] {cfg : Cfg}

/-- All the calls succeed: starting with values `vs` in state `w`, they end with values `vs'` in state `w'`. -/
inductive AllSucceed (cfg : Cfg) : List (List Val → Prog) → List Val → World M → List Val → World M → Prop
  | nil (vs w) : AllSucceed cfg [] vs w vs w
  | cons {c cs vs w v w1 vs' w'} : eval cfg (c vs) w = some (.val v, w1) → AllSucceed cfg cs (v :: vs) w1 vs' w' → AllSucceed cfg (c :: cs) vs w vs' w'

/-- **C31: forwarding keeps the error id and the captured objects.** -/
theorem C31_forward (r : ErrRes) : r.forward.errId = r.errId ∧
    (∀ id, r = .plain id → ∃ id', r.forward = .plain id') ∧ ∀ id ns, r = .captured id ns → r.forward = .captured r.errId ns := by
  refine ⟨?_, ?_, ?_⟩
  · cases r with
    | plain id => exact makeErrorId_of_tagged (makeErrorId_tagged id)
    | captured id ns => exact makeErrorId_of_tagged (makeErrorId_tagged id)
  · rintro id rfl
    exact ⟨_, rfl⟩
  · rintro id ns rfl
    rfl

/-- **C31: the first failure is returned.** If the calls before `c` succeed and `c` returns a failed result, the function returns a result with
the same error id and captured objects, in the state in which `c` left the thread: nothing after `c` is evaluated. -/
theorem C31_first_failure {pre post : List (List Val → Prog)} {c : List Val → Prog} {last : List Val → Prog} {vs vs' : List Val} {w w1 w2 : World M} {r : ErrRes}
    (h1 : AllSucceed cfg pre vs w vs' w1) (h2 : eval cfg (c vs') w1 = some (.err r, w2)) :
    eval cfg (checkedAll (pre ++ c :: post) vs last) w = some (.err r.forward, w2) := by
  induction h1 with
  | nil vs w =>
    show eval cfg (checked (c vs) _) w = _
    unfold checked
    rw [eval, bind_apply, h2, Option.bind_some]
    rfl
  | cons h _ ih =>
    show eval cfg (checked _ _) _ = _
    unfold checked
    rw [eval, bind_apply, h, Option.bind_some]
    exact ih h2

/-- **C31: exceptions pass.** -/
theorem C31_first_exception {pre post : List (List Val → Prog)} {c : List Val → Prog} {last : List Val → Prog} {vs vs' : List Val} {w w1 w2 : World M} {e : Exc}
    (h1 : AllSucceed cfg pre vs w vs' w1) (h2 : eval cfg (c vs') w1 = some (.exc e, w2)) :
    eval cfg (checkedAll (pre ++ c :: post) vs last) w = some (.exc e, w2) := by
  induction h1 with
  | nil vs w =>
    show eval cfg (checked (c vs) _) w = _
    unfold checked
    rw [eval, bind_apply, h2, Option.bind_some]
    rfl
  | cons h _ ih =>
    show eval cfg (checked _ _) _ = _
    unfold checked
    rw [eval, bind_apply, h, Option.bind_some]
    exact ih h2

/-- **C31: success.** If all calls succeed, execution continues after them with exactly the values they returned. -/
theorem C31_all_succeed {cs : List (List Val → Prog)} {last : List Val → Prog} {vs vs' : List Val} {w w1 : World M}
    (h : AllSucceed cfg cs vs w vs' w1) : eval cfg (checkedAll cs vs last) w = eval cfg (last vs') w1 := by
  induction h with
  | nil vs w => rfl
  | cons h _ ih =>
    show eval cfg (checked _ _) _ = _
    unfold checked
    rw [eval, bind_apply, h, Option.bind_some]
    exact ih

end

/-! ## C32: `exception_to_result` -/

/-- The objects `exception_to_result<tys...>` loads for exception `e`. -/
def excItems (tys : List Ty) (e : Exc) : List Item :=
  .obj tyExPtr e.tag :: (if e.isStd then tys.reverse.filterMap (fun ty => (e.cast ty).map (.obj ty ·)) else [])

section
variable {cfg : Cfg} {block : Prog} {tys : List Ty} {da : Bool} {w w1 : World PtrStore} {e : Exc}

theorem putItems_append (id : Id) (a b : List Item) (fs : List Scope) :
    putItems cfg false id (a ++ b) fs = putItems cfg false id b (putItems cfg false id a fs) := by
  induction a generalizing fs with
  | nil => rfl
  | cons i a ih => exact ih _

theorem itemsEvents_append (id : Id) (a b : List Item) (fs : List Scope) :
    itemsEvents cfg false id (a ++ b) fs = itemsEvents cfg false id b (putItems cfg false id a fs) ++ itemsEvents cfg false id a fs := by
  induction a generalizing fs with
  | nil => simp [itemsEvents, putItems]
  | cons i a ih => simp [itemsEvents, putItems, ih]

theorem catchHelper_eq (tys : List Ty) (e : Exc) (w : World AbsStore) (hg : w.Good) :
    catchHelper cfg e tys w = some (nextId cfg w, (w.gen cfg).put
      (itemsEvents cfg false (nextId cfg w) (.obj tyExPtr e.tag :: tys.reverse.filterMap (fun ty => (e.cast ty).map (.obj ty ·))) w.mem.frames)
      (putItems cfg false (nextId cfg w) (.obj tyExPtr e.tag :: tys.reverse.filterMap (fun ty => (e.cast ty).map (.obj ty ·))) w.mem.frames)) := by
  have ht := nextId_tagged (cfg := cfg) hg
  induction tys with
  | nil => exact newError_eq cfg [.obj tyExPtr e.tag] w hg (by simp [Item.isAccum])
  | cons ty tys ih =>
    unfold catchHelper
    rw [bind_apply, ih, Option.bind_some]
    simp only [List.reverse_cons, List.filterMap_append]
    cases hc : e.cast ty with
    | none => simp [hc, pure_apply]
    | some v =>
      simp only [bind_apply, List.filterMap_cons, hc, Option.map_some, List.filterMap_nil]
      unfold errorIdLoad
      rw [if_pos (tagged_ne_zero ht), loadItems_eq cfg false ht _ _ (putItems_good (tagged_ne_zero ht) hg.4) (by simp [Item.isAccum])]
      rw [← List.cons_append, putItems_append, itemsEvents_append]
      simp only [Option.bind_some]
      simp [World.put, pure_apply]

theorem foldl_excItems (ty : Ty) (hty : tyExPtr ∉ tys) (e : Exc) :
    (excItems tys e).foldl (Item.step cfg false ty) none =
      if ty = tyExPtr then some e.tag else if e.isStd ∧ ty ∈ tys then e.cast ty else none := by
  rw [foldl_last cfg ty _ (by
    intro t tag f h
    unfold excItems at h
    simp only [List.mem_cons, reduceCtorEq, false_or] at h
    split at h
    · simp at h
    · simp at h)]
  unfold excItems
  have hobj : ∀ l : List Ty, objsOf ty (l.filterMap (fun t => (e.cast t).map (Item.obj t ·))) = if ty ∈ l then ((l.filter (· = ty)).filterMap fun t => e.cast t) else [] := by
    intro l
    induction l with
    | nil => simp [objsOf]
    | cons t l ih =>
      by_cases h : t = ty
      · subst h
        cases hc : e.cast t with
        | none =>
          simp only [List.filterMap_cons, hc, Option.map_none, ih, List.mem_cons, true_or, if_true, decide_true, List.filter_cons_of_pos]
          split
          · rfl
          · rename_i hn
            rw [List.filter_eq_nil_iff.mpr]
            · rfl
            · intro a ha; simp; rintro rfl; exact hn ha
        | some v =>
          simp only [List.filterMap_cons, hc, Option.map_some, List.mem_cons, true_or, if_true, decide_true, List.filter_cons_of_pos]
          have : objsOf t (Item.obj t v :: l.filterMap fun t => (e.cast t).map (Item.obj t ·)) = v :: objsOf t (l.filterMap fun t => (e.cast t).map (Item.obj t ·)) := by
            simp [objsOf]
          rw [this, ih]
          congr 1
          split
          · rfl
          · rename_i hn
            rw [List.filter_eq_nil_iff.mpr]
            · rfl
            · intro a ha; simp; rintro rfl; exact hn ha
      · have h' : ¬ ty = t := fun x => h x.symm
        cases hc : e.cast t with
        | none => simp [hc, ih, h, h']
        | some v =>
          have : objsOf ty (Item.obj t v :: l.filterMap fun t => (e.cast t).map (Item.obj t ·)) = objsOf ty (l.filterMap fun t => (e.cast t).map (Item.obj t ·)) := by
            simp [objsOf, h]
          simp [hc, this, ih, h, h']
  have hcons : ∀ l, objsOf ty (Item.obj tyExPtr e.tag :: l) = (if ty = tyExPtr then [e.tag] else []) ++ objsOf ty l := by
    intro l
    by_cases h : ty = tyExPtr
    · simp [objsOf, h]
    · simp [objsOf, h, Ne.symm h]
  rw [hcons]
  by_cases hs : e.isStd
  · simp only [hs, if_true, true_and, hobj, List.mem_reverse]
    by_cases h : ty = tyExPtr
    · subst h
      simp [hty]
    · simp only [h, if_false, List.nil_append]
      by_cases hm : ty ∈ tys
      · simp only [hm, if_true, Option.or_none]
        have hall : ∀ x ∈ (tys.reverse.filter (· = ty)), x = ty := by simp
        have hne : tys.reverse.filter (· = ty) ≠ [] := by
          intro hx
          rw [List.filter_eq_nil_iff] at hx
          exact hx ty (by simp [hm]) (by simp)
        revert hall hne
        generalize tys.reverse.filter (· = ty) = l
        intro hall hne
        cases hc : e.cast ty with
        | none =>
          have : l.filterMap (fun t => e.cast t) = [] := by
            rw [List.filterMap_eq_nil_iff]
            intro a ha
            rw [hall a ha, hc]
          rw [this]
          rfl
        | some v =>
          have : l.filterMap (fun t => e.cast t) = List.replicate l.length v := by
            clear hne
            induction l with
            | nil => rfl
            | cons a l ih =>
              have ha := hall a (by simp)
              subst ha
              rw [List.filterMap_cons, hc]
              simp only [List.length_cons, List.replicate_succ]
              rw [ih (fun x hx => hall x (by simp [hx]))]
          rw [this, List.getLast?_replicate]
          simp [hne]
      · simp [hm]
  · simp only [hs, Bool.false_eq_true, if_false, false_and]
    by_cases h : ty = tyExPtr <;> simp [h, objsOf]

/-- **C32: no exception.** If the function returns (a value or a failed result), so does `exception_to_result`. -/
theorem C32_returned {o : Out} (h : eval cfg block w = some (o, w1)) (ho : ∀ e, o ≠ .exc e) :
    eval cfg (.excToResult tys block) w = some (o, w1) := by
  rw [eval]
  unfold exceptionToResult
  rw [bind_apply, h, Option.bind_some]
  cases o with
  | val v => rfl
  | err r => rfl
  | exc e => exact absurd rfl (ho e)

/-- **C32: exceptions are converted.** If the function throws, the result carries a fresh error id, and for this id, exactly the `exception_ptr` and the
listed types that the exception is an instance of (of a `std::exception`) become available in the scopes that want them. -/
theorem C32_thrown (hw : ThreadOk w1) (hty : tyExPtr ∉ tys) (h : eval cfg block w = some (.exc e, w1))
    (hf : ∀ ty v, ¬ Stored ty (nextId cfg w1) v (scopes w1)) :
    ∃ w', eval cfg (.excToResult tys block) w = some (.err (.plain (nextId cfg w1)), w') ∧ ThreadOk w' ∧ w'.cur = nextId cfg w1 ∧
      ∀ ty, Wanted cfg ty (scopes w1) → available ty (nextId cfg w1) (scopes w') =
        if ty = tyExPtr then some e.tag else if e.isStd ∧ ty ∈ tys then e.cast ty else none := by
  have hg := hw.good
  have ht := nextId_tagged (cfg := cfg) hg
  have heq := catchHelper_eq (cfg := cfg) (if e.isStd then tys else []) e (absW w1) hg
  obtain ⟨w', g1, g2, g3⟩ := run_abs (sim_catchHelper cfg e (if e.isStd then tys else [])) hw heq
    (put_good (gen_good hg) (putItems_good (tagged_ne_zero ht) hg.4))
  obtain ⟨k1, k2, k3, k4, k5, k6⟩ := threadOk_of_absW g2
  refine ⟨w', ?_, g3, k2, fun ty hwant => ?_⟩
  · rw [eval]
    unfold exceptionToResult
    rw [bind_apply, h, Option.bind_some]
    simp only [bind_apply, g1, Option.bind_some]
    rfl
  · have hwant' : wanted cfg ty (scopes w1) = true := (wanted_iff ..).mpr hwant
    have hitems : (Item.obj tyExPtr e.tag :: (if e.isStd then tys else []).reverse.filterMap (fun ty => (e.cast ty).map (.obj ty ·))) = excItems tys e := by
      unfold excItems
      cases e.isStd <;> simp
    have h0 : avail ty (nextId cfg w1) (scopes w1) = none := by
      cases ha : avail ty (nextId cfg w1) (scopes w1) with
      | none => rfl
      | some v => exact absurd (avail_stored ha) (hf ty v)
    rw [← avail_eq, k6, hitems]
    have e1 : nextId cfg (absW w1) = nextId cfg w1 := rfl
    rw [e1]
    show avail ty _ (putItems cfg false (nextId cfg w1) (excItems tys e) (scopes w1)) = _
    rw [avail_putItems cfg false _ _ hwant', h0, foldl_excItems ty hty]

/-- **C32: never lets an exception out.** -/
theorem C32_no_exception {o : Out} {w' : World PtrStore} (h : eval cfg (.excToResult tys block) w = some (o, w')) (e : Exc) : o ≠ .exc e := by
  rw [eval] at h
  unfold exceptionToResult at h
  rw [bind_apply] at h
  cases h0 : eval cfg block w with
  | none => simp [h0] at h
  | some p =>
    obtain ⟨o1, w1⟩ := p
    simp only [h0, Option.bind_some] at h
    cases o1 with
    | val v => simp only [pure_apply, Option.some.injEq, Prod.mk.injEq] at h; rw [← h.1]; simp
    | err r => simp only [pure_apply, Option.some.injEq, Prod.mk.injEq] at h; rw [← h.1]; simp
    | exc e =>
      simp only [bind_apply] at h
      cases h1 : catchHelper cfg e (if e.isStd then tys else []) w1 with
      | none => simp [h1] at h
      | some q => simp only [h1, Option.bind_some, pure_apply, Option.some.injEq, Prod.mk.injEq] at h; rw [← h.1]; simp

end

/-! ## C33: `to_variant` -/

/-- The pointed-to object, copied, if the pointer is not null. -/
def ArgVal.ptrVal : ArgVal → Option Val
  | .ptr _ v => v
  | _ => none

/-- `to_variant<tys...>(block)`, to_variant.hpp:19-43. The variant is encoded by two functions: `ok v` holds the value `v`, `fail t` the tuple of
optionals `t`. -/
def toVariant (tys : List Ty) (block : Prog) (ok : Val → Val) (fail : List (Option Val) → Val) : Prog :=
  .handleAll [tys.map .ptr, []]
    (checked block (fun v => .ret (.val (ok v))))
    (fun i args => .ret (.val (fail (if i = 0 then args.map ArgVal.ptrVal else tys.map fun _ => none))))

section
variable {cfg : Cfg} {block : Prog} {tys : List Ty} {da : Bool} {w w1 : World PtrStore} {ok : Val → Val} {fail : List (Option Val) → Val}
  {s : Scope} {ss : List Scope}

theorem toVariant_wf (hb : block.WF cfg (da || capturing cfg [tys.map .ptr, []])) : (toVariant tys block ok fail).WF cfg da := by
  refine ⟨⟨[tys.map .ptr], [], rfl, rfl⟩, ⟨hb, fun _ => trivial, fun r h => ?_⟩, fun i args _ => ⟨trivial, by intro r; simp⟩⟩
  cases r with
  | plain => trivial
  | captured => exact h

/-- Forwarding a failed result makes no difference to the scope that handles it. -/
theorem attempt_checked {slots : List CellTy} {o1 : Out} (h : attempt cfg slots (eval cfg block) w = some (o1, w1)) {rest : Val → Prog}
    {f : Id × Option Exc × List Exc} (hf : failure o1 w1 = some f) :
    ∃ o2, attempt cfg slots (eval cfg (checked block rest)) w = some (o2, w1) ∧ failure o2 w1 = some f := by
  unfold attempt at h ⊢
  rw [bind_apply] at h ⊢
  cases h0 : pushCtx slots w with
  | none => simp [h0] at h
  | some p =>
    obtain ⟨_, w0⟩ := p
    simp only [h0, Option.bind_some] at h ⊢
    rw [bind_apply] at h ⊢
    cases h1 : eval cfg block w0 with
    | none => simp [h1] at h
    | some q =>
      obtain ⟨o, w2⟩ := q
      simp only [h1, Option.bind_some] at h
      have hc : eval cfg (checked block rest) w0 = (match o with | .val v => eval cfg (rest v) | .err r => eval cfg (.ret (.err r.forward)) | .exc e => pure (.exc e)) w2 := by
        unfold checked
        rw [eval, bind_apply, h1, Option.bind_some]
        cases o <;> rfl
      rw [hc]
      cases o with
      | val v =>
        exfalso
        simp only [unloadOut, pure_apply, Option.some.injEq, Prod.mk.injEq] at h
        rw [← h.1] at hf
        simp [failure] at hf
      | exc e =>
        refine ⟨o1, ?_, hf⟩
        exact h
      | err r =>
        cases r with
        | plain id =>
          simp only [unloadOut, resultUnload, pure_apply, Option.some.injEq, Prod.mk.injEq] at h
          obtain ⟨rfl, rfl⟩ := h
          refine ⟨.err (.plain (makeErrorId id)), rfl, ?_⟩
          rw [← hf]
          simp [failure, ErrRes.errId, makeErrorId_of_tagged (makeErrorId_tagged id)]
        | captured id ns =>
          have e2 : (ErrRes.captured (makeErrorId id) ns).errId = makeErrorId id := makeErrorId_of_tagged (makeErrorId_tagged id)
          simp only [unloadOut, resultUnload, bind_apply, setCur, Option.bind_some, ErrRes.errId] at h
          show ∃ o2, resultUnload cfg (.captured (makeErrorId id) ns) w2 = some (o2, w1) ∧ _
          simp only [resultUnload, bind_apply, setCur, Option.bind_some, e2]
          cases hu : unloadNodes cfg (makeErrorId id) ns { w2 with cur := makeErrorId id } with
          | none => simp [hu] at h
          | some q =>
            obtain ⟨eo, w3⟩ := q
            simp only [hu, Option.bind_some] at h ⊢
            cases eo with
            | some e =>
              simp only [pure_apply, Option.some.injEq, Prod.mk.injEq] at h ⊢
              obtain ⟨rfl, rfl⟩ := h
              exact ⟨_, ⟨rfl, rfl⟩, hf⟩
            | none =>
              simp only [pure_apply, Option.some.injEq, Prod.mk.injEq] at h ⊢
              obtain ⟨rfl, rfl⟩ := h
              refine ⟨_, ⟨rfl, rfl⟩, ?_⟩
              rw [← hf]
              simp [failure, ErrRes.errId, makeErrorId_of_tagged (makeErrorId_tagged id)]

/-- **C33: success.** The value is returned, and no handler is called (the trace ends as the block left it). -/
theorem C33_value (hb : block.WF cfg (da || capturing cfg [tys.map .ptr, []])) (hw : ThreadOk w) (hda : da = false → NoCapturingScope w) {v : Val}
    (h : attempt cfg (deduce cfg [tys.map .ptr, []]) (eval cfg block) w = some (.val v, w1)) (hs : scopes w1 = s :: ss) :
    ∃ w', eval cfg (toVariant tys block ok fail) w = some (.val (ok v), w') ∧ w'.trace = w1.trace := by
  have h' : attempt cfg (deduce cfg [tys.map .ptr, []]) (eval cfg (checked block (fun v => .ret (.val (ok v))))) w = some (.val (ok v), w1) := by
    unfold attempt at h ⊢
    rw [bind_apply] at h ⊢
    cases h0 : pushCtx (deduce cfg [tys.map .ptr, []]) w with
    | none => simp [h0] at h
    | some p =>
      obtain ⟨_, w0⟩ := p
      simp only [h0, Option.bind_some] at h ⊢
      rw [bind_apply] at h ⊢
      cases h1 : eval cfg block w0 with
      | none => simp [h1] at h
      | some q =>
        obtain ⟨o, w2⟩ := q
        simp only [h1, Option.bind_some] at h
        have hc : eval cfg (checked block (fun v => .ret (.val (ok v)))) w0 = (match o with | .val v => eval cfg (.ret (.val (ok v))) | .err r => eval cfg (.ret (.err r.forward)) | .exc e => pure (.exc e)) w2 := by
          unfold checked
          rw [eval, bind_apply, h1, Option.bind_some]
          cases o <;> rfl
        rw [hc]
        cases o with
        | val v' =>
          simp only [unloadOut, pure_apply, Option.some.injEq, Prod.mk.injEq, Out.val.injEq] at h
          obtain ⟨rfl, rfl⟩ := h
          rfl
        | exc e => simp [unloadOut, pure_apply] at h
        | err r =>
          exfalso
          cases r with
          | plain id => simp [unloadOut, resultUnload, pure_apply] at h
          | captured id ns =>
            simp only [unloadOut, resultUnload, bind_apply, setCur, Option.bind_some] at h
            cases hu : unloadNodes cfg (ErrRes.captured id ns).errId ns { w2 with cur := (ErrRes.captured id ns).errId } with
            | none => simp [hu] at h
            | some q =>
              obtain ⟨eo, w3⟩ := q
              simp only [hu, Option.bind_some] at h
              cases eo <;> simp [pure_apply] at h
  obtain ⟨w', g1, g2, _⟩ := C19_handle_all (toVariant_wf (ok := ok) (fail := fail) hb) hw hda h' hs
  exact ⟨w', g1, g2⟩

/-- **C33: failure.** If the block fails, with a failed result or an exception, the variant holds the tuple whose `i`-th element is the object of the
`i`-th type available for the error (or the sub-object of this type of the exception), or empty if there is none. -/
theorem C33_failure (hb : block.WF cfg (da || capturing cfg [tys.map .ptr, []])) (hw : ThreadOk w) (hda : da = false → NoCapturingScope w) {o1 : Out}
    (h : attempt cfg (deduce cfg [tys.map .ptr, []]) (eval cfg block) w = some (o1, w1)) (hs : scopes w1 = s :: ss)
    {id : Id} {ex : Option Exc} {hnd : List Exc} (hf : failure o1 w1 = some (id, ex, hnd)) :
    ∃ t w', eval cfg (toVariant tys block ok fail) w = some (.val (fail t), w') ∧ t.length = tys.length ∧
      ∀ (i : Nat) ty, tys[i]? = some ty → ∃ x, t[i]? = some x ∧ ∀ v, x = some v ↔ Sees s id ex ty v := by
  obtain ⟨o2, h2, hf2⟩ := attempt_checked (rest := fun v => .ret (.val (ok v))) h hf
  obtain ⟨i, hd, vals, wh, o, wr, w', e1, e2, e3, e4, e5, e6, _⟩ := C15_handle_all (toVariant_wf (ok := ok) (fail := fail) hb) hw hda h2 hs hf2
  have hi : i = 0 := by
    cases i with
    | zero => rfl
    | succ i =>
      exfalso
      refine e1.2 0 (by omega) (tys.map .ptr) rfl ?_
      intro a ha
      simp only [List.mem_map] at ha
      obtain ⟨ty, _, rfl⟩ := ha
      trivial
  subst hi
  simp only [List.getElem?_cons_zero, Option.some.injEq] at e2
  subst e2
  simp only [eval, pure_apply, if_true, Option.some.injEq, Prod.mk.injEq] at e5
  refine ⟨vals.map ArgVal.ptrVal, w', ?_, by simp [e3.1], ?_⟩
  · rw [e5.1]
    exact e6
  · intro i ty hty
    have hlen : i < vals.length := by
      rw [e3.1, List.length_map]
      exact (List.getElem?_eq_some_iff.mp hty).1
    have hv : vals[i]? = some vals[i] := List.getElem?_eq_getElem hlen
    have hr := e3.2 i (.ptr ty) vals[i] (by simp [hty]) hv
    refine ⟨vals[i].ptrVal, by simp [hv], fun v => ?_⟩
    -- an object of the type is seen at most once
    obtain ⟨h1, h2, h3, h4, h5⟩ := attempt_state hb hw hda h hs
    have huniq : ∀ v v', Sees s id ex ty v → Sees s id ex ty v' → v = v' := fun v v' => sees_unique (scopeOk_deduced h3).nodup
    cases hx : vals[i] with
    | ptr ty' x =>
      rw [hx] at hr
      cases x with
      | none =>
        obtain ⟨rfl, hr⟩ := hr
        simp only [ArgVal.ptrVal, reduceCtorEq, false_iff]
        exact hr v
      | some x =>
        obtain ⟨rfl, hr⟩ := hr
        simp only [ArgVal.ptrVal, Option.some.injEq]
        exact ⟨fun h => h ▸ hr, fun h => huniq _ _ hr h⟩
    | obj _ _ => rw [hx] at hr; exact hr.elim
    | exc _ => rw [hx] at hr; exact hr.elim
    | info _ _ _ => rw [hx] at hr; exact hr.elim
    | diag _ _ _ _ => rw [hx] at hr; exact hr.elim
    | details _ _ _ _ _ => rw [hx] at hr; exact hr.elim

end

/-! ## The hypotheses can be met -/

/-- Two calls succeed, the third fails, the fourth is not made. -/
example : runFresh exCfg (checkedAll [fun _ => .ret (.val 1), fun vs => .ret (.val (vs.sum + 1)), fun vs => .newError [.obj 10 vs.sum] (fun id => .ret (.err (.plain id))),
      fun _ => .newError [] (fun id => .ret (.err (.plain id)))] [] (fun _ => .ret (.val 0))) =
    some (.err (.plain 5#32), [], [.offered 5#32 10 3, .gen 5#32]) := by decide +kernel

example : AllSucceed exCfg [fun _ => .ret (.val 1), fun vs => .ret (.val (vs.sum + 1))] [] (initThread 1#32) [2, 1] (initThread 1#32) :=
  .cons rfl (.cons rfl (.nil _ _))

/-- An exception of type 20, which is also of type 21, is converted by `exception_to_result<20, 22>`; the enclosing scope gets the `exception_ptr` and
the object of type 20, but not those of types 21 and 22. -/
example : runFresh exCfg (.handleAll [[.req 21], [.req 22], [.req tyExPtr, .req 20], []]
      (.excToResult [20, 22] (.ret (.exc ⟨7, true, .none, [(20, 3), (21, 4)], false⟩))) (fun i _ => .ret (.val i))) =
    some (.val 2, [], [.handled 5#32 none 2 [.obj tyExPtr 7, .obj 20 3], .offered 5#32 20 3, .offered 5#32 tyExPtr 7, .gen 5#32]) := by decide +kernel

example : (eval exCfg (.ret (.exc ⟨7, true, .none, [(20, 3), (21, 4)], false⟩)) (initThread 1#32)) = some (.exc ⟨7, true, .none, [(20, 3), (21, 4)], false⟩, initThread 1#32) ∧
    ThreadOk (initThread 1#32) ∧ tyExPtr ∉ [20, 22] ∧ ∀ ty v, ¬ Stored ty (nextId exCfg (initThread 1#32)) v (scopes (initThread 1#32)) :=
  ⟨rfl, threadOk_init (by decide), by decide, fun _ _ => stored_nil⟩

/-- `to_variant<10, 12, 11>` of a block failing with objects of type 10 and 11; the variant is a number here. -/
example : runFresh exCfg (toVariant [10, 12, 11] exFail (fun v => v) (fun t => t.foldl (fun n x => 10 * n + match x with | none => 0 | some v => v + 1) 0)) =
    some (.val 203, [], [.handled 5#32 none 0 [.ptr 10 (some 1), .ptr 12 none, .ptr 11 (some 2)], .offered 5#32 11 2, .offered 5#32 10 1, .gen 5#32]) := by decide +kernel

example : exFail.WF exCfg (false || capturing exCfg [[10, 12, 11].map .ptr, []]) ∧ ThreadOk (initThread 1#32) ∧ NoCapturingScope (initThread 1#32) :=
  ⟨exFail_wf _, threadOk_init (by decide), by intro x hx; simp [initThread, PtrStore.empty] at hx⟩

end Leaf
