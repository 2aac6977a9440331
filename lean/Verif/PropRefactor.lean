import Verif.PropGuards

/-!
# C79: refactoring

Several ways to write the same program: objects passed to one call or to several ones, part of a function moved to a function of its own, guards joined.
-/

namespace Leaf

/-! ## Specification -/

/-- The programs differ by any number of the following changes, anywhere in them. -/
inductive Refactor : Prog → Prog → Prop
  | refl (p) : Refactor p p
  | symm {p q} : Refactor p q → Refactor q p
  | trans {p q r} : Refactor p q → Refactor q r → Refactor p r
  /-- `new_error(a..., b...)` is `new_error(a...).load(b...)` -/
  | newErrorLoad (a b k) : Refactor (.newError (a ++ b) k) (.newError a fun id => .load id b (k id))
  /-- `id.load(a..., b...)` is `id.load(a...).load(b...)` -/
  | loadLoad (id a b k) : Refactor (.load id (a ++ b) k) (.load id a (.load id b k))
  /-- `id.load()` -/
  | loadNothing (id k) : Refactor (.load id [] k) k
  /-- Use the value directly. -/
  | useValue (v k ke) : Refactor (.bind (.ret (.val v)) k ke) (k v)
  /-- Return the error directly. -/
  | useError (r k ke) : Refactor (.bind (.ret (.err r)) k ke) (ke r)
  /-- Throw directly. -/
  | useExc (e k ke) : Refactor (.bind (.ret (.exc e)) k ke) (.ret (.exc e))
  /-- `BOOST_LEAF_AUTO(v, p()); return v;` is `return p();` -/
  | tail (p) : Refactor (.bind p (fun v => .ret (.val v)) (fun r => .ret (.err r))) p
  /-- Put a call and what follows it in a function of its own. -/
  | outline (p k ke k' ke') : Refactor (.bind (.bind p k ke) k' ke') (.bind p (fun v => .bind (k v) k' ke') fun r => .bind (ke r) k' ke')
  /-- Put the call of `new_error` in a function of its own. -/
  | outlineNewError (a k k' ke') : Refactor (.bind (.newError a k) k' ke') (.newError a fun id => .bind (k id) k' ke')
  | outlineLoad (id a k k' ke') : Refactor (.bind (.load id a k) k' ke') (.load id a (.bind k k' ke'))
  /-- `try { p } catch( ... ) { throw; }` -/
  | rethrow (p v) : Refactor (.cppRethrow p fun _ => .ret (.val v)) p
  | newError {a k k'} : (∀ id, Refactor (k id) (k' id)) → Refactor (.newError a k) (.newError a k')
  | load {id a k k'} : Refactor k k' → Refactor (.load id a k) (.load id a k')
  | importCode {ec v k k'} : (∀ id, Refactor (k id) (k' id)) → Refactor (.importCode ec v k) (.importCode ec v k')
  | currentError {k k'} : (∀ id, Refactor (k id) (k' id)) → Refactor (.currentError k) (.currentError k')
  | bind {p p' k k' ke ke'} : Refactor p p' → (∀ v, Refactor (k v) (k' v)) → (∀ r, Refactor (ke r) (ke' r)) → Refactor (.bind p k ke) (.bind p' k' ke')
  | onError {a p p'} : Refactor p p' → Refactor (.onError a p) (.onError a p')
  | monNew {k k'} : (∀ id, Refactor (k id) (k' id)) → Refactor (.monNew k) (.monNew k')
  | monCheck {m k k'} : (∀ id, Refactor (k id) (k' id)) → Refactor (.monCheck m k) (.monCheck m k')
  | monAssigned {m k k'} : (∀ id, Refactor (k id) (k' id)) → Refactor (.monAssigned m k) (.monAssigned m k')
  | handleAll {specs p p' b b'} : Refactor p p' → (∀ i args, Refactor (b i args) (b' i args)) → Refactor (.handleAll specs p b) (.handleAll specs p' b')
  | handleSome {specs p p' b b'} : Refactor p p' → (∀ i args, Refactor (b i args) (b' i args)) → Refactor (.handleSome specs p b) (.handleSome specs p' b')
  | tryCatch {specs p p' b b'} : Refactor p p' → (∀ i args, Refactor (b i args) (b' i args)) → Refactor (.tryCatch specs p b) (.tryCatch specs p' b')
  | captureAll {p p'} : Refactor p p' → Refactor (.captureAll p) (.captureAll p')
  | captureAllVoid {p p'} : Refactor p p' → Refactor (.captureAllVoid p) (.captureAllVoid p')
  | excToResult {tys p p'} : Refactor p p' → Refactor (.excToResult tys p) (.excToResult tys p')
  | cppCatch {p p' h h'} : Refactor p p' → (∀ e, Refactor (h e) (h' e)) → Refactor (.cppCatch p h) (.cppCatch p' h')
  | cppRethrow {p p' h h'} : Refactor p p' → (∀ e, Refactor (h e) (h' e)) → Refactor (.cppRethrow p h) (.cppRethrow p' h')

/-! ## Proofs -/

section
variable {M : Type} [Store M] {cfg : Cfg}

theorem loadItems_both (b : Bool) (id : Id) (xs ys : List Item) : (loadItems cfg b id (xs ++ ys) : Comp M Unit) = (loadItems cfg b id xs >>= fun _ => loadItems cfg b id ys) := by
  induction xs with
  | nil => rfl
  | cons x xs ih => simp only [List.cons_append, loadItems, ih, bind_assoc]

theorem errorIdLoad_both (id : Id) (xs ys : List Item) : (errorIdLoad cfg id (xs ++ ys) : Comp M Unit) = (errorIdLoad cfg id xs >>= fun _ => errorIdLoad cfg id ys) := by
  unfold errorIdLoad
  split
  · exact loadItems_both ..
  · rfl

theorem triggerItems_both (id : Id) (xs ys : List OnItem) : (triggerItems cfg id (xs ++ ys) : Comp M Unit) = (triggerItems cfg id xs >>= fun _ => triggerItems cfg id ys) := by
  induction xs with
  | nil => rfl
  | cons x xs ih => cases x <;> simp only [List.cons_append, triggerItems, ih, bind_assoc]

theorem refactor_eval {p q : Prog} (h : Refactor p q) : (eval cfg p : Comp M Out) = eval cfg q := by
  induction h with
  | refl => rfl
  | symm _ ih => exact ih.symm
  | trans _ _ ih1 ih2 => exact ih1.trans ih2
  | newErrorLoad a b k => simp only [eval, newError, errorIdLoad_both, bind_assoc, pure_bind]
  | loadLoad id a b k => simp only [eval, errorIdLoad_both, bind_assoc]
  | loadNothing id k =>
    simp only [eval, errorIdLoad, loadItems]
    split <;> rfl
  | useValue v k ke => simp only [eval, pure_bind]
  | useError r k ke => simp only [eval, pure_bind]
  | useExc e k ke => simp only [eval, pure_bind]
  | tail p =>
    simp only [eval]
    conv => rhs; rw [← bind_pure (eval cfg p)]
    congr 1
    funext o
    cases o <;> rfl
  | outline p k ke k' ke' =>
    simp only [eval, bind_assoc]
    congr 1
    funext o
    cases o <;> simp only [pure_bind]
  | outlineNewError a k k' ke' => simp only [eval, bind_assoc]
  | outlineLoad id a k k' ke' => simp only [eval, bind_assoc]
  | rethrow p v =>
    simp only [eval, cppRethrow_, pure_bind]
    conv => rhs; rw [← bind_pure (eval cfg p)]
    congr 1
    funext o
    cases o <;> rfl
  | bind _ _ _ ih1 ih2 ih3 => simp only [eval, ih1, ih2, ih3]
  | handleAll _ _ ih1 ih2 | handleSome _ _ ih1 ih2 | tryCatch _ _ ih1 ih2 | cppCatch _ _ ih1 ih2 | cppRethrow _ _ ih1 ih2 => simp only [eval, ih1, ih2]
  | newError _ ih | load _ ih | importCode _ ih | currentError _ ih | onError _ ih | monNew _ ih | monCheck _ ih | monAssigned _ ih | captureAll _ ih | captureAllVoid _ ih | excToResult _ ih =>
    simp only [eval, ih]

/-! ### Guards -/

/-- The computation does not change the current error. -/
def KeepsCur {α : Type} (x : Comp M α) : Prop := ∀ w a w', x w = some (a, w') → w'.cur = w.cur

omit [Store M] in
theorem KeepsCur.pure {α : Type} (a : α) : KeepsCur (Pure.pure a : Comp M α) := by
  intro w b w' h
  rw [pure_apply] at h
  cases h
  rfl

omit [Store M] in
theorem KeepsCur.bind {α β : Type} {x : Comp M α} {f : α → Comp M β} (hx : KeepsCur x) (hf : ∀ a, KeepsCur (f a)) : KeepsCur (x >>= f) := by
  intro w b w' h
  rw [bind_apply] at h
  obtain ⟨⟨a, v⟩, h1, h2⟩ := Option.bind_eq_some_iff.mp h
  exact (hf a v b w' h2).trans (hx w a v h1)

omit [Store M] in
theorem keepsCur_emit (e : Event) : KeepsCur (emit e : Comp M Unit) := by intro w a w' h; cases h; rfl

omit [Store M] in
theorem keepsCur_assertTagged (id : Id) : KeepsCur (assertTagged id : Comp M Unit) := by
  intro w a w' h
  unfold assertTagged at h
  split at h <;> cases h
  rfl

theorem keepsCur_slotGet (ty : Ty) : KeepsCur (slotGet ty : Comp M _) := by
  intro w a w' h
  obtain ⟨x, _, e⟩ := Option.map_eq_some_iff.mp h
  cases e
  rfl

theorem keepsCur_daKey : KeepsCur (daKey : Comp M _) := by
  intro w a w' h
  obtain ⟨x, _, e⟩ := Option.map_eq_some_iff.mp h
  cases e
  rfl

theorem keepsCur_slotSet (ty : Ty) (id : Id) (v : Val) : KeepsCur (slotSet ty id v : Comp M _) := by
  intro w a w' h
  obtain ⟨x, _, e⟩ := Option.map_eq_some_iff.mp h
  cases e
  rfl

theorem keepsCur_daReset (id : Id) : KeepsCur (daReset id : Comp M _) := by
  intro w a w' h
  obtain ⟨x, _, e⟩ := Option.map_eq_some_iff.mp h
  cases e
  rfl

theorem keepsCur_daAppend (ty : Ty) (id : Id) (v : Val) : KeepsCur (daAppend ty id v : Comp M _) := by
  intro w a w' h
  obtain ⟨x, _, e⟩ := Option.map_eq_some_iff.mp h
  cases e
  rfl

omit [Store M] in
theorem keepsCur_iff {α : Type} {x : Comp M α} : KeepsCur x ↔ ∀ w a w', x w = some (a, w') → w'.cur = w.cur := Iff.rfl

attribute [irreducible] KeepsCur

macro "keepscur" : tactic => `(tactic| repeat (first
  | with_reducible first
    | exact KeepsCur.pure _ | exact keepsCur_emit _ | exact keepsCur_assertTagged _ | exact keepsCur_slotGet _ | exact keepsCur_daKey | exact keepsCur_slotSet _ _ _
    | exact keepsCur_daReset _ | exact keepsCur_daAppend _ _ _ | assumption | apply KeepsCur.bind
  | split | intro _ | dsimp only))

theorem keepsCur_loadItem (b : Bool) (id : Id) (i : Item) : KeepsCur (loadItem cfg b id i : Comp M _) := by
  cases i <;> simp only [loadItem, loadSlot, loadSlotDeferred, loadSlotAccumulate, dynamicLoad, dynamicAccumulate] <;> keepscur

theorem keepsCur_triggerItems (id : Id) (is : List OnItem) : KeepsCur (triggerItems cfg id is : Comp M _) := by
  induction is with
  | nil => exact KeepsCur.pure _
  | cons x is ih =>
    cases x with
    | item i => exact (keepsCur_loadItem true id i).bind fun _ => ih
    | action tag => exact (keepsCur_emit _).bind fun _ => ih

/-- The destructor of a guard. -/
def guardEnd (cfg : Cfg) (items : List OnItem) (saved : Id) (t : Bool) : Comp M Unit :=
  checkId cfg saved t >>= fun id => if id ≠ 0#32 then assertTagged id >>= fun _ => triggerItems cfg id items else pure ()

theorem onErrorGuard_end (items : List OnItem) (x : Comp M Out) :
    onErrorGuard cfg items x = currentId >>= fun saved => x >>= fun o => guardEnd cfg items saved o.throws >>= fun _ => pure o := by
  rw [onErrorGuard_eq]
  congr 1
  funext saved
  congr 1
  funext o
  simp only [guardEnd, bind_assoc]
  congr 1
  funext id
  split
  · simp only [bind_assoc]
  · rfl

theorem guard_twice (A B : List OnItem) (saved : Id) (t : Bool) (w1 : World M) (h : t = true → w1.cur = saved → nextId cfg w1 ≠ saved) :
    (guardEnd cfg B saved t >>= fun _ => guardEnd cfg A saved t) w1 = guardEnd cfg (B ++ A) saved t w1 := by
  simp only [guardEnd, bind_assoc]
  rw [bind_apply, bind_apply]
  cases hc : (checkId cfg saved t w1 : Option (Id × World M)) with
  | none => rfl
  | some r =>
    obtain ⟨id, w2⟩ := r
    have key : (id ≠ 0#32 → w2.cur = id ∧ id ≠ saved) ∧ (id = 0#32 → checkId cfg saved t w2 = some (0#32, w2)) := by
      have hg : ∀ v : World M, v.cur = 0#32 ∨ v.cur.Tagged → checkId cfg saved t v = if v.cur ≠ saved then some (v.cur, v) else if t then newId cfg v else some (0#32, v) := by
        intro v hv
        rw [checkId, bind_apply, currentId, if_pos hv, Option.bind_some]
        split
        · rfl
        · cases t <;> rfl
      have hw : w1.cur = 0#32 ∨ w1.cur.Tagged := by
        refine Classical.byContradiction fun hn => ?_
        rw [checkId, bind_apply, currentId, if_neg hn] at hc
        cases hc
      rw [hg w1 hw] at hc
      split at hc
      · rename_i hs
        cases hc
        exact ⟨fun _ => ⟨rfl, hs⟩, fun h0 => by rw [hg _ hw, if_pos hs, h0]⟩
      · rename_i hs
        have hs : w1.cur = saved := Classical.byContradiction hs
        cases t with
        | false =>
          cases hc
          exact ⟨fun h0 => absurd rfl h0, fun _ => by rw [hg _ hw, if_neg (fun hh => hh hs)]; rfl⟩
        | true =>
          have hne := h rfl hs
          have hc : some (nextId cfg w1, { w1 with counter := nextId cfg w1, cur := nextId cfg w1, ticks := w1.ticks + 1, trace := .gen (nextId cfg w1) :: w1.trace }) = some (id, w2) := hc
          cases hc
          refine ⟨fun _ => ⟨rfl, hne⟩, fun h0 => ?_⟩
          rw [hg _ (Or.inl h0), if_pos hne, h0]
    rw [Option.bind_some, Option.bind_some]
    by_cases h0 : id = 0#32
    · simp only [h0, ne_eq, not_true_eq_false, if_false]
      rw [bind_apply, pure_apply, Option.bind_some, bind_apply]
      have := key.2 h0
      simp [this, pure_apply]
    · simp only [ne_eq, h0, not_false_eq_true, if_true, triggerItems_both, bind_assoc]
      by_cases ht : id.Tagged
      · have ha : ∀ v : World M, assertTagged id v = some ((), v) := fun v => by rw [assertTagged, if_pos ht]
        rw [bind_apply, ha, Option.bind_some, bind_apply (assertTagged id), ha, Option.bind_some]
        simp only [bind_apply (triggerItems cfg id B)]
        cases hb : (triggerItems cfg id B w2 : Option (Unit × World M)) with
        | none => rfl
        | some r =>
          obtain ⟨_, w3⟩ := r
          have h3 : w3.cur = id := ((keepsCur_iff.mp (keepsCur_triggerItems (cfg := cfg) id B)) w2 _ w3 hb).trans (key.1 h0).1
          rw [Option.bind_some, Option.bind_some, bind_apply, checkId, bind_apply, currentId, if_pos (Or.inr (h3 ▸ ht)), Option.bind_some]
          rw [if_pos (by rw [h3]; exact (key.1 h0).2), pure_apply, Option.bind_some, h3, if_pos h0, bind_apply, ha, Option.bind_some]
      · have ha : ∀ v : World M, assertTagged id v = none := fun v => by rw [assertTagged, if_neg ht]
        rw [bind_apply, ha, bind_apply, ha]
        rfl

end

/-! ## The properties -/

/-- **C79.** Programs that differ by refactoring do the same, in every state and with every implementation of error storage: the same outcome, the same final state, the same events; or both are
undefined. -/
theorem C79_refactor {M : Type} [Store M] (cfg : Cfg) {p q : Prog} (h : Refactor p q) (w : World M) : eval cfg p w = eval cfg q w := congrFun (refactor_eval h) w

/-- **C79, guards.** Two guards, one after the other, do the same as one with the objects and functions of the second, then those of the first. Condition: if the block throws an exception and
reports no error, the next id is not the one that was current before (ids may repeat after 2^30 errors). -/
theorem C79_guards {M : Type} [Store M] (cfg : Cfg) (A B : List OnItem) (p : Prog) (w : World M)
    (h : ∀ e w1, eval cfg p w = some (.exc e, w1) → w1.cur = w.cur → nextId cfg w1 ≠ w.cur) :
    eval cfg (.onError A (.onError B p)) w = eval cfg (.onError (B ++ A) p) w := by
  show onErrorGuard cfg A (onErrorGuard cfg B (eval cfg p)) w = onErrorGuard cfg (B ++ A) (eval cfg p) w
  by_cases hw : w.cur = 0#32 ∨ w.cur.Tagged
  · have hcur : (currentId : Comp M Id) w = some (w.cur, w) := by rw [currentId, if_pos hw]
    simp only [onErrorGuard_end, bind_assoc, pure_bind]
    rw [bind_apply, hcur, Option.bind_some]
    simp only
    rw [bind_apply, hcur, Option.bind_some, bind_apply currentId, hcur, Option.bind_some]
    simp only [bind_apply (eval cfg p)]
    cases hp : (eval cfg p w : Option (Out × World M)) with
    | none => rfl
    | some r =>
      obtain ⟨o, w1⟩ := r
      have g := guard_twice (cfg := cfg) A B w.cur o.throws w1 (by
        intro ht
        cases o with
        | exc e => exact h e w1 hp
        | val _ => cases ht
        | err _ => cases ht)
      simp only [Option.bind_some]
      rw [← bind_assoc, bind_apply, g]
      rfl
  · have hcur : (currentId : Comp M Id) w = none := by rw [currentId, if_neg hw]
    simp only [onErrorGuard_end]
    rw [bind_apply, hcur, bind_apply, hcur]
    rfl

/-- **C79, guards without objects.** A guard without objects and functions does nothing if the block throws no exception. -/
theorem C79_guard_empty {M : Type} [Store M] (cfg : Cfg) (p : Prog) (w w1 : World M) (o : Out) (hp : eval cfg p w = some (o, w1)) (ho : ∀ e, o ≠ .exc e)
    (hc : w.cur = 0#32 ∨ w.cur.Tagged) (hc1 : w1.cur = 0#32 ∨ w1.cur.Tagged) : eval cfg (.onError [] p) w = some (o, w1) := by
  have ht : o.throws = false := by
    cases o with
    | exc e => exact absurd rfl (ho e)
    | val _ => rfl
    | err _ => rfl
  show onErrorGuard cfg [] (eval cfg p) w = _
  rw [onErrorGuard_end, bind_apply, currentId, if_pos hc, Option.bind_some, bind_apply]
  simp only [hp, Option.bind_some, ht]
  rw [guardEnd, bind_assoc, bind_apply, checkId, bind_apply, currentId, if_pos hc1, Option.bind_some]
  by_cases hs : w1.cur = w.cur
  · simp [hs, pure_apply, bind_apply]
  · simp only [ne_eq, hs, not_false_eq_true, if_true, pure_apply, Option.bind_some]
    rcases hc1 with h0 | ht1
    · simp [h0, pure_apply, bind_apply]
    · split
      · rw [bind_apply, bind_apply, assertTagged, if_pos ht1]
        rfl
      · rfl

/-! ## Examples -/

/-- Two ways to write a program: report an error with two objects, in a function called by another one; or with one object, adding the other. -/
def exRefactor1 : Prog := .handleAll [[.req 10, .req 20], []] (.bind (.newError [.obj 10 1, .obj 20 2] fun id => .ret (.err (.plain id))) (fun v => .ret (.val v)) fun r => .ret (.err r))
  fun i _ => .ret (.val i)
def exRefactor2 : Prog := .handleAll [[.req 10, .req 20], []] (.newError [.obj 10 1] fun id => .load id [.obj 20 2] (.ret (.err (.plain id)))) fun i _ => .ret (.val i)

example : Refactor exRefactor1 exRefactor2 :=
  .handleAll ((Refactor.tail _).trans (.newErrorLoad [.obj 10 1] [.obj 20 2] fun id => .ret (.err (.plain id)))) fun _ _ => .refl _

example : (eval exCfg exRefactor1 (initThread 1#32)).map (·.1) = some (.val 0) ∧ (eval exCfg exRefactor2 (initThread 1#32)).map (·.1) = some (.val 0) := by decide +kernel

/-- An exception not known to the library. -/
def exUnknown : Exc := { tag := 1, isStd := true, idSrc := .none, casts := [], clear := true }

/-- Guards that add objects of type 10, 1 and 2, to an exception. -/
def exGuards (A B : List OnItem) : Prog := .tryCatch [[.req 10]] (.onError A (.onError B (.ret (.exc exUnknown)))) fun _ args => match args with | [.obj _ v] => .ret (.val v) | _ => .ret (.val 0)
def exGuard (A : List OnItem) : Prog := .tryCatch [[.req 10]] (.onError A (.ret (.exc exUnknown))) fun _ args => match args with | [.obj _ v] => .ret (.val v) | _ => .ret (.val 0)

/-- The condition of `C79_guards` holds. -/
example : ∀ e w1, eval exCfg (.ret (.exc exUnknown)) (initThread 1#32) = some (.exc e, w1) → w1.cur = (initThread 1#32).cur → nextId exCfg w1 ≠ (initThread 1#32).cur := by
  intro e w1 h _
  cases h
  decide +kernel

/-- The guard constructed last is the first to add its objects; the other order makes a difference. -/
example : (eval exCfg (exGuards [.item (.obj 10 1)] [.item (.obj 10 2)]) (initThread 1#32)).map (·.1) = some (.val 2) ∧
    (eval exCfg (exGuard [.item (.obj 10 2), .item (.obj 10 1)]) (initThread 1#32)).map (·.1) = some (.val 2) ∧
    (eval exCfg (exGuard [.item (.obj 10 1), .item (.obj 10 2)]) (initThread 1#32)).map (·.1) = some (.val 1) := by decide +kernel

/-- **C79, refuted when ids repeat.** If the next id is the current one (after 2^30 errors), the first of two guards assigns it to the exception, but the second does not notice, and assigns another
one. A single guard assigns one id. -/
theorem C79_refuted_repeat :
    (eval exCfg (exGuards [.item (.obj 10 1)] [.item (.obj 20 2)]) { initThread 1#32 with cur := 5#32 }).map (fun r => r.2.cur) = some 9#32 ∧
    (eval exCfg (exGuard [.item (.obj 20 2), .item (.obj 10 1)]) { initThread 1#32 with cur := 5#32 }).map (fun r => r.2.cur) = some 5#32 := by decide +kernel

/-- **C79, refuted for guards without objects when an exception is thrown.** The guard assigns an id to the exception. -/
theorem C79_refuted_empty :
    (eval exCfg (.onError [] (.ret (.exc exUnknown))) (initThread 1#32)).map (fun r => r.2.cur) = some 5#32 ∧
    (eval exCfg (.ret (.exc exUnknown)) (initThread 1#32)).map (fun r => r.2.cur) = some 0#32 := by decide +kernel

end Leaf
