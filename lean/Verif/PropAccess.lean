import Verif.AccessModel
import Verif.PropResult

/-!
# C58: what the accessors of `result` refer to
-/

namespace Leaf

/-- All accessors of the result `r` refer to the object `t`: `get` and `operator->` are not null, `operator*` does not fail, `value()` does not throw. `asConst` and
`rval` tell, from the expression the accessor is called on, if the object is seen as const and as an rvalue. -/
structure AllReferTo (k : Kept) (r : RObj) (t : Target) (asConst rval : Qual → Bool) : Prop where
  arrow : ∀ c, r.arrow k c = some (some ⟨t, asConst ⟨c, false⟩⟩)
  star : ∀ q, r.star k q = some ⟨t, asConst q, rval q⟩
  value : ∀ q, r.access k q = some (.ok ⟨t, asConst q, rval q⟩)
  print : r.print k = some (.value t)

/-- No accessor of `r` refers to an object: pointers are null, `operator*` is a violated assertion, `value()` throws `bad_result` with `id`. -/
structure NoneRefers (k : Kept) (r : RObj) (id : Id) : Prop where
  get : r.get = some none
  arrow : ∀ c, r.arrow k c = some none
  star : ∀ q, r.star k q = none
  value : ∀ q, r.access k q = some (.error id)
  print : r.print k = some (.error id)

private theorem at_end {mv : Nat → Nat} {ops : List ROp} {s : RStates} (hs : RStates.run mv (fun _ => none) ops = some s) {a : Nat} {x : RState}
    (ha : s a = some x) : ∃ p r, RPool.empty.run mv ops = some p ∧ p.Inv ∧ p.objs a = some r ∧ r.state = x := by
  obtain ⟨p, h1, h2, h3⟩ := run_refines ops empty_inv hs
  obtain ⟨r, hr, hst⟩ := states_some (p := p) (by rw [h3]; exact ha)
  exact ⟨p, r, h1, h2, hr, hst⟩

/-- **C58, values of type `T`.** After any allowed operations, a result in value state: all accessors refer to one and the same object, the one that this result (and
no other) holds in its union; it is alive and has the value; it is seen const through a const result, and as an rvalue through an rvalue. -/
theorem C58_value (mv : Nat → Nat) {ops : List ROp} {s : RStates} (hs : RStates.run mv (fun _ => none) ops = some s) {a v : Nat} (ha : s a = some (.value v)) :
    ∃ p r o, RPool.empty.run mv ops = some p ∧ p.objs a = some r ∧ r.u = .stored o v ∧ o ∉ p.dead ∧ (∀ b, p.held b = some o ↔ b = a) ∧
      r.get = some (some (o, v)) ∧ AllReferTo .val r (.member o) (·.isConst) (·.rvalue) := by
  obtain ⟨p, r, h1, h2, hr, hst⟩ := at_end hs ha
  obtain ⟨hk, o, hu⟩ := (state_kind (h2.ok a r hr)).1 v hst
  have hh : p.held a = some o := by simp [RPool.held, hr, hu, UMem.obj]
  have hv : r.hasValue = true := by simp [RObj.hasValue, hk]
  have hg : r.get = some (some (o, v)) := by simp [RObj.get, hv, hu]
  refine ⟨p, r, o, h1, hr, hu, (h2.life.heldLt a o hh).2, fun b => ⟨fun hb => h2.life.unique b a o hb hh, fun hb => hb ▸ hh⟩, hg, ?_⟩
  exact ⟨fun c => by simp [RObj.arrow, hv, hu, Kept.ptr], fun q => by simp [RObj.star, hg, Kept.bindTo], fun q => by simp [RObj.access, hk, hu, Kept.bindTo],
    by simp [RObj.print, RObj.access, hk, hu, Kept.bindTo]⟩

/-- **C58, references.** A `result<T &>` created with a reference to the object at `x`, at any point of a history of allowed operations on results of this type:
wherever it was passed on to, all accessors refer to this very object, as an lvalue, and no constness is added. -/
theorem C58_reference {pre ops : List ROp} {a a' x : Nat} {conv : Nat → Nat} {s : RStates} (hp : Passed ops a a' conv) (hc : conv x = x)
    (hs : RStates.run (fun v => v) (fun _ => none) (pre ++ .mkVal a x :: ops) = some s) :
    ∃ p r, RPool.empty.run (fun v => v) (pre ++ .mkVal a x :: ops) = some p ∧ p.objs a' = some r ∧
      AllReferTo .ref r (.outside x) (fun _ => false) (fun _ => false) := by
  obtain ⟨p, r, h1, hr, hv, _, _, hval⟩ := C06_value_arrives (fun v => v) hp hs
  rw [hc] at hval
  have hk : kind r.what = 3#32 := by simpa [RObj.hasValue] using hv
  have hu : ∃ o, r.u = .stored o x := by
    simp only [RObj.value, hk, if_true] at hval
    cases hu : r.u with
    | stored o v => rw [hu] at hval; cases hval; exact ⟨o, rfl⟩
    | _ => rw [hu] at hval; cases hval
  obtain ⟨o, hu⟩ := hu
  have hg : r.get = some (some (o, x)) := by simp [RObj.get, hv, hu]
  exact ⟨p, r, h1, hr, fun c => by simp [RObj.arrow, hv, hu, Kept.ptr], fun q => by simp [RObj.star, hg, Kept.bindTo],
    fun q => by simp [RObj.access, hk, hu, Kept.bindTo], by simp [RObj.print, RObj.access, hk, hu, Kept.bindTo]⟩

/-- **C58, references, the result moved from.** Moving a `result<T &>` leaves it with the reference: right after the move, old and new refer to the same object. -/
theorem C58_reference_moved {ops : List ROp} {a b x : Nat} {s0 s : RStates} (h0 : RStates.run (fun v => v) (fun _ => none) ops = some s0)
    (ha : s0 a = some (.value x)) (op : ROp) (hop : op = .moveCtor b a (fun v => v) ∨ op = .moveAssign b a (fun v => v))
    (hs : RStates.run (fun v => v) (fun _ => none) (ops ++ [op]) = some s) :
    ∃ p r1 r2, RPool.empty.run (fun v => v) (ops ++ [op]) = some p ∧ p.objs a = some r1 ∧ p.objs b = some r2 ∧
      AllReferTo .ref r1 (.outside x) (fun _ => false) (fun _ => false) ∧ AllReferTo .ref r2 (.outside x) (fun _ => false) (fun _ => false) := by
  obtain ⟨s1, h1, h2⟩ := RStates.run_append hs
  rw [h0] at h1
  cases h1
  obtain ⟨s2, h3, h4⟩ := RStates.run_cons h2
  have h4 : s2 = s := by simpa [RStates.run] using h4
  subst h4
  have hst : s2 a = some (.value x) ∧ s2 b = some (.value x) := by
    have e : s2 = (s0.set a (some (.value x))).set b (some (.value x)) := by
      rcases hop with rfl | rfl
      · cases hb : s0 b <;> simp [RStates.step, ha, hb, RState.moveTo, RState.movedFrom] at h3
        exact h3.symm
      · cases hb : s0 b <;> simp [RStates.step, ha, hb, RState.moveTo, RState.movedFrom] at h3
        exact h3.2.symm
    rw [e]
    refine ⟨?_, set_get _ _ _⟩
    by_cases hab : a = b <;> simp [RStates.set, hab]
  obtain ⟨p, hp, hinv, hps⟩ := run_refines _ empty_inv hs
  have key : ∀ c, s2 c = some (.value x) → ∃ r, p.objs c = some r ∧ AllReferTo .ref r (.outside x) (fun _ => false) (fun _ => false) := by
    intro c hc
    obtain ⟨r, hr, hst⟩ := states_some (p := p) (by rw [hps]; exact hc)
    obtain ⟨hk, o, hu⟩ := (state_kind (hinv.ok c r hr)).1 x hst
    have hv : r.hasValue = true := by simp [RObj.hasValue, hk]
    have hg : r.get = some (some (o, x)) := by simp [RObj.get, hv, hu]
    exact ⟨r, hr, fun c => by simp [RObj.arrow, hv, hu, Kept.ptr], fun q => by simp [RObj.star, hg, Kept.bindTo],
      fun q => by simp [RObj.access, hk, hu, Kept.bindTo], by simp [RObj.print, RObj.access, hk, hu, Kept.bindTo]⟩
  obtain ⟨r1, e1, f1⟩ := key a hst.1
  obtain ⟨r2, e2, f2⟩ := key b hst.2
  exact ⟨p, r1, r2, hp, e1, e2, f1, f2⟩

/-- **C58, errors.** After any allowed operations, a result in an error state with a valid id, with or without captured objects: no accessor refers to an object;
`value()` throws with this id. This holds for `result<T>`, `result<T &>` and `result<void>`. -/
theorem C58_error (mv : Nat → Nat) {ops : List ROp} {s : RStates} (hs : RStates.run mv (fun _ => none) ops = some s) {a : Nat} {id : Id}
    (ha : (s a = some (.error id) ∧ id.Tagged) ∨ ∃ l, s a = some (.captured id l)) :
    ∃ p r, RPool.empty.run mv ops = some p ∧ p.objs a = some r ∧ (∀ k, NoneRefers k r id) ∧ r.starVoid = none ∧ r.accessVoid = some (.error id) ∧
      r.printVoid = some (.error id) := by
  have : ∃ p r, RPool.empty.run mv ops = some p ∧ p.objs a = some r ∧ kind r.what ≠ 3#32 ∧ whatErrorId r.what = some id := by
    rcases ha with ⟨ha, hid⟩ | ⟨l, ha⟩
    · obtain ⟨p, r, h1, h2, hr, hst⟩ := at_end hs ha
      have := C06_observers mv ops hs h1 hr
      rw [ha] at this
      exact ⟨p, r, h1, hr, ((state_kind (h2.ok a r hr)).2.1 id hst).1, by rw [this.2.2.2.2.1, makeErrorId_of_tagged hid]⟩
    · obtain ⟨p, r, h1, h2, hr, hst⟩ := at_end hs ha
      have := C06_observers mv ops hs h1 hr
      rw [ha] at this
      exact ⟨p, r, h1, hr, by rw [((state_kind (h2.ok a r hr)).2.2 id l hst).1]; decide, this.2.2.2.2.1⟩
  obtain ⟨p, r, h1, hr, hk, hid⟩ := this
  have hv : r.hasValue = false := by simpa [RObj.hasValue] using hk
  refine ⟨p, r, h1, hr, fun k => ?_, by simp [RObj.starVoid, hv], by simp [RObj.accessVoid, hk, hid], by simp [RObj.printVoid, RObj.toBool, hv, hid]⟩
  have hg : r.get = some none := by simp [RObj.get, hv]
  exact ⟨hg, fun c => by simp [RObj.arrow, hv], fun q => by simp [RObj.star, hg], fun q => by simp [RObj.access, hk, hid], by simp [RObj.print, hk, hid]⟩

/-- **C58, `result<void>`.** In value state, `value()` and `operator*` succeed, `operator->` is not null, and "No error" is printed. -/
theorem C58_void (mv : Nat → Nat) {ops : List ROp} {s : RStates} (hs : RStates.run mv (fun _ => none) ops = some s) {a v : Nat} (ha : s a = some (.value v)) :
    ∃ p r, RPool.empty.run mv ops = some p ∧ p.objs a = some r ∧ r.starVoid = some () ∧ r.accessVoid = some (.ok ()) ∧ r.printVoid = some .noError ∧
      ∀ c, ∃ t, r.arrow .val c = some (some t) := by
  obtain ⟨p, r, o, h1, hr, hu, _, _, _, ha⟩ := C58_value mv hs ha
  have hv : r.hasValue = true := by
    cases h : r.hasValue with
    | true => rfl
    | false => exact absurd (ha.arrow false) (by simp [RObj.arrow, h])
  have hk : kind r.what = 3#32 := by simpa [RObj.hasValue] using hv
  exact ⟨p, r, h1, hr, by simp [RObj.starVoid, hv], by simp [RObj.accessVoid, hk], by simp [RObj.printVoid, RObj.toBool, hv], fun c => ⟨_, ha.arrow c⟩⟩

/-! ## The hypotheses can be met -/

/-- In `exOps`, result 1 ends with the value 16, and 5 with a captured error. -/
example : ∃ p r o, RPool.empty.run (fun _ => 0) exOps = some p ∧ p.objs 1 = some r ∧ r.u = .stored o 16 ∧ o ∉ p.dead ∧ (∀ b, p.held b = some o ↔ b = 1) ∧
    r.get = some (some (o, 16)) ∧ AllReferTo .val r (.member o) (·.isConst) (·.rvalue) :=
  C58_value (fun _ => 0) (s := (RStates.run (fun _ => 0) (fun _ => none) exOps).get (by decide)) rfl rfl

example : ∃ p r, RPool.empty.run (fun _ => 0) exOps = some p ∧ p.objs 5 = some r ∧ (∀ k, NoneRefers k r 9#32) ∧ r.starVoid = none ∧
    r.accessVoid = some (.error 9#32) ∧ r.printVoid = some (.error 9#32) :=
  C58_error (fun _ => 0) (s := (RStates.run (fun _ => 0) (fun _ => none) exOps).get (by decide)) rfl (.inr ⟨[1, 2], by decide⟩)

/-- A reference to the object at 40 is returned through three results. -/
example : ∃ p r, RPool.empty.run (fun v => v) ([.mkErr 1 5#32] ++ .mkVal 0 40 :: [.moveCtor 2 0 (fun v => v), .drop 0, .moveAssign 1 2 (fun v => v)]) = some p ∧
    p.objs 1 = some r ∧ AllReferTo .ref r (.outside 40) (fun _ => false) (fun _ => false) :=
  C58_reference (conv := ((fun v => v) ∘ fun v => v) ∘ fun v => v) (.construct (.other (by simp [ROp.Leaves]) (.assign (.done 1)))) rfl
    (s := (RStates.run (fun v => v) (fun _ => none) ([.mkErr 1 5#32] ++ .mkVal 0 40 :: [.moveCtor 2 0 (fun v => v), .drop 0, .moveAssign 1 2 (fun v => v)])).get (by decide)) rfl

example : ∃ p r1 r2, RPool.empty.run (fun v => v) ([.mkVal 0 40] ++ [.moveCtor 1 0 (fun v => v)]) = some p ∧ p.objs 0 = some r1 ∧ p.objs 1 = some r2 ∧
    AllReferTo .ref r1 (.outside 40) (fun _ => false) (fun _ => false) ∧ AllReferTo .ref r2 (.outside 40) (fun _ => false) (fun _ => false) :=
  C58_reference_moved (s0 := (RStates.run (fun v => v) (fun _ => none) [.mkVal 0 40]).get (by decide)) rfl rfl _ (.inl rfl)
    (s := (RStates.run (fun v => v) (fun _ => none) ([.mkVal 0 40] ++ [.moveCtor 1 0 (fun v => v)])).get (by decide)) rfl

example : ∃ p r, RPool.empty.run (fun _ => 0) exOps = some p ∧ p.objs 1 = some r ∧ r.starVoid = some () ∧ r.accessVoid = some (.ok ()) ∧
    r.printVoid = some .noError ∧ ∀ c, ∃ t, r.arrow .val c = some (some t) :=
  C58_void (fun _ => 0) (s := (RStates.run (fun _ => 0) (fun _ => none) exOps).get (by decide)) rfl (v := 16) rfl

end Leaf
