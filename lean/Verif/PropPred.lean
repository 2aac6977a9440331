import Verif.PredModel
import Verif.PropHandlers

/-!
# C30: predicates match exactly the listed values
-/

namespace Leaf

/-! ## Specification -/

/-- The (projected) object is accepted by an element of the pack. -/
def PackItem.Accepts (eq : Val → Val → Bool) (e : Val) : PackItem → Prop
  | .value v => eq e v = true
  | .func f => f e = true

/-- Some element of the pack accepts. -/
def Listed (eq : Val → Val → Bool) (e : Val) (vs : List PackItem) : Prop := ∃ v ∈ vs, v.Accepts eq e

/-! ## Proofs -/

theorem cmpOne_iff (eq : Val → Val → Bool) (e : Val) (i : PackItem) : cmpOne eq e i = true ↔ i.Accepts eq e := by cases i <;> rfl

theorem cmpValuePack_iff (eq : Val → Val → Bool) (e : Val) (v1 : PackItem) (vs : List PackItem) : cmpValuePack eq e v1 vs = true ↔ Listed eq e (v1 :: vs) := by
  induction vs generalizing v1 with
  | nil => simp [cmpValuePack, cmpOne_iff, Listed]
  | cons v vs ih =>
    simp only [cmpValuePack, Bool.or_eq_true, cmpOne_iff, ih]
    simp only [Listed, List.mem_cons, exists_eq_or_imp]

theorem checkExceptionPack_iff (ex : Exc) (tys : List Ty) : checkExceptionPack ex tys = true ↔ tys = [] ∨ ∃ ty ∈ tys, (ex.cast ty).isSome := by
  induction tys with
  | nil => simp [checkExceptionPack]
  | cons ty tys ih =>
    cases tys with
    | nil => simp [checkExceptionPack]
    | cons t ts =>
      simp only [checkExceptionPack, Bool.or_eq_true]
      rw [ih]
      simp

theorem check_pred_iff {cfg : Cfg} {s : Scope} (hs : ScopeOk cfg s) {id : Id} (hid : id.Tagged) (ex : Option Exc) (ty : Ty) (p : Val → Bool) :
    Arg.check cfg s id ex (.pred ty p) = true ↔ ∃ v, Sees s id ex ty v ∧ p v = true := by
  simp only [Arg.check]
  cases h : peek cfg s id ex ty with
  | none =>
    simp only [Bool.false_eq_true, false_iff]
    rintro ⟨v, hv, _⟩
    rw [(peek_iff hs hid ex ty v).mpr hv] at h
    simp at h
  | some v =>
    have hv := (peek_iff hs hid ex ty v).mp h
    constructor
    · intro hp; exact ⟨v, hv, hp⟩
    · rintro ⟨v', hv', hp⟩
      rw [(peek_iff hs hid ex ty v').mpr hv'] at h
      simp only [Option.some.injEq] at h
      rw [← h]; exact hp

/-! ## The properties -/

/-- **C30: `match`.** Accepts iff an object of the type is available for the error and it is equal to a listed value, or a listed function accepts it. -/
theorem C30_match {cfg : Cfg} {s : Scope} (hs : ScopeOk cfg s) {id : Id} (hid : id.Tagged) (ex : Option Exc) (ty : Ty) (eq : Val → Val → Bool) (v1 : PackItem) (vs : List PackItem) :
    Arg.check cfg s id ex (Predicate.match_ ty eq v1 vs).toArg = true ↔ ∃ e, Sees s id ex ty e ∧ Listed eq e (v1 :: vs) := by
  show Arg.check cfg s id ex (.pred ty _) = true ↔ _
  rw [check_pred_iff hs hid]
  simp only [Predicate.evalObj, cmpValuePack_iff]

/-- **C30: `match_value`.** The same for the member `value`. -/
theorem C30_match_value {cfg : Cfg} {s : Scope} (hs : ScopeOk cfg s) {id : Id} (hid : id.Tagged) (ex : Option Exc) (ty : Ty) (value : Val → Val) (eq : Val → Val → Bool) (v1 : PackItem)
    (vs : List PackItem) :
    Arg.check cfg s id ex (Predicate.matchValue ty value eq v1 vs).toArg = true ↔ ∃ e, Sees s id ex ty e ∧ Listed eq (value e) (v1 :: vs) := by
  show Arg.check cfg s id ex (.pred ty _) = true ↔ _
  rw [check_pred_iff hs hid]
  simp only [Predicate.evalObj, cmpValuePack_iff]

/-- **C30: `match_member`.** The same for any member. -/
theorem C30_match_member {cfg : Cfg} {s : Scope} (hs : ScopeOk cfg s) {id : Id} (hid : id.Tagged) (ex : Option Exc) (ty : Ty) (mem : Val → Val) (eq : Val → Val → Bool) (v1 : PackItem)
    (vs : List PackItem) :
    Arg.check cfg s id ex (Predicate.matchMember ty mem eq v1 vs).toArg = true ↔ ∃ e, Sees s id ex ty e ∧ Listed eq (mem e) (v1 :: vs) := by
  show Arg.check cfg s id ex (.pred ty _) = true ↔ _
  rw [check_pred_iff hs hid]
  simp only [Predicate.evalObj, cmpValuePack_iff]

/-- **C30: `catch_`.** `catch_<Ex...>` accepts iff an exception was caught that is of one of the listed types; `catch_<>` iff one was caught. (`ex` is the caught `std::exception`, if any.) -/
theorem C30_catch (cfg : Cfg) (s : Scope) (id : Id) (ex : Option Exc) (tys : List Ty) :
    Arg.check cfg s id ex (Predicate.catch_ tys).toArg = true ↔ ∃ e, ex = some e ∧ (tys = [] ∨ ∃ ty ∈ tys, ∃ v, e.cast ty = some v) := by
  show Arg.check cfg s id ex (.catch_ _) = true ↔ _
  simp only [Arg.check, Predicate.evalExc]
  cases ex with
  | none => simp
  | some e => simp [checkExceptionPack_iff, Option.isSome_iff_exists]

/-- What a predicate looks at is available: an object of its type, or (for `catch_`) a caught exception. -/
def Predicate.Subject (s : Scope) (id : Id) (ex : Option Exc) (p : Predicate) : Prop :=
  match p.errorType with
  | some ty => ∃ v, Sees s id ex ty v
  | none => ∃ e, ex = some e

/-- **C30: `if_not`.** Accepts iff what the negated predicate looks at is available, and the predicate rejects. For all predicates, also nested `if_not`. -/
theorem C30_if_not {cfg : Cfg} {s : Scope} (hs : ScopeOk cfg s) {id : Id} (hid : id.Tagged) (ex : Option Exc) (p : Predicate) :
    Arg.check cfg s id ex (Predicate.ifNot p).toArg = true ↔ p.Subject s id ex ∧ Arg.check cfg s id ex p.toArg = false := by
  unfold Predicate.toArg Predicate.Subject
  rw [show (Predicate.ifNot p).errorType = p.errorType from rfl]
  cases h : p.errorType with
  | none =>
    simp only [Arg.check]
    cases ex with
    | none => simp
    | some e => simp [Predicate.evalExc]
  | some ty =>
    simp only
    rw [check_pred_iff hs hid, ← Bool.not_eq_true, check_pred_iff hs hid]
    constructor
    · rintro ⟨v, hv, hp⟩
      refine ⟨⟨v, hv⟩, ?_⟩
      rintro ⟨v', hv', hp'⟩
      have : v = v' := by
        have h1 := (peek_iff hs hid ex ty v).mpr hv
        rw [(peek_iff hs hid ex ty v').mpr hv'] at h1
        exact (Option.some.inj h1).symm
      subst this
      simp [Predicate.evalObj, hp'] at hp
    · rintro ⟨⟨v, hv⟩, hn⟩
      refine ⟨v, hv, ?_⟩
      cases he : p.evalObj v with
      | true => exact absurd ⟨v, hv, he⟩ hn
      | false => simp [Predicate.evalObj, he]

/-- **C30: the handler receives the object that matched.** -/
theorem C30_receives {cfg : Cfg} {s : Scope} (hs : ScopeOk cfg s) {id : Id} (hid : id.Tagged) (ex : Option Exc) (loc : Option Val) (p : Predicate)
    (h : Arg.check cfg s id ex p.toArg = true) :
    (∃ ty v, p.errorType = some ty ∧ Sees s id ex ty v ∧ p.evalObj v = true ∧ Arg.get cfg s id ex loc p.toArg = some (.obj ty v)) ∨
    (∃ e, p.errorType = none ∧ ex = some e ∧ p.evalExc e = true ∧ Arg.get cfg s id ex loc p.toArg = some (.exc e)) := by
  unfold Predicate.toArg at h ⊢
  cases ht : p.errorType with
  | some ty =>
    rw [ht] at h
    obtain ⟨v, hv, hp⟩ := (check_pred_iff hs hid ex ty _).mp h
    exact Or.inl ⟨ty, v, rfl, hv, hp, by simp [Arg.get, (peek_iff hs hid ex ty v).mpr hv]⟩
  | none =>
    rw [ht] at h
    cases ex with
    | none => simp [Arg.check] at h
    | some e => exact Or.inr ⟨e, rfl, rfl, h, rfl⟩

/-! ## The hypotheses can be met -/

/-- A scope with an object of type 10 for error 5, and one of type 11 for another error. -/
def exPredScope : Scope := [.obj 10 (some (5#32, 7)), .obj 11 (some (9#32, 7))]

example : ScopeOk exCfg exPredScope ∧ Id.Tagged 5#32 := by
  refine ⟨⟨by decide, fun ty _ => rfl⟩, by decide⟩

example : Arg.check exCfg exPredScope 5#32 none (Predicate.match_ 10 (· == ·) (.value 3) [.func (· > 100), .value 7]).toArg = true := by decide +kernel
example : Arg.check exCfg exPredScope 5#32 none (Predicate.match_ 10 (· == ·) (.value 3) [.func (· > 100)]).toArg = false := by decide +kernel
example : Arg.check exCfg exPredScope 5#32 none (Predicate.ifNot (.match_ 10 (· == ·) (.value 3) [])).toArg = true := by decide +kernel
/-- No object of type 11 for error 5: neither the predicate nor its negation accepts. -/
example : Arg.check exCfg exPredScope 5#32 none (Predicate.match_ 11 (· == ·) (.value 7) []).toArg = false ∧
    Arg.check exCfg exPredScope 5#32 none (Predicate.ifNot (.match_ 11 (· == ·) (.value 7) [])).toArg = false := by decide +kernel
example : Arg.check exCfg exPredScope 5#32 (some ⟨1, true, .none, [(20, 0)], false⟩) (Predicate.catch_ [21, 20]).toArg = true := by decide +kernel

end Leaf
