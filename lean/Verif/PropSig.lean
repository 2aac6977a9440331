import Verif.SigModel
import Verif.HandlerLemmas

/-!
# C66: functions are recognised as functions
-/

namespace Leaf
open Sig

/-! ## Specification -/

/-- The type of the function. -/
def Sig.Callable.sgn : Callable → Sgn
  | .object op => op.sgn
  | .function s _ | .pointer s _ => s

/-- The library can handle the callable: a call operator is neither `volatile` nor restricted to lvalues or rvalues; in C++17, a function with `noexcept` is passed as a temporary pointer. -/
def Sig.Supported (cpp17 : Bool) : Callable → Passed → Prop
  | .object op, _ => op.qualified = false
  | .function _ n, _ => ¬ (cpp17 = true ∧ n = true)
  | .pointer _ _, .temporary => True
  | .pointer _ n, _ => ¬ (cpp17 = true ∧ n = true)

/-- What should be done with a function passed to `new_error` or `load`. -/
def Sig.LoadSpec (s : Sgn) (k : ItemKind) : Prop :=
  match s.pars with
  | [] => k = if s.ret.isNone then .rejected else .deferred
  | [⟨_, .lref _⟩] => k = .accumulate true
  | [⟨_, .val⟩] => k = .accumulate false
  | _ => k = .rejected

/-- What should be done with a function passed to `on_error`. -/
def Sig.OnErrorSpec (s : Sgn) (k : ItemKind) : Prop :=
  match s.pars with
  | [] => k = .deferred
  | [⟨_, .lref _⟩] => k = .accumulate true
  | _ => k = .rejected

/-- `leaf::match`, `leaf::match_value`, `leaf::match_member`, `leaf::catch_`. -/
def Sig.Predicate (b : Base) : Prop := (∃ ty p, b = .pred ty p) ∨ ∃ p, b = .catch_ p

/-- `error_info`, `diagnostic_info`, `diagnostic_details`. -/
def Sig.Library (b : Base) : Prop := b = .info ∨ b = .diag ∨ b = .details

/-! ## Proofs -/

theorem Sig.traits_supported {cpp17 : Bool} {c : Callable} {p : Passed} (h : Supported cpp17 c p) :
    functionTraits (c.deduced cpp17 p) = .ok c.sgn.ret c.sgn.pars c.sgn.pars.length := by
  cases c with
  | object op =>
    have hq : op.qualified = false := by cases p <;> exact h
    cases p <;> simp [Callable.deduced, functionTraits, removeNoexcept, traitsImpl, traitsMem, hq, Callable.sgn]
  | function s n => cases cpp17 <;> cases n <;> cases p <;> first | rfl | exact absurd ⟨rfl, rfl⟩ h
  | pointer s n => cases cpp17 <;> cases n <;> cases p <;> first | rfl | exact absurd ⟨rfl, rfl⟩ h

theorem Sig.traits_unsupported {cpp17 : Bool} {c : Callable} {p : Passed} (h : ¬ Supported cpp17 c p) :
    functionTraits (c.deduced cpp17 p) = .error ∨ functionTraits (c.deduced cpp17 p) = .primary := by
  cases c with
  | object op =>
    have hq : op.qualified = true := by
      cases p <;> exact Bool.of_not_eq_false h
    cases p <;> simp [Callable.deduced, functionTraits, removeNoexcept, traitsImpl, traitsMem, hq]
  | function s n => cases cpp17 <;> cases n <;> cases p <;> first | exact Or.inr rfl | exact absurd (by simp [Supported]) h
  | pointer s n => cases cpp17 <;> cases n <;> cases p <;> first | exact Or.inr rfl | exact absurd (by simp [Supported]) h

/-! ## The properties -/

/-- **C66, handlers.** The parameters of a handler are determined correctly, in the cases supported; in the others the program does not compile. -/
theorem C66_handlers_partial (cpp17 : Bool) (c : Callable) (p : Passed) :
    (Supported cpp17 c p → handlerArgs (c.deduced cpp17 p) = some c.sgn.pars) ∧ (¬ Supported cpp17 c p → handlerArgs (c.deduced cpp17 p) = none) := by
  constructor
  · intro h
    rw [handlerArgs, traits_supported h]
  · intro h
    rcases traits_unsupported h with e | e <;> rw [handlerArgs, e]

/-- **C66, items.** A function passed to `new_error` or `load` is called if it takes nothing, or one object (by reference, or a copy of it); a function passed to `on_error` is called if it takes nothing, or
one object by reference. Everything else is rejected. -/
theorem C66_items_partial (cpp17 : Bool) (c : Callable) (p : Passed) (h : Supported cpp17 c p) :
    LoadSpec c.sgn (Sig.loadItem (c.deduced cpp17 p)) ∧ OnErrorSpec c.sgn (onErrorItem (c.deduced cpp17 p)) := by
  simp only [Sig.loadItem, onErrorItem, traits_supported h, LoadSpec, OnErrorSpec]
  generalize c.sgn = s
  obtain ⟨ret, pars⟩ := s
  match pars with
  | [] => simp
  | [⟨ty, .lref c⟩] => simp [Par.byRef]
  | [⟨ty, .val⟩] => simp [Par.byRef]
  | [⟨ty, .rref⟩] => simp [Par.byRef]
  | a :: b :: l =>
    have h0 : ¬ ((l.length : Int) + 1 + 1 = 0) := by omega
    have h1 : ¬ ((l.length : Int) + 1 + 1 = 1) := by omega
    simp [h0, h1]

/-- **C66, objects.** Whatever is not a function, not a pointer and has no call operator is an error object, whether it is passed as a variable or not. -/
theorem C66_objects (ty : Ty) (t : CTy) (ht : t = .plain ty ∨ t = .lref (.plain ty)) : Sig.loadItem t = .object ∧ onErrorItem t = .object := by
  rcases ht with rfl | rfl <;> exact ⟨rfl, rfl⟩

/-- **C66, pointers.** `on_error` never takes a pointer for an error object; `new_error` and `load` do not if it is a temporary. -/
theorem C66_pointers_partial (t : CTy) (ht : isPointer (decay t) = true) : onErrorItem t ≠ .object ∧ (isPointer t = true → Sig.loadItem t ≠ .object) := by
  constructor
  · simp only [onErrorItem, ht]
    split <;> try simp
    split <;> try simp
    split <;> try simp
    split <;> try simp
    split <;> simp
  · intro h
    simp only [Sig.loadItem, h]
    split <;> try simp
    split <;> try (split <;> simp)
    split <;> try simp
    split <;> try (split <;> simp)
    simp

/-- Pointers to objects: temporaries are rejected by both, variables by `on_error`. -/
theorem C66_object_pointers (ty : Ty) : Sig.loadItem (.optr ty) = .rejected ∧ onErrorItem (.optr ty) = .rejected ∧ onErrorItem (.lref (.optr ty)) = .rejected := ⟨rfl, rfl, rfl⟩

/-- **C66 refuted for `noexcept` functions.** In C++17 a function with `noexcept` passed by its name is not called by `new_error` or `load`: a pointer to it is loaded as an error object, without
any diagnostic (the traits do not remove the `noexcept` behind the reference; the assertion against pointers looks at the reference). As a handler or passed to `on_error` it is rejected. In C++14 it is called. -/
theorem C66_refuted_noexcept : let f : Callable := .function ⟨some 10, []⟩ true
    Sig.loadItem (f.deduced true .variable) = .object ∧ onErrorItem (f.deduced true .variable) = .rejected ∧ handlerArgs (f.deduced true .variable) = none ∧
    Sig.loadItem (f.deduced false .variable) = .deferred ∧ ¬ LoadSpec f.sgn (Sig.loadItem (f.deduced true .variable)) := by
  refine ⟨rfl, rfl, rfl, rfl, ?_⟩
  simp [LoadSpec, Callable.sgn, Callable.deduced, Sig.loadItem, functionTraits, removeNoexcept, traitsImpl, isPointer]

/-- **C66 refuted for pointer variables.** The assertion "Error objects of pointer types are not allowed" does not reject a variable: it asks whether the deduced type, a reference, is a pointer. -/
theorem C66_refuted_pointer : Sig.loadItem (.optr 7) = .rejected ∧ Sig.loadItem (.lref (.optr 7)) = .object ∧ onErrorItem (.lref (.optr 7)) = .rejected := ⟨rfl, rfl, rfl⟩

/-- **C66 refuted for functions that take a copy.** `load` accepts a function whose parameter is passed by value: it is called with a copy, and what it does to it is lost. -/
theorem C66_refuted_copy : let f : Callable := .object ⟨⟨none, [⟨10, .val⟩]⟩, true, false, false⟩
    Sig.loadItem (f.deduced true .temporary) = .accumulate false ∧ onErrorItem (f.deduced true .temporary) = .rejected := ⟨rfl, rfl⟩

/-- **C66, parameters of handlers.** An error type by value or by reference asks for an object of this type, a pointer asks for it if there is one; predicates work by value; the types of the library work by
reference to `const`. Rvalue references, predicates by reference or pointer, the types of the library by value or by pointer to non-`const` are rejected. -/
theorem C66_params_partial (num : Base → Ty) :
    (∀ ty c, hparArg num (.val (.err ty)) = some (.req ty) ∧ hparArg num (.lref c (.err ty)) = some (.req ty) ∧ hparArg num (.ptr c (.err ty)) = some (.ptr ty)) ∧
    (∀ ty p, hparArg num (.val (.pred ty p)) = some (.pred ty p)) ∧ (∀ p, hparArg num (.val (.catch_ p)) = some (.catch_ p)) ∧
    (hparArg num (.lref true .info) = some .info ∧ hparArg num (.lref true .diag) = some .diag ∧ hparArg num (.lref true .details) = some .details) ∧
    (∀ b, hparArg num (.rref b) = none) ∧ (∀ b c, Predicate b → hparArg num (.lref c b) = none ∧ hparArg num (.ptr c b) = none) ∧
    ∀ b, Library b → hparArg num (.val b) = none ∧ hparArg num (.ptr false b) = none := by
  refine ⟨fun ty c => ⟨rfl, ?_, ?_⟩, fun _ _ => rfl, fun _ => rfl, ⟨rfl, rfl, rfl⟩, fun _ => rfl, fun b c hb => ?_, fun b hb => ?_⟩
  · cases c <;> rfl
  · cases c <;> rfl
  · rcases hb with ⟨ty, p, rfl⟩ | ⟨p, rfl⟩ <;> cases c <;> exact ⟨rfl, rfl⟩
  · rcases hb with rfl | rfl | rfl <;> exact ⟨rfl, rfl⟩

/-- **C66 refuted for the library's types.** A parameter of type `error_info` (or `diagnostic_info`, `diagnostic_details`) by reference to non-`const`, or by pointer to `const`, passes the assertions: the type is
taken for an error type like any other. (In `try_handle_some` the program is rejected later, as these objects cannot be copied by `slot<E>::unload`; `try_handle_all` does not use it.) No such object can be loaded, so
the first handler is never called; the second is accepted as the last handler of a `try_handle_all`, and is given a null pointer. -/
theorem C66_refuted_info (num : Base → Ty) (b : Base) (hb : Library b) :
    hparArg num (.lref false b) = some (.req (num b)) ∧ hparArg num (.ptr true b) = some (.ptr (num b)) ∧ matchesAny [.ptr (num b)] = true ∧
    ∀ (cfg : Cfg) (cells : List CtxCell) (id : Id) (loc : Option Val), (∀ v, findCell (num b) cells ≠ some (some (id, v))) →
      Arg.check cfg cells id none (.req (num b)) = false ∧ Arg.get cfg cells id none loc (.ptr (num b)) = some (.ptr (num b) none) := by
  have h1 : hparArg num (.lref false b) = some (.req (num b)) ∧ hparArg num (.ptr true b) = some (.ptr (num b)) := by
    rcases hb with rfl | rfl | rfl <;> exact ⟨rfl, rfl⟩
  refine ⟨h1.1, h1.2, rfl, fun cfg cells id loc hc => ?_⟩
  have hp : peek cfg cells id none (num b) = none := by
    unfold peek
    split
    · rfl
    · have : (if cfg.isAbstract (num b) then none else (findCell (num b) cells).bind (Cell.hasValue · id)) = none := by
        split
        · rfl
        · cases h : findCell (num b) cells with
          | none => rfl
          | some c =>
            cases c with
            | none => rfl
            | some kv =>
              obtain ⟨k, v⟩ := kv
              have hk : k ≠ id := by rintro rfl; exact hc v h
              simp [Cell.hasValue, hk]
      rw [this]
      rfl
  simp [Arg.check, Arg.get, hp]

/-- A lambda with `noexcept` and one parameter, `[](e_type & x) noexcept { ... }`, is supported. -/
example : Supported true (.object ⟨⟨none, [⟨10, .lref false⟩]⟩, true, true, false⟩) .temporary := rfl

example : Sig.loadItem ((Callable.object ⟨⟨none, [⟨10, .lref false⟩]⟩, true, true, false⟩).deduced true .temporary) = .accumulate true := rfl

/-! ## The tests -/

/-- The signature of test/function_traits_test.cpp. -/
def Sig.testSgn : Sgn := ⟨some 5, [⟨1, .val⟩, ⟨2, .val⟩, ⟨1, .lref true⟩, ⟨2, .rref⟩]⟩

/-- test/function_traits_test.cpp: pointer to a function, function objects, lambda with `noexcept`; `int`. -/
example :
    functionTraits (.fptr false testSgn false) = .ok (some 5) testSgn.pars 4 ∧ functionTraits (.cls ⟨testSgn, true, false, false⟩) = .ok (some 5) testSgn.pars 4 ∧
    functionTraits (.cls ⟨testSgn, true, true, false⟩) = .ok (some 5) testSgn.pars 4 ∧ functionTraits (.plain 1) = .primary := by decide

/-- test/_compile-fail-arg_catch_1.cpp, arg_catch_2, arg_match_1, arg_match_2, arg_rvalue_ref. -/
example (num : Base → Ty) (p : Exc → Bool) (q : Val → Bool) :
    hparArg num (.lref true (.catch_ p)) = none ∧ hparArg num (.lref false (.catch_ p)) = none ∧ hparArg num (.lref true (.pred 1 q)) = none ∧ hparArg num (.lref false (.pred 1 q)) = none ∧
    hparArg num (.rref (.err 1)) = none := ⟨rfl, rfl, rfl, rfl, rfl⟩

/-- test/_compile-fail-new_error.cpp: `new_error(&a)`, a temporary of pointer type. -/
example : Sig.loadItem (.optr 1) = .rejected := rfl

end Leaf
