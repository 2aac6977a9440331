import Verif.PrintModel
import Verif.PropDiag

/-!
# C72: how an object is printed
-/

namespace Leaf

/-- What C++ allows: an enumeration is not derived from `std::exception`, and has no member `value`. -/
def TypeFacts.Possible (t : TypeFacts) : Prop := t.isEnum = true → t.isExc = false ∧ t.streamsValue = false

/-- How objects of a type are to be printed (after the name): not at all; types derived from `std::exception` by `what()`; others by `<<`; those that have none by `<<` of their member `value`; enumerations by their
number; everything else by the name only. -/
def TypeFacts.means (t : TypeFacts) : DiagSpec :=
  if t.show_ = false then .hidden
  else if t.isExc then .exception
  else if t.streams then .printable
  else if t.streamsValue then .valuePrintable
  else if t.isEnum then .enum
  else .nameOnly

/-- The text after the name. -/
def PrintObj.after (null : String) (x : PrintObj) : DiagSpec → String
  | .hidden | .nameOnly => ""
  | .printable => ": " ++ x.text
  | .valuePrintable => ": " ++ x.value.getD (if x.valueTy = .ptr false false then null else "<nullptr>")
  | .exception => ": \"" ++ x.what.getD "<nullptr>" ++ "\""
  | .enum => ": " ++ x.number

/-- A pointer only can be null. -/
def PrintObj.Possible (x : PrintObj) : Prop := x.value = none → ∃ c ch, x.valueTy = .ptr c ch

/-- The member `value` is a null pointer of type `char *`. -/
def PrintObj.NullChars (x : PrintObj) : Prop := x.value = none ∧ x.valueTy = .ptr false true

/-- **C72 (one way to print).** For every type, exactly one specialization of `diagnostic` matches: the one meant. -/
theorem C72_unique (t : TypeFacts) (h : t.Possible) : t.specs = [t.means] := by
  obtain ⟨a, b, c, d, e⟩ := t
  simp only [TypeFacts.Possible] at h
  cases a <;> cases b <;> cases c <;> cases d <;> cases e <;> first | rfl | (simp at h)

theorem printImpl_some (c : PrintCfg) (p : Printer) (ty : Ty) (m null : String) (t : InfoTy) (s : String) :
    p.printImpl c ty (some m) null t (some s) = some (((p.printName c ty).put m).put s) := by
  unfold Printer.printImpl
  cases t with
  | other => rfl
  | array => rfl
  | ptr k ch => cases k <;> cases ch <;> rfl

/-- **C72 (partial), the text.** The delimiter (or the pending header), the name, and the text meant are printed; nothing is printed exactly for hidden types. *Missing*: null pointers to characters that are not `const`
(`C72_refuted_null`). -/
theorem C72_text_partial (c : PrintCfg) (p : Printer) (ty : Ty) (null : String) (t : TypeFacts) (ht : t.Possible) (x : PrintObj) (hx : x.Possible) (hn : t.means = .valuePrintable → ¬ x.NullChars) :
    ∃ s, t.specs = [s] ∧
      (t.show_ = false → s.print c p ty null x = some (false, p)) ∧
      (t.show_ = true → s.print c p ty null x = some (true, ⟨p.os ++ p.pending.getD c.delim ++ c.name ty ++ x.after null t.means, none⟩)) := by
  refine ⟨_, C72_unique t ht, fun h => by simp [TypeFacts.means, h, DiagSpec.print], fun h => ?_⟩
  have hh : t.means ≠ .hidden := by
    unfold TypeFacts.means
    rw [if_neg (by simp [h])]
    repeat' split
    all_goals simp
  cases hm : t.means with
  | hidden => exact absurd hm hh
  | printable => simp [DiagSpec.print, printImpl_some, PrintObj.after, Printer.put, Printer.printName, String.append_assoc]
  | valuePrintable =>
    cases hv : x.value with
    | some s => simp [DiagSpec.print, hv, printImpl_some, PrintObj.after, Printer.put, Printer.printName, String.append_assoc]
    | none =>
      obtain ⟨k, ch, hk⟩ := hx hv
      have : ¬ (k = false ∧ ch = true) := fun e => hn hm ⟨hv, by rw [hk, e.1, e.2]⟩
      cases k <;> cases ch
      · simp [DiagSpec.print, Printer.printImpl, choosePrintImpl, streamInfo, hv, hk, PrintObj.after, Printer.put, Printer.printName, String.append_assoc]
      · simp at this
      · simp [DiagSpec.print, Printer.printImpl, choosePrintImpl, hv, hk, PrintObj.after, Printer.put, Printer.printName, String.append_assoc]
      · simp [DiagSpec.print, Printer.printImpl, choosePrintImpl, hv, hk, PrintObj.after, Printer.put, Printer.printName, String.append_assoc]
  | exception =>
    cases hw : x.what with
    | some s => simp [DiagSpec.print, hw, printImpl_some, PrintObj.after, Printer.put, Printer.printName, String.append_assoc]
    | none => simp [DiagSpec.print, Printer.printImpl, choosePrintImpl, hw, PrintObj.after, Printer.put, Printer.printName, String.append_assoc]
  | nameOnly => simp [DiagSpec.print, Printer.printImpl, PrintObj.after, Printer.printName]
  | enum => simp [DiagSpec.print, printImpl_some, PrintObj.after, Printer.put, Printer.printName, String.append_assoc]

/-- The class that `DiagModel` uses for a type, given the texts of its objects. -/
def TypeFacts.cls (null : String) (t : TypeFacts) (obj : Val → PrintObj) : PrintClass :=
  match t.means with
  | .hidden => .hidden
  | .printable => .printable fun v => (obj v).text
  | .valuePrintable => .valuePrintable fun v => (obj v).value.getD (if (obj v).valueTy = .ptr false false then null else "<nullptr>")
  | .exception => .exception fun v => (obj v).what.getD "<nullptr>"
  | .nameOnly => .nameOnly
  | .enum => .enum fun v => (obj v).number

/-- **C72 (partial), as in C37.** The properties on what diagnostics print (C37) take classes of types as given; the specialization used prints what they say, with the same exception. -/
theorem C72_same_partial (c : PrintCfg) (p : Printer) (ty : Ty) (null : String) (t : TypeFacts) (ht : t.Possible) (obj : Val → PrintObj) (hc : c.cls ty = t.cls null obj) (v : Val)
    (hx : (obj v).Possible) (hn : t.means = .valuePrintable → ¬ (obj v).NullChars) :
    ∃ s, t.specs = [s] ∧ s.print c p ty null (obj v) = some (p.diagnostic c ty v) := by
  obtain ⟨s, h1, h2, h3⟩ := C72_text_partial c p ty null t ht (obj v) hx hn
  refine ⟨s, h1, ?_⟩
  unfold Printer.diagnostic
  rw [hc]
  unfold TypeFacts.cls
  cases hs : t.show_ with
  | false =>
    have hm : t.means = .hidden := by simp [TypeFacts.means, hs]
    rw [h2 hs, hm]
  | true =>
    rw [h3 hs]
    cases hm : t.means with
    | hidden =>
      exfalso
      unfold TypeFacts.means at hm
      rw [if_neg (by simp [hs])] at hm
      revert hm
      repeat' split
      all_goals simp
    | _ => simp [PrintObj.after, Printer.put, Printer.printName, String.append_assoc]

/-- **C72 (results).** A result in value state prints its value by `<<`, if that compiles and the type is shown in diagnostics, else `{not printable}`. (Values that are null pointers: `C72_refuted_result`.) -/
theorem C72_result_value (show_ streams : Bool) (null : String) (t : InfoTy) (s : String) :
    printResultValue show_ streams null t (some s) = some (if show_ = true ∧ streams = true then s else "{not printable}") := by
  cases show_ <;> cases streams <;> cases t <;> first | rfl | (rename_i k ch; cases k <;> cases ch <;> rfl)

/-- **Finding.** Null pointers are printed as `<nullptr>`, but not if they are of type `char *`: for pointers to what is not `const` the overload for references is a better match, and writes the null pointer
to the stream, which is undefined. -/
theorem C72_refuted_null (c : PrintCfg) (p : Printer) (ty : Ty) (null text number : String) (what : Option String) :
    DiagSpec.valuePrintable.print c p ty null ⟨text, .ptr false true, none, what, number⟩ = none ∧
    DiagSpec.valuePrintable.print c p ty null ⟨text, .ptr true true, none, what, number⟩ =
      some (true, ((p.printName c ty).put ": ").put "<nullptr>") := ⟨rfl, rfl⟩

/-- **Finding.** Printing a `result<char const *>` whose value is a null pointer is undefined. -/
theorem C72_refuted_result (null : String) (const : Bool) : printResultValue true true null (.ptr const true) none = none := by
  cases const <;> rfl

/-! ## The hypotheses can be met -/

/-- `e_errno`, `e_file_name`, a scoped enumeration, an exception with `<<`, an empty class, a class with a `char const *` member. -/
example : [(⟨true, true, true, false, false⟩ : TypeFacts), ⟨true, false, true, false, false⟩, ⟨true, false, false, false, true⟩, ⟨true, true, false, true, false⟩, ⟨true, false, false, false, false⟩,
    ⟨false, true, true, false, false⟩].map TypeFacts.specs = [[.printable], [.valuePrintable], [.enum], [.exception], [.nameOnly], [.hidden]] ∧
    (∃ s, DiagSpec.print ⟨fun _ => "E", fun _ => .hidden, ", ", "", fun _ => "", fun _ => "", fun _ => ""⟩ ⟨"", some "Caught: "⟩ 10 "0" ⟨"", .ptr true true, none, none, ""⟩ .valuePrintable = some (true, s) ∧
      s.os = "Caught: E: <nullptr>") ∧ (⟨"", .ptr true true, none, none, ""⟩ : PrintObj).Possible ∧ ¬ (⟨"", .ptr true true, none, none, ""⟩ : PrintObj).NullChars := by
  refine ⟨rfl, ⟨_, rfl, by decide⟩, fun _ => ⟨true, true, rfl⟩, fun h => ?_⟩
  have := h.2
  simp at this

end Leaf
