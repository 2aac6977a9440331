import Verif.DiagModel
import Verif.IdsLemmas

/-!
# C37: diagnostics print exactly this error's objects
-/

namespace Leaf

/-! ## Specification -/

/-- The text of an object after its type name; `none`: objects of this type are not shown. -/
def PrintCfg.body (c : PrintCfg) (ty : Ty) (v : Val) : Option String :=
  match c.cls ty with
  | .hidden => none
  | .printable f | .valuePrintable f | .enum f => some (": " ++ f v)
  | .exception f => some (": \"" ++ f v ++ "\"")
  | .nameOnly => some ""

/-- What is stored, in order: type, error id, object. -/
def ctxStored (cells : List CtxCell) : List (Ty × Id × Val) :=
  cells.filterMap fun
    | .obj ty (some (k, v)) => some (ty, k, v)
    | _ => none
def nodesStored (nodes : List (Ty × Cell)) : List (Ty × Id × Val) :=
  nodes.filterMap fun
    | (ty, some (k, v)) => some (ty, k, v)
    | _ => none
def capStored (nodes : List CapNode) : List (Ty × Id × Val) :=
  nodes.filterMap fun
    | .obj ty (some (k, v)) => some (ty, k, v)
    | _ => none

/-- The texts of the shown objects of error `id`, in storage order. -/
def entriesOf (c : PrintCfg) (id : Id) (stored : List (Ty × Id × Val)) : List String :=
  (stored.filter fun x => x.2.1 = id).filterMap fun (ty, _, v) => (c.body ty v).map (c.name ty ++ ·)

/-- The texts of all shown objects, with their serial numbers. -/
def entriesAll (c : PrintCfg) (stored : List (Ty × Id × Val)) : List String :=
  stored.filterMap fun (ty, k, v) => (c.body ty v).map fun b => c.name ty ++ b ++ "(" ++ serialText k ++ ")"

/-- The entries with delimiters between them. -/
def delimited (delim : String) : List String → String
  | [] => ""
  | [e] => e
  | e :: es => e ++ delim ++ delimited delim es

/-- A section: the header, once, before the first entry, only if there is an entry. -/
def sectionText (header delim : String) (entries : List String) : String :=
  if entries = [] then "" else header ++ delimited delim entries

/-- The continuation of a section that already has an entry. -/
def continued (delim : String) (entries : List String) : String := sectionText delim delim entries

/-- What is known about the error itself. -/
def errorText (c : PrintCfg) (id : Id) (ex : Option Exc) (loc : Option Val) : String :=
  "Error with serial #" ++ serialText id ++
  (match loc with | some l => " reported at " ++ c.loc l | none => "") ++
  (match ex with | some e => "\nCaught:" ++ c.first ++ c.excName e ++ ": \"" ++ c.excWhat e ++ "\"" | none => "")

/-- The `dynamic_allocator` of a context that has at most one. -/
def capturedStored (cells : List CtxCell) : List (Ty × Id × Val) :=
  cells.flatMap fun
    | .da key nodes => if key = 0#32 then [] else nodesStored nodes
    | _ => []

/-! ## Proofs -/

theorem str_nil_append (s : String) : "" ++ s = s := by
  apply String.toList_inj.mp; rw [String.toList_append]; rfl
theorem str_append_nil (s : String) : s ++ "" = s := by
  apply String.toList_inj.mp; rw [String.toList_append]; exact List.append_nil _

/-- The printer after printing some entries. -/
def Printer.entries (delim : String) (p : Printer) : List String → Printer
  | [] => p
  | e :: es => Printer.entries delim ⟨p.os ++ p.pending.getD delim ++ e, none⟩ es

theorem Printer.entries_append (delim : String) (p : Printer) (a b : List String) : (p.entries delim a).entries delim b = p.entries delim (a ++ b) := by
  induction a generalizing p with
  | nil => rfl
  | cons e es ih => exact ih _

theorem delimited_cons (delim e : String) (es : List String) : delimited delim (e :: es) = e ++ continued delim es := by
  cases es with
  | nil => simp [delimited, continued, sectionText, str_append_nil]
  | cons f es => simp [delimited, continued, sectionText, String.append_assoc]

theorem Printer.entries_os (delim : String) (p : Printer) (es : List String) : (p.entries delim es).os = p.os ++ sectionText (p.pending.getD delim) delim es := by
  induction es generalizing p with
  | nil => simp [Printer.entries, sectionText, str_append_nil]
  | cons e es ih =>
    simp only [Printer.entries]
    rw [ih]
    simp only [Option.getD_none]
    show _ ++ continued delim es = _
    simp only [sectionText, reduceCtorEq, if_false, delimited_cons, String.append_assoc]

theorem Printer.diagnostic_eq (c : PrintCfg) (p : Printer) (ty : Ty) (v : Val) :
    p.diagnostic c ty v = match c.body ty v with
      | none => (false, p)
      | some b => (true, p.entries c.delim [c.name ty ++ b]) := by
  unfold Printer.diagnostic PrintCfg.body
  cases c.cls ty <;> simp [Printer.entries, Printer.printName, Printer.put, String.append_assoc, str_append_nil]

/-- One slot, printing for one error. -/
theorem Printer.slot_one (c : PrintCfg) (p : Printer) {id : Id} (hid : id ≠ 0#32) (ty : Ty) (k : Id) (v : Val) :
    p.slot c id ty (some (k, v)) = p.entries c.delim (entriesOf c id [(ty, k, v)]) := by
  by_cases hk : k = id
  · subst hk
    simp only [Printer.slot, hid, if_false, ne_eq, not_true_eq_false, and_false, Printer.diagnostic_eq, entriesOf]
    cases h : c.body ty v with
    | none => simp [Printer.entries, h]
    | some b => simp [h]
  · have h1 : ¬ id = k := fun e => hk e.symm
    have : entriesOf c id [(ty, k, v)] = [] := by simp [entriesOf, hk]
    rw [this]
    by_cases hz : k = 0#32
    · simp [Printer.slot, hz, Printer.entries]
    · simp [Printer.slot, hz, hid, h1, Printer.entries]

/-- One slot, printing everything. -/
theorem Printer.slot_all (c : PrintCfg) (p : Printer) (ty : Ty) {k : Id} (hk : k ≠ 0#32) (v : Val) :
    p.slot c 0#32 ty (some (k, v)) = p.entries c.delim (entriesAll c [(ty, k, v)]) := by
  simp only [Printer.slot, hk, if_false, ne_eq, not_true_eq_false, false_and, Printer.diagnostic_eq, entriesAll]
  cases h : c.body ty v with
  | none => simp [Printer.entries, h]
  | some b => simp [h, Printer.entries, Printer.put, String.append_assoc]

theorem entriesOf_append (c : PrintCfg) (id : Id) (a b : List (Ty × Id × Val)) : entriesOf c id (a ++ b) = entriesOf c id a ++ entriesOf c id b := by
  simp [entriesOf]
theorem entriesAll_append (c : PrintCfg) (a b : List (Ty × Id × Val)) : entriesAll c (a ++ b) = entriesAll c a ++ entriesAll c b := by
  simp [entriesAll]

theorem Printer.tuple_one (c : PrintCfg) {id : Id} (hid : id ≠ 0#32) (cells : List CtxCell) (p : Printer) :
    p.tuple c id cells = p.entries c.delim (entriesOf c id (ctxStored cells)) := by
  induction cells generalizing p with
  | nil => rfl
  | cons x cells ih =>
    cases x with
    | da k ns => exact ih p
    | obj ty cell =>
      cases cell with
      | none => exact ih p
      | some kv =>
        obtain ⟨k, v⟩ := kv
        show (p.slot c id ty (some (k, v))).tuple c id cells = p.entries c.delim (entriesOf c id ([(ty, k, v)] ++ ctxStored cells))
        rw [Printer.slot_one c p hid, ih, entriesOf_append, Printer.entries_append]

theorem Printer.nodes_one (c : PrintCfg) {id : Id} (hid : id ≠ 0#32) (ns : List (Ty × Cell)) (p : Printer) :
    p.nodes c id ns = p.entries c.delim (entriesOf c id (nodesStored ns)) := by
  induction ns generalizing p with
  | nil => rfl
  | cons x ns ih =>
    obtain ⟨ty, cell⟩ := x
    cases cell with
    | none => exact ih p
    | some kv =>
      obtain ⟨k, v⟩ := kv
      show (p.slot c id ty (some (k, v))).nodes c id ns = p.entries c.delim (entriesOf c id ([(ty, k, v)] ++ nodesStored ns))
      rw [Printer.slot_one c p hid, ih, entriesOf_append, Printer.entries_append]

theorem Printer.capNodes_one (c : PrintCfg) {id : Id} (hid : id ≠ 0#32) (ns : List CapNode) (p : Printer) :
    p.capNodes c id ns = p.entries c.delim (entriesOf c id (capStored ns)) := by
  induction ns generalizing p with
  | nil => rfl
  | cons x ns ih =>
    cases x with
    | exc e => exact ih p
    | obj ty cell =>
      cases cell with
      | none => exact ih p
      | some kv =>
        obtain ⟨k, v⟩ := kv
        show (p.slot c id ty (some (k, v))).capNodes c id ns = p.entries c.delim (entriesOf c id ([(ty, k, v)] ++ capStored ns))
        rw [Printer.slot_one c p hid, ih, entriesOf_append, Printer.entries_append]

theorem Printer.tuple_all (c : PrintCfg) (cells : List CtxCell) (hk : ∀ x ∈ ctxStored cells, x.2.1 ≠ 0#32) (p : Printer) :
    p.tuple c 0#32 cells = p.entries c.delim (entriesAll c (ctxStored cells)) := by
  induction cells generalizing p with
  | nil => rfl
  | cons x cells ih =>
    cases x with
    | da k ns => exact ih hk p
    | obj ty cell =>
      cases cell with
      | none => exact ih hk p
      | some kv =>
        obtain ⟨k, v⟩ := kv
        have hk' : ∀ x ∈ (ty, k, v) :: ctxStored cells, x.2.1 ≠ 0#32 := hk
        show (p.slot c 0#32 ty (some (k, v))).tuple c 0#32 cells = p.entries c.delim (entriesAll c ([(ty, k, v)] ++ ctxStored cells))
        rw [Printer.slot_all c p ty (hk' _ (List.mem_cons_self ..)), ih (fun x hx => hk' x (List.mem_cons_of_mem _ hx)), entriesAll_append, Printer.entries_append]

theorem Printer.errorInfo_eq (c : PrintCfg) (p : Printer) (id : Id) (ex : Option Exc) (loc : Option Val) : p.errorInfo c id ex loc = ⟨p.os ++ errorText c id ex loc, p.pending⟩ := by
  unfold Printer.errorInfo errorText Printer.put
  generalize "Error with serial #" = s1
  generalize " reported at " = s2
  generalize "\nCaught:" = s3
  generalize ": \"" = s4
  generalize "\"" = s5
  cases ex <;> cases loc <;> simp only [String.append_assoc, str_append_nil]

/-- The section of the objects in slots: after "Caught:" and the exception if one was caught. -/
def caughtText (c : PrintCfg) (ex : Option Exc) (entries : List String) : String :=
  match ex with
  | some _ => continued c.delim entries
  | none => sectionText ("\nCaught:" ++ c.first) c.delim entries

theorem Printer.diagnosticInfo_eq (c : PrintCfg) (p : Printer) (cells : List CtxCell) {id : Id} (hid : id ≠ 0#32) (ex : Option Exc) (loc : Option Val) :
    p.diagnosticInfo c cells id ex loc = ⟨p.os ++ errorText c id ex loc ++ caughtText c ex (entriesOf c id (ctxStored cells)), p.pending⟩ := by
  unfold Printer.diagnosticInfo
  simp only [Printer.errorInfo_eq, Printer.tuple_one c hid, Printer.entries_os]
  cases ex <;> simp [caughtText, continued]

/-! ## The properties -/

/-- **C37: `diagnostic_info`.** Printed are the error, and, in storage order, all shown objects stored for this error and no others; the header is printed once (with the exception, if one was caught, else before
the first object, only if there is one). -/
theorem C37_diagnostic_info (c : PrintCfg) (cells : List CtxCell) {id : Id} (hid : id ≠ 0#32) (ex : Option Exc) (loc : Option Val) :
    printDiagnosticInfo c cells id ex loc = errorText c id ex loc ++ caughtText c ex (entriesOf c id (ctxStored cells)) ++ "\n" := by
  unfold printDiagnosticInfo
  rw [Printer.diagnosticInfo_eq c _ cells hid]
  simp [Printer.put, str_nil_append]

/-- A context has at most one slot for the `dynamic_allocator` (C17). -/
theorem findDa_stored (cells : List CtxCell) (h1 : ((cells.map fun x => match x with | .da _ _ => 1 | .obj _ _ => 0).sum) ≤ 1) :
    capturedStored cells = match findDa cells with | some ns => nodesStored ns | none => [] := by
  have zero : ∀ cells : List CtxCell, ((cells.map fun x => match x with | .da _ _ => 1 | .obj _ _ => 0).sum) = 0 → capturedStored cells = [] := by
    intro cells
    induction cells with
    | nil => intro _; rfl
    | cons x cells ih =>
      intro h
      cases x with
      | obj ty cell => simp at h; exact ih (by simpa using h)
      | da k ns => simp at h
  induction cells with
  | nil => rfl
  | cons x cells ih =>
    cases x with
    | obj ty cell => simp at h1; exact ih (by simpa using h1)
    | da k ns =>
      have hz := zero cells (by rw [List.map_cons, List.sum_cons] at h1; exact Nat.le_zero.mp (Nat.le_of_add_le_add_left h1))
      show (if k = 0#32 then [] else nodesStored ns) ++ capturedStored cells = _
      rw [hz, List.append_nil]
      by_cases hk : k = 0#32 <;> simp [findDa, hk]

/-- **C37: `diagnostic_details`.** In addition, in a section of their own, all shown captured objects of this error and no others. -/
theorem C37_diagnostic_details (c : PrintCfg) (cells : List CtxCell) (h1 : ((cells.map fun x => match x with | .da _ _ => 1 | .obj _ _ => 0).sum) ≤ 1) {id : Id} (hid : id ≠ 0#32)
    (ex : Option Exc) (loc : Option Val) :
    printDiagnosticDetails c cells id ex loc =
      errorText c id ex loc ++ caughtText c ex (entriesOf c id (ctxStored cells)) ++
      sectionText ("\nDiagnostic details:" ++ c.first) c.delim (entriesOf c id (capturedStored cells)) ++ "\n" := by
  unfold printDiagnosticDetails Printer.diagnosticDetails
  rw [findDa_stored cells h1]
  cases h : findDa cells with
  | none =>
    simp only
    rw [Printer.diagnosticInfo_eq c _ cells hid]
    simp [Printer.put, str_nil_append, entriesOf, sectionText, str_append_nil]
  | some ns =>
    simp only
    rw [Printer.diagnosticInfo_eq c _ cells hid]
    simp only [Printer.nodes_one c hid, Printer.entries_os]
    simp [Printer.put, str_nil_append]

/-- **C37: printing a context.** All shown objects, in storage order, with their serial numbers; the header once, if there is an object. -/
theorem C37_context (c : PrintCfg) (cells : List CtxCell) (hk : ∀ x ∈ ctxStored cells, x.2.1 ≠ 0#32) :
    printContext c cells = sectionText "Contents:" c.delim (entriesAll c (ctxStored cells)) ++ "\n" := by
  unfold printContext
  rw [Printer.tuple_all c cells hk]
  simp [Printer.put, Printer.entries_os, str_nil_append]

/-- **C37: printing a failed result.** The serial number; the shown captured objects of its error. -/
theorem C37_result (c : PrintCfg) (r : ErrRes) :
    printFailedResult c r = "Error serial #" ++ serialText r.errId ++
      (match r with
       | .plain _ => ""
       | .captured _ nodes => sectionText "\nCaptured:" c.delim (entriesOf c r.errId (capStored nodes)) ++ "\n") := by
  cases r with
  | plain id => simp [printFailedResult, Printer.put, ErrRes.errId, str_nil_append, str_append_nil]
  | captured id nodes =>
    have hid : makeErrorId id ≠ 0#32 := tagged_ne_zero (makeErrorId_tagged id)
    simp only [printFailedResult, ErrRes.errId, Printer.capNodes_one c hid]
    simp [Printer.put, Printer.entries_os, str_nil_append, String.append_assoc]

/-- Which entries there are, spelled out: exactly those of shown objects of this error. -/
theorem C37_entries (c : PrintCfg) (id : Id) (stored : List (Ty × Id × Val)) (e : String) :
    e ∈ entriesOf c id stored ↔ ∃ ty v b, (ty, id, v) ∈ stored ∧ c.body ty v = some b ∧ e = c.name ty ++ b := by
  simp only [entriesOf, List.mem_filterMap, List.mem_filter, decide_eq_true_eq, Option.map_eq_some_iff]
  constructor
  · rintro ⟨⟨ty, k, v⟩, ⟨h1, h2⟩, b, h3, h4⟩
    simp only at h2
    subst h2
    exact ⟨ty, v, b, h1, h3, h4.symm⟩
  · rintro ⟨ty, v, b, h1, h2, h3⟩
    exact ⟨(ty, id, v), ⟨h1, rfl⟩, b, h2, h3.symm⟩

/-- The serial number of the `n`-th error of a program (the ids are 5, 9, ...; see C01): `n`, while ids are positive as `int`. -/
theorem C37_serial (n : Nat) (hn : n < 2 ^ 29) : serialText (BitVec.ofNat 32 (4 * n + 1)) = toString n := by
  unfold serialText
  have h2 : (BitVec.ofNat 32 (4 * n + 1)).toNat = 4 * n + 1 := by
    rw [BitVec.toNat_ofNat]; apply Nat.mod_eq_of_lt; omega
  have h1 : (BitVec.ofNat 32 (4 * n + 1)).toInt = ((4 * n + 1 : Nat) : Int) := by
    rw [BitVec.toInt_eq_toNat_of_lt (by omega), h2]
  rw [h1]
  have h3 : Int.tdiv ((4 * n + 1 : Nat) : Int) 4 = ((n : Nat) : Int) := by
    show Int.tdiv ((4 * n + 1 : Nat) : Int) ((4 : Nat) : Int) = _
    rw [Int.tdiv_eq_ediv_of_nonneg (Int.natCast_nonneg _)]
    omega
  rw [h3]
  rfl

/-! ## The hypotheses can be met -/

def exPrint : PrintCfg where
  name ty := "type" ++ toString ty
  cls ty := if ty = 0 then .hidden else if ty = 1 then .nameOnly else if ty = 2 then .exception fun v => "what" ++ toString v else .printable fun v => toString v
  delim := "; "
  first := " "
  loc v := "line " ++ toString v
  excName e := "exception" ++ toString e.tag
  excWhat _ := "oops"

/-- Objects of errors 5 and 9, a hidden one, two captured ones. -/
def exPrintCells : List CtxCell :=
  [.obj 0 (some (5#32, 1)), .obj 1 (some (5#32, 2)), .obj 7 (some (9#32, 3)), .obj 2 (some (5#32, 4)), .obj 8 none, .da 5#32 [(9, some (5#32, 6)), (10, some (9#32, 7))], .obj 3 (some (5#32, 5))]

example : printDiagnosticInfo exPrint exPrintCells 5#32 none (some 3) = "Error with serial #1 reported at line 3\nCaught: type1; type2: \"what4\"; type3: 5\n" := by decide +kernel
example : printDiagnosticDetails exPrint exPrintCells 5#32 none none = "Error with serial #1\nCaught: type1; type2: \"what4\"; type3: 5\nDiagnostic details: type9: 6\n" := by decide +kernel
example : printContext exPrint exPrintCells = "Contents:type1(1); type7: 3(2); type2: \"what4\"(1); type3: 5(1)\n" := by decide +kernel
example : (∀ x ∈ ctxStored exPrintCells, x.2.1 ≠ 0#32) ∧ ((exPrintCells.map fun x => match x with | .da _ _ => 1 | .obj _ _ => 0).sum) ≤ 1 := by decide +kernel
example : printFailedResult exPrint (.captured 5#32 [.obj 3 (some (5#32, 8)), .exc ⟨0, true, .none, [], false⟩]) = "Error serial #1\nCaptured:type3: 8\n" := by decide +kernel

end Leaf
