import Verif.Handlers

/-!
# Model of diagnostic printing

`BOOST_LEAF_CFG_DIAGNOSTICS=1`. The output stream is the string printed so far; `char const * & prefix` is an optional string.
-/

namespace Leaf

/-- How objects of a type print: the specializations of `detail::diagnostic`, detail/print.hpp:85-157. The functions give the text written by `os << x`, `os << x.value`, `os << x.what()` and
`os << (underlying_type) x`. (`print_impl` for pointers writes `<nullptr>` for null pointers, 66-79: part of these functions.) -/
inductive PrintClass
  /-- `show_in_diagnostics<E>` is false (93-101) -/
  | hidden
  | printable (f : Val → String)
  | valuePrintable (f : Val → String)
  | exception (what : Val → String)
  | nameOnly
  | enum (f : Val → String)

/-- The types' names (`parse<T>()`, see `TypeNameModel`) and classes; `BOOST_LEAF_CFG_DIAGNOSTICS_DELIMITER`, `BOOST_LEAF_CFG_DIAGNOSTICS_FIRST_DELIMITER`; how source locations print;
the name (demangled) and `what()` of exceptions. -/
structure PrintCfg where
  name : Ty → String
  cls : Ty → PrintClass
  delim : String
  first : String
  loc : Val → String
  excName : Exc → String
  excWhat : Exc → String

/-- A stream and the pending prefix. -/
structure Printer where
  os : String
  pending : Option String

/-- `print_name`, detail/print.hpp:48-57. -/
def Printer.printName (c : PrintCfg) (p : Printer) (ty : Ty) : Printer :=
  ⟨p.os ++ p.pending.getD c.delim ++ c.name ty, none⟩

def Printer.put (p : Printer) (s : String) : Printer := ⟨p.os ++ s, p.pending⟩

/-- `diagnostic<E>::print`, detail/print.hpp:93-157, with `print_impl`, 58-79. Returns whether something was printed. -/
def Printer.diagnostic (c : PrintCfg) (p : Printer) (ty : Ty) (v : Val) : Bool × Printer :=
  match c.cls ty with
  | .hidden => (false, p)
  | .printable f => (true, ((p.printName c ty).put ": ").put (f v))
  | .valuePrintable f => (true, ((p.printName c ty).put ": ").put (f v))
  | .exception f => (true, (((p.printName c ty).put ": \"").put (f v)).put "\"")
  | .nameOnly => (true, p.printName c ty)
  | .enum f => (true, ((p.printName c ty).put ": ").put (f v))

/-- `k/4` for an `int` (error.hpp:156, 734): `/` truncates. -/
def serialText (k : Id) : String := toString (Int.tdiv k.toInt 4)

/-- `slot<E>::print`, error.hpp:148-158, for a slot with content `c`. -/
def Printer.slot (c : PrintCfg) (p : Printer) (toPrint : Id) (ty : Ty) : Cell → Printer
  | none => p
  | some (k, v) =>
    if k = 0#32 then p
    else if toPrint ≠ 0#32 ∧ toPrint ≠ k then p
    else
      let (printed, p) := p.diagnostic c ty v
      if printed && toPrint = 0#32 then ((p.put "(").put (serialText k)).put ")" else p

/-- `tuple_for_each::print`, context.hpp:206-223, `print_tuple_contents`, 225-229. `slot<dynamic_allocator>` prints nothing (`show_in_diagnostics<dynamic_allocator>`, error.hpp:400-403). -/
def Printer.tuple (c : PrintCfg) (p : Printer) (toPrint : Id) : List CtxCell → Printer
  | [] => p
  | .obj ty cell :: cells => (p.slot c toPrint ty cell).tuple c toPrint cells
  | .da _ _ :: cells => p.tuple c toPrint cells

/-- `capture_list::print`, detail/capture_list.hpp:98-115, over slot nodes (error.hpp:211-214). -/
def Printer.nodes (c : PrintCfg) (p : Printer) (toPrint : Id) : List (Ty × Cell) → Printer
  | [] => p
  | (ty, cell) :: ns => (p.slot c toPrint ty cell).nodes c toPrint ns

/-- The same for the capture list of a result; exception nodes print nothing (error.hpp:242-244). -/
def Printer.capNodes (c : PrintCfg) (p : Printer) (toPrint : Id) : List CapNode → Printer
  | [] => p
  | .obj ty cell :: ns => (p.slot c toPrint ty cell).capNodes c toPrint ns
  | .exc _ :: ns => p.capNodes c toPrint ns

/-- `print_error_info`, handle_errors.hpp:82-101. -/
def Printer.errorInfo (c : PrintCfg) (p : Printer) (id : Id) (ex : Option Exc) (loc : Option Val) : Printer :=
  let p := (p.put "Error with serial #").put (serialText id)
  let p := match loc with
    | some l => (p.put " reported at ").put (c.loc l)
    | none => p
  match ex with
  | some e => (((((p.put ("\nCaught:" ++ c.first)).put (c.excName e)).put ": \"").put (c.excWhat e)).put "\"")
  | none => p

/-- `print_diagnostic_info`, diagnostics.hpp:36-41. -/
def Printer.diagnosticInfo (c : PrintCfg) (p : Printer) (cells : List CtxCell) (id : Id) (ex : Option Exc) (loc : Option Val) : Printer :=
  let p := p.errorInfo c id ex loc
  let prefix_ := if ex.isSome then none else some ("\nCaught:" ++ c.first)
  let q := Printer.tuple c ⟨p.os, prefix_⟩ id cells
  ⟨q.os, p.pending⟩

/-- The `dynamic_allocator` of the context: `find_in_tuple<slot<dynamic_allocator>>(tup)`, `has_value_any_key()`, diagnostics.hpp:171-175. -/
def findDa : List CtxCell → Option (List (Ty × Cell))
  | [] => none
  | .da key nodes :: _ => if key = 0#32 then none else some nodes
  | .obj _ _ :: cells => findDa cells

/-- `print_diagnostic_details`, diagnostics.hpp:137-146 (`BOOST_LEAF_CFG_CAPTURE=1`). -/
def Printer.diagnosticDetails (c : PrintCfg) (p : Printer) (cells : List CtxCell) (id : Id) (ex : Option Exc) (loc : Option Val) : Printer :=
  let p := p.diagnosticInfo c cells id ex loc
  match findDa cells with
  | some nodes => ⟨(Printer.nodes c ⟨p.os, some ("\nDiagnostic details:" ++ c.first)⟩ id nodes).os, p.pending⟩
  | none => p

/-- `operator<<` for `diagnostic_info` (diagnostics.hpp:43-48), `diagnostic_details` (148-153), `context` (context.hpp:370-382), and a failed `result` (`print_error_result`, result.hpp:334-354). -/
def printDiagnosticInfo (c : PrintCfg) (cells : List CtxCell) (id : Id) (ex : Option Exc) (loc : Option Val) : String :=
  ((Printer.diagnosticInfo c ⟨"", none⟩ cells id ex loc).put "\n").os
def printDiagnosticDetails (c : PrintCfg) (cells : List CtxCell) (id : Id) (ex : Option Exc) (loc : Option Val) : String :=
  ((Printer.diagnosticDetails c ⟨"", none⟩ cells id ex loc).put "\n").os
def printContext (c : PrintCfg) (cells : List CtxCell) : String :=
  ((Printer.tuple c ⟨"", some "Contents:"⟩ 0#32 cells).put "\n").os
def printFailedResult (c : PrintCfg) : ErrRes → String
  | .plain id => (((Printer.mk "" none).put "Error serial #").put (serialText (makeErrorId id))).os
  | .captured id nodes =>
    let p := ((Printer.mk "" none).put "Error serial #").put (serialText (makeErrorId id))
    ((Printer.capNodes c ⟨p.os, some "\nCaptured:"⟩ (makeErrorId id) nodes).put "\n").os

end Leaf
