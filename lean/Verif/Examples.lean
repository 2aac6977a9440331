import Verif.Direct
import Verif.PredModel

/-!
# The example programs

The programs in example/, as programs of the language `Direct`. What they print is not modelled. What the functions of the C library, of Lua and of
the rest of the program do is a parameter.
-/

namespace Leaf

/-- `match<E, V1, V...>` for an enumeration type `E`. -/
def matchEnum (ty : Ty) (v1 : Val) (vs : List Val) : Arg := (Predicate.match_ ty (· == ·) (.value v1) (vs.map .value)).toArg

/-- `match_value<E, V1, V...>` for `struct E { int value; }`: the object stands for its member. -/
def matchMemberValue (ty : Ty) (v1 : Val) (vs : List Val) : Arg := (Predicate.matchValue ty id (· == ·) (.value v1) (vs.map .value)).toArg

/-! ## print_file -/

namespace PrintFile

/-- The types `error_code`, `leaf::e_errno`, `leaf::e_file_name`. -/
abbrev tyCode : Ty := 10
abbrev tyErrno : Ty := 11
abbrev tyFileName : Ty := 12

/-- `enum error_code`, example/print_file/print_file_leaf_result.cpp:22-30, and the same in the other versions. -/
def badCommandLine : Val := 1
def openError : Val := 2
def readError : Val := 3
def sizeError : Val := 4
def eofError : Val := 5
def outputError : Val := 6

/-- `ENOENT` -/
def enoent : Val := 2

/-- What the operating system does: for each call that can fail, `some e` means it fails and sets `errno = e`. -/
structure Os where
  fopen : Option Val
  fseekEnd : Option Val
  ftell : Option Val
  fseekSet : Option Val
  /-- the size of the file, if these succeed -/
  size : Val
  fread : Option Val
  /-- `fread` read fewer bytes -/
  short : Bool
  output : Option Val

/-- The handlers, example/print_file/print_file_leaf_result.cpp:79-144, print_file_exceptions.cpp:72-137, print_file_system_result.cpp:87-152. -/
def handlers : List (List Arg) :=
  [[matchEnum tyCode openError [], matchMemberValue tyErrno enoent [], .req tyFileName],
   [matchEnum tyCode openError [], .req tyErrno, .req tyFileName],
   [matchEnum tyCode sizeError [readError, eofError], .ptr tyErrno, .req tyFileName],
   [matchEnum tyCode outputError [], .req tyErrno],
   [matchEnum tyCode badCommandLine []],
   [.info]]

section
-- How errors are reported: `return new_error(...)`, or `throw_exception(...)`.
variable (fail : List Item → Direct)

/-- `parse_command_line`, print_file_leaf_result.cpp:152-158; print_file_exceptions.cpp:145-151. `none`: `argc != 2`. -/
def parseCommandLine (arg : Option Val) : Direct :=
  match arg with
  | some name => .ret name
  | none => fail [.obj tyCode badCommandLine]

/-- `file_open`, print_file_leaf_result.cpp:162-168; print_file_exceptions.cpp:155-161. -/
def fileOpen (os : Os) : Direct :=
  match os.fopen with
  | none => .ret 0
  | some e => fail [.obj tyCode openError, .obj tyErrno e]

/-- `errno` when `file_size` returns, if it fails. -/
def Os.sizeErrno (os : Os) : Val := ((os.fseekEnd.or os.ftell).or os.fseekSet).getD 0

/-- `file_size`, print_file_leaf_result.cpp:172-187; print_file_exceptions.cpp:165-180. -/
def fileSize (os : Os) : Direct :=
  .guard [.item (.deferred tyErrno 0 os.sizeErrno)]
    (if os.fseekEnd.isSome then fail [.obj tyCode sizeError]
    else if os.ftell.isSome then fail [.obj tyCode sizeError]
    else if os.fseekSet.isSome then fail [.obj tyCode sizeError]
    else .ret os.size)

/-- `file_read`, print_file_leaf_result.cpp:191-202; print_file_exceptions.cpp:184-193. -/
def fileRead (os : Os) : Direct :=
  match os.fread with
  | some e => fail [.obj tyCode readError, .obj tyErrno e]
  | none => if os.short then fail [.obj tyCode eofError] else .ret 0

/-- The end of the try block, print_file_leaf_result.cpp:70-75; print_file_exceptions.cpp:63-68. -/
def writeOutput (os : Os) : Direct :=
  match os.output with
  | some e => fail [.obj tyCode outputError, .obj tyErrno e]
  | none => .ret 0

/-- The try block, print_file_leaf_result.cpp:57-76; print_file_exceptions.cpp:51-69. `andThen`: how the value of a call is used; with results,
`BOOST_LEAF_AUTO` and `BOOST_LEAF_CHECK`. (The allocation of the buffer does not fail; see `C62_refuted_print_file`.) -/
def tryBlock (andThen : Direct → (Val → Direct) → Direct) (arg : Option Val) (os : Os) : Direct :=
  andThen (parseCommandLine fail arg) fun name =>
    .guard [.item (.obj tyFileName name)]
      (andThen (fileOpen fail os) fun _ => andThen (fileSize fail os) fun _ => andThen (fileRead fail os) fun _ => writeOutput fail os)

end

/-- `throw_exception(...)`, exception.hpp:116-150, where no object is an exception: the type of the exception is derived from `std::exception` and
from the error id. -/
def thrown (casts : List (Ty × Val)) (id : Id) : Exc := ⟨0, true, .base id, casts, true⟩

/-- The values returned by the handlers: 1, …, 6. -/
def exitCode (i : Nat) (_ : List ArgVal) : Direct := .ret (i + 1)

/-- `main`, print_file_leaf_result.cpp:53-145. -/
def main (arg : Option Val) (os : Os) : Direct := .handleAll handlers (tryBlock (.fail · none) .seq arg os) exitCode

/-- `main`, print_file_exceptions.cpp:47-138. -/
def mainThrows (casts : List (Ty × Val)) (arg : Option Val) (os : Os) : Direct :=
  .tryCatch handlers (tryBlock (.fail · (some (thrown casts))) .next arg os) exitCode

/-- `main`, print_file_leaf_result.cpp:53-145, if the file can be opened and `std::string buffer(1 + s, '\0')` (65) throws `e`. -/
def mainNoBuffer (e : Exc) (name size : Val) : Prog :=
  .handleAll handlers
    (.bind (.ret (.val name)) (fun name =>
      .onError [.item (.obj tyFileName name)]
        (.bind (.onError [.item (.deferred tyErrno 0 0)] (.ret (.val size))) (fun _ => .ret (.exc e)) fun r => .ret (.err r.forward)))
      fun r => .ret (.err r.forward))
    fun i _ => .ret (.val (i + 1))

end PrintFile

/-! ## error_trace -/

namespace ErrorTrace

/-- The type `e_error_trace`, example/error_trace.cpp:26-46. -/
abbrev tyTrace : Ty := 10

/-- `f1`, …, example/error_trace.cpp:59-102: function `k` calls function `k - 1`, unless it fails. `push k`: put a record for (the macro in) function `k`
in front of the list. -/
def f (push : Nat → Val → Val) (fails : Nat → Bool) : Nat → Direct
  | 0 => .guard [.item (.accum tyTrace 0 (push 0))] (if fails 0 then .fail [] none else .ret 0)
  | k + 1 => .guard [.item (.accum tyTrace (k + 1) (push (k + 1)))] (if fails (k + 1) then .fail [] none else f push fails k)

/-- The loop in `main`, example/error_trace.cpp:104-129. `fails i`: which functions fail in run `i`. -/
def main (push : Nat → Val → Val) (fails : Nat → Nat → Bool) (n : Nat) : Nat → Direct
  | 0 => .ret 0
  | i + 1 => .next (.handleAll [[.req tyTrace], []] (.seq (f push (fails i) n) fun _ => .ret 0) (fun _ _ => .ret 0)) fun _ => main push fails n i

end ErrorTrace

/-! ## error_log -/

namespace ErrorLog

/-- The type `e_error_log`, example/error_log.cpp:22-48. The value of the object stands for what has been printed to it. -/
abbrev tyLog : Ty := 10

/-- `f1`, …, example/error_log.cpp:50-104: function `k` calls function `k - 1`, unless it fails. `print k`: print the record of (the macro in) function `k`. -/
def f (print : Nat → Val → Val) (fails : Nat → Bool) : Nat → Direct
  | 0 => .guard [.item (.accum tyLog 0 (print 0))] (if fails 0 then .fail [] none else .ret 0)
  | k + 1 => .guard [.item (.accum tyLog (k + 1) (print (k + 1)))] (if fails (k + 1) then .fail [] none else f print fails k)

/-- The handlers, example/error_log.cpp:117-125, depending on `ENABLE_ERROR_LOG` (line 18). -/
def handlers (enabled : Bool) : List (List Arg) := if enabled then [[.req tyLog], []] else [[]]

/-- The loop in `main`, example/error_log.cpp:106-127. `fails i`: which functions fail in run `i`. -/
def main (enabled : Bool) (print : Nat → Val → Val) (fails : Nat → Nat → Bool) (n : Nat) : Nat → Direct
  | 0 => .ret 0
  | i + 1 => .next (.handleAll (handlers enabled) (.seq (f print (fails i) n) fun _ => .ret 0) (fun _ _ => .ret 0)) fun _ => main enabled print fails n i

end ErrorLog

/-! ## print_half -/

namespace PrintHalf

/-- The type `ConversionErrc`, example/print_half.cpp:16-21. -/
abbrev tyErrc : Ty := 10
def emptyString : Val := 1
def illegalChar : Val := 2
def tooLong : Val := 3

/-- `convert`, example/print_half.cpp:23-35. -/
def convert (empty digits long : Bool) (n : Val) : Direct :=
  if empty then .fail [.obj tyErrc emptyString] none
  else if !digits then .fail [.obj tyErrc illegalChar] none
  else if long then .fail [.obj tyErrc tooLong] none
  else .ret n

/-- `print_half`, example/print_half.cpp:48-64. (`BigInt::fromString` does not fail.) -/
def printHalf (empty digits long : Bool) (n : Val) : Direct :=
  .handleSome [[matchEnum tyErrc tooLong []]] (.seq (convert empty digits long n) fun _ => .ret 0) (fun _ _ => none)
    (fun _ _ => .seq (.ret 0) fun _ => .ret 0)

/-- `main`, example/print_half.cpp:66-97. -/
def main (empty digits long : Bool) (n : Val) : Direct :=
  .handleAll [[matchEnum tyErrc emptyString []], [matchEnum tyErrc illegalChar []], [.info]]
    (.seq (printHalf empty digits long n) fun _ => .ret 0) (fun i _ => .ret (i + 1))

end PrintHalf

/-! ## lua_callback_result -/

namespace LuaCallback

/-- The types `do_work_error_code`, `e_lua_pcall_error`, `e_lua_error_message`, example/lua_callback_result.cpp:19-43. -/
abbrev tyCode : Ty := 10
abbrev tyPcall : Ty := 11
abbrev tyMessage : Ty := 12
def ec1 : Val := 1

/-- What `lua_pcall` does: `do_work` is called and succeeds; it is called and fails; or there is a Lua error, not reported to LEAF. -/
inductive Lua
  | answer (n : Val)
  | fails
  | other

/-- `call_lua`, example/lua_callback_result.cpp:95-122: `err` is the error code, `msg` the message. `do_work` (51-63) is called by way of Lua, which
tells only whether it succeeded. -/
def callLua (err msg : Val) : Lua → Prog
  | .answer n => (Direct.monitor [.obj tyPcall err, .obj tyMessage msg] (.ret n)).prog
  | .fails => (Direct.monitor [.obj tyPcall err, .obj tyMessage msg] (.fail [.obj tyCode ec1] none)).prog
  | .other => .monNew fun m => .monAssigned m fun id => .load id [.obj tyPcall err, .obj tyMessage msg] (.ret (.err (.plain id)))

def handlers : List (List Arg) := [[.req tyCode, .req tyMessage], [.req tyPcall, .req tyMessage], [.info]]

/-- The body of the loop in `main`, example/lua_callback_result.cpp:130-153. -/
def run (err msg : Val) (l : Lua) : Prog :=
  .handleAll handlers (.bind (callLua err msg l) (fun _ => .ret (.val 0)) (fun r => .ret (.err r.forward))) (fun _ _ => .ret (.val 0))

end LuaCallback

/-! ## exception_to_result -/

namespace ExceptionToResult

/-- The types `error_a`, `error_b`, example/exception_to_result.cpp:14-17. -/
abbrev tyA : Ty := 10
abbrev tyB : Ty := 11

/-- `compute_answer`, example/exception_to_result.cpp:33-44: `answer` is what `compute_answer_throws` (21-30) does, an exception, or the answer. -/
def computeAnswer (answer : Exc ⊕ Val) : Prog :=
  .excToResult [tyA, tyB] (match answer with | .inl e => .ret (.exc e) | .inr v => .ret (.val v))

/-- `print_answer`, example/exception_to_result.cpp:48-53. -/
def printAnswer (answer : Exc ⊕ Val) : Prog := .bind (computeAnswer answer) (fun _ => .ret (.val 0)) (fun r => .ret (.err r.forward))

def handlers : List (List Arg) := [[.req tyA], [.req tyB], [.ptr tyExPtr]]

/-- The body of the loop in `main`, example/exception_to_result.cpp:63-105. The last handler rethrows the exception within `try_catch` and prints it; this
is not modelled. -/
def run (answer : Exc ⊕ Val) : Prog :=
  .handleAll handlers (.bind (printAnswer answer) (fun _ => .ret (.val 0)) (fun r => .ret (.err r.forward))) (fun _ _ => .ret (.val 0))

end ExceptionToResult

/-! ## try_capture_all -/

namespace Tasks

/-- The types `e_thread_id`, `e_failure_info1`, `e_failure_info2`, example/try_capture_all_result.cpp:34-36. -/
abbrev tyThread : Ty := 10
abbrev tyInfo1 : Ty := 11
abbrev tyInfo2 : Ty := 12

/-- `task`, example/try_capture_all_result.cpp:43-53. -/
def task (fails : Bool) (thread info1 info2 : Val) : Direct :=
  if fails then .fail [.obj tyThread thread, .obj tyInfo1 info1, .obj tyInfo2 info2] none else .ret 0

/-- The handlers in `main`, example/try_capture_all_result.cpp:91-101. -/
def handlers : List (List Arg) := [[.req tyInfo1, .req tyInfo2, .req tyThread], [.diag]]

/-- The handling of the result of a task in `main`, example/try_capture_all_result.cpp:81-101. -/
def handle (result : Out) : Prog := .handleAll handlers (.ret result) (fun _ _ => .ret (.val 0))

/-- `task`, example/try_capture_all_exceptions.cpp:43-53. (The same error types, at 34-36.) The exception is a `leaf::error_id` that derives from
`std::exception`. -/
def taskThrows (fails : Bool) (thread info1 info2 : Val) : Direct :=
  if fails then .fail [.obj tyThread thread, .obj tyInfo1 info1, .obj tyInfo2 info2] (some fun id => ⟨0, true, .base id, [], true⟩) else .ret 0

/-- The handling of the result of a task in `main`, example/try_capture_all_exceptions.cpp:81-101 (the handlers are the same). -/
def handleThrown (result : Out) : Prog :=
  .tryCatch handlers (.bind (.ret result) (fun v => .ret (.val v)) (fun r => .value r 0)) (fun _ _ => .ret (.val 0))

end Tasks

end Leaf
