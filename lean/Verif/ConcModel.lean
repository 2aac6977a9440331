import Verif.Small
import Verif.PtrStore
import Verif.Threads

/-!
# Threads

Any number of threads, each running a program. Shared: the id counter and the address space (slots and dynamic allocators of all
threads live in the same memory). Per thread: the thread-local variables (`thread_local`, config/tls_cpp11.hpp:26-60), the
C++ stack (the contexts and the rest of the program). A schedule says which thread executes its next operation; any two operations of
a thread may be separated by operations of other threads.

Simplification: addresses are never reused.
-/

namespace Leaf

/-- State of one thread: the operations it still has to execute, its thread-local variables, its active contexts; `handling`, `trace`
as in `World`. -/
structure Thr where
  code : Act Out
  cur : Id
  trace : List Event
  handling : List Exc
  tls : Ty → Option Addr
  tlsDa : Option Addr
  ctxs : List (List PCell)

structure Sys where
  counter : Id
  mem : Addr → Option PSlot
  dmem : Addr → Option PDa
  next : Addr
  thr : Tid → Thr
  /-- Ghost: the ids generated so far and by whom, newest first. -/
  hist : List (Tid × Id)

namespace Sys

/-- The storage as thread `t` accesses it: all of memory, through its own thread-local variables. -/
def view (s : Sys) (t : Tid) : PtrStore := ⟨s.mem, s.dmem, s.next, (s.thr t).tls, (s.thr t).tlsDa, (s.thr t).ctxs⟩

/-- What the next operation of thread `t` works on. -/
def world (s : Sys) (t : Tid) : World PtrStore := ⟨(s.thr t).cur, s.counter, 0, (s.thr t).trace, (s.thr t).handling, s.view t⟩

/-- Thread `t` continues with `code` after changing its thread-local variables and memory. -/
def put (s : Sys) (t : Tid) (code : Act Out) (w : World PtrStore) : Sys :=
  { s with
    mem := w.mem.mem
    dmem := w.mem.dmem
    next := w.mem.next
    thr := upd s.thr t ⟨code, w.cur, w.trace, w.handling, w.mem.tls, w.mem.tlsDa, w.mem.ctxs⟩ }

/-- Thread `t` executes its next operation; a thread that is done does nothing. -/
def step (cfg : Cfg) (s : Sys) (t : Tid) : Option Sys :=
  match (s.thr t).code with
  | .ret _ => some s
  | .ub => none
  | .op .gen k =>
    let (id, c) := generateNextId s.counter
    some { s with counter := c, thr := upd s.thr t { s.thr t with code := k id, trace := .gen id :: (s.thr t).trace }
                  hist := (t, id) :: s.hist }
  | .op o k =>
    match o.exec cfg (s.world t) with
    | none => none
    | some (r, w) => some (s.put t (k r) w)

/-- Execute a schedule. `none`: undefined behaviour. -/
def run (cfg : Cfg) (s : Sys) : List Tid → Option Sys
  | [] => some s
  | t :: ts => (s.step cfg t).bind (·.run cfg ts)

/-- Thread `t`, done with its program, is given another one; it keeps its thread-local variables. A thread that is not done ignores this. -/
def start (cfg : Cfg) (s : Sys) (t : Tid) (p : Prog) : Sys :=
  match (s.thr t).code with
  | .ret _ => { s with thr := upd s.thr t { s.thr t with code := Small.eval cfg p } }
  | _ => s

/-- The number of ids thread `t` generates in its next operation. -/
def gens (s : Sys) (t : Tid) : Nat :=
  match (s.thr t).code with
  | .op .gen _ => 1
  | _ => 0

/-- The number of ids generated by all threads in a schedule. -/
def generated (cfg : Cfg) (s : Sys) : List Tid → Nat
  | [] => 0
  | t :: ts => s.gens t + ((s.step cfg t).map (·.generated cfg ts)).getD 0

/-- Program start: thread `t` is about to run `progs t`. Thread-local variables are zero initialised. -/
def init (cfg : Cfg) (progs : Tid → Prog) : Sys :=
  ⟨counterInit, fun _ => none, fun _ => none, 0, fun t => ⟨Small.eval cfg (progs t), 0#32, [], [], fun _ => none, none, []⟩, []⟩

end Sys

/-! ## Threads that are given work

A thread that is done may be given another program. What the program is may depend on anything (in particular on outcomes of other threads): a
script is any list of events, and theorems are about all scripts. -/

inductive Ev where
  | step (t : Tid)
  | start (t : Tid) (p : Prog)

namespace Sys

def happen (cfg : Cfg) (s : Sys) : Ev → Option Sys
  | .step t => s.step cfg t
  | .start t p => some (s.start cfg t p)

/-- Execute a script. `none`: undefined behaviour. -/
def play (cfg : Cfg) (s : Sys) : List Ev → Option Sys
  | [] => some s
  | e :: es => (s.happen cfg e).bind (·.play cfg es)

end Sys
end Leaf
