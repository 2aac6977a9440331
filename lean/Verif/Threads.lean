import Verif.Ids

/-!
# The id generator under concurrency

`new_id` (error.hpp:556-561) performs two memory operations: an atomic read-modify-write of the shared
counter (`id_factory::generate_next_id`, error.hpp:538-543) and a write to a thread-local variable
(`tls::write_uint<tls_tag_id_factory_current_id>`). Threads interleave at this granularity.
-/

namespace Leaf

/-- Thread identifiers. -/
abbrev Tid := Nat

/-- One memory operation of `new_id` executed by a thread. -/
inductive GenStep
  /-- `id = (counter += 4)` -/
  | fetchAdd (t : Tid)
  /-- `tls::write_uint<...current_id>(id)` -/
  | writeTls (t : Tid)
  deriving DecidableEq, Repr

/-- Shared counter, per-thread `current_id` (thread_local, zero initialised, config/tls_cpp11.hpp:46-53), the local variable
`id` of a thread that is between the two operations, and the history of generated ids (oldest first). -/
structure GenState where
  counter : Id
  cur : Tid → Id
  reg : Tid → Option Id
  hist : List (Tid × Id)

/-- State at program start. -/
def GenState.init : GenState := ⟨counterInit, fun _ => 0#32, fun _ => none, []⟩

/-- Execute one step. A step that the thread cannot take (second operation before the first, or the reverse) does nothing. -/
def GenState.step (s : GenState) : GenStep → GenState
  | .fetchAdd t =>
    match s.reg t with
    | none =>
      let (id, c) := generateNextId s.counter
      { s with counter := c, reg := fun u => if u = t then some id else s.reg u, hist := s.hist ++ [(t, id)] }
    | some _ => s
  | .writeTls t =>
    match s.reg t with
    | some id =>
      { s with cur := fun u => if u = t then id else s.cur u, reg := fun u => if u = t then none else s.reg u }
    | none => s

/-- Execute a schedule. -/
def GenState.run (s : GenState) (sched : List GenStep) : GenState := sched.foldl GenState.step s

end Leaf
