/-!
# Model of `capture_list` and of the list in `dynamic_allocator`

Nodes on a heap, linked by pointers; list objects by address. Node addresses are never reused, so that an access to a freed node is an access to an address where there is
no node. Outcome `none` is undefined behaviour: access to a node or list object that does not exist (any more), a violated assertion. A loop over a list that takes more steps than there were
nodes ever allocated (so that it visits a node twice) also has outcome `none`.

The object in a node, and what happens to it when it is unloaded, printed or deactivated, is not modelled here (see `PtrStore`); nodes have a number. Visits
of nodes by `unload` and by the other loops are logged.
-/

namespace Leaf

/-- `capture_list::node`, capture_list.hpp:30-53. -/
structure CNode where
  pay : Nat
  next : Option Nat
  deriving DecidableEq, Repr

/-- A place where a `node *` is stored: `first_` of a list object, `next_` of a node. -/
inductive CLoc
  | first (a : Nat)
  | next (n : Nat)
  deriving DecidableEq, Repr

/-- A `capture_list`, or (`last` not `none`) a `dynamic_allocator`: `first_`, capture_list.hpp:54, and `last_`, error.hpp:258. -/
structure CObj where
  first : Option Nat
  last : Option CLoc
  deriving DecidableEq, Repr

/-- Nodes and list objects by address; address for the next node; addresses of the nodes freed, latest first; the numbers of the nodes visited, by each loop, latest loop first. -/
structure CMem where
  nodes : Nat → Option CNode
  objs : Nat → Option CObj
  fresh : Nat
  freed : List Nat
  log : List (List Nat)

def CMem.empty : CMem := ⟨fun _ => none, fun _ => none, 0, [], []⟩

def CMem.putObj (m : CMem) (a : Nat) (x : Option CObj) : CMem := { m with objs := fun b => if b = a then x else m.objs b }
def CMem.putNode (m : CMem) (n : Nat) (x : Option CNode) : CMem := { m with nodes := fun k => if k = n then x else m.nodes k }

/-- `*loc` -/
def CMem.load (m : CMem) : CLoc → Option (Option Nat)
  | .first a => (m.objs a).map (·.first)
  | .next n => (m.nodes n).map (·.next)

/-- `*loc = v` -/
def CMem.store (m : CMem) (v : Option Nat) : CLoc → Option CMem
  | .first a => (m.objs a).map fun o => m.putObj a (some { o with first := v })
  | .next n => (m.nodes n).map fun c => m.putNode n (some { c with next := v })

/-- A new list object. -/
def CMem.alloc (m : CMem) (a : Nat) (x : CObj) : Option CMem :=
  match m.objs a with
  | none => some (m.putObj a (some x))
  | some _ => none

/-- `new capturing_..._node(last_, ...)` in the `dynamic_allocator` at `a`: the constructor of `node`, capture_list.hpp:46-52, with the assertion of `dynamic_load`
(error.hpp:283-284). -/
def CMem.newNode (m : CMem) (a : Nat) (pay : Nat) : Option CMem := do
  let o ← m.objs a
  let last ← o.last
  let l ← m.load last
  if l ≠ none then none
  else do
    let n := m.fresh
    let m := { m.putNode n (some ⟨pay, none⟩) with fresh := n + 1 }
    let m ← m.store (some n) last
    let o ← m.objs a
    return m.putObj a (some { o with last := some (.next n) })

/-- `if( std::exception_ptr ex = std::current_exception() ) new capturing_exception_node(last_, std::move(ex))`, error.hpp:304-305. -/
def CMem.newNodeFor (m : CMem) (a : Nat) : Option Nat → Option CMem
  | none => some m
  | some pay => m.newNode a pay

/-- `for_each`, capture_list.hpp:56-61, from node `p`; `stop`: the function throws at that visit. The nodes visited. -/
def CMem.walk (m : CMem) : (fuel : Nat) → (p : Option Nat) → (stop : Option Nat) → Option (List Nat)
  | _, none, _ => some []
  | 0, some _, _ => none
  | fuel + 1, some n, stop => do
    let c ← m.nodes n
    if stop = some 0 then return [c.pay]
    else return c.pay :: (← m.walk fuel c.next (stop.map (· - 1)))

/-- The loop of the destructor, capture_list.hpp:76-84. -/
def CMem.free (m : CMem) : (fuel : Nat) → (p : Option Nat) → Option CMem
  | _, none => some m
  | 0, some _ => none
  | fuel + 1, some n => do
    let c ← m.nodes n
    { m.putNode n none with freed := n :: m.freed }.free fuel c.next

/-- What is done with lists. -/
inductive COp
  /-- `dynamic_allocator a;`, error.hpp:262-267 -/
  | mkAlloc (a : Nat)
  /-- `a.dynamic_load(...)`, error.hpp:279-289 -/
  | capture (a : Nat) (pay : Nat)
  /-- the same, but the constructor of the captured object throws. The constructor of `capturing_slot_node` (error.hpp:217-224) loads the object after the base class constructor has linked the
  node to the list; the node's memory is freed, the list is not changed back. -/
  | captureThrow (a : Nat) (pay : Nat)
  /-- `dynamic_allocator a(std::move(b));`, error.hpp:269-277 -/
  | moveAlloc (a b : Nat)
  /-- `capture_list c(...)` with what `a.extract_capture_list(...)` returns, error.hpp:300-311; `ex`: there is a current exception -/
  | extract (c a : Nat) (ex : Option Nat)
  /-- `capture_list a(std::move(b));`, capture_list.hpp:70-74 -/
  | moveList (a b : Nat)
  /-- `a.unload(err_id)`, capture_list.hpp:86-96; `stop`: the visit that throws -/
  | unload (a : Nat) (stop : Option Nat)
  /-- `a.deactivate()`, `a.print(...)`: other loops over the nodes -/
  | visit (a : Nat)
  /-- the lifetime of list object `a` ends -/
  | drop (a : Nat)

def CMem.step (m : CMem) : COp → Option CMem
  | .mkAlloc a => m.alloc a ⟨none, some (.first a)⟩
  | .capture a pay => m.newNode a pay
  | .captureThrow a pay => do
    let n := m.fresh
    let m ← m.newNode a pay
    return { m.putNode n none with freed := n :: m.freed }
  | .moveAlloc a b => do
    let o ← m.objs b
    let last ← o.last
    -- capture_list(std::move(other))
    let m := m.putObj b (some { o with first := none })
    let m ← m.alloc a ⟨o.first, some (if last = .first b then .first a else last)⟩
    -- the assertion *last_ == nullptr
    let o' ← m.objs a
    let l ← o'.last
    let x ← m.load l
    if x ≠ none then none
    else do
      let o ← m.objs b
      return m.putObj b (some { o with last := some (.first b) })
  | .extract c a ex => do
    let m ← m.newNodeFor a ex
    let o ← m.objs a
    -- only dynamic_allocator has this function
    let _ ← o.last
    let m := m.putObj a (some ⟨none, some (.first a)⟩)
    m.alloc c ⟨o.first, none⟩
  | .moveList a b => do
    let o ← m.objs b
    let m := m.putObj b (some { o with first := none })
    m.alloc a ⟨o.first, none⟩
  | .unload a stop => do
    let o ← m.objs a
    -- capture_list moved(first_); first_ = nullptr;
    let m := m.putObj a (some { o with first := none })
    let visited ← m.walk m.fresh o.first stop
    -- the destructor of moved, also if a visit throws
    { m with log := visited :: m.log }.free m.fresh o.first
  | .visit a => do
    let o ← m.objs a
    let visited ← m.walk m.fresh o.first none
    return { m with log := visited :: m.log }
  | .drop a => do
    let o ← m.objs a
    let m ← m.free m.fresh o.first
    return m.putObj a none

def CMem.run (m : CMem) : List COp → Option CMem
  | [] => some m
  | op :: ops => do (← m.step op).run ops

end Leaf
