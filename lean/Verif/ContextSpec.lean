import Verif.ContextModel
import Verif.AbsStore

/-!
# What `context` objects are for: specification

No addresses and no pointers. A context object that is not active has a content (`CtxCell`s). The contents of the active ones are the frames of the abstract storage (`AbsStore`), latest activated first.
-/

namespace Leaf

/-- A context object. `pinned`: when it was active last, an enclosing active context had a slot for one of its types. `spent`: captured objects were unloaded from it. -/
inductive SCtx
  | active
  | idle (cells : List CtxCell) (pinned spent : Bool)
  deriving DecidableEq, Repr

/-- `active`: the names of the active contexts, latest first; their contents are `w.mem.frames`. -/
structure SWorld where
  w : World AbsStore
  active : List Nat
  pool : Nat → Option SCtx

def SWorld.setPool (s : SWorld) (c : Nat) (x : Option SCtx) : SWorld := { s with pool := upd s.pool c x }
def SWorld.setFrames (s : SWorld) (fs : List (List CtxCell)) : SWorld := { s with w := { s.w with mem := ⟨fs⟩ } }

/-- An empty slot of the same type. -/
def CtxCell.emptied : CtxCell → CtxCell
  | .obj ty _ => .obj ty none
  | .da _ _ => .da 0#32 []

/-- The `dynamic_allocator` holds objects. -/
def CtxCell.captured : CtxCell → Bool
  | .obj _ _ => false
  | .da _ ns => !ns.isEmpty

/-- A frame has a slot for the type of this element. -/
def CtxCell.boundIn (fs : List (List CtxCell)) : CtxCell → Bool
  | .obj ty _ => (boundCell ty fs).isSome
  | .da _ _ => (boundDa fs).isSome

section
variable {M : Type} [Store M]

/-- `slot::unload`: what remains in the slot. -/
def unloadCellRest (cfg : Cfg) (id : Id) : CtxCell → Comp M CtxCell
  | .obj ty c => do return .obj ty (← slotUnloadRest cfg id ty c)
  | .da key nodes => do
    unloadCell cfg id (.da key nodes)
    return .da key (if key = 0#32 then nodes else [])

/-- `context::unload`: what remains in the context. -/
def unloadRest (cfg : Cfg) (id : Id) : List CtxCell → Comp M (List CtxCell)
  | [] => pure []
  | x :: xs => do
    let xs' ← unloadRest cfg id xs
    let x' ← unloadCellRest cfg id x
    return x' :: xs'

end

/-- What the operations mean. `none`: not allowed. -/
def SWorld.step (cfg : Cfg) (s : SWorld) : UOp → Option (UObs × SWorld)
  | .create c spec =>
    if s.pool c = none ∧ spec.Nodup then some (.nothing, s.setPool c (some (.idle (spec.map CellTy.empty) false false))) else none
  | .activate c =>
    match s.pool c with
    | some (.idle cells _ false) =>
      -- captured objects must be out before it is activated again
      if cells.any (·.captured) then none
      else some (.nothing, { s.setFrames (cells :: s.w.mem.frames) with active := c :: s.active }.setPool c (some .active))
    | _ => none
  | .deactivate c =>
    match s.active, s.w.mem.frames with
    | a :: as, f :: fs =>
      if a = c then some (.nothing, { s.setFrames fs with active := as }.setPool c (some (.idle f (f.any (·.boundIn fs)) false))) else none
    | _, _ => none
  | .move d c =>
    match s.pool d, s.pool c with
    | none, some (.idle cells false false) =>
      some (.nothing, (s.setPool c (some (.idle (cells.map (·.emptied)) false false))).setPool d (some (.idle cells false false)))
    | _, _ => none
  | .unload c id =>
    match s.pool c with
    | some (.idle cells pinned spent) => do
      let (rest, w) ← unloadRest cfg id cells s.w
      return (.nothing, { s with w := w }.setPool c (some (.idle rest pinned (spent || cells.any (·.captured)))))
    | _ => none
  | .handle c id specs body =>
    match s.pool c with
    | some (.idle cells _ _) => do
      let (o, w) ← handleError cfg specs (fun i args => eval cfg (body i args)) cells id s.w
      return (.out o, { s with w := w })
    | _ => none
  | .look c =>
    match s.pool c with
    | some (.idle cells _ _) => some (.content cells, s)
    | _ => none
  | .destroy c =>
    match s.pool c with
    | some (.idle _ _ _) => some (.nothing, s.setPool c none)
    | _ => none
  | .run p => do
    let (o, w) ← eval cfg p s.w
    return (.out o, { s with w := w })

def SWorld.run (cfg : Cfg) (s : SWorld) : List UOp → Option (List UObs × SWorld)
  | [] => some ([], s)
  | op :: ops => do
    let (x, s) ← s.step cfg op
    let (xs, s) ← s.run cfg ops
    return (x :: xs, s)

def SWorld.initial (counter : Id) : SWorld := ⟨⟨0#32, counter, 0, [], [], ⟨[]⟩⟩, [], fun _ => none⟩

end Leaf
