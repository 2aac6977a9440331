import Verif.Store

/-!
# Abstract error storage (specification)

A stack of frames, innermost first; each frame is the content of one active context. An access to the slot of type `E` goes to
the innermost frame that has one. No pointers, no thread-local variables. `PtrRefine` proves that the pointer-level storage
(`PtrStore`) behaves exactly like this.
-/

namespace Leaf

structure AbsStore where
  frames : List (List CtxCell)
  deriving DecidableEq, Repr

/-- The node of type `ty`. -/
def nodeCell (ty : Ty) : List (Ty × Cell) → Option Cell
  | [] => none
  | (t, c) :: ns => if t = ty then some c else nodeCell ty ns

/-- The slot of type `ty` in one context: an element of its tuple or a node of its dynamic allocator. -/
def frameCell (ty : Ty) : List CtxCell → Option Cell
  | [] => none
  | .obj t c :: cs => if t = ty then some c else frameCell ty cs
  | .da _ nodes :: cs => match nodeCell ty nodes with
    | some c => some c
    | none => frameCell ty cs

/-- The innermost slot of type `ty`. -/
def boundCell (ty : Ty) : List (List CtxCell) → Option Cell
  | [] => none
  | f :: fs => match frameCell ty f with
    | some c => some c
    | none => boundCell ty fs

def setNode (ty : Ty) (c : Cell) : List (Ty × Cell) → List (Ty × Cell)
  | [] => []
  | (t, c') :: ns => if t = ty then (t, c) :: ns else (t, c') :: setNode ty c ns

def setFrame (ty : Ty) (c : Cell) : List CtxCell → List CtxCell
  | [] => []
  | .obj t c' :: cs => if t = ty then .obj t c :: cs else .obj t c' :: setFrame ty c cs
  | .da k nodes :: cs => match nodeCell ty nodes with
    | some _ => .da k (setNode ty c nodes) :: cs
    | none => .da k nodes :: setFrame ty c cs

/-- Replace the content of the innermost slot of type `ty`. -/
def setBound (ty : Ty) (c : Cell) : List (List CtxCell) → List (List CtxCell)
  | [] => []
  | f :: fs => match frameCell ty f with
    | some _ => setFrame ty c f :: fs
    | none => f :: setBound ty c fs

/-- The dynamic allocator of one context. -/
def frameDa : List CtxCell → Option (Id × List (Ty × Cell))
  | [] => none
  | .obj _ _ :: cs => frameDa cs
  | .da k ns :: _ => some (k, ns)

/-- The innermost dynamic allocator. -/
def boundDa : List (List CtxCell) → Option (Id × List (Ty × Cell))
  | [] => none
  | f :: fs => match frameDa f with
    | some d => some d
    | none => boundDa fs

def setFrameDa (k : Id) (ns : List (Ty × Cell)) : List CtxCell → List CtxCell
  | [] => []
  | .obj t c :: cs => .obj t c :: setFrameDa k ns cs
  | .da _ _ :: cs => .da k ns :: cs

def setBoundDa (k : Id) (ns : List (Ty × Cell)) : List (List CtxCell) → List (List CtxCell)
  | [] => []
  | f :: fs => match frameDa f with
    | some _ => setFrameDa k ns f :: fs
    | none => f :: setBoundDa k ns fs

/-- An empty context. -/
def CellTy.empty : CellTy → CtxCell
  | .obj ty => .obj ty none
  | .da => .da 0#32 []

instance : Store AbsStore where
  slotGet ty m := some (boundCell ty m.frames)
  slotSet ty id v m := match boundCell ty m.frames with
    | some _ => some ⟨setBound ty (some (id, v)) m.frames⟩
    | none => none
  daKey m := some ((boundDa m.frames).map Prod.fst)
  daReset id m := match boundDa m.frames with
    | some (_, []) => some ⟨setBoundDa id [] m.frames⟩
    -- objects that are still active would be destroyed
    | some (_, _ :: _) => none
    | none => none
  daAppend ty id v m := match boundDa m.frames with
    | some (k, ns) =>
      if k = 0#32 then none
      else match boundCell ty m.frames with
        | some _ => none
        | none => some ⟨setBoundDa k (ns ++ [(ty, some (id, v))]) m.frames⟩
    | none => none
  push spec m := if spec.Nodup then some ⟨spec.map CellTy.empty :: m.frames⟩ else none
  pop m := match m.frames with
    | [] => none
    | f :: fs => some (f, ⟨fs⟩)

end Leaf
