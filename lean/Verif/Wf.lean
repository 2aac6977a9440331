import Verif.Prog
import Verif.AbsStore

/-!
# Well-formed programs

What the C++ type system and the documented preconditions of LEAF impose on a program, plus the exclusions that correspond to
defects of the code (see DESIGN.md).
-/

namespace Leaf

/-- An exception object carries a valid id, if it carries one. (`throw_exception` makes one with an empty id only when given an
empty `error_id`, see `C42_empty_id`; a user type derived from `error_id` could.) -/
def Exc.Ok (e : Exc) : Prop :=
  match e.idSrc with
  | .base id => Id.Tagged id
  | .plain id => Id.Tagged id
  | .none => True

def CapNode.Ok : CapNode → Prop
  | .obj _ _ => True
  | .exc e => e.Ok

def ErrRes.Ok : ErrRes → Prop
  | .plain _ => True
  | .captured _ ns => ∀ n ∈ ns, n.Ok

def Out.Ok : Out → Prop
  | .val _ => True
  | .err r => r.Ok
  | .exc e => e.Ok

def ArgVal.Ok : ArgVal → Prop
  | .obj _ _ => True
  | .ptr _ _ => True
  | .exc e => e.Ok
  | .info id ex _ => Id.Tagged id ∧ ∀ e, ex = some e → e.Ok
  | .diag id ex _ _ => Id.Tagged id ∧ ∀ e, ex = some e → e.Ok
  | .details id ex _ _ _ => Id.Tagged id ∧ ∀ e, ex = some e → e.Ok

/-- With `BOOST_LEAF_CFG_CAPTURE`, functions taking `E &` are excluded while a capturing scope may be active (`da = true`;
finding F4: they may destroy storage in use). -/
def Item.Ok (cfg : Cfg) (da : Bool) : Item → Prop
  | .obj _ _ => True
  | .deferred _ _ _ => True
  | .accum _ _ _ => cfg.capture = false ∨ da = false

def OnItem.Ok (cfg : Cfg) (da : Bool) : OnItem → Prop
  | .item i => i.Ok cfg da
  | .action _ => True

/-- Any id that can be obtained through the API: empty or tagged. -/
def Id.Ok (id : Id) : Prop := id = 0#32 ∨ Id.Tagged id

/-- The `static_assert` of `try_handle_all`: the last handler matches any error. -/
def ValidAll (specs : List (List Arg)) : Prop := ∃ init last, specs = init ++ [last] ∧ matchesAny last = true

/-- The program never returns a `result` in an error state: what the type system requires of handlers of `try_handle_all`. -/
def Prog.NoErr : Prog → Prop
  | .ret o => ∀ r, o ≠ .err r
  | .newError _ k => ∀ id, (k id).NoErr
  | .load _ _ k => k.NoErr
  | .importCode _ _ k => ∀ id, (k id).NoErr
  | .currentError k => ∀ id, (k id).NoErr
  | .bind _ k ke => (∀ v, (k v).NoErr) ∧ ∀ r, (ke r).NoErr
  | .onError _ body => body.NoErr
  | .monNew k => ∀ id, (k id).NoErr
  | .monCheck _ k => ∀ id, (k id).NoErr
  | .monAssigned _ k => ∀ id, (k id).NoErr
  | .handleAll _ _ _ => True
  | .handleSome _ _ _ => False
  | .tryCatch _ block body => block.NoErr ∧ ∀ i args, (body i args).NoErr
  | .captureAll _ => False
  | .captureAllVoid _ => False
  | .excToResult _ _ => False
  | .cppCatch block h => block.NoErr ∧ ∀ e, (h e).NoErr
  | .cppRethrow block _ => block.NoErr
  | .unload _ => False
  | .value _ _ => True

/-- Some handler takes `diagnostic_details const &` and capturing is enabled. -/
def capturing (cfg : Cfg) (specs : List (List Arg)) : Bool :=
  cfg.capture && specs.any (·.any fun | .details => true | _ => false)

/-- Well-formed programs; `da`: a capturing scope (`try_capture_all`, or a handler taking `diagnostic_details`) may be active. -/
def Prog.WF (cfg : Cfg) (da : Bool) : Prog → Prop
  | .ret o => o.Ok
  | .newError items k => (∀ i ∈ items, i.Ok cfg da) ∧ ∀ id, Id.Tagged id → (k id).WF cfg da
  | .load id items k => id.Ok ∧ (∀ i ∈ items, i.Ok cfg da) ∧ k.WF cfg da
  | .importCode ec _ k => (ec.cat = leafCat → Id.Ok ec.value) ∧ ∀ id, Id.Ok id → (k id).WF cfg da
  | .currentError k => ∀ id, Id.Tagged id → (k id).WF cfg da
  | .bind p k ke => p.WF cfg da ∧ (∀ v, (k v).WF cfg da) ∧ ∀ r, ErrRes.Ok r → (ke r).WF cfg da
  | .onError items body => (∀ i ∈ items, i.Ok cfg da) ∧ body.WF cfg da
  | .monNew k => ∀ id, Id.Ok id → (k id).WF cfg da
  | .monCheck _ k => ∀ id, Id.Tagged id → (k id).WF cfg da
  | .monAssigned _ k => ∀ id, Id.Tagged id → (k id).WF cfg da
  | .handleAll specs block body => ValidAll specs ∧ block.WF cfg (da || capturing cfg specs) ∧
      ∀ i args, (∀ a ∈ args, ArgVal.Ok a) → (body i args).WF cfg da ∧ (body i args).NoErr
  | .handleSome specs block body => block.WF cfg (da || capturing cfg specs) ∧ ∀ i args, (∀ a ∈ args, ArgVal.Ok a) → (body i args).WF cfg da
  | .tryCatch specs block body => block.WF cfg (da || capturing cfg specs) ∧ ∀ i args, (∀ a ∈ args, ArgVal.Ok a) → (body i args).WF cfg da
  | .captureAll block => cfg.capture = true ∧ block.WF cfg true
  -- finding F6: on success, storage is destroyed while still bound
  | .captureAllVoid _ => False
  | .excToResult _ block => block.WF cfg da
  | .cppCatch block h => block.WF cfg da ∧ ∀ e, Exc.Ok e → (h e).WF cfg da
  | .cppRethrow block h => block.WF cfg da ∧ ∀ e, Exc.Ok e → (h e).WF cfg da
  | .unload r => r.Ok
  | .value r _ => r.Ok

/-! ## Well-formed states -/

def CtxCell.Good : CtxCell → Prop
  | .obj _ _ => True
  | .da k ns => k = 0#32 → ns = []

/-- All types a context has a slot for, nodes of its allocator included. -/
def CtxCell.tys : CtxCell → List Ty
  | .obj t _ => [t]
  | .da _ ns => ns.map Prod.fst

def frameTys (f : List CtxCell) : List Ty := f.flatMap CtxCell.tys

def FramesGood (fs : List (List CtxCell)) : Prop := ∀ f ∈ fs, (∀ c ∈ f, c.Good) ∧ (frameTys f).Nodup

/-- The state of a thread between two LEAF calls. -/
structure World.Good (w : World AbsStore) : Prop where
  cur : Id.Ok w.cur
  counter : Id.Tagged w.counter
  handling : ∀ e ∈ w.handling, Exc.Ok e
  frames : FramesGood w.mem.frames

/-- The types of the slots of a context (nodes of dynamic allocators not included). -/
def CtxCell.cellTy : CtxCell → CellTy
  | .obj ty _ => .obj ty
  | .da _ _ => .da

def shape (fs : List (List CtxCell)) : List (List CellTy) := fs.map (·.map CtxCell.cellTy)

end Leaf
