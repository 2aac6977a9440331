import Verif.Rename
import Verif.SmallLemmas
import Verif.IdsLemmas

/-!
# Programs do not depend on the choice of ids
-/

namespace Leaf

/-! ## Renaming is one-to-one -/

theorem ren_toNat (ρ : Ren) (x : Id) : (ren ρ x).toNat = 4 * ρ.fwd (x.toNat / 4) + x.toNat % 4 := by
  show (BitVec.ofNat 32 (4 * ρ.fwd (x.toNat / 4) + x.toNat % 4)).toNat = _
  rw [BitVec.toNat_ofNat]
  have := ρ.lt (x.toNat / 4) (by have := x.isLt; omega)
  omega

class LawfulRen (α : Type) [HasRen α] : Prop where
  inv_ren : ∀ (ρ : Ren) (x : α), ren ρ.inv (ren ρ x) = x

@[simp] theorem inv_ren {α : Type} [HasRen α] [LawfulRen α] (ρ : Ren) (x : α) : ren ρ.inv (ren ρ x) = x := LawfulRen.inv_ren ρ x

instance : LawfulRen Id := ⟨fun ρ x => by
  apply BitVec.eq_of_toNat_eq
  rw [ren_toNat, ren_toNat]
  have h1 : (4 * ρ.fwd (x.toNat / 4) + x.toNat % 4) / 4 = ρ.fwd (x.toNat / 4) := by omega
  have h2 : (4 * ρ.fwd (x.toNat / 4) + x.toNat % 4) % 4 = x.toNat % 4 := by omega
  rw [h1, h2]
  show 4 * ρ.bwd (ρ.fwd (x.toNat / 4)) + _ = _
  rw [ρ.left]
  omega⟩
instance : LawfulRen Nat := ⟨fun _ _ => rfl⟩
instance : LawfulRen Unit := ⟨fun _ _ => rfl⟩
instance {α : Type} [HasRen α] [LawfulRen α] : LawfulRen (Option α) := ⟨fun ρ x => by
  cases x with
  | none => rfl
  | some x => exact congrArg some (inv_ren ρ x)⟩
instance {α : Type} [HasRen α] [LawfulRen α] : LawfulRen (List α) := ⟨fun ρ x => by
  induction x with
  | nil => rfl
  | cons a l ih =>
    show ren ρ.inv (ren ρ a) :: ren ρ.inv (ren ρ l) = a :: l
    rw [inv_ren, ih]⟩
instance {α β : Type} [HasRen α] [HasRen β] [LawfulRen α] [LawfulRen β] : LawfulRen (α × β) :=
  ⟨fun ρ x => congr (congrArg Prod.mk (inv_ren ρ x.1)) (inv_ren ρ x.2)⟩
instance : LawfulRen ExcId := ⟨fun ρ x => by
  cases x with
  | base id => exact congrArg ExcId.base (inv_ren ρ id)
  | plain id => exact congrArg ExcId.plain (inv_ren ρ id)
  | none => rfl⟩
instance : LawfulRen Exc := ⟨fun ρ x => by
  obtain ⟨a, b, c, d, e⟩ := x
  show Exc.mk a b (ren ρ.inv (ren ρ c)) d e = _
  rw [inv_ren]⟩
instance : LawfulRen CtxCell := ⟨fun ρ x => by
  cases x with
  | obj ty c => exact congrArg (CtxCell.obj ty) (inv_ren ρ c)
  | da k ns => exact congr (congrArg CtxCell.da (inv_ren ρ k)) (inv_ren ρ ns)⟩
instance : LawfulRen CapNode := ⟨fun ρ x => by
  cases x with
  | obj ty c => exact congrArg (CapNode.obj ty) (inv_ren ρ c)
  | exc e => exact congrArg CapNode.exc (inv_ren ρ e)⟩
instance : LawfulRen ErrRes := ⟨fun ρ x => by
  cases x with
  | plain id => exact congrArg ErrRes.plain (inv_ren ρ id)
  | captured id ns => exact congr (congrArg ErrRes.captured (inv_ren ρ id)) (inv_ren ρ ns)⟩
instance : LawfulRen Out := ⟨fun ρ x => by
  cases x with
  | val v => rfl
  | err r => exact congrArg Out.err (inv_ren ρ r)
  | exc e => exact congrArg Out.exc (inv_ren ρ e)⟩
instance : LawfulRen ArgVal := ⟨fun ρ x => by
  cases x with
  | obj ty v => rfl
  | ptr ty v => rfl
  | exc e => exact congrArg ArgVal.exc (inv_ren ρ e)
  | info id ex loc => exact congr (congr (congrArg ArgVal.info (inv_ren ρ id)) (inv_ren ρ ex)) rfl
  | diag id ex loc objs => exact congr (congr (congr (congrArg ArgVal.diag (inv_ren ρ id)) (inv_ren ρ ex)) rfl) rfl
  | details id ex loc objs c => exact congr (congr (congr (congr (congrArg ArgVal.details (inv_ren ρ id)) (inv_ren ρ ex)) rfl) rfl) rfl⟩

instance : LawfulRen Event := ⟨fun ρ x => by
  cases x with
  | gen id => exact congrArg Event.gen (inv_ren ρ id)
  | offered id ty v => exact congr (congr (congrArg Event.offered (inv_ren ρ id)) rfl) rfl
  | transported id ty v => exact congr (congr (congrArg Event.transported (inv_ren ρ id)) rfl) rfl
  | called tag => rfl
  | handled id ex i args => exact congr (congr (congr (congrArg Event.handled (inv_ren ρ id)) (inv_ren ρ ex)) rfl) (inv_ren ρ args)⟩

theorem ren_inj {α : Type} [HasRen α] [LawfulRen α] (ρ : Ren) {x y : α} (h : ren ρ x = ren ρ y) : x = y := by
  rw [← inv_ren ρ x, h, inv_ren]

@[simp] theorem ren_eq_ren {α : Type} [HasRen α] [LawfulRen α] (ρ : Ren) {x y : α} : ren ρ x = ren ρ y ↔ x = y := ⟨ren_inj ρ, congrArg _⟩

@[simp] theorem ren_zero (ρ : Ren) : ren ρ (0#32 : Id) = 0#32 := by
  apply BitVec.eq_of_toNat_eq
  rw [ren_toNat]
  simp [ρ.zero]
@[simp] theorem ren_eq_zero (ρ : Ren) (x : Id) : ren ρ x = 0#32 ↔ x = 0#32 := by
  constructor
  · intro h; apply ren_inj ρ; rw [h, ren_zero]
  · intro h; rw [h, ren_zero]
@[simp] theorem ren_tagged (ρ : Ren) (x : Id) : Id.Tagged (ren ρ x) ↔ Id.Tagged x := by
  rw [tagged_iff, tagged_iff, ren_toNat]; omega
@[simp] theorem ren_make (ρ : Ren) (x : Id) : makeErrorId (ren ρ x) = ren ρ (makeErrorId x) := by
  apply BitVec.eq_of_toNat_eq
  rw [makeErrorId_toNat, ren_toNat, ren_toNat, makeErrorId_toNat]
  rw [show (4 * (x.toNat / 4) + 1) / 4 = x.toNat / 4 by omega]
  omega

/-! ### Unfolding -/
section
variable (ρ : Ren)
@[simp] theorem ren_nat (x : Nat) : ren ρ x = x := rfl
@[simp] theorem ren_unit (x : Unit) : ren ρ x = x := rfl
@[simp] theorem ren_none {α : Type} [HasRen α] : ren ρ (none : Option α) = none := rfl
@[simp] theorem ren_some {α : Type} [HasRen α] (x : α) : ren ρ (some x) = some (ren ρ x) := rfl
@[simp] theorem ren_nil {α : Type} [HasRen α] : ren ρ ([] : List α) = [] := rfl
@[simp] theorem ren_cons {α : Type} [HasRen α] (x : α) (l : List α) : ren ρ (x :: l) = ren ρ x :: ren ρ l := rfl
@[simp] theorem ren_append {α : Type} [HasRen α] (l l' : List α) : ren ρ (l ++ l') = ren ρ l ++ ren ρ l' := List.map_append ..
@[simp] theorem ren_prod {α β : Type} [HasRen α] [HasRen β] (x : α) (y : β) : ren ρ (x, y) = (ren ρ x, ren ρ y) := rfl
@[simp] theorem ren_base (id : Id) : ren ρ (ExcId.base id) = .base (ren ρ id) := rfl
@[simp] theorem ren_plainId (id : Id) : ren ρ (ExcId.plain id) = .plain (ren ρ id) := rfl
@[simp] theorem ren_noneId : ren ρ ExcId.none = .none := rfl
@[simp] theorem ren_exc (a b c d e) : ren ρ (Exc.mk a b c d e) = ⟨a, b, ren ρ c, d, e⟩ := rfl
@[simp] theorem ren_cobj (ty : Ty) (c : Cell) : ren ρ (CtxCell.obj ty c) = .obj ty (ren ρ c) := rfl
@[simp] theorem ren_cda (k : Id) (ns : List (Ty × Cell)) : ren ρ (CtxCell.da k ns) = .da (ren ρ k) (ren ρ ns) := rfl
@[simp] theorem ren_nobj (ty : Ty) (c : Cell) : ren ρ (CapNode.obj ty c) = .obj ty (ren ρ c) := rfl
@[simp] theorem ren_nexc (e : Exc) : ren ρ (CapNode.exc e) = .exc (ren ρ e) := rfl
@[simp] theorem ren_rplain (id : Id) : ren ρ (ErrRes.plain id) = .plain (ren ρ id) := rfl
@[simp] theorem ren_rcap (id : Id) (ns : List CapNode) : ren ρ (ErrRes.captured id ns) = .captured (ren ρ id) (ren ρ ns) := rfl
@[simp] theorem ren_oval (v : Val) : ren ρ (Out.val v) = .val v := rfl
@[simp] theorem ren_oerr (r : ErrRes) : ren ρ (Out.err r) = .err (ren ρ r) := rfl
@[simp] theorem ren_oexc (e : Exc) : ren ρ (Out.exc e) = .exc (ren ρ e) := rfl
@[simp] theorem ren_errId (r : ErrRes) : (ren ρ r).errId = ren ρ r.errId := by cases r <;> simp [ErrRes.errId]
end

theorem ren_hasValue (ρ : Ren) (c : Cell) (id : Id) : Cell.hasValue (ren ρ c) (ren ρ id) = c.hasValue id := by
  cases c with
  | none => rfl
  | some p =>
    obtain ⟨k, v⟩ := p
    simp [Cell.hasValue]

/-! ## Handlers -/

theorem ren_contextTypes (ρ : Ren) (cfg : Cfg) (a : Arg) : (ren ρ a).contextTypes cfg = a.contextTypes cfg := by cases a <;> rfl
theorem ren_deduce (ρ : Ren) (cfg : Cfg) (specs : List (List Arg)) : deduce cfg (ren ρ specs) = deduce cfg specs := by
  have : (ren ρ specs).flatten.map (Arg.contextTypes cfg) = specs.flatten.map (Arg.contextTypes cfg) := by
    induction specs with
    | nil => rfl
    | cons l ls ih =>
      simp only [ren_cons, List.flatten_cons, List.map_append, ih]
      congr 1
      induction l with
      | nil => rfl
      | cons a l ih => simp only [ren_cons, List.map_cons, ren_contextTypes, ih]
  unfold deduce
  rw [this]

theorem ren_findCell (ρ : Ren) (ty : Ty) (cells : List CtxCell) : findCell ty (ren ρ cells) = ren ρ (findCell ty cells) := by
  induction cells with
  | nil => rfl
  | cons c cs ih => cases c with
    | obj t c => by_cases h : t = ty <;> simp [findCell, h, ih]
    | da k ns => simp [findCell, ih]

theorem ren_cast (ρ : Ren) (e : Exc) (ty : Ty) : (ren ρ e).cast ty = e.cast ty := rfl

theorem ren_peek (ρ : Ren) (cfg : Cfg) (cells : List CtxCell) (id : Id) (ex : Option Exc) (ty : Ty) :
    peek cfg (ren ρ cells) (ren ρ id) (ren ρ ex) ty = peek cfg cells id ex ty := by
  have h1 : (findCell ty (ren ρ cells)).bind (Cell.hasValue · (ren ρ id)) = (findCell ty cells).bind (Cell.hasValue · id) := by
    rw [ren_findCell]
    cases findCell ty cells with
    | none => rfl
    | some c => simp [ren_hasValue]
  have h2 : (ren ρ ex).bind (Exc.cast · ty) = ex.bind (Exc.cast · ty) := by cases ex <;> rfl
  unfold peek
  rw [h1, h2]
  simp

theorem ren_ctxObjs (ρ : Ren) (id : Id) (cells : List CtxCell) : ctxObjs (ren ρ id) (ren ρ cells) = ctxObjs id cells := by
  unfold ctxObjs
  induction cells with
  | nil => rfl
  | cons c cs ih =>
    rw [ren_cons, List.filterMap_cons, List.filterMap_cons, ih]
    cases c with
    | da k ns => rfl
    | obj ty c => cases c with
      | none => rfl
      | some p => obtain ⟨k, v⟩ := p; simp

theorem ren_daObjs (ρ : Ren) (id : Id) (cells : List CtxCell) : daObjs (ren ρ id) (ren ρ cells) = daObjs id cells := by
  unfold daObjs
  induction cells with
  | nil => rfl
  | cons c cs ih =>
    rw [ren_cons, List.flatMap_cons, List.flatMap_cons, ih]
    congr 1
    cases c with
    | obj ty c => rfl
    | da k ns =>
      simp only [ren_cda, ren_eq_zero]
      by_cases hk : k = 0#32
      · simp [hk]
      · simp only [hk, if_false]
        induction ns with
        | nil => rfl
        | cons n ns ih =>
          rw [ren_cons, List.filterMap_cons, List.filterMap_cons, ih]
          obtain ⟨ty, c⟩ := n
          cases c with
          | none => rfl
          | some p => obtain ⟨k, v⟩ := p; simp

theorem ren_always (ρ : Ren) (a : Arg) : (ren ρ a).always = a.always := by cases a <;> rfl
theorem ren_matchesAny (ρ : Ren) (args : List Arg) : matchesAny (ren ρ args) = matchesAny args := by
  induction args with
  | nil => rfl
  | cons a as ih => simp only [matchesAny, ren_cons, List.all_cons, ren_always] at ih ⊢; rw [ih]

theorem ren_check (ρ : Ren) (cfg : Cfg) (cells : List CtxCell) (id : Id) (ex : Option Exc) (a : Arg) :
    Arg.check cfg (ren ρ cells) (ren ρ id) (ren ρ ex) (ren ρ a) = Arg.check cfg cells id ex a := by
  cases a with
  | req ty => simp only [show ren ρ (Arg.req ty) = .req ty from rfl, Arg.check, ren_peek]
  | ptr ty => rfl
  | pred ty p => simp only [show ren ρ (Arg.pred ty p) = .pred ty p from rfl, Arg.check, ren_peek]
  | catch_ p =>
    cases ex with
    | none => rfl
    | some e => simp [show ren ρ (Arg.catch_ p) = .catch_ (fun e => p (ren ρ.inv e)) from rfl, Arg.check]
  | info => rfl
  | diag => rfl
  | details => rfl

theorem ren_checkArgs (ρ : Ren) (cfg : Cfg) (cells : List CtxCell) (id : Id) (ex : Option Exc) (args : List Arg) :
    checkArgs cfg (ren ρ cells) (ren ρ id) (ren ρ ex) (ren ρ args) = checkArgs cfg cells id ex args := by
  induction args with
  | nil => rfl
  | cons a as ih => simp only [checkArgs, ren_cons, List.all_cons, ren_check] at ih ⊢; rw [ih]

theorem ren_get (ρ : Ren) (cfg : Cfg) (cells : List CtxCell) (id : Id) (ex : Option Exc) (loc : Option Val) (a : Arg) :
    Arg.get cfg (ren ρ cells) (ren ρ id) (ren ρ ex) loc (ren ρ a) = ren ρ (Arg.get cfg cells id ex loc a) := by
  cases a with
  | req ty => simp only [show ren ρ (Arg.req ty) = .req ty from rfl, Arg.get, ren_peek]; cases peek cfg cells id ex ty <;> rfl
  | ptr ty => simp only [show ren ρ (Arg.ptr ty) = .ptr ty from rfl, Arg.get, ren_peek]; rfl
  | pred ty p => simp only [show ren ρ (Arg.pred ty p) = .pred ty p from rfl, Arg.get, ren_peek]; cases peek cfg cells id ex ty <;> rfl
  | catch_ p => cases ex <;> rfl
  | info => rfl
  | diag => simp only [show ren ρ Arg.diag = .diag from rfl, Arg.get, ren_ctxObjs]; rfl
  | details => simp only [show ren ρ Arg.details = .details from rfl, Arg.get, ren_ctxObjs, ren_daObjs]; rfl

theorem ren_getArgs (ρ : Ren) (cfg : Cfg) (cells : List CtxCell) (id : Id) (ex : Option Exc) (loc : Option Val) (args : List Arg) :
    getArgs cfg (ren ρ cells) (ren ρ id) (ren ρ ex) loc (ren ρ args) = ren ρ (getArgs cfg cells id ex loc args) := by
  induction args with
  | nil => rfl
  | cons a as ih =>
    simp only [ren_cons, getArgs, ren_get, ih]
    cases Arg.get cfg cells id ex loc a with
    | none => rfl
    | some v => cases getArgs cfg cells id ex loc as <;> rfl

theorem ren_selectSome (ρ : Ren) (cfg : Cfg) (cells : List CtxCell) (id : Id) (ex : Option Exc) (specs : List (List Arg)) :
    selectSome cfg (ren ρ cells) (ren ρ id) (ren ρ ex) (ren ρ specs) = selectSome cfg cells id ex specs := by
  unfold selectSome
  generalize 0 = i
  induction specs generalizing i with
  | nil => rfl
  | cons h hs ih => simp only [ren_cons, selectSomeFrom, ren_matchesAny, ren_checkArgs, ih]

theorem ren_selectAll (ρ : Ren) (cfg : Cfg) (cells : List CtxCell) (id : Id) (ex : Option Exc) (specs : List (List Arg)) :
    selectAll cfg (ren ρ cells) (ren ρ id) (ren ρ ex) (ren ρ specs) = selectAll cfg cells id ex specs := by
  unfold selectAll
  generalize 0 = i
  induction specs generalizing i with
  | nil => rfl
  | cons h hs ih =>
    cases hs with
    | nil => simp only [ren_cons, ren_nil, selectAllFrom, ren_matchesAny]
    | cons h' hs => simp only [ren_cons, selectAllFrom, ren_matchesAny, ren_checkArgs] at ih ⊢; rw [ih]

theorem ren_getElem? {α : Type} [HasRen α] (ρ : Ren) (l : List α) (i : Nat) : (ren ρ l)[i]? = ren ρ l[i]? := List.getElem?_map ..

/-! ## Operations -/

def Op.ren (ρ : Ren) : Op → Op
  | .setCur id => .setCur (Leaf.ren ρ id)
  | .emit e h => .emit (Leaf.ren ρ e) (by cases e <;> first | exact h | rfl)
  | .pushHandling e => .pushHandling (Leaf.ren ρ e)
  | .slotSet ty id v => .slotSet ty (Leaf.ren ρ id) v
  | .daReset id => .daReset (Leaf.ren ρ id)
  | .daAppend ty id v => .daAppend ty (Leaf.ren ρ id) v
  | .gen => .gen
  | .getCur => .getCur
  | .popHandling => .popHandling
  | .currentException => .currentException
  | .slotGet ty => .slotGet ty
  | .daKey => .daKey
  | .pushCtx spec => .pushCtx spec
  | .popCtx => .popCtx

def Op.renRes (ρ : Ren) : (o : Op) → o.Res → (o.ren ρ).Res
  | .gen, r => Leaf.ren ρ (α := Id) r
  | .getCur, r => Leaf.ren ρ (α := Id) r
  | .currentException, r => Leaf.ren ρ (α := Option Exc) r
  | .slotGet _, r => Leaf.ren ρ (α := Option Cell) r
  | .daKey, r => Leaf.ren ρ (α := Option Id) r
  | .popCtx, r => Leaf.ren ρ (α := List CtxCell) r
  | .setCur _, _ => ()
  | .emit _ _, _ => ()
  | .pushHandling _, _ => ()
  | .popHandling, _ => ()
  | .slotSet _ _ _, _ => ()
  | .daReset _, _ => ()
  | .daAppend _ _ _, _ => ()
  | .pushCtx _, _ => ()

/-- `y` is `x` with ids renamed. -/
inductive Eqv (ρ : Ren) {α : Type} [HasRen α] : Act α → Act α → Prop
  | ret (a : α) : Eqv ρ (.ret a) (.ret (ren ρ a))
  | ub : Eqv ρ .ub .ub
  | op (o : Op) (k : o.Res → Act α) (k' : (o.ren ρ).Res → Act α) (h : ∀ r, Eqv ρ (k r) (k' (o.renRes ρ r))) : Eqv ρ (.op o k) (.op (o.ren ρ) k')

theorem Eqv.pure' {ρ : Ren} {α : Type} [HasRen α] {a b : α} (h : ren ρ a = b) : Eqv ρ (pure a) (pure b) := h ▸ .ret a

theorem Eqv.bind {ρ : Ren} {α β : Type} [HasRen α] [HasRen β] {x y : Act α} {f g : α → Act β} (h : Eqv ρ x y)
    (hf : ∀ a, Eqv ρ (f a) (g (ren ρ a))) : Eqv ρ (x >>= f) (y >>= g) := by
  show Eqv ρ (x.bind f) (y.bind g)
  induction h with
  | ret a => exact hf a
  | ub => exact .ub
  | op o k k' _ ih => exact .op o _ _ ih

theorem Eqv.ite {ρ : Ren} {α : Type} [HasRen α] {c c' : Prop} [Decidable c] [Decidable c'] (hc : c' ↔ c) {x1 x2 y1 y2 : Act α} (h1 : Eqv ρ x1 y1)
    (h2 : Eqv ρ x2 y2) : Eqv ρ (if c then x1 else x2) (if c' then y1 else y2) := by
  by_cases h : c
  · rw [if_pos h, if_pos (hc.2 h)]; exact h1
  · rw [if_neg h, if_neg (fun h' => h (hc.1 h'))]; exact h2

end Leaf
