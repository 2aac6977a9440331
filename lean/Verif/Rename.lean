import Verif.Small
import Verif.AbsStore

/-!
# Renaming error ids

What it means that two runs are the same except for the choice of ids: there is a one-to-one renaming of ids that maps everything in
one run to the corresponding thing in the other. A renaming permutes the upper 30 bits and keeps the two tag bits; the empty id (and
the id value 1 made from it) stays.
-/

namespace Leaf

/-- A renaming of ids, as a permutation of serial numbers. -/
structure Ren where
  fwd : Nat → Nat
  bwd : Nat → Nat
  left : ∀ n, bwd (fwd n) = n
  right : ∀ n, fwd (bwd n) = n
  zero : fwd 0 = 0
  lt : ∀ n, n < 2 ^ 30 → fwd n < 2 ^ 30
  lt' : ∀ n, n < 2 ^ 30 → bwd n < 2 ^ 30

/-- The inverse renaming. -/
def Ren.inv (ρ : Ren) : Ren := ⟨ρ.bwd, ρ.fwd, ρ.right, ρ.left, by rw [← ρ.zero, ρ.left, ρ.zero], ρ.lt', ρ.lt⟩

/-- Renaming of ids inside data. -/
class HasRen (α : Type) where
  ren : Ren → α → α
export HasRen (ren)

instance : HasRen Id := ⟨fun ρ x => BitVec.ofNat 32 (4 * ρ.fwd (x.toNat / 4) + x.toNat % 4)⟩
instance : HasRen Nat := ⟨fun _ x => x⟩
instance : HasRen Unit := ⟨fun _ x => x⟩
instance {α : Type} [HasRen α] : HasRen (Option α) := ⟨fun ρ x => x.map (ren ρ)⟩
instance {α : Type} [HasRen α] : HasRen (List α) := ⟨fun ρ x => x.map (ren ρ)⟩
instance {α β : Type} [HasRen α] [HasRen β] : HasRen (α × β) := ⟨fun ρ x => (ren ρ x.1, ren ρ x.2)⟩

instance : HasRen ExcId := ⟨fun ρ x => match x with
  | .base id => .base (ren ρ id)
  | .plain id => .plain (ren ρ id)
  | .none => .none⟩
instance : HasRen Exc := ⟨fun ρ e => { e with idSrc := ren ρ e.idSrc }⟩
instance : HasRen CtxCell := ⟨fun ρ x => match x with
  | .obj ty c => .obj ty (ren ρ c)
  | .da k ns => .da (ren ρ k) (ren ρ ns)⟩
instance : HasRen CapNode := ⟨fun ρ x => match x with
  | .obj ty c => .obj ty (ren ρ c)
  | .exc e => .exc (ren ρ e)⟩
instance : HasRen ErrRes := ⟨fun ρ x => match x with
  | .plain id => .plain (ren ρ id)
  | .captured id ns => .captured (ren ρ id) (ren ρ ns)⟩
instance : HasRen Out := ⟨fun ρ x => match x with
  | .val v => .val v
  | .err r => .err (ren ρ r)
  | .exc e => .exc (ren ρ e)⟩
instance : HasRen ArgVal := ⟨fun ρ x => match x with
  | .obj ty v => .obj ty v
  | .ptr ty v => .ptr ty v
  | .exc e => .exc (ren ρ e)
  | .info id ex loc => .info (ren ρ id) (ren ρ ex) loc
  | .diag id ex loc objs => .diag (ren ρ id) (ren ρ ex) loc objs
  | .details id ex loc objs cap => .details (ren ρ id) (ren ρ ex) loc objs cap⟩
instance : HasRen Event := ⟨fun ρ x => match x with
  | .gen id => .gen (ren ρ id)
  | .offered id ty v => .offered (ren ρ id) ty v
  | .transported id ty v => .transported (ren ρ id) ty v
  | .called tag => .called tag
  | .handled id ex i args => .handled (ren ρ id) (ren ρ ex) i (ren ρ args)⟩
instance : HasRen AbsStore := ⟨fun ρ m => ⟨ren ρ m.frames⟩⟩

/-- A `std::error_code` of LEAF's category holds an id. -/
instance : HasRen ErrorCode := ⟨fun ρ ec => if ec.cat = leafCat then { ec with value := ren ρ ec.value } else ec⟩

/-- A predicate on exceptions, after renaming. -/
instance : HasRen Arg := ⟨fun ρ a => match a with
  | .catch_ p => .catch_ (fun e => p (ren ρ.inv e))
  | a => a⟩

/-- The program that does with renamed ids what `p` does with the original ones. -/
def Prog.rename (ρ : Ren) : Prog → Prog
  | .ret o => .ret (ren ρ o)
  | .newError items k => .newError items (fun id => (k (ren ρ.inv id)).rename ρ)
  | .load id items k => .load (ren ρ id) items (k.rename ρ)
  | .importCode ec v k => .importCode (ren ρ ec) v (fun id => (k (ren ρ.inv id)).rename ρ)
  | .currentError k => .currentError (fun id => (k (ren ρ.inv id)).rename ρ)
  | .bind p k ke => .bind (p.rename ρ) (fun v => (k v).rename ρ) (fun r => (ke (ren ρ.inv r)).rename ρ)
  | .onError items body => .onError items (body.rename ρ)
  | .monNew k => .monNew (fun id => (k (ren ρ.inv id)).rename ρ)
  | .monCheck m k => .monCheck (ren ρ m) (fun id => (k (ren ρ.inv id)).rename ρ)
  | .monAssigned m k => .monAssigned (ren ρ m) (fun id => (k (ren ρ.inv id)).rename ρ)
  | .handleAll specs block body =>
    .handleAll (ren ρ specs) (block.rename ρ) (fun i args => (body i (ren ρ.inv args)).rename ρ)
  | .handleSome specs block body =>
    .handleSome (ren ρ specs) (block.rename ρ) (fun i args => (body i (ren ρ.inv args)).rename ρ)
  | .tryCatch specs block body =>
    .tryCatch (ren ρ specs) (block.rename ρ) (fun i args => (body i (ren ρ.inv args)).rename ρ)
  | .captureAll block => .captureAll (block.rename ρ)
  | .captureAllVoid block => .captureAllVoid (block.rename ρ)
  | .excToResult tys block => .excToResult tys (block.rename ρ)
  | .cppCatch block h => .cppCatch (block.rename ρ) (fun e => (h (ren ρ.inv e)).rename ρ)
  | .cppRethrow block h => .cppRethrow (block.rename ρ) (fun e => (h (ren ρ.inv e)).rename ρ)
  | .unload r => .unload (ren ρ r)
  | .value r tag => .value (ren ρ r) tag

/-- User code never inspects the value of an id: it only stores ids, passes them on, compares them for equality. -/
def Prog.IdAgnostic (p : Prog) : Prop := ∀ ρ : Ren, p.rename ρ = p

end Leaf
