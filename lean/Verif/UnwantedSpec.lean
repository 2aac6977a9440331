import Verif.Prog
import Verif.Wf

/-!
# Leaving out error objects that no handler takes: specification

Used by `Verif/PropUnwanted.lean` (C77).
-/

namespace Leaf

/-- The item reports an object of one of the types `U`. With `BOOST_LEAF_CFG_CAPTURE`, functions returning an object are called even if nobody wants it (finding of C12), so these stay. -/
def Item.unwanted (cfg : Cfg) (U : Ty → Bool) : Item → Bool
  | .obj ty _ => U ty
  | .deferred ty _ _ => U ty && !cfg.capture
  | .accum ty _ _ => U ty

def OnItem.unwanted (cfg : Cfg) (U : Ty → Bool) : OnItem → Bool
  | .item i => i.unwanted cfg U
  | .action _ => false

/-- The program without the unwanted items of `new_error`, `load` and `on_error`. -/
def Prog.without (cfg : Cfg) (U : Ty → Bool) : Prog → Prog
  | .ret o => .ret o
  | .newError items k => .newError (items.filter fun i => !i.unwanted cfg U) fun id => (k id).without cfg U
  | .load id items k => .load id (items.filter fun i => !i.unwanted cfg U) (k.without cfg U)
  | .importCode ec v k => .importCode ec v fun id => (k id).without cfg U
  | .currentError k => .currentError fun id => (k id).without cfg U
  | .bind p k ke => .bind (p.without cfg U) (fun v => (k v).without cfg U) fun r => (ke r).without cfg U
  | .onError items body => .onError (items.filter fun i => !i.unwanted cfg U) (body.without cfg U)
  | .monNew k => .monNew fun id => (k id).without cfg U
  | .monCheck m k => .monCheck m fun id => (k id).without cfg U
  | .monAssigned m k => .monAssigned m fun id => (k id).without cfg U
  | .handleAll specs block body => .handleAll specs (block.without cfg U) fun i args => (body i args).without cfg U
  | .handleSome specs block body => .handleSome specs (block.without cfg U) fun i args => (body i args).without cfg U
  | .tryCatch specs block body => .tryCatch specs (block.without cfg U) fun i args => (body i args).without cfg U
  | .captureAll block => .captureAll (block.without cfg U)
  | .captureAllVoid block => .captureAllVoid (block.without cfg U)
  | .excToResult tys block => .excToResult tys (block.without cfg U)
  | .cppCatch block h => .cppCatch (block.without cfg U) fun e => (h e).without cfg U
  | .cppRethrow block h => .cppRethrow (block.without cfg U) fun e => (h e).without cfg U
  | .unload r => .unload r
  | .value r tag => .value r tag

/-- No handler of the list takes an object of a type in `U`, and the scope does not capture. -/
def NotTaken (cfg : Cfg) (U : Ty → Bool) (specs : List (List Arg)) : Prop :=
  ∀ args ∈ specs, ∀ a ∈ args, ∀ t ∈ a.contextTypes cfg, ∃ ty, t = .obj ty ∧ U ty = false

/-- No handler in the program takes an object of a type in `U`, and nothing captures. -/
def Prog.Ignores (cfg : Cfg) (U : Ty → Bool) : Prog → Prop
  | .ret _ => True
  | .newError _ k => ∀ id, (k id).Ignores cfg U
  | .load _ _ k => k.Ignores cfg U
  | .importCode _ _ k => ∀ id, (k id).Ignores cfg U
  | .currentError k => ∀ id, (k id).Ignores cfg U
  | .bind p k ke => p.Ignores cfg U ∧ (∀ v, (k v).Ignores cfg U) ∧ ∀ r, (ke r).Ignores cfg U
  | .onError _ body => body.Ignores cfg U
  | .monNew k => ∀ id, (k id).Ignores cfg U
  | .monCheck _ k => ∀ id, (k id).Ignores cfg U
  | .monAssigned _ k => ∀ id, (k id).Ignores cfg U
  | .handleAll specs block body | .handleSome specs block body | .tryCatch specs block body =>
      NotTaken cfg U specs ∧ block.Ignores cfg U ∧ ∀ i args, (body i args).Ignores cfg U
  | .captureAll _ => False
  | .captureAllVoid _ => False
  | .excToResult _ block => block.Ignores cfg U
  | .cppCatch block h => block.Ignores cfg U ∧ ∀ e, (h e).Ignores cfg U
  | .cppRethrow block h => block.Ignores cfg U ∧ ∀ e, (h e).Ignores cfg U
  | .unload _ => True
  | .value _ _ => True

/-- The record of what happened, without the mere reporting of objects of types in `U`. -/
def withoutOffers (U : Ty → Bool) (t : List Event) : List Event := t.filter fun | .offered _ ty _ => !U ty | _ => true

/-- The function passed as this item, if it is a function, is among `P`. -/
def Item.Tags (P : Nat → Prop) : Item → Prop
  | .obj _ _ => True
  | .deferred _ tag _ => P tag
  | .accum _ tag _ => P tag

/-- The same for an item passed to `on_error`. -/
def OnItem.Tags (P : Nat → Prop) : OnItem → Prop
  | .item i => i.Tags P
  | .action tag => P tag

/-- The functions passed to `new_error`, `load` and `on_error` anywhere in the program are among `P`. -/
def Prog.Tags (P : Nat → Prop) : Prog → Prop
  | .ret _ => True
  | .newError items k => (∀ i ∈ items, i.Tags P) ∧ ∀ id, (k id).Tags P
  | .load _ items k => (∀ i ∈ items, i.Tags P) ∧ k.Tags P
  | .importCode _ _ k => ∀ id, (k id).Tags P
  | .currentError k => ∀ id, (k id).Tags P
  | .bind p k ke => p.Tags P ∧ (∀ v, (k v).Tags P) ∧ ∀ r, (ke r).Tags P
  | .onError items body => (∀ i ∈ items, i.Tags P) ∧ body.Tags P
  | .monNew k => ∀ id, (k id).Tags P
  | .monCheck _ k => ∀ id, (k id).Tags P
  | .monAssigned _ k => ∀ id, (k id).Tags P
  | .handleAll _ block body | .handleSome _ block body | .tryCatch _ block body => block.Tags P ∧ ∀ i args, (body i args).Tags P
  | .captureAll block => block.Tags P
  | .captureAllVoid block => block.Tags P
  | .excToResult _ block => block.Tags P
  | .cppCatch block h => block.Tags P ∧ ∀ e, (h e).Tags P
  | .cppRethrow block h => block.Tags P ∧ ∀ e, (h e).Tags P
  | .unload _ => True
  | .value _ _ => True

end Leaf
