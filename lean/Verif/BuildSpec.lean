import Verif.BuildModel

/-!
# Comparing builds: specification

Used by `Verif/PropBuild.lean` (C51).
-/

namespace Leaf

/-! ## The builds -/

/-- The second build differs from the first one in capturing only. -/
structure Lesser (cfg cfg2 : Cfg) : Prop where
  interf : cfg2.interf = cfg.interf
  dflt : cfg2.dflt = cfg.dflt
  abs : cfg2.isAbstract = cfg.isAbstract
  capture : cfg2.capture = true → cfg.capture = true

/-- Capturing was enabled, and is no longer. -/
def lostCapture (cfg cfg2 : Cfg) : Bool := cfg.capture && !cfg2.capture

/-! ## What may differ in the record of what happened -/

/-- Without the error objects listed by `diagnostic_info` and `diagnostic_details`. -/
def ArgVal.unlisted : ArgVal → ArgVal
  | .diag id ex loc _ => .diag id ex loc []
  | .details id ex loc _ _ => .details id ex loc [] []
  | a => a

def Event.unlisted : Event → Event
  | .handled id ex i args => .handled id ex i (args.map ArgVal.unlisted)
  | e => e

/-- The same happened in the same order (newest first), except that, unless `d`, handlers were given no listings, and if `x`, the first program may have called
more functions to obtain error objects. -/
inductive SameEvents (d x : Bool) : List Event → List Event → Prop
  | nil : SameEvents d x [] []
  | same {e e' : Event} {t t' : List Event} : (d = true → e' = e) → e'.unlisted = e.unlisted → SameEvents d x t t' → SameEvents d x (e :: t) (e' :: t')
  | extra {tag : Nat} {id : Id} {ty : Ty} {v : Val} {t t' : List Event} : x = true → SameEvents d x t t' →
      SameEvents d x (.offered id ty v :: .called tag :: t) t'

/-! ## The programs -/

/-- No handler's behaviour depends on what `diagnostic_info` or `diagnostic_details` list. -/
def Prog.Blind : Prog → Prop
  | .ret _ => True
  | .newError _ k => ∀ id, (k id).Blind
  | .load _ _ k => k.Blind
  | .importCode _ _ k => ∀ id, (k id).Blind
  | .currentError k => ∀ id, (k id).Blind
  | .bind p k ke => p.Blind ∧ (∀ v, (k v).Blind) ∧ ∀ r, (ke r).Blind
  | .onError _ body => body.Blind
  | .monNew k => ∀ id, (k id).Blind
  | .monCheck _ k => ∀ id, (k id).Blind
  | .monAssigned _ k => ∀ id, (k id).Blind
  | .handleAll _ block body | .handleSome _ block body | .tryCatch _ block body => block.Blind ∧ (∀ i args, (body i args).Blind) ∧
      ∀ i args, body i args = body i (args.map ArgVal.unlisted)
  | .captureAll block => block.Blind
  | .captureAllVoid block => block.Blind
  | .excToResult _ block => block.Blind
  | .cppCatch block h => block.Blind ∧ ∀ e, (h e).Blind
  | .cppRethrow block h => block.Blind ∧ ∀ e, (h e).Blind
  | .unload _ => True
  | .value _ _ => True

end Leaf
