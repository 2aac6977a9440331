import Verif.ResultModel

/-!
# Initialization of `result<T>`

Which constructor of `result<T>` is chosen for an argument, and values whose constructors throw.

The constructors that take one argument (result.hpp:359-442) are candidates with the parameter types they are declared with. The choice among them follows the rules of C++ ([over.match.best],
[over.ics.rank]) for copy-initialization (`return x;`, `result<T> r = x;`), where user-defined conversions of the argument are not considered for the parameter of a constructor. In direct initialization
(`result<T> r(x);`) they are; this adds only candidates worse than those considered here. `T` is an object type, and none of the library's types or `std::error_code`.
-/

namespace Leaf

/-- The type of the argument of a constructor of `result<T>`. -/
inductive InitKind
  /-- `T` -/
  | val
  /-- a class derived from `T` -/
  | derived
  /-- `error_id` -/
  | errId
  /-- `std::error_code` -/
  | code
  /-- a type for which `std::is_error_code_enum` holds -/
  | enum
  /-- `result<T>` -/
  | same
  /-- another `result<U>` -/
  | res
  /-- something else -/
  | other
  deriving DecidableEq, Repr

/-- The argument of a constructor of `result<T>`: its type, whether it is an lvalue, and `const`. -/
structure InitArg where
  kind : InitKind
  lvalue : Bool
  const : Bool
  deriving DecidableEq, Repr

/-- What is known about `T`, given the argument. -/
structure InitFacts where
  /-- `is_constructible<T, A> && is_convertible<A, T>`, where the argument is of type `A &&` -/
  takes : Bool
  /-- `is_convertible<U, T>`, where the argument is a `result<U>` -/
  conv : Bool
  deriving DecidableEq, Repr

/-- The constructors of `result<T>` with one argument. -/
inductive InitCtor
  /-- `result( result && x ) noexcept`, result.hpp:359-362 -/
  | move
  /-- `template <class U> result( result<U> && x ) noexcept`, result.hpp:364-368 -/
  | moveU
  /-- `result( value_no_ref && v ) noexcept`, result.hpp:376-380 -/
  | valRv
  /-- `result( value_no_ref const & v )`, result.hpp:382-386 -/
  | valCref
  /-- `result( error_id err ) noexcept`, result.hpp:395-398 -/
  | errId
  /-- `template <class A> result( A && a ) noexcept`, result.hpp:408-413, or `template <class A> result( A && a, decltype(init_T_with_A(std::forward<A>(a))) * = nullptr )`, 418-427 -/
  | tmpl
  /-- `result( std::error_code const & ec ) noexcept`, result.hpp:432-435 -/
  | code
  /-- `template <class Enum> result( Enum e ) noexcept`, result.hpp:437-441 -/
  | enum
  deriving DecidableEq, Repr

/-- In the order of declaration. -/
def InitCtor.all : List InitCtor := [.move, .moveU, .valRv, .valCref, .errId, .tmpl, .code, .enum]

def InitCtor.template : InitCtor → Bool
  | .moveU | .tmpl | .enum => true
  | _ => false

/-- Whether the constructor is `noexcept`. `strict`: `BOOST_STRICT_CONFIG` is defined or the compiler is not clang (result.hpp:400). -/
def InitCtor.noexcept (strict : Bool) : InitCtor → Bool
  | .valCref => false
  | .tmpl => strict
  | _ => true

/-- How the argument is converted to the parameter: a derived class to its base or not at all; what kind of reference is bound, if any. -/
structure InitConv where
  base : Bool
  /-- whether it is an rvalue reference, whether it refers to `const` -/
  ref : Option (Bool × Bool)
  deriving DecidableEq, Repr

/-- A parameter `X &&` binds to rvalues that are not `const`. -/
def InitArg.rv (x : InitArg) : Bool := !x.lvalue && !x.const

/-- The candidates, and how the argument is converted for them. -/
def InitCtor.viable (strict : Bool) (f : InitFacts) (x : InitArg) : InitCtor → Option InitConv
  | .move => if x.kind = .same ∧ x.rv then some ⟨false, some (true, false)⟩ else none
  | .moveU => if (x.kind = .same ∨ (x.kind = .res ∧ f.conv = true)) ∧ x.rv then some ⟨false, some (true, false)⟩ else none
  | .valRv => if (x.kind = .val ∨ x.kind = .derived) ∧ x.rv then some ⟨x.kind = .derived, some (true, false)⟩ else none
  | .valCref => if x.kind = .val ∨ x.kind = .derived then some ⟨x.kind = .derived, some (false, true)⟩ else none
  | .errId => if x.kind = .errId then some ⟨false, none⟩ else none
  -- `init_T_with_A(T &&)` does not bind to lvalues of type `T` or derived from `T`, nor to such rvalues that are `const`
  | .tmpl =>
    if f.takes = true ∧ (strict = true ∨ x.rv ∨ (x.kind ≠ .val ∧ x.kind ≠ .derived)) then some ⟨false, some (!x.lvalue, x.const)⟩ else none
  | .code => if x.kind = .code then some ⟨false, some (false, true)⟩ else none
  | .enum => if x.kind = .enum then some ⟨false, none⟩ else none

/-- A better conversion: none rather than derived to base; then, if both bind references, an rvalue reference rather than an lvalue reference (to an rvalue), and the one less `const`. -/
def InitConv.better (i j : InitConv) : Bool :=
  if i.base ≠ j.base then !i.base
  else match i.ref, j.ref with
    | some (r, c), some (r', c') => if r ≠ r' then r else !c && c'
    | _, _ => false

/-- A better candidate: with a better conversion; else one that is not a template; else the more specialized template (`result<U> &&` rather than `A &&`; `Enum` and `A &&` are not ordered). -/
def InitCtor.better (c d : InitCtor) (i j : InitConv) : Bool :=
  i.better j || (!j.better i && ((!c.template && d.template) || (c == .moveU && d == .tmpl)))

/-- The constructor that is chosen, if there is one that is better than all others. -/
def chooseInit (strict : Bool) (f : InitFacts) (x : InitArg) : Option InitCtor :=
  InitCtor.all.find? fun c =>
    match c.viable strict f x with
    | none => false
    | some i => InitCtor.all.all fun d =>
      match d.viable strict f x with
      | none => true
      | some j => c == d || c.better d i j

/-! ## Constructors that throw -/

/-- How the value of a new `result<T>` is constructed. -/
inductive ValCtor
  /-- `result()`, result.hpp:370-374 -/
  | dflt
  /-- `template <class... A> result( A && ... a ) noexcept`, at least two arguments, result.hpp:388-393 -/
  | args
  /-- from one argument -/
  | one (f : InitFacts) (x : InitArg)
  deriving DecidableEq, Repr

/-- Whether the constructor used is `noexcept`; `none`: there is none, or it does not construct a value. -/
def ValCtor.noexcept (strict : Bool) : ValCtor → Option Bool
  | .dflt => some false
  | .args => some true
  | .one f x =>
    match chooseInit strict f x with
    | some .valRv => some (InitCtor.valRv.noexcept strict)
    | some .valCref => some (InitCtor.valCref.noexcept strict)
    | some .tmpl => some (InitCtor.tmpl.noexcept strict)
    | _ => none

/-- What users do with results; `throws`: a constructor of `T`, if called, throws. -/
inductive ROpX
  /-- a `result<T>` in value state is constructed at `a` -/
  | value (a : Nat) (c : ValCtor) (v : Nat) (throws : Bool)
  /-- any other operation -/
  | op (o : ROp) (throws : Bool)

/-- The operations with constructors that throw. `some none`: the program is terminated; `some (some (false, p))`: an exception is thrown. -/
def RPool.stepX (mv : Nat → Nat) (strict : Bool) (p : RPool) : ROpX → Option (Option (Bool × RPool))
  | .value a c v throws => do
    let ne ← c.noexcept strict
    let p ← p.alloc a
    -- the constructor of `stored_` throws before anything is alive: the storage is given back
    if throws then return (if ne then none else some (false, p.put a none))
    else return some (true, p.construct a (.stored · v) whatVal)
  | .op o throws =>
    match o with
    -- `move_from` is `noexcept`, result.hpp:260-281
    | .moveCtor a b conv => do
      let x ← p.objs b
      if throws ∧ kind x.what = 3#32 then (p.alloc a).map fun _ => none
      else (p.step mv (.moveCtor a b conv)).map fun p => some (true, p)
    | .moveAssign a b conv => do
      let x ← p.objs b
      if throws ∧ kind x.what = 3#32 then (p.destroy a).map fun _ => none
      else (p.step mv (.moveAssign a b conv)).map fun p => some (true, p)
    -- the constructor of the caller's object throws
    | .take a => (p.step mv (.take a)).map fun p => some (!throws, p)
    | o => (p.step mv o).map fun p => some (true, p)

/-- A sequence of operations; exceptions are caught by the user. The results are whether each operation completed. -/
def RPool.runX (mv : Nat → Nat) (strict : Bool) (p : RPool) : List ROpX → Option (Option (List Bool × RPool))
  | [] => some (some ([], p))
  | o :: os => do
    match ← p.stepX mv strict o with
    | none => return none
    | some (b, p) =>
      match ← p.runX mv strict os with
      | none => return none
      | some (bs, p) => return some (b :: bs, p)

end Leaf
