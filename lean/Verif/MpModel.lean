import Verif.PropHandlers

/-!
# The compile-time list functions

detail/mp11.hpp, and what `context.hpp` and `handle_errors.hpp` compute with them. A template applied to types is a function; types are elements of any type `α` with
decidable equality, lists of types (`mp_list<...>`, `std::tuple<...>`) are lists. Outcome `none`: the template cannot be instantiated (the program does not compile).
Recursion follows the partial specialisations. Not modelled: limits of compilers on the depth of templates.
-/

namespace Leaf.Mp

variable {α : Type} [DecidableEq α]

/-- `mp_if`, mp11.hpp:33-52. -/
def mpIf {β : Type} (c : Bool) (t e : β) : β :=
  match c with
  | true => t
  | false => e

/-- `mp_set_contains<L<T...>, V>`, mp11.hpp:73-85: `is_base_of<mp_identity<V>, mp_inherit<mp_identity<T>...>>`. A class must not have the same direct base class twice, so this cannot
be instantiated if a type occurs twice in the list. -/
def setContains (s : List α) (v : α) : Option Bool := if s.Nodup then some (decide (v ∈ s)) else none

/-- `mp_set_push_back<L<U...>, T...>`, mp11.hpp:88-106. -/
def setPushBack : List α → List α → Option (List α)
  | u, [] => some u
  | u, t1 :: t => do
    let c ← setContains u t1
    setPushBack (mpIf c u (u ++ [t1])) t

/-- `mp_unique<L<T...>>`, mp11.hpp:109-121. -/
def unique (l : List α) : Option (List α) := setPushBack [] l

omit [DecidableEq α] in
/-- `mp_append<L...>`, mp11.hpp:125-147: none, one, or at least two lists. -/
def append : List (List α) → List α
  | [] => []
  | [l] => l
  | l1 :: l2 :: lr => append ((l1 ++ l2) :: lr)
termination_by ls => ls.length

omit [DecidableEq α] in
/-- `mp_first`, `mp_front`, mp11.hpp:150-166, 188. -/
def first : List α → Option α
  | [] => none
  | t :: _ => some t

omit [DecidableEq α] in
/-- `mp_rest`, `mp_pop_front`, mp11.hpp:169-185, 191. -/
def rest : List α → Option (List α)
  | [] => none
  | _ :: ts => some ts

omit [DecidableEq α] in
/-- `mp_remove_if<L<T...>, P>`, mp11.hpp:194-207. -/
def removeIf (l : List α) (p : α → Bool) : List α := append ([] :: l.map fun u => mpIf (p u) [] [u])

/-- `append_integer_sequence`, mp11.hpp:238-244. -/
def appendSeq (i j : List Nat) : List Nat := i ++ j.map (· + i.length)

/-- `make_integer_sequence<size_t, N>`, mp11.hpp:246-280. -/
def makeSeq (n : Nat) : List Nat :=
  if h0 : n = 0 then []
  else if h1 : n = 1 then [0]
  else
    have : n / 2 < n := by omega
    have : n % 2 < n := by omega
    let s1 := makeSeq (n / 2)
    appendSeq (appendSeq s1 s1) (makeSeq (n % 2))

/-- `type_index<T, List...>`, handle_errors.hpp:124-138; `tuple_type_index`, 140-147. -/
def typeIndex (t : α) : List α → Option Nat
  | [] => none
  | car :: cdr => if car = t then some 0 else (typeIndex t cdr).map (1 + ·)

/-- `deduce_e_type_list<L<T...>>`, context.hpp:242-252. -/
def deduceTypes (cfg : Cfg) (args : List Arg) : Option (List CellTy) := do
  let u ← unique (append (args.map (Arg.contextTypes cfg)))
  return removeIf u (CellTy.excluded cfg)

mutual
/-- `fn_mp_args_fwd<H>::type`, context.hpp:419-435. -/
def fwd : HTree → List Arg
  | .fn _ args => args
  | .tup ts => append (fwdAll ts)
def fwdAll : List HTree → List (List Arg)
  | [] => []
  | t :: ts => fwd t :: fwdAll ts
end

/-- `context_type_from_handlers<H...>`, context.hpp:437-445. -/
def fromHandlers (cfg : Cfg) (ts : List HTree) : Option (List CellTy) := deduceTypes cfg (append (fwdAll ts))

/-- `get_dispatch<slot<E>>::get`, context.hpp:141-152: the element if it is a `slot<E>`, null otherwise (the overload for `void const *`). -/
def dispatch (ty : Ty) : CtxCell → Option Cell
  | .obj ty' c => if ty' = ty then some c else none
  | .da _ _ => none

/-- `find_in_tuple<slot<E>, I>`, context.hpp:154-173: the overloads for the empty tuple, for the last element and for the elements before. -/
def findInTuple (ty : Ty) (t : List CtxCell) (i : Nat) : Option Cell :=
  if t = [] then none
  else if i = t.length - 1 then (t[i]?).bind (dispatch ty)
  else if _ : i < t.length - 1 then
    match (t[i]?).bind (dispatch ty) with
    | some c => some c
    | none => findInTuple ty t (i + 1)
  else none
termination_by t.length - i

/-- `std::get<tuple_type_index<slot<E>, SlotsTuple>::value>(tup)`, handle_errors.hpp:243-260. -/
def getSlot (ty : Ty) (t : List CtxCell) : Option Cell := do
  let i ← typeIndex (.obj ty) (t.map CtxCell.cellTy)
  match ← t[i]? with
  | .obj _ c => some c
  | .da _ _ => none

end Leaf.Mp
