import Verif.CostProg
import Verif.PropLoad

/-!
# C73: error objects are handled in constant time, whatever the depth of the call stack
-/

namespace Leaf

open Cost (Within Cheap Light)

/-! ## Statements -/

/-- An access to the pointer to, or to a slot of, type `ty`. -/
def Access.isOf (ty : Ty) : Access → Bool
  | .tls t => t = ty
  | .slot t => t = ty
  | _ => false

/-- What lies between the place where an error occurs and the place where it is handled. -/
inductive CostLayer
  /-- a function that returns what it got (`BOOST_LEAF_CHECK`, `BOOST_LEAF_AUTO`, or nothing, if an exception passes through it), result.hpp, error.hpp:51-77 -/
  | call
  /-- `try_handle_some` -/
  | some_ (specs : List (List Arg)) (body : Nat → List ArgVal → Prog)
  /-- `try_catch` -/
  | catch_ (specs : List (List Arg)) (body : Nat → List ArgVal → Prog)
  /-- a function with an `on_error` in it -/
  | guard (items : List OnItem)

def CostLayer.wrap : CostLayer → Prog → Prog
  | .call, p => .bind p (fun v => .ret (.val v)) (fun r => .ret (.err r))
  | .some_ specs body, p => .handleSome specs p body
  | .catch_ specs body, p => .tryCatch specs p body
  | .guard items, p => .onError items p

def wrapLayers (layers : List CostLayer) (p : Prog) : Prog := layers.foldr CostLayer.wrap p

/-- A layer with no mention of type `ty`: no handler (in it, or in a scope of one of its handlers) takes an object of this type, nothing in it provides one; nor does any handler take
`diagnostic_details`. -/
def CostLayer.Without (cfg : Cfg) (ty : Ty) : CostLayer → Prop
  | .call => True
  | .some_ specs body => .obj ty ∉ deduce cfg specs ∧ .da ∉ deduce cfg specs ∧ ∀ i args, Within cfg true (Access.isOf ty) (body i args) 0
  | .catch_ specs body => .obj ty ∉ deduce cfg specs ∧ .da ∉ deduce cfg specs ∧ ∀ i args, Within cfg true (Access.isOf ty) (body i args) 0
  | .guard items => ∀ i, .item i ∈ items → Cost.itemTy i ≠ ty ∧ Cheap cfg true i

/-! ## The weights of the two ways to count -/

section
variable (ty : Ty)

theorem wTy_isOf (t : Ty) : wTy (Access.isOf ty) t = if t = ty then 1 else 0 := by simp [wTy, Access.isOf]
theorem wDa_isOf : wDa (Access.isOf ty) = 0 := by simp [wDa, Access.isOf]
theorem wId_isOf : wId (Access.isOf ty) = 0 := by simp [wId, Access.isOf]
theorem loadCost_isOf (t : Ty) : Cost.loadCost (Access.isOf ty) t = if t = ty then 5 else 0 := by
  simp only [Cost.loadCost, wTy_isOf, wDa_isOf]; split <;> rfl

theorem loadCost_all (t : Ty) : Cost.loadCost (fun _ => true) t = 13 := rfl

theorem itemsCost_all (items : List Item) : Cost.itemsCost (fun _ => true) items = 13 * items.length := by
  induction items with
  | nil => rfl
  | cons i is ih => simp only [Cost.itemsCost, List.map_cons, List.sum_cons, loadCost_all] at *; simp only [List.length_cons]; omega

theorem itemsCost_isOf (items : List Item) : Cost.itemsCost (Access.isOf ty) items = 5 * items.countP (fun i => Cost.itemTy i = ty) := by
  induction items with
  | nil => rfl
  | cons i is ih =>
    simp only [Cost.itemsCost, List.map_cons, List.sum_cons, loadCost_isOf, List.countP_cons, decide_eq_true_eq] at *
    split <;> omega

theorem onItemsCost_isOf {items : List OnItem} (h : ∀ i, .item i ∈ items → Cost.itemTy i ≠ ty) : Cost.onItemsCost (Access.isOf ty) items = 0 := by
  induction items with
  | nil => rfl
  | cons i is ih =>
    have ih := ih fun j hj => h j (List.mem_cons_of_mem _ hj)
    cases i with
    | action tag => simp only [Cost.onItemsCost, List.map_cons, List.sum_cons] at *; omega
    | item i =>
      have := h i (List.mem_cons_self ..)
      simp only [Cost.onItemsCost, List.map_cons, List.sum_cons, loadCost_isOf, if_neg this] at *; omega

theorem scopeCost_isOf {spec : List CellTy} (h : .obj ty ∉ spec) : Cost.scopeCost (Access.isOf ty) spec = 0 := by
  have hs : Cost.slots (Access.isOf ty) spec = 0 ∧ Cost.passCost (Access.isOf ty) spec = 0 := by
    induction spec with
    | nil => exact ⟨rfl, rfl⟩
    | cons c cs ih =>
      have ih := ih fun hc => h (List.mem_cons_of_mem _ hc)
      cases c with
      | da => simpa [Cost.slots, Cost.passCost] using ih
      | obj t =>
        have ht : t ≠ ty := fun he => h (by simp [he])
        simp only [Cost.slots, Cost.passCost, List.map_cons, List.sum_cons, wTy_isOf, loadCost_isOf, if_neg ht] at *
        omega
  simp [Cost.scopeCost, hs, wId_isOf]

theorem scopeCost_one {spec : List CellTy} (hn : spec.Nodup) : Cost.scopeCost (Access.isOf ty) spec ≤ 18 := by
  have hs : Cost.slots (Access.isOf ty) spec ≤ 1 ∧ Cost.passCost (Access.isOf ty) spec = 5 * Cost.slots (Access.isOf ty) spec := by
    induction spec with
    | nil => exact ⟨Nat.zero_le _, rfl⟩
    | cons c cs ih =>
      have ih := ih (List.nodup_cons.mp hn).2
      cases c with
      | da => simpa [Cost.slots, Cost.passCost] using ih
      | obj t =>
        by_cases ht : t = ty
        · subst ht
          have h0 : Cost.scopeCost (Access.isOf t) cs = 0 := scopeCost_isOf t (List.nodup_cons.mp hn).1
          simp only [Cost.scopeCost] at h0
          simp only [Cost.slots, Cost.passCost, List.map_cons, List.sum_cons, wTy_isOf, loadCost_isOf, if_true] at *
          omega
        · simp only [Cost.slots, Cost.passCost, List.map_cons, List.sum_cons, wTy_isOf, loadCost_isOf, if_neg ht] at *
          omega
  simp only [Cost.scopeCost, wId_isOf]
  omega

theorem scopeCost_all {spec : List CellTy} : Cost.scopeCost (fun _ => true) spec ≤ 34 * spec.length + 4 := by
  have hs : Cost.slots (fun _ => true) spec ≤ spec.length ∧ Cost.passCost (fun _ => true) spec ≤ 13 * spec.length := by
    induction spec with
    | nil => exact ⟨Nat.le_refl _, Nat.le_refl _⟩
    | cons c cs ih =>
      have h1 : ∀ t, wTy (fun _ => true) t = 1 := fun _ => rfl
      cases c <;> simp only [Cost.slots, Cost.passCost, List.map_cons, List.sum_cons, loadCost_all, h1, List.length_cons] at * <;> omega
  have : wId (fun _ => true) = 1 := rfl
  simp only [Cost.scopeCost]
  omega

theorem within_wrapLayers {cfg : Cfg} {layers : List CostLayer} (hl : ∀ y ∈ layers, y.Without cfg ty) {p : Prog} {n : Nat} (hp : Within cfg true (Access.isOf ty) p n) :
    Within cfg true (Access.isOf ty) (wrapLayers layers p) n := by
  induction layers with
  | nil => exact hp
  | cons y ys ih =>
    have ih := ih fun z hz => hl z (List.mem_cons_of_mem _ hz)
    have hy := hl y (List.mem_cons_self ..)
    change Within _ _ _ (y.wrap (wrapLayers ys p)) n
    cases y with
    | call => exact .le (.bind ih (fun v => .ret trivial) fun r hr => .ret hr) (by omega)
    | some_ specs body => exact .le (.handleSome hy.2.1 ih hy.2.2) (by rw [scopeCost_isOf ty hy.1]; omega)
    | catch_ specs body => exact .le (.tryCatch hy.2.1 ih hy.2.2) (by rw [scopeCost_isOf ty hy.1]; omega)
    | guard items => exact .le (.onError (fun i hi => (hy i hi).2) ih) (by rw [onItemsCost_isOf ty fun i hi => (hy i hi).1, wId_isOf]; omega)

end

/-! ## C73 -/

/-- The accesses recorded are those of runs of the program: leaving them out gives its outcome and its final state. -/
theorem C73_same (cfg : Cfg) (p : Prog) (w : World PtrStore) : (evalA cfg p w).map (fun r => (r.1, r.2.1)) = (eval cfg p : Comp PtrStore Out) w := evalA_val cfg p w

/-- Every program in the table makes no more accesses than the table says, however many scopes are active. -/
theorem C73_program {cfg : Cfg} {da : Bool} {q : Access → Bool} {p : Prog} {n : Nat} (hp : Within cfg da q p n) {w : World PtrStore} (hw : ThreadOk w) (hda : da = false → NoCapturingScope w)
    {o : Out} {w' : World PtrStore} {l : List Access} (h : evalA cfg p w = some (o, w', l)) : l.countP q ≤ n :=
  (Cost.C.eval hp _ w o w' l (Cost.st_of hw hda) h).1

/-- `new_error` with any number of objects makes at most 2 accesses, and 13 per object; at most 5 per object of a type to the storage of this type. -/
theorem C73_new_error {cfg : Cfg} {items : List Item} (hi : ∀ i ∈ items, Cheap cfg true i) {w : World PtrStore} (hw : ThreadOk w) {o : Out} {w' : World PtrStore} {l : List Access}
    (h : evalA cfg (.newError items fun id => .ret (.err (.plain id))) w = some (o, w', l)) :
    l.length ≤ 2 + 13 * items.length ∧ ∀ ty, l.countP (Access.isOf ty) ≤ 5 * items.countP fun i => Cost.itemTy i = ty := by
  have hq : ∀ q, Within cfg true q (.newError items fun id => .ret (.err (.plain id))) (2 * wId q + Cost.itemsCost q items) := fun q => .newError (n := 0) hi fun id => .ret (o := .err (.plain id)) trivial
  constructor
  · have := C73_program (hq fun _ => true) hw (by simp) h
    rw [itemsCost_all] at this
    have hl : l.countP (fun _ => true) = l.length := by simp
    have : wId (fun _ => true) = 1 := rfl
    omega
  · intro ty
    have := C73_program (hq (Access.isOf ty)) hw (by simp) h
    rw [itemsCost_isOf, wId_isOf] at this
    omega

/-- The same for `error_id::load`. -/
theorem C73_load {cfg : Cfg} {id : Id} {items : List Item} (hi : ∀ i ∈ items, Cheap cfg true i) {w : World PtrStore} (hw : ThreadOk w) {o : Out} {w' : World PtrStore} {l : List Access}
    (h : evalA cfg (.load id items (.ret (.err (.plain id)))) w = some (o, w', l)) : l.length ≤ 13 * items.length := by
  have hp : Within cfg true (fun _ => true) (.load id items (.ret (.err (.plain id)))) (Cost.itemsCost (fun _ => true) items) := .load (n := 0) hi (.ret (o := .err (.plain id)) trivial)
  have := C73_program hp hw (by simp) h
  rw [itemsCost_all] at this
  simpa [List.countP_true] using this

/-- A scope makes at most 4 accesses, and 34 per slot it has, besides those made by the block and by the handler. -/
theorem C73_scope {cfg : Cfg} {specs : List (List Arg)} {p : Prog} {body : Nat → List ArgVal → Prog} {n1 n2 : Nat} (hd : .da ∉ deduce cfg specs)
    (hp : Within cfg true (fun _ => true) p n1) (hb : ∀ i args, Within cfg true (fun _ => true) (body i args) n2) {w : World PtrStore} (hw : ThreadOk w) {o : Out} {w' : World PtrStore}
    {l : List Access}
    (h : evalA cfg (.handleSome specs p body) w = some (o, w', l) ∨ evalA cfg (.handleAll specs p body) w = some (o, w', l) ∨ evalA cfg (.tryCatch specs p body) w = some (o, w', l)) :
    l.length ≤ n1 + n2 + 34 * (deduce cfg specs).length + 4 := by
  have hs := scopeCost_all (spec := deduce cfg specs)
  have hl : l.countP (fun _ => true) = l.length := by simp
  rcases h with h | h | h
  · have := C73_program (.handleSome hd hp hb) hw (by simp) h
    omega
  · have := C73_program (.handleAll hd hp hb) hw (by simp) h
    omega
  · have := C73_program (.tryCatch hd hp hb) hw (by simp) h
    omega

/-- Layers between the place where an error occurs and the place where it is handled, any number of them, that do not mention a type, do not cost any access to its storage. -/
theorem C73_layers {cfg : Cfg} {ty : Ty} {layers : List CostLayer} (hl : ∀ y ∈ layers, y.Without cfg ty) {p : Prog} {n : Nat} (hp : Within cfg true (Access.isOf ty) p n) {w : World PtrStore}
    (hw : ThreadOk w) {o : Out} {w' : World PtrStore} {l : List Access} (h : evalA cfg (wrapLayers layers p) w = some (o, w', l)) : l.countP (Access.isOf ty) ≤ n :=
  C73_program (within_wrapLayers ty hl hp) hw (by simp) h

/-- An object of type `ty` loaded below any number of such layers, and handled above them: 23 accesses to storage of this type, besides those the handler makes. -/
theorem C73_constant {cfg : Cfg} {ty : Ty} {layers : List CostLayer} (hl : ∀ y ∈ layers, y.Without cfg ty) {v : Val} {specs : List (List Arg)} {body : Nat → List ArgVal → Prog} {n : Nat}
    (hd : .da ∉ deduce cfg specs) (hb : ∀ i args, Within cfg true (Access.isOf ty) (body i args) n) {w : World PtrStore} (hw : ThreadOk w) {o : Out} {w' : World PtrStore} {l : List Access}
    (h : evalA cfg (.handleAll specs (wrapLayers layers (.newError [.obj ty v] fun id => .ret (.err (.plain id)))) body) w = some (o, w', l)) :
    l.countP (Access.isOf ty) ≤ 23 + n := by
  have hp : Within cfg true (Access.isOf ty) (.newError [.obj ty v] fun id => .ret (.err (.plain id))) 5 :=
    .le (.newError (by simp [Cheap]) fun id => .ret trivial) (by rw [itemsCost_isOf, wId_isOf]; simp [Cost.itemTy])
  have := C73_program (.handleAll hd (within_wrapLayers ty hl hp) hb) hw (by simp) h
  have hs := scopeCost_one ty (deduce_nodup cfg specs)
  omega

/-- A failed result, or an exception, returned through any number of functions costs no access at all. -/
theorem C73_calls {cfg : Cfg} {q : Access → Bool} (d : Nat) {p : Prog} {n : Nat} (hp : Within cfg true q p n) {w : World PtrStore} (hw : ThreadOk w) {o : Out} {w' : World PtrStore}
    {l : List Access} (h : evalA cfg (wrapLayers (List.replicate d .call) p) w = some (o, w', l)) : l.countP q ≤ n := by
  refine C73_program (da := true) ?_ hw (by simp) h
  clear h
  induction d with
  | zero => exact hp
  | succ d ih => exact .le (.bind ih (fun v => .ret trivial) fun r hr => .ret hr) (by omega)

/-- With scopes that do have a slot of the type, the accesses to its storage grow with their number: entering each of them makes 3. -/
theorem C73_nested {cfg : Cfg} {ty : Ty} {specs : List (List Arg)} (hs : .obj ty ∈ deduce cfg specs) (body : Nat → List ArgVal → Prog) (d : Nat) (p : Prog) {w : World PtrStore} {o : Out}
    {w' : World PtrStore} {l : List Access} (h : evalA cfg (wrapLayers (List.replicate d (.some_ specs body)) p) w = some (o, w', l)) : 3 * d ≤ l.countP (Access.isOf ty) := by
  have hm : Cost.CMin (Access.isOf ty) cfg (Small.eval cfg (wrapLayers (List.replicate d (.some_ specs body)) p)) (3 * d) := by
    clear h
    induction d with
    | zero => exact .zero _
    | succ d ih =>
      have := Cost.CMin.handleSome (q := Access.isOf ty) (by simp [Access.isOf]) (by simp [Access.isOf]) hs ih (body := body)
      rw [show 3 * (d + 1) = 3 + 3 * d by omega]
      exact this
  exact hm w o w' l h

/-! ## Examples -/

/-- An object of type 10 handled above `d` scopes with handlers for type 11 and `d` functions. -/
def exDeep (d : Nat) : Prog :=
  .handleAll [[.req 10], []] (wrapLayers (List.replicate d (.some_ [[.req 11]] fun _ _ => .ret (.val 0)) ++ List.replicate d .call) (.newError [.obj 10 4] fun id => .ret (.err (.plain id))))
    fun i _ => .ret (.val i)

example (d : Nat) : ThreadOk (initThread 1#32) ∧ .da ∉ deduce exCfg [[.req 10], []] ∧
    ∀ y ∈ List.replicate d (CostLayer.some_ [[.req 11]] fun _ _ => .ret (.val 0)) ++ List.replicate d .call, y.Without exCfg 10 := by
  refine ⟨threadOk_init (by decide), by decide +kernel, ?_⟩
  intro y hy
  rcases List.mem_append.mp hy with hy | hy
  · rw [(List.mem_replicate.mp hy).2]
    exact ⟨by decide +kernel, by decide +kernel, fun _ _ => .ret trivial⟩
  · rw [(List.mem_replicate.mp hy).2]
    trivial

/-- The object of type 10 is found and handled (by handler 0), with 13 accesses to storage of its type, at depth 0, 1 and 5; each further scope makes 8 accesses, all to storage of its own. -/
example : ([0, 1, 5].map fun d => (evalA exCfg (exDeep d) (initThread 1#32)).map fun r => (r.1, r.2.2.countP (Access.isOf 10), r.2.2.length)) =
    [some (.val 0, 13, 15), some (.val 0, 13, 23), some (.val 0, 13, 55)] := by decide +kernel

/-- `new_error` with an object that has a place and one that has none: the counter and the current id; the pointer, the slot (is it used by this error?), then the pointer, the slot, and its new
content; the pointer, and the pointer to the allocator. -/
example : (((pushCtx [.obj 10] : Comp PtrStore Unit) (initThread 1#32)).bind fun r =>
      (evalA exCfg (.newError [.obj 10 4, .obj 11 5] fun id => .ret (.err (.plain id))) r.2).map fun r => r.2.2) =
      some [.counter, .cur, .tls 10, .slot 10, .tls 10, .slot 10, .slot 10, .tls 11, .tlsDa] ∧
    ∀ i ∈ [Item.obj 10 4, .obj 11 5], Cheap exCfg true i :=
  ⟨by decide +kernel, by simp [Cheap]⟩

/-- Scopes whose handler for type 10 does not match (its predicate is false): the object is passed from scope to scope, 13 accesses each. -/
example : ([1, 2, 5].map fun d => (evalA exCfg (wrapLayers (List.replicate d (.some_ [[.pred 10 fun _ => false]] fun _ _ => .ret (.val 0))) (.newError [.obj 10 4] fun id => .ret (.err (.plain id))))
      (initThread 1#32)).map fun r => r.2.2.countP (Access.isOf 10)) = [some 14, some 27, some 66] ∧ .obj 10 ∈ deduce exCfg [[.pred 10 fun _ => false]] := by
  refine ⟨?_, by decide +kernel⟩
  decide +kernel

def exCaptured (n : Nat) (k : Prog) : Option Nat :=
  (evalA exCfg (.captureAll (.newError ((List.range (n + 1)).map fun i => Item.obj (20 + i) 4) fun _ => k)) (initThread 1#32)).map fun r => r.2.2.length

/-- Appending a captured object does not depend on how many have been captured: with 1, 2 and 6 objects captured before, one more costs 14 accesses (loading it,
and deactivating and destroying it at the end). -/
example : [0, 1, 5].map (fun n => (exCaptured n (.ret (.val 0)), exCaptured n (.load 5#32 [.obj 10 1] (.ret (.val 0))))) =
    [(some 28, some 42), (some 42, some 56), (some 98, some 112)] := by decide +kernel

end Leaf
