import Verif.CostBase

/-!
# Counting the accesses of programs
-/

namespace Leaf
namespace Cost

variable {α β : Type} {q : Access → Bool} {cfg : Cfg}

theorem runA_bind (cfg : Cfg) (x : Act α) (f : α → Act β) (w : World PtrStore) :
    (x >>= f).runA cfg w = (x.runA cfg w).bind fun r => ((f r.1).runA cfg r.2.1).map fun r' => (r'.1, r'.2.1, r.2.2 ++ r'.2.2) := by
  change (Act.bind x f).runA cfg w = _
  induction x generalizing w with
  | ret a =>
    simp only [Act.bind, Act.runA, Option.bind_some, List.nil_append]
    cases (f a).runA cfg w <;> rfl
  | ub => rfl
  | op o k ih =>
    simp only [Act.bind, Act.runA]
    cases o.execA cfg w with
    | none => rfl
    | some r =>
      obtain ⟨a, w1, l1⟩ := r
      simp only []
      rw [ih a w1]
      cases (k a).runA cfg w1 with
      | none => rfl
      | some r =>
        obtain ⟨b, w2, l2⟩ := r
        simp only [Option.bind_some]
        cases (f b).runA cfg w2 with
        | none => rfl
        | some r => simp [List.append_assoc]

/-- As `T`, for sequences of operations. -/
def C (q : Access → Bool) (cfg : Cfg) (P : PtrStore → Prop) (x : Act α) (n : Nat) (Q : α → PtrStore → Prop) : Prop :=
  ∀ w a w' l, P w.mem → x.runA cfg w = some (a, w', l) → l.countP q ≤ n ∧ Q a w'.mem

theorem C.pure {P : PtrStore → Prop} (a : α) {n : Nat} {Q : α → PtrStore → Prop} (h : ∀ m, P m → Q a m) : C q cfg P (Pure.pure a) n Q := by
  intro w b w' l hp hr
  cases hr
  exact ⟨Nat.zero_le _, h _ hp⟩

theorem C.ub {P : PtrStore → Prop} {n : Nat} {Q : α → PtrStore → Prop} : C q cfg P (Small.ub : Act α) n Q := by
  intro w b w' l hp hr
  cases hr

theorem C.bind {P : PtrStore → Prop} {x : Act α} {n1 n2 : Nat} {Q1 : α → PtrStore → Prop} {f : α → Act β} {Q2 : β → PtrStore → Prop}
    (h1 : C q cfg P x n1 Q1) (h2 : ∀ a, C q cfg (Q1 a) (f a) n2 Q2) : C q cfg P (x >>= f) (n1 + n2) Q2 := by
  intro w b w' l hp h
  rw [runA_bind] at h
  cases hx : x.runA cfg w with
  | none => rw [hx] at h; cases h
  | some r =>
    obtain ⟨a, w1, l1⟩ := r
    rw [hx] at h
    simp only [Option.bind_some] at h
    cases hf : (f a).runA cfg w1 with
    | none => rw [hf] at h; cases h
    | some r =>
      obtain ⟨b', w2, l2⟩ := r
      rw [hf] at h
      cases h
      obtain ⟨c1, q1⟩ := h1 w a w1 l1 hp hx
      obtain ⟨c2, q2⟩ := h2 a w1 b' w2 l2 q1 hf
      refine ⟨?_, q2⟩
      change List.countP q (l1 ++ l2) ≤ _
      rw [List.countP_append]
      omega

theorem C.weaken {P P' : PtrStore → Prop} {x : Act α} {n n' : Nat} {Q Q' : α → PtrStore → Prop} (h : C q cfg P x n Q) (hp : ∀ m, P' m → P m) (hn : n ≤ n')
    (hq : ∀ a m, Q a m → Q' a m) : C q cfg P' x n' Q' := by
  intro w a w' l hpm hx
  obtain ⟨c, r⟩ := h w a w' l (hp _ hpm) hx
  exact ⟨Nat.le_trans c hn, hq a _ r⟩

theorem C.le {P : PtrStore → Prop} {x : Act α} {n n' : Nat} {Q : α → PtrStore → Prop} (h : C q cfg P x n Q) (hn : n ≤ n') : C q cfg P x n' Q :=
  h.weaken (fun _ h => h) hn (fun _ _ h => h)

theorem runA_op (o : Op) (w : World PtrStore) : (Act.op o .ret).runA cfg w = (o.execA cfg w).map fun r => (r.1, r.2.1, r.2.2) := by
  simp only [Act.runA]
  cases o.execA cfg w with
  | none => rfl
  | some r => simp

theorem C.lift {P : PtrStore → Prop} {n : Nat} (o : Op) {Q : o.Res → PtrStore → Prop} {x : Traced o.Res} (h : T q P x n Q) (he : ∀ w, o.execA cfg w = x.lift w) :
    C q cfg P (.op o .ret) n Q := by
  intro w a w' l hp hr
  rw [runA_op, he] at hr
  unfold Traced.lift at hr
  cases hx : x w.mem with
  | none => rw [hx] at hr; cases hr
  | some r =>
    obtain ⟨b, m, l'⟩ := r
    rw [hx] at hr
    cases hr
    exact h _ _ _ _ hp hx

section
variable {da : Bool} {s : List (List CellTy)}

theorem C.emit (e : Event) (h : e.isGen = false) {P : PtrStore → Prop} : C q cfg P (Small.emit e h) 0 (fun _ => P) := by
  intro w a w' l hp hr; cases hr; exact ⟨Nat.le_refl _, hp⟩
theorem C.getCur {P : PtrStore → Prop} : C q cfg P Small.getCur (wId q) (fun _ => P) := by
  intro w a w' l hp hr; cases hr; exact ⟨count_cur q, hp⟩
theorem C.setCur (id : Id) {P : PtrStore → Prop} : C q cfg P (Small.setCur id) (wId q) (fun _ => P) := by
  intro w a w' l hp hr; cases hr; exact ⟨count_cur q, hp⟩
theorem C.gen {P : PtrStore → Prop} : C q cfg P (.op .gen .ret) (wId q) (fun _ => P) := by
  intro w a w' l hp hr; cases hr; exact ⟨count_counter q, hp⟩
theorem C.pushHandling (e : Exc) {P : PtrStore → Prop} : C q cfg P (Small.pushHandling e) 0 (fun _ => P) := by
  intro w a w' l hp hr; cases hr; exact ⟨Nat.le_refl _, hp⟩
theorem C.popHandling {P : PtrStore → Prop} : C q cfg P Small.popHandling 0 (fun _ => P) := by
  intro w a w' l hp hr; cases hr; exact ⟨Nat.le_refl _, hp⟩

theorem C.slotGet (ty : Ty) : C q cfg (St da s) (Small.slotGet ty) (2 * wTy q ty) (fun _ => St da s) := C.lift _ (T.slotGet ty) fun _ => rfl
theorem C.slotSet (ty : Ty) (id : Id) (v : Val) : C q cfg (St da s) (Small.slotSet ty id v) (3 * wTy q ty) (fun _ => St da s) := C.lift _ (T.slotSet ty id v) fun _ => rfl
theorem C.daKey : C q cfg (St da s) Small.daKey (2 * wDa q) (fun k m => St da s m ∧ Key k m) := C.lift _ T.daKey fun _ => rfl
theorem C.daReset (id : Id) : C q cfg (fun m => St da s m ∧ Key (some 0#32) m) (Small.daReset id) (3 * wDa q) (fun _ => St da s) := C.lift _ (T.daReset id) fun _ => rfl
theorem C.daAppend (ty : Ty) (id : Id) (v : Val) : C q cfg (St da s) (Small.daAppend ty id v) (3 * wDa q + 3 * wTy q ty) (fun _ => St da s) :=
  C.lift _ (T.daAppend ty id v) fun _ => rfl
theorem C.pushCtx {spec : List CellTy} (hd : .da ∉ spec) : C q cfg (St da s) (Small.pushCtx spec) (3 * slots q spec) (fun _ => St da (spec :: s)) :=
  C.lift _ (T.push hd) fun _ => rfl
theorem C.popCtx {spec : List CellTy} (hd : .da ∉ spec) :
    C q cfg (St da (spec :: s)) Small.popCtx (5 * slots q spec) (fun cs m => St da s m ∧ cs.map CtxCell.cellTy = spec) := C.lift _ (T.pop hd) fun _ => rfl

theorem C.assertTagged (id : Id) {P : PtrStore → Prop} : C q cfg P (Small.assertTagged id) 0 (fun _ => P) := by
  unfold Small.assertTagged
  split
  · exact C.pure _ fun _ h => h
  · exact C.ub

theorem C.newId {P : PtrStore → Prop} : C q cfg P (Small.newId cfg) (2 * wId q) (fun _ => P) := by
  unfold Small.newId
  exact (C.bind C.gen fun id => C.bind (C.setCur id) fun _ => C.pure (n := 0) id fun _ h => h).le (by omega)

theorem C.currentId {P : PtrStore → Prop} : C q cfg P Small.currentId (wId q) (fun _ => P) := by
  unfold Small.currentId
  refine (C.bind (n2 := 0) C.getCur fun id => ?_).le (by omega)
  split
  · exact C.pure _ fun _ h => h
  · exact C.ub

theorem C.currentError {P : PtrStore → Prop} : C q cfg P Small.currentError (wId q) (fun _ => P) := by
  unfold Small.currentError
  refine (C.bind (n2 := 0) C.currentId fun id => ?_).le (by omega)
  exact C.pure _ fun _ h => h

theorem C.dynamicLoad (id : Id) (ty : Ty) (v : Val) : C q cfg (St da s) (Small.dynamicLoad id ty v) (8 * wDa q + 3 * wTy q ty) (fun _ => St da s) := by
  unfold Small.dynamicLoad
  refine (C.bind (n2 := 6 * wDa q + 3 * wTy q ty) C.daKey fun k => ?_).le (by omega)
  cases k with
  | none => exact C.pure _ fun _ h => h.1
  | some k =>
    simp only []
    split
    · exact ((C.daAppend ty id v).weaken (fun _ h => h.1) (by omega) (fun _ _ h => h))
    · rename_i hk
      have hk : k = 0#32 := Classical.not_not.mp hk
      subst hk
      refine (C.bind (n2 := 3 * wDa q + 3 * wTy q ty) (C.daReset id) fun _ => ?_).le (by omega)
      exact C.daAppend ty id v

/-- What loading an object costs. -/
def loadCost (q : Access → Bool) (ty : Ty) : Nat := 5 * wTy q ty + 8 * wDa q

theorem C.slotUnload (id : Id) (ty : Ty) (c : Cell) : C q cfg (St da s) (Small.slotUnload cfg id ty c) (loadCost q ty) (fun _ => St da s) := by
  unfold Small.slotUnload loadCost
  by_cases hid : id = 0#32
  · simp only [hid, if_true]
    intro w a w' l hp hr
    cases hr
  simp only [hid, if_false]
  cases c.hasValue id with
  | none => exact C.pure _ fun _ h => h
  | some v =>
    refine (C.bind (n2 := 3 * wTy q ty + 8 * wDa q) (C.slotGet ty) fun p => ?_).le (by omega)
    cases p with
    | some p =>
      simp only []
      split
      · exact (C.slotSet ty id v).le (by omega)
      · exact C.pure _ fun _ h => h
    | none =>
      simp only []
      split
      · exact (C.dynamicLoad id ty v).le (by omega)
      · exact C.pure _ fun _ h => h

theorem C.loadSlot (b : Bool) (id : Id) (ty : Ty) (v : Val) : C q cfg (St da s) (Small.loadSlot cfg b id ty v) (loadCost q ty) (fun _ => St da s) := by
  unfold Small.loadSlot loadCost
  refine (C.bind (n2 := 5 * wTy q ty + 8 * wDa q) (C.assertTagged id) fun _ => ?_).le (by omega)
  refine (C.bind (n2 := 3 * wTy q ty + 8 * wDa q) (C.slotGet ty) fun p => ?_).le (by omega)
  cases p with
  | some p =>
    simp only []
    split
    · exact (C.slotSet ty id v).le (by omega)
    · exact C.pure _ fun _ h => h
  | none =>
    simp only []
    split
    · exact (C.dynamicLoad id ty v).le (by omega)
    · exact C.pure _ fun _ h => h

theorem C.loadSlotDeferred (b : Bool) (id : Id) (ty : Ty) (tag : Nat) (v : Val) :
    C q cfg (St da s) (Small.loadSlotDeferred cfg b id ty tag v) (loadCost q ty) (fun _ => St da s) := by
  unfold Small.loadSlotDeferred loadCost
  refine (C.bind (n2 := 5 * wTy q ty + 8 * wDa q) (C.assertTagged id) fun _ => ?_).le (by omega)
  refine (C.bind (n2 := 3 * wTy q ty + 8 * wDa q) (C.slotGet ty) fun p => ?_).le (by omega)
  cases p with
  | some p =>
    simp only []
    split
    · exact (C.bind (C.emit _ _) fun _ => C.bind (C.emit _ _) fun _ => C.slotSet ty id v).le (by omega)
    · exact C.pure _ fun _ h => h
  | none =>
    simp only []
    split
    · exact (C.bind (C.emit _ _) fun _ => C.bind (C.emit _ _) fun _ => C.dynamicLoad id ty v).le (by omega)
    · exact C.pure _ fun _ h => h

theorem C.loadSlotAccumulate (id : Id) (ty : Ty) (tag : Nat) (f : Val → Val) (ha : cfg.capture = false ∨ da = false) :
    C q cfg (St da s) (Small.loadSlotAccumulate cfg id ty tag f) (loadCost q ty) (fun _ => St da s) := by
  unfold Small.loadSlotAccumulate loadCost
  refine (C.bind (n2 := 5 * wTy q ty + 8 * wDa q) (C.assertTagged id) fun _ => ?_).le (by omega)
  refine (C.bind (n2 := 3 * wTy q ty + 8 * wDa q) (C.slotGet ty) fun p => ?_).le (by omega)
  cases p with
  | some p => exact (C.bind (C.slotSet ty id _) fun _ => C.bind (C.emit _ _) fun _ => C.emit _ _).le (by omega)
  | none =>
    simp only []
    split
    · rename_i hc
      unfold Small.dynamicAccumulate
      refine (C.bind (n2 := 0) C.daKey fun k => ?_).le (by omega)
      cases k with
      | none => exact C.pure _ fun _ h => h.1
      | some k =>
        intro w a w' l hp hr
        rcases ha with ha | ha
        · rw [ha] at hc; cases hc
        · exact absurd (hp.2.1.mpr (hp.1.none ha)) (by simp)
    · exact C.pure _ fun _ h => h

end

/-! ## Items -/

/-- An item whose loading takes constant time: any, except functions taking `E &` where their objects might be captured (error.hpp:353 destroys those captured for another error; see also `C11_refuted_accumulate`). -/
def Cheap (cfg : Cfg) (da : Bool) : Item → Prop
  | .accum _ _ _ => cfg.capture = false ∨ da = false
  | _ => True

/-- The type of the object an item loads. -/
def itemTy : Item → Ty
  | .obj ty _ => ty
  | .deferred ty _ _ => ty
  | .accum ty _ _ => ty

def itemsCost (q : Access → Bool) (items : List Item) : Nat := (items.map fun i => loadCost q (itemTy i)).sum

section
variable {da : Bool} {s : List (List CellTy)}

theorem C.loadItem (b : Bool) (id : Id) (i : Item) (hi : Cheap cfg da i) : C q cfg (St da s) (Small.loadItem cfg b id i) (loadCost q (itemTy i)) (fun _ => St da s) := by
  cases i with
  | obj ty v => exact (C.bind (C.emit _ _) fun _ => C.loadSlot b id ty v).le (by simp only [itemTy]; omega)
  | deferred ty tag v => exact C.loadSlotDeferred b id ty tag v
  | accum ty tag f => exact C.loadSlotAccumulate id ty tag f hi

theorem C.loadItems (b : Bool) (id : Id) (is : List Item) (hi : ∀ i ∈ is, Cheap cfg da i) :
    C q cfg (St da s) (Small.loadItems cfg b id is) (itemsCost q is) (fun _ => St da s) := by
  induction is with
  | nil => exact C.pure _ fun _ h => h
  | cons i is ih =>
    unfold Small.loadItems
    exact (C.bind (C.loadItem b id i (hi i (List.mem_cons_self ..))) fun _ => ih fun j hj => hi j (List.mem_cons_of_mem _ hj)).le (by simp [itemsCost])

theorem C.errorIdLoad (id : Id) (is : List Item) (hi : ∀ i ∈ is, Cheap cfg da i) : C q cfg (St da s) (Small.errorIdLoad cfg id is) (itemsCost q is) (fun _ => St da s) := by
  unfold Small.errorIdLoad
  split
  · exact C.loadItems false id is hi
  · exact C.pure _ fun _ h => h

theorem C.newError (is : List Item) (hi : ∀ i ∈ is, Cheap cfg da i) : C q cfg (St da s) (Small.newError cfg is) (2 * wId q + itemsCost q is) (fun _ => St da s) := by
  unfold Small.newError
  refine (C.bind (n2 := itemsCost q is) C.newId fun id => ?_).le (by omega)
  refine (C.bind (n2 := 0) (C.errorIdLoad _ is hi) fun _ => ?_).le (by omega)
  exact C.pure _ fun _ h => h

/-- The items among the arguments of `on_error`. -/
def onItemsCost (q : Access → Bool) (items : List OnItem) : Nat := (items.map fun | .item i => loadCost q (itemTy i) | .action _ => 0).sum

theorem C.triggerItems (id : Id) (is : List OnItem) (hi : ∀ i, .item i ∈ is → Cheap cfg da i) :
    C q cfg (St da s) (Small.triggerItems cfg id is) (onItemsCost q is) (fun _ => St da s) := by
  induction is with
  | nil => exact C.pure _ fun _ h => h
  | cons i is ih =>
    have ih := ih fun j hj => hi j (List.mem_cons_of_mem _ hj)
    cases i with
    | item i =>
      unfold Small.triggerItems
      exact (C.bind (C.loadItem true id i (hi i (List.mem_cons_self ..))) fun _ => ih).le (by simp [onItemsCost])
    | action tag =>
      unfold Small.triggerItems
      exact (C.bind (C.emit _ _) fun _ => ih).le (by simp [onItemsCost])

theorem C.importCode (ec : ErrorCode) (v : Val) : C q cfg (St da s) (Small.importCode cfg ec v) (2 * wId q + loadCost q tyErrorCode) (fun _ => St da s) := by
  unfold Small.importCode
  split
  · exact C.pure _ fun _ h => h
  · refine (C.bind (n2 := loadCost q tyErrorCode) C.newId fun id => ?_).le (by omega)
    refine (C.bind (n2 := loadCost q tyErrorCode) (C.emit _ _) fun _ => ?_).le (by omega)
    refine (C.bind (n2 := 0) (C.loadSlot false id tyErrorCode v) fun _ => ?_).le (by omega)
    exact C.pure _ fun _ h => h
  · exact C.ub

theorem C.checkId (saved : Id) (b : Bool) {P : PtrStore → Prop} : C q cfg P (Small.checkId cfg saved b) (3 * wId q) (fun _ => P) := by
  unfold Small.checkId
  refine (C.bind (n2 := 2 * wId q) C.currentId fun cur => ?_).le (by omega)
  split
  · exact C.pure _ fun _ h => h
  · split
    · exact C.newId
    · exact C.pure _ fun _ h => h

theorem C.getId (saved : Id) {P : PtrStore → Prop} : C q cfg P (Small.getId cfg saved) (3 * wId q) (fun _ => P) := by
  unfold Small.getId
  refine (C.bind (n2 := 2 * wId q) C.currentId fun cur => ?_).le (by omega)
  split
  · exact C.pure _ fun _ h => h
  · exact C.newId

/-- What passing on the objects of a scope costs. -/
def passCost (q : Access → Bool) (spec : List CellTy) : Nat := (spec.map fun | .obj ty => loadCost q ty | .da => 0).sum

theorem C.unloadCells (id : Id) (cs : List CtxCell) {spec : List CellTy} (hc : cs.map CtxCell.cellTy = spec) (hd : .da ∉ spec) :
    C q cfg (St da s) (Small.unloadCells cfg id cs) (passCost q spec) (fun _ => St da s) := by
  induction cs generalizing spec with
  | nil => exact C.pure _ fun _ h => h
  | cons c cs ih =>
    subst hc
    cases c with
    | da k ns => exact absurd (by simp [CtxCell.cellTy]) hd
    | obj ty c =>
      unfold Small.unloadCells
      refine (C.bind (ih rfl fun h => hd (by simp [h])) fun _ => C.slotUnload id ty c).le ?_
      simp only [passCost, List.map_cons, List.sum_cons, CtxCell.cellTy]
      omega

theorem C.unpackId (e : Exc) {P : PtrStore → Prop} : C q cfg P (Small.unpackId e) (wId q) (fun _ => P) := by
  unfold Small.unpackId
  split
  · split
    · exact C.pure _ fun _ h => h
    · exact C.pure _ fun _ h => h
    · refine (C.bind (n2 := 0) C.currentError fun _ => ?_).le (by omega)
      exact C.pure _ fun _ h => h
  · refine (C.bind (n2 := 0) C.currentError fun _ => ?_).le (by omega)
    exact C.pure _ fun _ h => h

theorem C.destroyExc (e : Exc) {P : PtrStore → Prop} : C q cfg P (Small.destroyExc e) (2 * wId q) (fun _ => P) := by
  unfold Small.destroyExc
  split
  · refine (C.bind (n2 := wId q) C.getCur fun cur => ?_).le (by omega)
    split
    · exact C.setCur _
    · exact C.pure _ fun _ h => h
  · exact C.pure _ fun _ h => h

theorem C.ctxLoc (id : Id) (cs : List CtxCell) {P : PtrStore → Prop} : C q cfg P (Small.ctxLoc id cs) 0 (fun _ => P) := by
  unfold Small.ctxLoc
  split
  · exact C.pure _ fun _ h => h
  · split
    · exact C.ub
    · exact C.pure _ fun _ h => h

/-- Not a failed result with captured objects in it. -/
def Light : Out → Prop
  | .err (.captured _ (_ :: _)) => False
  | _ => True

/-- What unloading a result costs, besides setting the current id. -/
def nodesCost (q : Access → Bool) (nodes : List CapNode) : Nat := (nodes.map fun | .obj ty _ => loadCost q ty | .exc _ => 0).sum

def unloadCost (q : Access → Bool) : ErrRes → Nat
  | .plain _ => 0
  | .captured _ nodes => wId q + nodesCost q nodes

theorem C.unloadNodes (id : Id) (ns : List CapNode) : C q cfg (St da s) (Small.unloadNodes cfg id ns) (nodesCost q ns) (fun _ => St da s) := by
  induction ns with
  | nil => exact C.pure _ fun _ h => h
  | cons n ns ih =>
    cases n with
    | exc e => exact C.pure _ fun _ h => h
    | obj ty c =>
      unfold Small.unloadNodes
      have h2 : C q cfg (St da s) (do Small.slotUnload cfg id ty c; Small.unloadNodes cfg id ns) (nodesCost q (.obj ty c :: ns)) (fun _ => St da s) :=
        (C.bind (C.slotUnload id ty c) fun _ => ih).le (by simp [nodesCost])
      cases c.hasValue id with
      | none => exact h2
      | some v => exact (C.bind (C.emit _ _) fun _ => h2).le (by omega)

theorem C.resultUnload (r : ErrRes) : C q cfg (St da s) (Small.resultUnload cfg r) (unloadCost q r) (fun o m => Light o ∧ St da s m) := by
  cases r with
  | plain id => exact C.pure _ fun _ h => ⟨trivial, h⟩
  | captured id nodes =>
    unfold Small.resultUnload unloadCost
    refine C.bind (C.setCur _) fun _ => ?_
    refine (C.bind (n2 := 0) (C.unloadNodes _ nodes) fun e => ?_).le (by omega)
    cases e with
    | some e => exact C.pure _ fun _ h => ⟨trivial, h⟩
    | none => exact C.pure _ fun _ h => ⟨trivial, h⟩

theorem unloadCost_light {r : ErrRes} (h : Light (.err r)) : unloadCost q r ≤ wId q := by
  rcases r with id | ⟨id, _ | ⟨n, ns⟩⟩
  · exact Nat.zero_le _
  · simp [unloadCost, nodesCost]
  · exact h.elim

theorem C.unloadOut {o : Out} (h : Light o) : C q cfg (St da s) (Small.unloadOut cfg o) (wId q) (fun o m => Light o ∧ St da s m) := by
  cases o with
  | err r => exact (C.resultUnload r).le (unloadCost_light h)
  | val v => exact C.pure _ fun _ h => ⟨trivial, h⟩
  | exc e => exact C.pure _ fun _ h => ⟨trivial, h⟩

/-- Preconditions that do not mention the store. -/
theorem C.assume {P : PtrStore → Prop} {φ : Prop} {x : Act α} {n : Nat} {Q : α → PtrStore → Prop} (h : φ → C q cfg P x n Q) : C q cfg (fun m => φ ∧ P m) x n Q := by
  intro w a w' l hp hr
  exact h hp.1 w a w' l hp.2 hr

theorem C.assume' {P : PtrStore → Prop} {φ : Prop} {x : Act α} {n : Nat} {Q : α → PtrStore → Prop} (h : φ → C q cfg P x n Q) : C q cfg (fun m => P m ∧ φ) x n Q := by
  intro w a w' l hp hr
  exact h hp.2 w a w' l hp.1 hr

theorem C.callHandler (specs : List (List Arg)) {body : Nat → List ArgVal → Act Out} {n : Nat} {Q : Out → PtrStore → Prop} {P : PtrStore → Prop}
    (hb : ∀ i args, C q cfg P (body i args) n Q) (cells : List CtxCell) (id : Id) (ex : Option Exc) (loc : Option Val) (i : Nat) :
    C q cfg P (Small.callHandler cfg specs body cells id ex loc i) n Q := by
  unfold Small.callHandler
  split
  · exact C.ub
  · split
    · exact C.ub
    · exact (C.bind (C.emit _ _) fun _ => hb _ _).le (by omega)

theorem C.noErr (o : Out) : C q cfg (St da s) (Small.noErr o) 0 (fun o m => Light o ∧ St da s m) := by
  cases o with
  | err r => exact C.ub
  | val v => exact C.pure _ fun _ h => ⟨trivial, h⟩
  | exc e => exact C.pure _ fun _ h => ⟨trivial, h⟩

theorem C.catchPath (specs : List (List Arg)) {body : Nat → List ArgVal → Act Out} {n : Nat} (hd : .da ∉ deduce cfg specs)
    (hb : ∀ i args, C q cfg (St da s) (body i args) n (fun o m => Light o ∧ St da s m)) (e : Exc) :
    C q cfg (St da (deduce cfg specs :: s)) (Small.catchPath cfg specs body e) (5 * slots q (deduce cfg specs) + passCost q (deduce cfg specs) + 3 * wId q + n)
      (fun o m => Light o.1 ∧ St da s m ∧ o.2.map CtxCell.cellTy = deduce cfg specs) := by
  unfold Small.catchPath
  refine (C.bind (n2 := passCost q (deduce cfg specs) + 3 * wId q + n) (C.popCtx hd) fun cells => ?_).le (by omega)
  refine C.assume' fun hc => ?_
  refine (C.bind (n2 := passCost q (deduce cfg specs) + 2 * wId q + n) (C.unpackId e) fun r => ?_).le (by omega)
  obtain ⟨id, e⟩ := r
  simp only []
  refine (C.bind (n2 := passCost q (deduce cfg specs) + 2 * wId q + n) (C.pushHandling e) fun _ => ?_).le (by omega)
  refine (C.bind (n2 := passCost q (deduce cfg specs) + 2 * wId q + n) (C.ctxLoc id cells) fun loc => ?_).le (by omega)
  split
  · refine (C.bind (n2 := 2 * wId q) (C.callHandler specs hb cells id _ loc _) fun o => ?_).le (by omega)
    refine (C.bind (n2 := 2 * wId q) C.popHandling fun _ => ?_).le (by omega)
    refine (C.bind (n2 := 0) (C.destroyExc e) fun _ => ?_).le (by omega)
    exact C.pure _ fun _ h => ⟨h.1, h.2, hc⟩
  · refine (C.bind (n2 := 0) (C.unloadCells id cells hc hd) fun _ => ?_).le (by omega)
    refine (C.bind (n2 := 0) C.popHandling fun _ => ?_).le (by omega)
    exact C.pure _ fun _ h => ⟨trivial, h, hc⟩

theorem C.tryHandleAll (specs : List (List Arg)) {block : Act Out} {body : Nat → List ArgVal → Act Out} {n1 n2 : Nat} (hd : .da ∉ deduce cfg specs)
    (h1 : C q cfg (St da (deduce cfg specs :: s)) block n1 (fun o m => Light o ∧ St da (deduce cfg specs :: s) m))
    (hb : ∀ i args, C q cfg (St da s) (body i args) n2 (fun o m => Light o ∧ St da s m)) :
    C q cfg (St da s) (Small.tryHandleAll cfg specs block body) (n1 + n2 + 8 * slots q (deduce cfg specs) + 2 * passCost q (deduce cfg specs) + 4 * wId q)
      (fun o m => Light o ∧ St da s m) := by
  unfold Small.tryHandleAll
  refine (C.bind (n2 := n1 + n2 + 5 * slots q (deduce cfg specs) + 2 * passCost q (deduce cfg specs) + 4 * wId q) (C.pushCtx hd) fun _ => ?_).le (by omega)
  refine (C.bind (n2 := n2 + 5 * slots q (deduce cfg specs) + 2 * passCost q (deduce cfg specs) + 4 * wId q) h1 fun o => ?_).le (by omega)
  refine C.assume fun ho => ?_
  refine (C.bind (n2 := n2 + 5 * slots q (deduce cfg specs) + 2 * passCost q (deduce cfg specs) + 3 * wId q) (C.unloadOut ho) fun o => ?_).le (by omega)
  refine C.assume fun ho => ?_
  cases o with
  | val v =>
    refine (C.bind (n2 := 0) (C.popCtx hd) fun _ => ?_).le (by omega)
    exact C.pure _ fun _ h => ⟨trivial, h.1⟩
  | err r =>
    refine (C.bind (n1 := wId q) (n2 := n2 + 5 * slots q (deduce cfg specs)) ((C.resultUnload r).le (unloadCost_light ho)) fun _ => ?_).le (by omega)
    refine C.assume fun _ => ?_
    refine (C.bind (n2 := n2) (C.popCtx hd) fun cells => ?_).le (by omega)
    refine C.assume' fun hc => ?_
    refine (C.bind (n2 := n2) (C.ctxLoc r.errId cells) fun loc => ?_).le (by omega)
    split
    · refine (C.bind (n2 := 0) (C.callHandler specs hb cells _ _ loc _) fun o => ?_).le (by omega)
      exact C.assume fun _ => C.noErr o
    · exact C.ub
  | exc e =>
    refine (C.bind (n2 := 0) (C.catchPath specs hd hb e) fun r => ?_).le (by omega)
    obtain ⟨o, cells⟩ := r
    exact C.assume fun _ => C.assume' fun _ => C.noErr o

/-- The end of `try_handle_some`. -/
def passOn (cfg : Cfg) (cells : List CtxCell) (o : Out) : Act Out :=
  match o with
  | .err r' => do Small.unloadCells cfg r'.errId cells; Pure.pure o
  | _ => Pure.pure o

theorem C.passErr {o : Out} (ho : Light o) (cells : List CtxCell) {spec : List CellTy} (hc : cells.map CtxCell.cellTy = spec) (hd : .da ∉ spec) :
    C q cfg (St da s) (passOn cfg cells o) (passCost q spec) (fun o m => Light o ∧ St da s m) := by
  cases o with
  | err r =>
    refine (C.bind (n2 := 0) (C.unloadCells _ cells hc hd) fun _ => ?_).le (by omega)
    exact C.pure _ fun _ h => ⟨ho, h⟩
  | val v => exact C.pure _ fun _ h => ⟨ho, h⟩
  | exc e => exact C.pure _ fun _ h => ⟨ho, h⟩

theorem C.tryHandleSome (specs : List (List Arg)) {block : Act Out} {body : Nat → List ArgVal → Act Out} {n1 n2 : Nat} (hd : .da ∉ deduce cfg specs)
    (h1 : C q cfg (St da (deduce cfg specs :: s)) block n1 (fun o m => Light o ∧ St da (deduce cfg specs :: s) m))
    (hb : ∀ i args, C q cfg (St da s) (body i args) n2 (fun o m => Light o ∧ St da s m)) :
    C q cfg (St da s) (Small.tryHandleSome cfg specs block body) (n1 + n2 + 8 * slots q (deduce cfg specs) + 2 * passCost q (deduce cfg specs) + 4 * wId q)
      (fun o m => Light o ∧ St da s m) := by
  unfold Small.tryHandleSome
  refine (C.bind (n2 := n1 + n2 + 5 * slots q (deduce cfg specs) + 2 * passCost q (deduce cfg specs) + 4 * wId q) (C.pushCtx hd) fun _ => ?_).le (by omega)
  refine (C.bind (n2 := n2 + 5 * slots q (deduce cfg specs) + 2 * passCost q (deduce cfg specs) + 4 * wId q) h1 fun o => ?_).le (by omega)
  refine C.assume fun ho => ?_
  refine (C.bind (n2 := n2 + 5 * slots q (deduce cfg specs) + 2 * passCost q (deduce cfg specs) + 3 * wId q) (C.unloadOut ho) fun o => ?_).le (by omega)
  refine C.assume fun ho => ?_
  cases o with
  | val v =>
    refine (C.bind (n2 := 0) (C.popCtx hd) fun _ => ?_).le (by omega)
    exact C.pure _ fun _ h => ⟨trivial, h.1⟩
  | err r =>
    refine (C.bind (n1 := wId q) (n2 := n2 + 5 * slots q (deduce cfg specs) + passCost q (deduce cfg specs)) ((C.resultUnload r).le (unloadCost_light ho)) fun _ => ?_).le (by omega)
    refine C.assume fun _ => ?_
    refine (C.bind (n2 := n2 + passCost q (deduce cfg specs)) (C.popCtx hd) fun cells => ?_).le (by omega)
    refine C.assume' fun hc => ?_
    refine (C.bind (n2 := n2 + passCost q (deduce cfg specs)) (C.ctxLoc r.errId cells) fun loc => ?_).le (by omega)
    simp only []
    split
    · exact C.bind (C.callHandler specs hb cells _ _ loc _) fun o => C.assume fun ho => C.passErr ho cells hc hd
    · exact (C.passErr ho cells hc hd).le (by omega)
  | exc e =>
    refine (C.bind (n2 := passCost q (deduce cfg specs)) (C.catchPath specs hd hb e) fun r => ?_).le (by omega)
    obtain ⟨o, cells⟩ := r
    refine C.assume fun ho => C.assume' fun hc => ?_
    exact C.passErr ho cells hc hd

theorem C.tryCatch (specs : List (List Arg)) {block : Act Out} {body : Nat → List ArgVal → Act Out} {n1 n2 : Nat} (hd : .da ∉ deduce cfg specs)
    (h1 : C q cfg (St da (deduce cfg specs :: s)) block n1 (fun o m => Light o ∧ St da (deduce cfg specs :: s) m))
    (hb : ∀ i args, C q cfg (St da s) (body i args) n2 (fun o m => Light o ∧ St da s m)) :
    C q cfg (St da s) (Small.tryCatch cfg specs block body) (n1 + n2 + 8 * slots q (deduce cfg specs) + 2 * passCost q (deduce cfg specs) + 4 * wId q)
      (fun o m => Light o ∧ St da s m) := by
  unfold Small.tryCatch
  refine (C.bind (n2 := n1 + n2 + 5 * slots q (deduce cfg specs) + 2 * passCost q (deduce cfg specs) + 4 * wId q) (C.pushCtx hd) fun _ => ?_).le (by omega)
  refine (C.bind (n2 := n2 + 5 * slots q (deduce cfg specs) + 2 * passCost q (deduce cfg specs) + 4 * wId q) h1 fun o => ?_).le (by omega)
  refine C.assume fun ho => ?_
  have hp : ∀ o, Light o → C q cfg (St da (deduce cfg specs :: s)) (do let _ ← Small.popCtx; Pure.pure o)
      (n2 + 5 * slots q (deduce cfg specs) + 2 * passCost q (deduce cfg specs) + 4 * wId q) (fun o m => Light o ∧ St da s m) := by
    intro o ho
    refine (C.bind (n2 := 0) (C.popCtx hd) fun _ => ?_).le (by omega)
    exact C.pure _ fun _ h => ⟨ho, h.1⟩
  cases o with
  | val v => exact hp _ ho
  | err r => exact hp _ ho
  | exc e =>
    refine (C.bind (n2 := 0) (C.catchPath specs hd hb e) fun r => ?_).le (by omega)
    obtain ⟨o, cells⟩ := r
    exact C.pure _ fun _ h => ⟨h.1, h.2.1⟩

theorem C.catchHelper (e : Exc) (tys : List Ty) :
    C q cfg (St da s) (Small.catchHelper cfg e tys) (2 * wId q + loadCost q tyExPtr + (tys.map (loadCost q)).sum) (fun _ => St da s) := by
  induction tys with
  | nil =>
    unfold Small.catchHelper
    exact (C.newError [.obj tyExPtr e.tag] (by simp [Cheap])).le (by simp [itemsCost, itemTy])
  | cons ty tys ih =>
    unfold Small.catchHelper
    refine (C.bind (n2 := loadCost q ty) ih fun id => ?_).le (by simp only [List.map_cons, List.sum_cons]; omega)
    cases e.cast ty with
    | none => exact C.pure _ fun _ h => h
    | some v =>
      refine (C.bind (n2 := 0) (C.errorIdLoad id [.obj ty v] (by simp [Cheap])) fun _ => ?_).le (by simp [itemsCost, itemTy])
      exact C.pure _ fun _ h => h

theorem C.exceptionToResult (tys : List Ty) {block : Act Out} {n : Nat} (h1 : C q cfg (St da s) block n (fun o m => Light o ∧ St da s m)) :
    C q cfg (St da s) (Small.exceptionToResult cfg tys block) (n + 2 * wId q + loadCost q tyExPtr + (tys.map (loadCost q)).sum) (fun o m => Light o ∧ St da s m) := by
  unfold Small.exceptionToResult
  refine (C.bind (n2 := 2 * wId q + loadCost q tyExPtr + (tys.map (loadCost q)).sum) h1 fun o => ?_).le (by omega)
  refine C.assume fun ho => ?_
  cases o with
  | val v => exact C.pure _ fun _ h => ⟨ho, h⟩
  | err r => exact C.pure _ fun _ h => ⟨ho, h⟩
  | exc e =>
    refine (C.bind (n1 := 2 * wId q + loadCost q tyExPtr + (tys.map (loadCost q)).sum) (n2 := 0) (Q1 := fun _ => St da s) ?_ fun id => ?_).le (by omega)
    · split
      · exact C.catchHelper e tys
      · exact (C.catchHelper e []).le (by simp)
    · exact C.pure _ fun _ h => ⟨trivial, h⟩

theorem C.resultValue (r : ErrRes) (tag : Nat) : C q cfg (St da s) (Small.resultValue cfg r tag) (unloadCost q r) (fun o m => Light o ∧ St da s m) := by
  unfold Small.resultValue
  refine (C.bind (n2 := 0) (C.resultUnload r) fun o => ?_).le (by omega)
  cases o with
  | val v => exact C.pure _ fun _ h => ⟨trivial, h.2⟩
  | err r => exact C.pure _ fun _ h => ⟨trivial, h.2⟩
  | exc e => exact C.pure _ fun _ h => ⟨trivial, h.2⟩

theorem C.onErrorGuard (items : List OnItem) (hi : ∀ i, .item i ∈ items → Cheap cfg da i) {body : Act Out} {n : Nat}
    (h1 : C q cfg (St da s) body n (fun o m => Light o ∧ St da s m)) :
    C q cfg (St da s) (Small.onErrorGuard cfg items body) (n + 4 * wId q + onItemsCost q items) (fun o m => Light o ∧ St da s m) := by
  unfold Small.onErrorGuard
  refine (C.bind (n2 := n + 3 * wId q + onItemsCost q items) C.currentId fun saved => ?_).le (by omega)
  refine (C.bind (n2 := 3 * wId q + onItemsCost q items) h1 fun o => ?_).le (by omega)
  refine C.assume fun ho => ?_
  refine C.bind (C.checkId saved _) fun id => ?_
  have hp : C q cfg (St da s) (Pure.pure o) 0 (fun o m => Light o ∧ St da s m) := C.pure _ fun _ h => ⟨ho, h⟩
  split
  · refine (C.bind (n2 := onItemsCost q items) (C.assertTagged id) fun _ => ?_).le (by omega)
    exact (C.bind (C.triggerItems id items hi) fun _ => hp).le (by omega)
  · exact hp.le (by omega)

theorem C.cppCatch {block : Act Out} {h : Exc → Act Out} {n1 n2 : Nat} (h1 : C q cfg (St da s) block n1 (fun o m => Light o ∧ St da s m))
    (h2 : ∀ e, C q cfg (St da s) (h e) n2 (fun o m => Light o ∧ St da s m)) :
    C q cfg (St da s) (Small.cppCatch_ block h) (n1 + n2 + 2 * wId q) (fun o m => Light o ∧ St da s m) := by
  unfold Small.cppCatch_
  refine (C.bind (n2 := n2 + 2 * wId q) h1 fun o => C.assume fun ho => ?_).le (by omega)
  cases o with
  | val v => exact C.pure _ fun _ h => ⟨ho, h⟩
  | err r => exact C.pure _ fun _ h => ⟨ho, h⟩
  | exc e =>
    refine (C.bind (n2 := n2 + 2 * wId q) (C.pushHandling e) fun _ => ?_).le (by omega)
    refine C.bind (h2 e) fun o => ?_
    refine (C.bind (n2 := 2 * wId q) C.popHandling fun _ => ?_).le (by omega)
    refine (C.bind (n2 := 0) (C.destroyExc e) fun _ => ?_).le (by omega)
    exact C.pure _ fun _ h => h

theorem C.cppRethrow {block : Act Out} {h : Exc → Act Out} {n1 n2 : Nat} (h1 : C q cfg (St da s) block n1 (fun o m => Light o ∧ St da s m))
    (h2 : ∀ e, C q cfg (St da s) (h e) n2 (fun o m => Light o ∧ St da s m)) :
    C q cfg (St da s) (Small.cppRethrow_ block h) (n1 + n2 + 2 * wId q) (fun o m => Light o ∧ St da s m) := by
  unfold Small.cppRethrow_
  refine (C.bind (n2 := n2 + 2 * wId q) h1 fun o => C.assume fun ho => ?_).le (by omega)
  cases o with
  | val v => exact C.pure _ fun _ h => ⟨ho, h⟩
  | err r => exact C.pure _ fun _ h => ⟨ho, h⟩
  | exc e =>
    refine (C.bind (n2 := n2 + 2 * wId q) (C.pushHandling e) fun _ => ?_).le (by omega)
    refine C.bind (h2 e) fun o => ?_
    refine (C.bind (n2 := 2 * wId q) C.popHandling fun _ => ?_).le (by omega)
    cases o with
    | val v => exact C.pure _ fun _ h => ⟨trivial, h.2⟩
    | err r => exact C.pure _ fun _ h => ⟨trivial, h.2⟩
    | exc e' =>
      refine (C.bind (n2 := 0) (C.destroyExc e) fun _ => ?_).le (by omega)
      exact C.pure _ fun _ h => h

/-! ## Programs -/

/-- What a scope with the slots `spec` costs: entering and leaving it, the results unloaded (each at most twice), the exception's id, and passing on its objects (at most twice). -/
def scopeCost (q : Access → Bool) (spec : List CellTy) : Nat := 8 * slots q spec + 2 * passCost q spec + 4 * wId q

/-- `Within cfg da q p n`: the table of what each construct costs, giving `n` for `p`. With `da = false`, no capturing scope is active. Programs not in the table: those that return a result
with objects captured in it (`try_capture_all`), scopes with a handler that takes `diagnostic_details`, and functions taking `E &` where their object might be captured. -/
inductive Within (cfg : Cfg) (da : Bool) (q : Access → Bool) : Prog → Nat → Prop
  | le {p : Prog} {n n' : Nat} (h : Within cfg da q p n) (hn : n ≤ n') : Within cfg da q p n'
  | ret {o : Out} (h : Light o) : Within cfg da q (.ret o) 0
  | newError {items : List Item} {k : Id → Prog} {n : Nat} (hi : ∀ i ∈ items, Cheap cfg da i) (h : ∀ id, Within cfg da q (k id) n) :
    Within cfg da q (.newError items k) (2 * wId q + itemsCost q items + n)
  | load {id : Id} {items : List Item} {k : Prog} {n : Nat} (hi : ∀ i ∈ items, Cheap cfg da i) (h : Within cfg da q k n) : Within cfg da q (.load id items k) (itemsCost q items + n)
  | importCode {ec : ErrorCode} {v : Val} {k : Id → Prog} {n : Nat} (h : ∀ id, Within cfg da q (k id) n) : Within cfg da q (.importCode ec v k) (2 * wId q + loadCost q tyErrorCode + n)
  | currentError {k : Id → Prog} {n : Nat} (h : ∀ id, Within cfg da q (k id) n) : Within cfg da q (.currentError k) (wId q + n)
  | bind {p : Prog} {k : Val → Prog} {ke : ErrRes → Prog} {n1 n2 : Nat} (hp : Within cfg da q p n1) (hk : ∀ v, Within cfg da q (k v) n2)
    (he : ∀ r, Light (.err r) → Within cfg da q (ke r) n2) : Within cfg da q (.bind p k ke) (n1 + n2)
  | onError {items : List OnItem} {p : Prog} {n : Nat} (hi : ∀ i, .item i ∈ items → Cheap cfg da i) (h : Within cfg da q p n) :
    Within cfg da q (.onError items p) (n + 4 * wId q + onItemsCost q items)
  | monNew {k : Id → Prog} {n : Nat} (h : ∀ id, Within cfg da q (k id) n) : Within cfg da q (.monNew k) (wId q + n)
  | monCheck {m : Id} {k : Id → Prog} {n : Nat} (h : ∀ id, Within cfg da q (k id) n) : Within cfg da q (.monCheck m k) (3 * wId q + n)
  | monAssigned {m : Id} {k : Id → Prog} {n : Nat} (h : ∀ id, Within cfg da q (k id) n) : Within cfg da q (.monAssigned m k) (3 * wId q + n)
  | handleAll {specs : List (List Arg)} {p : Prog} {body : Nat → List ArgVal → Prog} {n1 n2 : Nat} (hd : .da ∉ deduce cfg specs) (hp : Within cfg da q p n1)
    (hb : ∀ i args, Within cfg da q (body i args) n2) : Within cfg da q (.handleAll specs p body) (n1 + n2 + scopeCost q (deduce cfg specs))
  | handleSome {specs : List (List Arg)} {p : Prog} {body : Nat → List ArgVal → Prog} {n1 n2 : Nat} (hd : .da ∉ deduce cfg specs) (hp : Within cfg da q p n1)
    (hb : ∀ i args, Within cfg da q (body i args) n2) : Within cfg da q (.handleSome specs p body) (n1 + n2 + scopeCost q (deduce cfg specs))
  | tryCatch {specs : List (List Arg)} {p : Prog} {body : Nat → List ArgVal → Prog} {n1 n2 : Nat} (hd : .da ∉ deduce cfg specs) (hp : Within cfg da q p n1)
    (hb : ∀ i args, Within cfg da q (body i args) n2) : Within cfg da q (.tryCatch specs p body) (n1 + n2 + scopeCost q (deduce cfg specs))
  | excToResult {tys : List Ty} {p : Prog} {n : Nat} (hp : Within cfg da q p n) :
    Within cfg da q (.excToResult tys p) (n + 2 * wId q + loadCost q tyExPtr + (tys.map (loadCost q)).sum)
  | cppCatch {p : Prog} {h : Exc → Prog} {n1 n2 : Nat} (hp : Within cfg da q p n1) (hh : ∀ e, Within cfg da q (h e) n2) : Within cfg da q (.cppCatch p h) (n1 + n2 + 2 * wId q)
  | cppRethrow {p : Prog} {h : Exc → Prog} {n1 n2 : Nat} (hp : Within cfg da q p n1) (hh : ∀ e, Within cfg da q (h e) n2) : Within cfg da q (.cppRethrow p h) (n1 + n2 + 2 * wId q)
  | unload (r : ErrRes) : Within cfg da q (.unload r) (unloadCost q r)
  | value (r : ErrRes) (tag : Nat) : Within cfg da q (.value r tag) (unloadCost q r)

theorem C.eval {p : Prog} {n : Nat} (h : Within cfg da q p n) (s : List (List CellTy)) : C q cfg (St da s) (Small.eval cfg p) n (fun o m => Light o ∧ St da s m) := by
  induction h generalizing s with
  | le _ hn ih => exact (ih s).le hn
  | ret h => exact C.pure _ fun _ hm => ⟨h, hm⟩
  | newError hi _ ih => exact C.bind (C.newError _ hi) fun id => ih id s
  | load hi _ ih => exact C.bind (C.errorIdLoad _ _ hi) fun _ => ih s
  | importCode _ ih => exact C.bind (C.importCode _ _) fun id => ih id s
  | currentError _ ih => exact C.bind C.currentError fun id => ih id s
  | bind _ _ _ ihp ihk ihe =>
    unfold Small.eval
    refine C.bind (ihp s) fun o => C.assume fun ho => ?_
    cases o with
    | val v => exact ihk v s
    | err r => exact ihe r ho s
    | exc e => exact C.pure _ fun _ hm => ⟨trivial, hm⟩
  | onError hi _ ih => exact C.onErrorGuard _ hi (ih s)
  | monNew _ ih => exact C.bind C.currentId fun id => ih id s
  | monCheck _ ih => exact C.bind (C.checkId _ _) fun id => ih _ s
  | monAssigned _ ih => exact C.bind (C.getId _) fun id => ih _ s
  | handleAll hd _ _ ihp ihb => exact (C.tryHandleAll _ hd (ihp _) fun i args => ihb i args s).le (by simp only [scopeCost]; omega)
  | handleSome hd _ _ ihp ihb => exact (C.tryHandleSome _ hd (ihp _) fun i args => ihb i args s).le (by simp only [scopeCost]; omega)
  | tryCatch hd _ _ ihp ihb => exact (C.tryCatch _ hd (ihp _) fun i args => ihb i args s).le (by simp only [scopeCost]; omega)
  | excToResult _ ih => exact C.exceptionToResult _ (ih s)
  | cppCatch _ _ ihp ihh => exact C.cppCatch (ihp s) fun e => ihh e s
  | cppRethrow _ _ ihp ihh => exact C.cppRethrow (ihp s) fun e => ihh e s
  | unload r => exact C.resultUnload r
  | value r tag => exact C.resultValue r tag

/-! ## States -/

theorem das_ok {m : PtrStore} (h : PtrStore.Inv m) : ∀ a ∈ PtrStore.allDas m.ctxs, ∃ d, m.dmem a = some d ∧ (d.key = 0#32 → d.nodes = []) := by
  have hf := h.frames
  revert hf
  generalize m.ctxs = cs
  intro hf a ha
  induction cs with
  | nil => simp [PtrStore.allDas] at ha
  | cons f fs ih =>
    simp only [PtrStore.allDas, List.flatMap_cons, List.mem_append] at ha
    rcases ha with ha | ha
    · obtain ⟨d, h1, _, h2⟩ := hf.1.das a ha
      exact ⟨d, h1, h2⟩
    · exact ih hf.2 ha

theorem st_of {w : World PtrStore} (h : ThreadOk w) {da : Bool} (hn : da = false → NoCapturingScope w) : St da (w.mem.ctxs.map (·.map PCell.cellTy)) w.mem := by
  refine ⟨?_, ?_, rfl⟩
  · intro a d ha hd hk
    rw [h.inv.tlsDa] at ha
    obtain ⟨d', h1, h2⟩ := das_ok h.inv a (List.mem_of_mem_head? ha)
    rw [hd] at h1
    cases h1
    exact h2 hk
  · intro hda
    rw [h.inv.tlsDa]
    cases hl : PtrStore.allDas w.mem.ctxs with
    | nil => rfl
    | cons a l =>
      have : a ∈ PtrStore.allDas w.mem.ctxs := by rw [hl]; exact List.mem_cons_self ..
      simp only [PtrStore.allDas, PtrStore.frameDas, List.mem_flatMap] at this
      obtain ⟨f, hf, c, hc, hac⟩ := this
      cases c with
      | obj ty b => simp [PtrStore.cellDas] at hac
      | da d => exact absurd hc (hn hda f hf d)

end

/-! ## Lower bounds -/

/-- Every run of `x` makes at least `n` of the accesses counted. -/
def TMin (q : Access → Bool) (x : Traced α) (n : Nat) : Prop := ∀ m a m' l, x m = some (a, m', l) → n ≤ l.countP q

theorem TMin.zero (x : Traced α) : TMin q x 0 := fun _ _ _ _ _ => Nat.zero_le _

theorem TMin.bind {x : Traced α} {f : α → Traced β} {n1 n2 : Nat} (h1 : TMin q x n1) (h2 : ∀ a, TMin q (f a) n2) : TMin q (x >>= f) (n1 + n2) := by
  intro m b m' l h
  change Traced.bind x f m = _ at h
  unfold Traced.bind at h
  cases hx : x m with
  | none => rw [hx] at h; cases h
  | some r =>
    obtain ⟨a, m1, l1⟩ := r
    rw [hx] at h
    simp only at h
    cases hf : f a m1 with
    | none => rw [hf] at h; cases h
    | some r =>
      obtain ⟨b', m2, l2⟩ := r
      rw [hf] at h
      cases h
      have := h1 m a m1 l1 hx
      have := h2 a m1 b m' l2 hf
      rw [List.countP_append]
      omega

theorem TMin.activate {ty : Ty} (ht : q (.tls ty) = true) (hs : q (.slot ty) = true) {spec : List CellTy} (h : .obj ty ∈ spec) : TMin q (Traced.activate spec) 3 := by
  induction spec with
  | nil => cases h
  | cons c cs ih =>
    cases c with
    | da =>
      have ih := ih (by simpa using h)
      unfold Traced.activate
      exact TMin.bind (n1 := 0) (n2 := 3) (.zero _) fun _ => TMin.bind (n1 := 0) (n2 := 3) (.zero _) fun _ => TMin.bind (n1 := 0) (n2 := 3) (.zero _) fun _ =>
        TMin.bind (n1 := 3) (n2 := 0) ih fun _ => .zero _
    | obj t =>
      unfold Traced.activate
      by_cases he : t = ty
      · subst he
        refine TMin.bind (n1 := 1) (n2 := 2) ?_ fun _ => TMin.bind (n1 := 1) (n2 := 1) ?_ fun _ => TMin.bind (n1 := 1) (n2 := 0) ?_ fun _ => .zero _
        · intro m a m' l hr; cases hr; simp [ht]
        · intro m a m' l hr; cases hr; simp [hs]
        · intro m a m' l hr; cases hr; simp [ht]
      · have ih := ih (by simpa [Ne.symm he] using h)
        exact TMin.bind (n1 := 0) (n2 := 3) (.zero _) fun _ => TMin.bind (n1 := 0) (n2 := 3) (.zero _) fun _ => TMin.bind (n1 := 0) (n2 := 3) (.zero _) fun _ =>
          TMin.bind (n1 := 3) (n2 := 0) ih fun _ => .zero _

theorem TMin.push {ty : Ty} (ht : q (.tls ty) = true) (hs : q (.slot ty) = true) {spec : List CellTy} (h : .obj ty ∈ spec) : TMin q (Traced.push spec) 3 := by
  unfold Traced.push
  split
  · exact TMin.bind (n2 := 0) (TMin.activate ht hs h) fun _ => .zero _
  · intro m a m' l hr; cases hr

/-- As `TMin`, for sequences of operations. -/
def CMin (q : Access → Bool) (cfg : Cfg) (x : Act α) (n : Nat) : Prop := ∀ w a w' l, x.runA cfg w = some (a, w', l) → n ≤ l.countP q

theorem CMin.zero (x : Act α) : CMin q cfg x 0 := fun _ _ _ _ _ => Nat.zero_le _

theorem CMin.bind {x : Act α} {f : α → Act β} {n1 n2 : Nat} (h1 : CMin q cfg x n1) (h2 : ∀ a, CMin q cfg (f a) n2) : CMin q cfg (x >>= f) (n1 + n2) := by
  intro w b w' l h
  rw [runA_bind] at h
  cases hx : x.runA cfg w with
  | none => rw [hx] at h; cases h
  | some r =>
    obtain ⟨a, w1, l1⟩ := r
    rw [hx] at h
    simp only [Option.bind_some] at h
    cases hf : (f a).runA cfg w1 with
    | none => rw [hf] at h; cases h
    | some r =>
      obtain ⟨b', w2, l2⟩ := r
      rw [hf] at h
      cases h
      have := h1 w a w1 l1 hx
      have := h2 a w1 b' w2 l2 hf
      change _ ≤ List.countP q (l1 ++ l2)
      rw [List.countP_append]
      omega

theorem CMin.pushCtx {ty : Ty} (ht : q (.tls ty) = true) (hs : q (.slot ty) = true) {spec : List CellTy} (h : .obj ty ∈ spec) : CMin q cfg (Small.pushCtx spec) 3 := by
  intro w a w' l hr
  unfold Small.pushCtx at hr
  rw [runA_op] at hr
  change ((Traced.push spec).lift w).map _ = _ at hr
  unfold Traced.lift at hr
  cases hx : Traced.push spec w.mem with
  | none => rw [hx] at hr; cases hr
  | some r =>
    obtain ⟨b, m, l'⟩ := r
    rw [hx] at hr
    cases hr
    exact TMin.push ht hs h _ _ _ _ hx

theorem CMin.handleSome {ty : Ty} (ht : q (.tls ty) = true) (hs : q (.slot ty) = true) {specs : List (List Arg)} (h : .obj ty ∈ deduce cfg specs) {p : Prog}
    {body : Nat → List ArgVal → Prog} {n : Nat} (hp : CMin q cfg (Small.eval cfg p) n) : CMin q cfg (Small.eval cfg (.handleSome specs p body)) (3 + n) := by
  change CMin q cfg (Small.tryHandleSome cfg specs _ _) _
  unfold Small.tryHandleSome
  exact CMin.bind (CMin.pushCtx ht hs h) fun _ => CMin.bind (n2 := 0) hp fun _ => .zero _

end Cost
end Leaf
