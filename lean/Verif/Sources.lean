import Verif.Hoare
import Verif.Flow

/-!
# Where the objects in storage come from

Every object in storage was handed to LEAF, or transported in a captured result, for the error it is tagged with; every object passed to a
handler for the error being handled.
-/

namespace Leaf

/-- An object of type `ty` with value `v` was handed to LEAF for error `id`, or left a captured result for error `id`. -/
def Supplied (past : List Event) (id : Id) (ty : Ty) (v : Val) : Prop := .offered id ty v ∈ past ∨ .transported id ty v ∈ past

/-- The argument passed to a handler of error `id` (while exception `ex` is handled) contains only objects supplied for this error or parts of
the exception. -/
def ArgVal.From (past : List Event) (id : Id) (ex : Option Exc) : ArgVal → Prop
  | .obj ty v => Supplied past id ty v ∨ ∃ e, ex = some e ∧ (ty, v) ∈ e.casts
  | .ptr ty v => ∀ x, v = some x → Supplied past id ty x ∨ ∃ e, ex = some e ∧ (ty, x) ∈ e.casts
  | .exc e => ex = some e
  | .info id' ex' loc => id' = id ∧ ex' = ex ∧ ∀ l, loc = some l → Supplied past id tySrcLoc l
  | .diag id' ex' loc objs => id' = id ∧ ex' = ex ∧ (∀ l, loc = some l → Supplied past id tySrcLoc l) ∧ (id ≠ 0#32 → ∀ o ∈ objs, Supplied past id o.1 o.2)
  | .details id' ex' loc objs captured => id' = id ∧ ex' = ex ∧ (∀ l, loc = some l → Supplied past id tySrcLoc l) ∧
      (id ≠ 0#32 → ∀ o ∈ objs ++ captured, Supplied past id o.1 o.2)

/-- Every handler called so far received only objects supplied before for the error being handled or parts of the exception. -/
def HandledOk (trace : List Event) : Prop :=
  ∀ post id ex i args past, trace = post ++ .handled id ex i args :: past → ∀ a ∈ args, a.From past id ex

/-- There is an object of type `ty` with value `v` tagged `k` in some frame. -/
def InFrames (fs : List (List CtxCell)) (ty : Ty) (k : Id) (v : Val) : Prop :=
  ∃ f ∈ fs, CtxCell.obj ty (some (k, v)) ∈ f ∨ ∃ key ns, CtxCell.da key ns ∈ f ∧ (ty, some (k, v)) ∈ ns

/-- Sets of tagged objects. -/
abbrev Objs := Ty → Id → Val → Prop

def Objs.add (F : Objs) (ty : Ty) (id : Id) (v : Val) : Objs := fun t k x => F t k x ∨ (t = ty ∧ k = id ∧ x = v)
def Objs.cells (F : Objs) (cells : List CtxCell) : Objs := fun t k x => F t k x ∨ InFrames [cells] t k x
def Objs.none : Objs := fun _ _ _ => False

/-- All stored objects except possibly those in `A` were supplied, handlers were called properly, and the objects in `F` were supplied. -/
def SrcInv (A F : Objs) (w : World AbsStore) : Prop :=
  (∀ ty k v, InFrames w.mem.frames ty k v → A ty k v ∨ Supplied w.trace k ty v) ∧ HandledOk w.trace ∧ ∀ ty k v, F ty k v → Supplied w.trace k ty v

abbrev Pr {α : Type} (F : Objs) (x : Comp AbsStore α) : Prop := Hoare (SrcInv .none F) x (fun _ w => SrcInv .none F w)

variable {A F : Objs} {cfg : Cfg}

theorem Pr.bind {α β : Type} {x : Comp AbsStore α} {f : α → Comp AbsStore β} (hx : Pr F x) (hf : ∀ a, Pr F (f a)) : Pr F (x >>= f) := Hoare.bind hx hf
theorem Pr.pure {α : Type} (a : α) : Pr F (pure a) := Hoare.pure fun _ h => h
theorem Pr.ub {α : Type} : Pr F (ub : Comp AbsStore α) := Hoare.ub
theorem pr_ubBind {α β : Type} {f : α → Comp AbsStore β} : Pr F (Leaf.ub >>= f) := by
  intro w _ b w' he
  simp [bind_apply, Leaf.ub] at he
theorem Pr.ite {α : Type} {p : Prop} [Decidable p] {x y : Comp AbsStore α} (hx : Pr F x) (hy : Pr F y) : Pr F (if p then x else y) := by
  split
  · exact hx
  · exact hy
theorem pr_read {α : Type} {x : Comp AbsStore α} (h : ∀ w a w', x w = some (a, w') → w' = w) : Pr F x := by
  intro w hw a w' he
  rw [h w a w' he]
  exact hw

theorem Supplied.cons {t : List Event} {id : Id} {ty : Ty} {v : Val} (h : Supplied t id ty v) (e : Event) : Supplied (e :: t) id ty v := by
  rcases h with h | h
  · exact Or.inl (List.mem_cons_of_mem _ h)
  · exact Or.inr (List.mem_cons_of_mem _ h)

theorem handledOk_cons {t : List Event} (h : HandledOk t) {e : Event} (he : ∀ id ex i args, e = .handled id ex i args → ∀ a ∈ args, a.From t id ex) :
    HandledOk (e :: t) := by
  intro post id ex i args past heq
  cases post with
  | nil =>
    simp only [List.nil_append, List.cons.injEq] at heq
    obtain ⟨h1, rfl⟩ := heq
    exact he id ex i args h1
  | cons p post =>
    simp only [List.cons_append, List.cons.injEq] at heq
    exact h post id ex i args past heq.2

theorem SrcInv.emit {w : World AbsStore} (h : SrcInv A F w) {e : Event} (he : ∀ id ex i args, e = .handled id ex i args → ∀ a ∈ args, a.From w.trace id ex) :
    SrcInv A F { w with trace := e :: w.trace } :=
  ⟨fun ty k v hm => (h.1 ty k v hm).imp id (·.cons e), handledOk_cons h.2.1 he, fun ty k v hf => (h.2.2 ty k v hf).cons e⟩

theorem SrcInv.weaken {w : World AbsStore} {F' : Objs} (h : SrcInv A F' w) (hf : ∀ ty k v, F ty k v → F' ty k v) : SrcInv A F w :=
  ⟨h.1, h.2.1, fun ty k v hx => h.2.2 ty k v (hf ty k v hx)⟩

theorem emit_ok {e : Event} {w w' : World AbsStore} {a : Unit} (h : emit e w = some (a, w')) : w' = { w with trace := e :: w.trace } := by
  simp only [Leaf.emit, Option.some.injEq, Prod.mk.injEq, true_and] at h
  exact h.symm

theorem pr_emit {e : Event} (he : ∀ id ex i args, e ≠ .handled id ex i args) : Hoare (SrcInv A F) (emit e) (fun _ w => SrcInv A F w) := by
  intro w hw a w' h
  rw [emit_ok h]
  exact hw.emit fun id ex i args h => absurd h (he id ex i args)

theorem pr_supply {e : Event} {ty : Ty} {id : Id} {v : Val} (he : e = .offered id ty v ∨ e = .transported id ty v) :
    Hoare (SrcInv A F) (emit e) (fun _ w => SrcInv A (F.add ty id v) w) := by
  intro w hw a w' h
  rw [emit_ok h]
  have h1 := hw.emit (e := e) fun id ex i args h => by rcases he with he | he <;> simp [he] at h
  refine ⟨h1.1, h1.2.1, fun t k x hx => ?_⟩
  rcases hx with hx | ⟨rfl, rfl, rfl⟩
  · exact h1.2.2 t k x hx
  · rcases he with rfl | rfl
    · exact Or.inl (by simp)
    · exact Or.inr (by simp)

theorem pr_settle {ty : Ty} {id : Id} {v : Val} : Hoare (SrcInv (A.add ty id v) F) (emit (.offered id ty v)) (fun _ w => SrcInv A F w) := by
  intro w hw a w' h
  rw [emit_ok h]
  have h1 := hw.emit (e := .offered id ty v) (by simp)
  refine ⟨fun t k x hx => ?_, h1.2⟩
  rcases h1.1 t k x hx with (h | ⟨rfl, rfl, rfl⟩) | h
  · exact Or.inl h
  · exact Or.inr (Or.inl (by simp))
  · exact Or.inr h

theorem pr_getCur : Pr F (getCur : Comp AbsStore Id) := pr_read (by simp [getCur])
theorem pr_currentId : Pr F (currentId : Comp AbsStore Id) := pr_read (by
  intro w a w' h
  unfold currentId at h
  split at h <;> simp at h
  exact h.2.symm)
theorem pr_assertTagged (id : Id) : Pr F (assertTagged id : Comp AbsStore Unit) := pr_read (by
  intro w a w' h
  unfold assertTagged at h
  split at h <;> simp at h
  exact h.symm)
theorem pr_currentException : Pr F (currentException : Comp AbsStore _) := pr_read (by simp [currentException])
theorem pr_slotGet (ty : Ty) : Pr F (slotGet ty : Comp AbsStore _) := pr_read (fun _ _ _ h => slotGet_world h)
theorem pr_setCur (id : Id) : Pr F (setCur id : Comp AbsStore Unit) := by
  intro w hw a w' h
  simp only [setCur, Option.some.injEq, Prod.mk.injEq, true_and] at h
  subst h
  exact hw
theorem pr_pushHandling (e : Exc) : Pr F (pushHandling e : Comp AbsStore Unit) := by
  intro w hw a w' h
  simp only [pushHandling, Option.some.injEq, Prod.mk.injEq, true_and] at h
  subst h
  exact hw
theorem pr_popHandling : Pr F (popHandling : Comp AbsStore Unit) := by
  intro w hw a w' h
  simp only [popHandling, Option.some.injEq, Prod.mk.injEq, true_and] at h
  subst h
  exact hw
theorem pr_newId : Pr F (newId cfg : Comp AbsStore Id) := by
  intro w hw a w' h
  simp only [newId, generateNextId, Option.some.injEq, Prod.mk.injEq] at h
  obtain ⟨_, rfl⟩ := h
  exact hw.emit (by simp)
theorem pr_currentError : Pr F (currentError : Comp AbsStore Id) := Pr.bind pr_currentId fun _ => Pr.pure _

/-! ### Storage -/

theorem mem_setNode {ty : Ty} {c : Cell} {ns : List (Ty × Cell)} {x : Ty × Cell} (h : x ∈ setNode ty c ns) : x ∈ ns ∨ x = (ty, c) := by
  induction ns with
  | nil => simp [setNode] at h
  | cons n ns ih =>
    obtain ⟨t, d⟩ := n
    simp only [setNode] at h
    split at h
    · rename_i ht
      subst ht
      rcases List.mem_cons.mp h with h | h
      · exact Or.inr h
      · exact Or.inl (List.mem_cons_of_mem _ h)
    · rcases List.mem_cons.mp h with h | h
      · exact Or.inl (h ▸ List.mem_cons_self)
      · exact (ih h).imp (List.mem_cons_of_mem _) id

theorem inFrames_cons {f : List CtxCell} {fs : List (List CtxCell)} {ty : Ty} {k : Id} {v : Val} :
    InFrames (f :: fs) ty k v ↔ InFrames [f] ty k v ∨ InFrames fs ty k v := by
  unfold InFrames
  constructor
  · rintro ⟨g, hg, h⟩
    rcases List.mem_cons.mp hg with rfl | hg
    · exact Or.inl ⟨g, by simp, h⟩
    · exact Or.inr ⟨g, hg, h⟩
  · rintro (⟨g, hg, h⟩ | ⟨g, hg, h⟩)
    · exact ⟨g, by simp at hg; simp [hg], h⟩
    · exact ⟨g, by simp [hg], h⟩

theorem inFrame_cons {c : CtxCell} {f : List CtxCell} {ty : Ty} {k : Id} {v : Val} :
    InFrames [c :: f] ty k v ↔ InFrames [[c]] ty k v ∨ InFrames [f] ty k v := by
  have hone : ∀ g : List CtxCell, InFrames [g] ty k v ↔ (CtxCell.obj ty (some (k, v)) ∈ g ∨ ∃ key ns, CtxCell.da key ns ∈ g ∧ (ty, some (k, v)) ∈ ns) := by
    intro g
    simp [InFrames]
  rw [hone, hone, hone]
  simp only [List.mem_cons, List.not_mem_nil, or_false]
  constructor
  · rintro ((h | h) | ⟨key, ns, h | h, hn⟩)
    · exact Or.inl (Or.inl h)
    · exact Or.inr (Or.inl h)
    · exact Or.inl (Or.inr ⟨key, ns, h, hn⟩)
    · exact Or.inr (Or.inr ⟨key, ns, h, hn⟩)
  · rintro ((h | ⟨key, ns, h, hn⟩) | (h | ⟨key, ns, h, hn⟩))
    · exact Or.inl (Or.inl h)
    · exact Or.inr ⟨key, ns, Or.inl h, hn⟩
    · exact Or.inl (Or.inr h)
    · exact Or.inr ⟨key, ns, Or.inr h, hn⟩

theorem inFrames_setFrame {ty : Ty} {id : Id} {x : Val} {f : List CtxCell} {t : Ty} {k : Id} {v : Val}
    (h : InFrames [setFrame ty (some (id, x)) f] t k v) : InFrames [f] t k v ∨ (t = ty ∧ k = id ∧ v = x) := by
  induction f with
  | nil => exact Or.inl h
  | cons c f ih =>
    cases c with
    | obj t' d =>
      simp only [setFrame] at h
      split at h
      · rename_i ht
        rcases inFrame_cons.mp h with h | h
        · simp only [InFrames, List.mem_singleton, exists_eq_left, CtxCell.obj.injEq, Option.some.injEq, Prod.mk.injEq, reduceCtorEq, false_and,
            exists_false, or_false] at h
          exact Or.inr ⟨h.1.trans ht, h.2.1, h.2.2⟩
        · exact Or.inl (inFrame_cons.mpr (Or.inr h))
      · rcases inFrame_cons.mp h with h | h
        · exact Or.inl (inFrame_cons.mpr (Or.inl h))
        · exact (ih h).imp (fun h => inFrame_cons.mpr (Or.inr h)) (·)
    | da key ns =>
      simp only [setFrame] at h
      split at h
      · rcases inFrame_cons.mp h with h | h
        · simp only [InFrames, List.mem_singleton, exists_eq_left, reduceCtorEq, CtxCell.da.injEq, false_or] at h
          obtain ⟨key', ns', ⟨rfl, rfl⟩, hn⟩ := h
          rcases mem_setNode hn with hn | hn
          · exact Or.inl (inFrame_cons.mpr (Or.inl ⟨_, List.mem_singleton.mpr rfl, Or.inr ⟨_, _, List.mem_singleton.mpr rfl, hn⟩⟩))
          · simp only [Prod.mk.injEq, Option.some.injEq] at hn
            exact Or.inr hn
        · exact Or.inl (inFrame_cons.mpr (Or.inr h))
      · rcases inFrame_cons.mp h with h | h
        · exact Or.inl (inFrame_cons.mpr (Or.inl h))
        · exact (ih h).imp (fun h => inFrame_cons.mpr (Or.inr h)) (·)

theorem inFrames_setBound {ty : Ty} {id : Id} {x : Val} {fs : List (List CtxCell)} {t : Ty} {k : Id} {v : Val}
    (h : InFrames (setBound ty (some (id, x)) fs) t k v) : InFrames fs t k v ∨ (t = ty ∧ k = id ∧ v = x) := by
  induction fs with
  | nil => exact Or.inl h
  | cons f fs ih =>
    simp only [setBound] at h
    split at h
    · rcases inFrames_cons.mp h with h | h
      · exact (inFrames_setFrame h).imp (fun h => inFrames_cons.mpr (Or.inl h)) (·)
      · exact Or.inl (inFrames_cons.mpr (Or.inr h))
    · rcases inFrames_cons.mp h with h | h
      · exact Or.inl (inFrames_cons.mpr (Or.inl h))
      · exact (ih h).imp (fun h => inFrames_cons.mpr (Or.inr h)) (·)

theorem inFrames_setFrameDa {k' : Id} {ns' : List (Ty × Cell)} {f : List CtxCell} {t : Ty} {k : Id} {v : Val}
    (h : InFrames [setFrameDa k' ns' f] t k v) : InFrames [f] t k v ∨ (t, some (k, v)) ∈ ns' := by
  induction f with
  | nil => exact Or.inl h
  | cons c f ih =>
    cases c with
    | obj t' d =>
      rcases inFrame_cons.mp h with h | h
      · exact Or.inl (inFrame_cons.mpr (Or.inl h))
      · exact (ih h).imp (fun h => inFrame_cons.mpr (Or.inr h)) (·)
    | da key ns =>
      rcases inFrame_cons.mp h with h | h
      · simp only [InFrames, List.mem_singleton, exists_eq_left, reduceCtorEq, CtxCell.da.injEq, false_or] at h
        obtain ⟨_, _, ⟨rfl, rfl⟩, hn⟩ := h
        exact Or.inr hn
      · exact Or.inl (inFrame_cons.mpr (Or.inr h))

theorem inFrames_setBoundDa {k' : Id} {ns' : List (Ty × Cell)} {fs : List (List CtxCell)} {t : Ty} {k : Id} {v : Val}
    (h : InFrames (setBoundDa k' ns' fs) t k v) : InFrames fs t k v ∨ (t, some (k, v)) ∈ ns' := by
  induction fs with
  | nil => exact Or.inl h
  | cons f fs ih =>
    simp only [setBoundDa] at h
    split at h
    · rcases inFrames_cons.mp h with h | h
      · exact (inFrames_setFrameDa h).imp (fun h => inFrames_cons.mpr (Or.inl h)) (·)
      · exact Or.inl (inFrames_cons.mpr (Or.inr h))
    · rcases inFrames_cons.mp h with h | h
      · exact Or.inl (inFrames_cons.mpr (Or.inl h))
      · exact (ih h).imp (fun h => inFrames_cons.mpr (Or.inr h)) (·)

theorem inFrames_boundDa {fs : List (List CtxCell)} {key : Id} {ns : List (Ty × Cell)} (hd : boundDa fs = some (key, ns)) {t : Ty} {k : Id} {v : Val}
    (h : (t, some (k, v)) ∈ ns) : InFrames fs t k v := by
  obtain ⟨inner, pre, post, outer, h1, _, _⟩ := setBoundDa_split hd
  rw [h1]
  exact ⟨pre ++ .da key ns :: post, by simp, Or.inr ⟨key, ns, by simp, h⟩⟩

/-- Storing an object not known to be supplied. -/
theorem pr_slotSet_raw (ty : Ty) (id : Id) (v : Val) : Hoare (SrcInv A F) (slotSet ty id v : Comp AbsStore Unit) (fun _ w => SrcInv (A.add ty id v) F w) := by
  intro w hw a w' h
  unfold slotSet at h
  simp only [Store.slotSet] at h
  split at h
  · simp only [Option.map_some, Option.some.injEq, Prod.mk.injEq, true_and] at h
    subst h
    refine ⟨fun t k x hx => ?_, hw.2⟩
    rcases inFrames_setBound hx with hx | hx
    · exact (hw.1 t k x hx).imp Or.inl (·)
    · exact Or.inl (Or.inr hx)
  · simp at h

theorem SrcInv.settle {w : World AbsStore} {ty : Ty} {id : Id} {v : Val} (h : SrcInv (A.add ty id v) F w) (hf : F ty id v) : SrcInv A F w := by
  refine ⟨fun t k x hx => ?_, h.2⟩
  rcases h.1 t k x hx with (h | ⟨rfl, rfl, rfl⟩) | h'
  · exact Or.inl h
  · exact Or.inr (h.2.2 _ _ _ hf)
  · exact Or.inr h'

theorem pr_slotSet {ty : Ty} {id : Id} {v : Val} (hf : F ty id v) : Pr F (slotSet ty id v : Comp AbsStore Unit) :=
  (pr_slotSet_raw ty id v).post fun _ _ h => h.settle hf

theorem pr_daAppend_raw (ty : Ty) (id : Id) (v : Val) : Hoare (SrcInv A F) (daAppend ty id v : Comp AbsStore Unit) (fun _ w => SrcInv (A.add ty id v) F w) := by
  intro w hw a w' h
  unfold daAppend at h
  simp only [Store.daAppend] at h
  split at h
  · rename_i k ns hd
    split at h
    · simp at h
    · split at h
      · simp at h
      · simp only [Option.map_some, Option.some.injEq, Prod.mk.injEq, true_and] at h
        subst h
        refine ⟨fun t k x hx => ?_, hw.2⟩
        rcases inFrames_setBoundDa hx with hx | hx
        · exact (hw.1 t k x hx).imp Or.inl (·)
        · rcases List.mem_append.mp hx with hx | hx
          · exact (hw.1 t k x (inFrames_boundDa hd hx)).imp Or.inl (·)
          · simp only [List.mem_singleton, Prod.mk.injEq, Option.some.injEq] at hx
            exact Or.inl (Or.inr hx)
  · simp at h

theorem pr_daReset (id : Id) : Hoare (SrcInv A F) (daReset id : Comp AbsStore Unit) (fun _ w => SrcInv A F w) := by
  intro w hw a w' h
  unfold daReset at h
  simp only [Store.daReset] at h
  split at h
  · simp only [Option.map_some, Option.some.injEq, Prod.mk.injEq, true_and] at h
    subst h
    refine ⟨fun t k x hx => ?_, hw.2⟩
    rcases inFrames_setBoundDa hx with hx | hx
    · exact hw.1 t k x hx
    · simp at hx
  · simp at h
  · simp at h

theorem pr_daKey : Hoare (SrcInv A F) (daKey : Comp AbsStore _) (fun _ w => SrcInv A F w) := by
  intro w hw a w' h
  unfold daKey at h
  simp only [Store.daKey, Option.map_some, Option.some.injEq, Prod.mk.injEq] at h
  rw [← h.2]
  exact hw

theorem pr_dynamicLoad {ty : Ty} {id : Id} {v : Val} (hf : F ty id v) : Pr F (dynamicLoad id ty v : Comp AbsStore Unit) := by
  have ha : Pr F (daAppend ty id v : Comp AbsStore Unit) := (pr_daAppend_raw ty id v).post fun _ _ h => h.settle hf
  unfold dynamicLoad
  refine Pr.bind pr_daKey fun x => ?_
  split
  · exact Pr.ite ha (Pr.bind (pr_daReset _) fun _ => ha)
  · exact Pr.pure _

theorem pr_dynamicAccumulate (id : Id) (ty : Ty) (tag : Nat) (f : Val → Val) : Pr F (dynamicAccumulate cfg id ty tag f : Comp AbsStore Unit) := by
  have hs : Hoare (SrcInv (Objs.none.add ty id (f (cfg.dflt ty))) F)
      (do emit (.called tag); emit (.offered id ty (f (cfg.dflt ty))) : Comp AbsStore Unit) (fun _ w => SrcInv .none F w) :=
    Hoare.bind (pr_emit (by simp)) fun _ => pr_settle
  unfold dynamicAccumulate
  refine Pr.bind pr_daKey fun x => ?_
  split
  · dsimp only
    split
    · exact Hoare.bind (pr_daAppend_raw _ _ _) fun _ => hs
    · exact Hoare.bind (pr_daReset _) fun _ => Hoare.bind (pr_daAppend_raw _ _ _) fun _ => hs
  · exact Pr.pure _

theorem pr_slotUnload {id : Id} {ty : Ty} {c : Cell} (hf : ∀ v, c = some (id, v) → F ty id v) : Pr F (slotUnload cfg id ty c : Comp AbsStore Unit) := by
  unfold slotUnload
  by_cases hid : id = 0#32
  · simp only [hid, if_true]
    exact pr_ubBind
  simp only [hid, if_false]
  split
  · exact Pr.pure _
  · rename_i v hv
    have hv : F ty id v := by
      cases c with
      | none => simp [Cell.hasValue] at hv
      | some x =>
        obtain ⟨k, y⟩ := x
        simp only [Cell.hasValue] at hv
        split at hv
        · rename_i hk
          simp only [Option.some.injEq] at hv
          exact hf v (by rw [hk, hv])
        · simp at hv
    refine Pr.bind (pr_slotGet _) fun x => ?_
    split
    · exact Pr.ite (pr_slotSet hv) (Pr.pure _)
    · exact Pr.ite (pr_dynamicLoad hv) (Pr.pure _)

theorem pr_loadSlot {b : Bool} {id : Id} {ty : Ty} {v : Val} (hf : F ty id v) : Pr F (loadSlot cfg b id ty v : Comp AbsStore Unit) := by
  unfold loadSlot
  refine Pr.bind (pr_assertTagged _) fun _ => ?_
  refine Pr.bind (pr_slotGet _) fun x => ?_
  split
  · exact Pr.ite (pr_slotSet hf) (Pr.pure _)
  · exact Pr.ite (pr_dynamicLoad hf) (Pr.pure _)

theorem Objs.add_self (F : Objs) (ty : Ty) (id : Id) (v : Val) : F.add ty id v ty id v := Or.inr ⟨rfl, rfl, rfl⟩

theorem SrcInv.drop {w : World AbsStore} {ty : Ty} {id : Id} {v : Val} (h : SrcInv A (F.add ty id v) w) : SrcInv A F w :=
  h.weaken fun _ _ _ hx => Or.inl hx

/-- Supply an object, then go on. -/
theorem pr_supplied {α : Type} {e : Event} {ty : Ty} {id : Id} {v : Val} (he : e = .offered id ty v ∨ e = .transported id ty v) {x : Comp AbsStore α}
    (hx : Pr (F.add ty id v) x) : Pr F (emit e >>= fun _ => x) :=
  Hoare.bind (pr_supply he) fun _ => hx.post fun _ _ h => h.drop

theorem pr_loadItem (b : Bool) (id : Id) (i : Item) : Pr F (loadItem cfg b id i : Comp AbsStore Unit) := by
  cases i with
  | obj ty v => exact pr_supplied (Or.inl rfl) (pr_loadSlot (Objs.add_self _ _ _ _))
  | deferred ty tag v =>
    show Pr F (loadSlotDeferred cfg b id ty tag v)
    unfold loadSlotDeferred
    refine Pr.bind (pr_assertTagged _) fun _ => ?_
    refine Pr.bind (pr_slotGet _) fun x => ?_
    split
    · exact Pr.ite (Pr.bind (pr_emit (by simp)) fun _ => pr_supplied (Or.inl rfl) (pr_slotSet (Objs.add_self _ _ _ _))) (Pr.pure _)
    · exact Pr.ite (Pr.bind (pr_emit (by simp)) fun _ => pr_supplied (Or.inl rfl) (pr_dynamicLoad (Objs.add_self _ _ _ _))) (Pr.pure _)
  | accum ty tag f =>
    show Pr F (loadSlotAccumulate cfg id ty tag f)
    unfold loadSlotAccumulate
    refine Pr.bind (pr_assertTagged _) fun _ => ?_
    refine Pr.bind (pr_slotGet _) fun x => ?_
    split
    · exact Hoare.bind (pr_slotSet_raw _ _ _) fun _ => Hoare.bind (pr_emit (by simp)) fun _ => pr_settle
    · exact Pr.ite (pr_dynamicAccumulate _ _ _ _) (Pr.pure _)

theorem pr_loadItems (b : Bool) (id : Id) (is : List Item) : Pr F (loadItems cfg b id is : Comp AbsStore Unit) := by
  induction is with
  | nil => exact Pr.pure _
  | cons i is ih => exact Pr.bind (pr_loadItem _ _ _) fun _ => ih

theorem pr_errorIdLoad (id : Id) (is : List Item) : Pr F (errorIdLoad cfg id is : Comp AbsStore Unit) := by
  unfold errorIdLoad
  exact Pr.ite (pr_loadItems _ _ _) (Pr.pure _)

theorem pr_newError (is : List Item) : Pr F (newError cfg is : Comp AbsStore Id) :=
  Pr.bind pr_newId fun _ => Pr.bind (pr_errorIdLoad _ _) fun _ => Pr.pure _

theorem pr_triggerItems (id : Id) (is : List OnItem) : Pr F (triggerItems cfg id is : Comp AbsStore Unit) := by
  induction is with
  | nil => exact Pr.pure _
  | cons i is ih =>
    cases i with
    | item i => exact Pr.bind (pr_loadItem _ _ _) fun _ => ih
    | action t => exact Pr.bind (pr_emit (by simp)) fun _ => ih

theorem pr_importCode (ec : ErrorCode) (v : Val) : Pr F (importCode cfg ec v : Comp AbsStore Id) := by
  unfold importCode
  split
  · exact Pr.pure _
  · exact Pr.bind pr_newId fun _ => pr_supplied (Or.inl rfl) (Pr.bind (pr_loadSlot (Objs.add_self _ _ _ _)) fun _ => Pr.pure _)
  · exact Pr.ub

theorem pr_checkId (m : Id) (b : Bool) : Pr F (checkId cfg m b : Comp AbsStore Id) := by
  unfold checkId
  exact Pr.bind pr_currentId fun _ => Pr.ite (Pr.pure _) (Pr.ite pr_newId (Pr.pure _))

theorem pr_getId (m : Id) : Pr F (getId cfg m : Comp AbsStore Id) := by
  unfold getId
  exact Pr.bind pr_currentId fun _ => Pr.ite (Pr.pure _) pr_newId

theorem pr_unloadNodes (id : Id) (ns : List CapNode) : Pr F (unloadNodes cfg id ns : Comp AbsStore _) := by
  induction ns generalizing F with
  | nil => exact Pr.pure _
  | cons n ns ih =>
    cases n with
    | exc e => exact Pr.pure _
    | obj ty c =>
      rw [unloadNodes]
      split
      · rename_i v hv
        have hc : ∀ x, c = some (id, x) → (F.add ty id v) ty id x := by
          intro x hx
          subst hx
          simp only [Cell.hasValue, if_true, Option.some.injEq] at hv
          exact Or.inr ⟨rfl, rfl, hv⟩
        exact pr_supplied (Or.inr rfl) (Pr.bind (pr_slotUnload hc) fun _ => ih)
      · rename_i hv
        have hc : ∀ x, c = some (id, x) → F ty id x := by
          intro x hx
          subst hx
          simp [Cell.hasValue] at hv
        exact Pr.bind (pr_slotUnload hc) fun _ => ih

theorem pr_resultUnload (r : ErrRes) : Pr F (resultUnload cfg r : Comp AbsStore Out) := by
  cases r with
  | plain id => exact Pr.pure _
  | captured id ns =>
    rw [resultUnload]
    refine Pr.bind (pr_setCur _) fun _ => Pr.bind (pr_unloadNodes _ _) fun x => ?_
    split <;> exact Pr.pure _

theorem pr_unloadOut (o : Out) : Pr F (unloadOut cfg o : Comp AbsStore Out) := by
  cases o with
  | err r => exact pr_resultUnload r
  | _ => exact Pr.pure _

theorem pr_pushCtx (spec : List CellTy) : Pr F (pushCtx spec : Comp AbsStore Unit) := by
  intro w hw a w' h
  unfold pushCtx at h
  simp only [Store.push] at h
  split at h
  · simp only [Option.map_some, Option.some.injEq, Prod.mk.injEq, true_and] at h
    subst h
    refine ⟨fun t k x hx => ?_, hw.2⟩
    rcases inFrames_cons.mp hx with hx | hx
    · simp only [InFrames, List.mem_singleton, exists_eq_left, List.mem_map] at hx
      rcases hx with ⟨c, _, hc⟩ | ⟨key, ns, ⟨c, _, hc⟩, hn⟩
      · cases c <;> simp [CellTy.empty] at hc
      · cases c with
        | obj t => simp [CellTy.empty] at hc
        | da =>
          simp only [CellTy.empty, CtxCell.da.injEq] at hc
          rw [← hc.2] at hn
          simp at hn
    · exact hw.1 t k x hx
  · simp at h

theorem pr_popCtx : Hoare (SrcInv .none F) (popCtx : Comp AbsStore _) (fun cells w => SrcInv .none (F.cells cells) w) := by
  intro w hw a w' h
  unfold popCtx at h
  simp only [Store.pop] at h
  split at h
  · simp at h
  · rename_i f fs hf
    simp only [Option.map_some, Option.some.injEq, Prod.mk.injEq] at h
    obtain ⟨rfl, rfl⟩ := h
    rw [SrcInv, hf] at hw
    refine ⟨fun t k x hx => hw.1 t k x (inFrames_cons.mpr (Or.inr hx)), hw.2.1, fun t k x hx => ?_⟩
    rcases hx with hx | hx
    · exact hw.2.2 t k x hx
    · exact (hw.1 t k x (inFrames_cons.mpr (Or.inl hx))).resolve_left id

theorem pr_unloadDaNodes {id : Id} {ns : List (Ty × Cell)} (h : ∀ ty k v, (ty, some (k, v)) ∈ ns → F ty k v) :
    Pr F (unloadDaNodes cfg id ns : Comp AbsStore Unit) := by
  induction ns with
  | nil => exact Pr.pure _
  | cons n ns ih =>
    obtain ⟨ty, c⟩ := n
    exact Pr.bind (pr_slotUnload fun v hv => h ty id v (by simp [hv])) fun _ => ih fun t k v hm => h t k v (List.mem_cons_of_mem _ hm)

theorem pr_unloadCells {id : Id} {cells : List CtxCell} (hc : ∀ ty k v, InFrames [cells] ty k v → F ty k v) : Pr F (unloadCells cfg id cells : Comp AbsStore Unit) := by
  induction cells with
  | nil => exact Pr.pure _
  | cons c cs ih =>
    refine Pr.bind (ih fun ty k v hm => hc ty k v (inFrame_cons.mpr (Or.inr hm))) fun _ => ?_
    cases c with
    | obj t d =>
      exact pr_slotUnload fun v hv => hc t id v (inFrame_cons.mpr (Or.inl ⟨_, List.mem_singleton.mpr rfl, Or.inl (by simp [hv])⟩))
    | da k ns =>
      unfold unloadCell
      by_cases hid : id = 0#32
      · simp only [hid, if_true]
        exact pr_ubBind
      simp only [hid, if_false]
      refine Pr.ite (Pr.bind (pr_setCur _) fun _ => pr_unloadDaNodes fun ty k' v hm => ?_) (Pr.pure _)
      exact hc ty k' v (inFrame_cons.mpr (Or.inl ⟨_, List.mem_singleton.mpr rfl, Or.inr ⟨k, ns, List.mem_singleton.mpr rfl, hm⟩⟩))

theorem pr_unpackId (e : Exc) : Pr F (unpackId e : Comp AbsStore _) := by
  unfold unpackId
  refine Pr.ite ?_ (Pr.bind pr_currentError fun _ => Pr.pure _)
  split
  · exact Pr.pure _
  · exact Pr.pure _
  · exact Pr.bind pr_currentError fun _ => Pr.pure _

theorem pr_destroyExc (e : Exc) : Pr F (destroyExc e : Comp AbsStore _) := by
  unfold destroyExc
  split
  · exact Pr.bind pr_getCur fun _ => Pr.ite (pr_setCur _) (Pr.pure _)
  · exact Pr.pure _

theorem findCell_inFrames {ty : Ty} {cells : List CtxCell} {id : Id} {v : Val} {c : Cell} (h : findCell ty cells = some c) (hv : c.hasValue id = some v) :
    InFrames [cells] ty id v := by
  have hc : c = some (id, v) := by
    cases c with
    | none => simp [Cell.hasValue] at hv
    | some x =>
      obtain ⟨k, y⟩ := x
      simp only [Cell.hasValue] at hv
      split at hv
      · rename_i hk
        simp only [Option.some.injEq] at hv
        rw [hk, hv]
      · simp at hv
  subst hc
  induction cells with
  | nil => simp [findCell] at h
  | cons x cs ih =>
    cases x with
    | obj t d =>
      simp only [findCell] at h
      split at h
      · rename_i ht
        simp only [Option.some.injEq] at h
        subst ht h
        exact ⟨_, List.mem_singleton.mpr rfl, Or.inl (by simp)⟩
      · exact inFrame_cons.mpr (Or.inr (ih h))
    | da k ns => exact inFrame_cons.mpr (Or.inr (ih h))

/-- What `ctxLoc` gives was stored for the error. -/
def LocOk (cells : List CtxCell) (id : Id) (loc : Option Val) : Prop := ∀ l, loc = some l → InFrames [cells] tySrcLoc id l

theorem pr_ctxLoc (id : Id) (cells : List CtxCell) : Hoare (SrcInv .none F) (ctxLoc id cells : Comp AbsStore _) (fun loc w => LocOk cells id loc ∧ SrcInv .none F w) := by
  unfold ctxLoc
  split
  · exact Hoare.pure fun _ h => ⟨by simp [LocOk], h⟩
  · rename_i c hc
    split
    · exact Hoare.ub
    · exact Hoare.pure fun _ h => ⟨fun l hl => findCell_inFrames hc hl, h⟩

theorem lookup_mem {ty : Ty} {v : Val} {l : List (Ty × Val)} (h : l.lookup ty = some v) : (ty, v) ∈ l := by
  induction l with
  | nil => simp at h
  | cons x l ih =>
    obtain ⟨t, y⟩ := x
    simp only [List.lookup_cons] at h
    split at h
    · rename_i ht
      simp only [beq_iff_eq] at ht
      simp only [Option.some.injEq] at h
      subst ht h
      simp
    · exact List.mem_cons_of_mem _ (ih h)

theorem peek_from {cells : List CtxCell} {id : Id} {ex : Option Exc} {ty : Ty} {v : Val} (h : peek cfg cells id ex ty = some v) :
    InFrames [cells] ty id v ∨ ∃ e, ex = some e ∧ (ty, v) ∈ e.casts := by
  unfold peek at h
  split at h
  · simp at h
  · split at h
    · rename_i x hx
      simp only [Option.some.injEq] at h
      subst h
      split at hx
      · simp at hx
      · cases hc : findCell ty cells with
        | none => simp [hc] at hx
        | some c =>
          rw [hc, Option.bind_some] at hx
          exact Or.inl (findCell_inFrames hc hx)
    · cases ex with
      | none => simp at h
      | some e => exact Or.inr ⟨e, rfl, lookup_mem h⟩

theorem ctxObjs_from {cells : List CtxCell} {id : Id} (hid : id ≠ 0#32) {o : Ty × Val} (h : o ∈ ctxObjs id cells) : InFrames [cells] o.1 id o.2 := by
  unfold ctxObjs at h
  rw [List.mem_filterMap] at h
  obtain ⟨c, hc, he⟩ := h
  split at he
  · split at he
    · simp at he
    · rename_i ty k v hk
      simp only [Option.some.injEq] at he
      subst he
      simp only [hid, ne_eq, not_false_eq_true, true_and, Decidable.not_not] at hk
      subst hk
      exact ⟨_, List.mem_singleton.mpr rfl, Or.inl hc⟩
  · simp at he

theorem daObjs_from {cells : List CtxCell} {id : Id} (hid : id ≠ 0#32) {o : Ty × Val} (h : o ∈ daObjs id cells) : InFrames [cells] o.1 id o.2 := by
  unfold daObjs at h
  rw [List.mem_flatMap] at h
  obtain ⟨c, hc, he⟩ := h
  split at he
  · split at he
    · simp at he
    · rename_i key ns _
      rw [List.mem_filterMap] at he
      obtain ⟨n, hn, he⟩ := he
      split at he
      · split at he
        · simp at he
        · rename_i ty k v hk
          simp only [Option.some.injEq] at he
          subst he
          simp only [hid, ne_eq, not_false_eq_true, true_and, Decidable.not_not] at hk
          subst hk
          exact ⟨_, List.mem_singleton.mpr rfl, Or.inr ⟨_, _, hc, hn⟩⟩
      · simp at he
  · simp at he

theorem getArgs_from {cells : List CtxCell} {id : Id} {ex : Option Exc} {loc : Option Val} {past : List Event} (hl : LocOk cells id loc)
    (hp : ∀ ty k v, InFrames [cells] ty k v → Supplied past k ty v) {args : List Arg} {vals : List ArgVal}
    (h : getArgs cfg cells id ex loc args = some vals) : ∀ a ∈ vals, a.From past id ex := by
  induction args generalizing vals with
  | nil =>
    simp only [getArgs, Option.some.injEq] at h
    subst h
    simp
  | cons a as ih =>
    simp only [getArgs, Option.bind_eq_bind] at h
    cases ha : Arg.get cfg cells id ex loc a with
    | none => simp [ha] at h
    | some v =>
      cases hr : getArgs cfg cells id ex loc as with
      | none => simp [ha, hr] at h
      | some vs =>
        simp only [ha, hr, Option.bind_some, Option.pure_def, Option.some.injEq] at h
        subst h
        have hpk : ∀ {ty v}, peek cfg cells id ex ty = some v → Supplied past id ty v ∨ ∃ e, ex = some e ∧ (ty, v) ∈ e.casts :=
          fun h => (peek_from h).imp (hp _ _ _) (·)
        have hloc : ∀ l, loc = some l → Supplied past id tySrcLoc l := fun l h => hp _ _ _ (hl l h)
        intro x hx
        rcases List.mem_cons.mp hx with rfl | hx
        · cases a with
          | req ty =>
            simp only [Arg.get, Option.map_eq_some_iff] at ha
            obtain ⟨y, h1, rfl⟩ := ha
            exact hpk h1
          | ptr ty =>
            simp only [Arg.get, Option.some.injEq] at ha
            subst ha
            exact fun y hy => hpk hy
          | pred ty p =>
            simp only [Arg.get, Option.map_eq_some_iff] at ha
            obtain ⟨y, h1, rfl⟩ := ha
            exact hpk h1
          | catch_ p =>
            simp only [Arg.get, Option.map_eq_some_iff] at ha
            obtain ⟨y, h1, rfl⟩ := ha
            exact h1
          | info =>
            simp only [Arg.get, Option.some.injEq] at ha
            subst ha
            exact ⟨rfl, rfl, hloc⟩
          | diag =>
            simp only [Arg.get, Option.some.injEq] at ha
            subst ha
            exact ⟨rfl, rfl, hloc, fun hid o ho => hp _ _ _ (ctxObjs_from hid ho)⟩
          | details =>
            simp only [Arg.get, Option.some.injEq] at ha
            subst ha
            refine ⟨rfl, rfl, hloc, fun hid o ho => ?_⟩
            rcases List.mem_append.mp ho with ho | ho
            · exact hp _ _ _ (ctxObjs_from hid ho)
            · exact hp _ _ _ (daObjs_from hid ho)
        · exact ih hr x hx

/-! ### Handling -/

theorem SrcInv.dropCells {w : World AbsStore} {cells : List CtxCell} (h : SrcInv A (F.cells cells) w) : SrcInv A F w := h.weaken fun _ _ _ hx => Or.inl hx

/-- Pop a context, then go on. -/
theorem pr_popped {α : Type} {f : List CtxCell → Comp AbsStore α} (hf : ∀ cells, Pr (F.cells cells) (f cells)) : Pr F (popCtx >>= f) :=
  Hoare.bind pr_popCtx fun cells => (hf cells).post fun _ _ h => h.dropCells

section
variable {specs : List (List Arg)} {body : Nat → List ArgVal → Comp AbsStore Out} (hbody : ∀ F i args, Pr F (body i args))
include hbody

theorem pr_callHandler {cells : List CtxCell} {id : Id} {loc : Option Val} (hl : LocOk cells id loc) (hF : ∀ ty k v, InFrames [cells] ty k v → F ty k v) (ex : Option Exc)
    (i : Nat) : Pr F (callHandler cfg specs body cells id ex loc i) := by
  unfold callHandler
  split
  · exact Pr.ub
  · split
    · exact Pr.ub
    · rename_i vals hv
      refine Pr.bind ?_ fun _ => hbody _ _ _
      intro w hw a w' h
      rw [emit_ok h]
      refine hw.emit fun id' ex' i' args' he => ?_
      simp only [Event.handled.injEq] at he
      obtain ⟨rfl, rfl, rfl, rfl⟩ := he
      exact getArgs_from hl (fun ty k v hx => hw.2.2 ty k v (hF ty k v hx)) hv

theorem pr_catchPath (e : Exc) : Hoare (SrcInv .none F) (catchPath cfg specs body e) (fun p w => SrcInv .none (F.cells p.2) w) := by
  unfold catchPath
  refine Hoare.bind pr_popCtx fun cells => ?_
  refine Hoare.bind (pr_unpackId e) fun p => ?_
  refine Hoare.bind (pr_pushHandling _) fun _ => ?_
  refine Hoare.bind (pr_ctxLoc _ _) fun loc => Hoare.assume fun hl => ?_
  split
  · refine Hoare.bind (pr_callHandler hbody hl (fun _ _ _ h => Or.inr h) _ _) fun o => ?_
    refine Hoare.bind pr_popHandling fun _ => Hoare.bind (pr_destroyExc _) fun _ => ?_
    exact Hoare.pure fun _ hw => hw
  · refine Hoare.bind (pr_unloadCells (fun _ _ _ h => Or.inr h)) fun _ => Hoare.bind pr_popHandling fun _ => ?_
    exact Hoare.pure fun _ hw => hw

theorem pr_tryHandleAll {block : Comp AbsStore Out} (hb : ∀ F, Pr F block) : Pr F (tryHandleAll cfg specs block body) := by
  unfold tryHandleAll
  have hn : ∀ F o, Pr F (noErr o) := by
    intro F o
    cases o with
    | err r => exact Pr.ub
    | _ => exact Pr.pure _
  refine Pr.bind (pr_pushCtx _) fun _ => Pr.bind (hb F) fun o => Pr.bind (pr_unloadOut o) fun o => ?_
  cases o with
  | val v => exact pr_popped fun _ => Pr.pure _
  | err r =>
    refine Pr.bind (pr_resultUnload _) fun _ => pr_popped fun cells => ?_
    refine Hoare.bind (pr_ctxLoc _ _) fun loc => Hoare.assume fun hl => ?_
    split
    · exact Pr.bind (pr_callHandler hbody hl (fun _ _ _ h => Or.inr h) _ _) fun o => hn _ o
    · exact Pr.ub
  | exc e => exact Hoare.bind (pr_catchPath hbody e) fun p => (hn _ p.1).post fun _ _ h => h.dropCells

theorem pr_tryHandleSome {block : Comp AbsStore Out} (hb : ∀ F, Pr F block) : Pr F (tryHandleSome cfg specs block body) := by
  unfold tryHandleSome
  have hfin : ∀ (F : Objs) (o : Out) (cells : List CtxCell),
      Pr (F.cells cells) (match o with | .err r' => (do unloadCells cfg r'.errId cells; pure o) | _ => pure o) := by
    intro F o cells
    cases o with
    | err r => exact Pr.bind (pr_unloadCells (fun _ _ _ h => Or.inr h)) fun _ => Pr.pure _
    | _ => exact Pr.pure _
  refine Pr.bind (pr_pushCtx _) fun _ => Pr.bind (hb F) fun o => Pr.bind (pr_unloadOut o) fun o => ?_
  cases o with
  | val v => exact pr_popped fun _ => Pr.pure _
  | err r =>
    refine Pr.bind (pr_resultUnload _) fun _ => pr_popped fun cells => ?_
    refine Hoare.bind (pr_ctxLoc _ _) fun loc => Hoare.assume fun hl => ?_
    dsimp only
    split
    · exact Pr.bind (pr_callHandler hbody hl (fun _ _ _ h => Or.inr h) _ _) fun o => hfin F o cells
    · exact Pr.bind (Pr.pure _) fun o => hfin F o cells
  | exc e => exact Hoare.bind (pr_catchPath hbody e) fun p => (hfin F p.1 p.2).post fun _ _ h => h.dropCells

theorem pr_tryCatch {block : Comp AbsStore Out} (hb : ∀ F, Pr F block) : Pr F (tryCatch cfg specs block body) := by
  unfold tryCatch
  refine Pr.bind (pr_pushCtx _) fun _ => Pr.bind (hb F) fun o => ?_
  cases o with
  | exc e => exact Hoare.bind (pr_catchPath hbody e) fun p => Hoare.pure fun _ h => h.dropCells
  | _ => exact pr_popped fun _ => Pr.pure _

end

theorem pr_extractCaptured (id : Id) (cells : List CtxCell) (ex : Option Exc) : Pr F (extractCaptured id cells ex : Comp AbsStore Out) := by
  unfold extractCaptured
  exact Pr.bind (pr_assertTagged _) fun _ => Pr.pure _

theorem pr_catchHelper (e : Exc) (tys : List Ty) : Pr F (catchHelper cfg e tys : Comp AbsStore Id) := by
  induction tys with
  | nil => exact pr_newError _
  | cons ty tys ih =>
    refine Pr.bind ih fun id => ?_
    dsimp only
    split
    · exact Pr.bind (pr_errorIdLoad _ _) fun _ => Pr.pure _
    · exact Pr.pure _

theorem pr_eval (cfg : Cfg) (p : Prog) (F : Objs) : Pr F (eval cfg p) := by
  induction p generalizing F with
  | ret o => exact Pr.pure _
  | newError items k ih => exact Pr.bind (pr_newError _) fun id => ih id F
  | load id items k ih => exact Pr.bind (pr_errorIdLoad _ _) fun _ => ih F
  | importCode ec v k ih => exact Pr.bind (pr_importCode _ _) fun id => ih id F
  | currentError k ih => exact Pr.bind pr_currentError fun id => ih id F
  | bind p k ke ih ihk ihe =>
    rw [eval]
    refine Pr.bind (ih F) fun o => ?_
    cases o with
    | val v => exact ihk v F
    | err r => exact ihe r F
    | exc e => exact Pr.pure _
  | onError items body ih =>
    refine Pr.bind pr_currentId fun _ => Pr.bind (ih F) fun o => ?_
    refine Pr.bind (pr_checkId _ _) fun id => ?_
    dsimp only
    split
    · exact Pr.bind (pr_assertTagged _) fun _ => Pr.bind (pr_triggerItems _ _) fun _ => Pr.pure _
    · exact Pr.pure _
  | monNew k ih => exact Pr.bind pr_currentId fun id => ih id F
  | monCheck m k ih => exact Pr.bind (pr_checkId _ _) fun id => ih _ F
  | monAssigned m k ih => exact Pr.bind (pr_getId _) fun id => ih _ F
  | handleAll specs block body ih ihb => exact pr_tryHandleAll (fun F i args => ihb i args F) ih
  | handleSome specs block body ih ihb => exact pr_tryHandleSome (fun F i args => ihb i args F) ih
  | tryCatch specs block body ih ihb => exact pr_tryCatch (fun F i args => ihb i args F) ih
  | captureAll block ih =>
    rw [eval, tryCaptureAll]
    cases hc : cfg.capture with
    | false => simp; exact pr_ubBind
    | true =>
      simp
      refine Pr.bind (pr_pushCtx _) fun _ => Pr.bind (ih F) fun o => ?_
      cases o with
      | val v => exact pr_popped fun _ => Pr.pure _
      | err r => exact pr_popped fun cells => Pr.bind pr_currentException fun x => pr_extractCaptured _ _ _
      | exc e => exact pr_popped fun cells => Pr.bind (pr_unpackId _) fun x => pr_extractCaptured _ _ _
  | captureAllVoid block ih =>
    rw [eval, tryCaptureAllVoid]
    cases hc : cfg.capture with
    | false => simp; exact pr_ubBind
    | true =>
      simp
      refine Pr.bind (pr_pushCtx _) fun _ => Pr.bind (ih F) fun o => ?_
      cases o with
      | val v => exact Pr.ub
      | err r => exact Pr.ub
      | exc e => exact pr_popped fun cells => Pr.bind (pr_unpackId _) fun x => pr_extractCaptured _ _ _
  | excToResult tys block ih =>
    refine Pr.bind (ih F) fun o => ?_
    cases o with
    | exc e => exact Pr.bind (pr_catchHelper _ _) fun _ => Pr.pure _
    | _ => exact Pr.pure _
  | cppCatch block h ih ihh =>
    refine Pr.bind (ih F) fun o => ?_
    cases o with
    | exc e =>
      refine Pr.bind (pr_pushHandling _) fun _ => Pr.bind (ihh e F) fun o => ?_
      exact Pr.bind pr_popHandling fun _ => Pr.bind (pr_destroyExc _) fun _ => Pr.pure _
    | _ => exact Pr.pure _
  | cppRethrow block h ih ihh =>
    refine Pr.bind (ih F) fun o => ?_
    cases o with
    | exc e =>
      refine Pr.bind (pr_pushHandling _) fun _ => Pr.bind (ihh e F) fun o => ?_
      refine Pr.bind pr_popHandling fun _ => ?_
      cases o with
      | exc e' => exact Pr.bind (pr_destroyExc _) fun _ => Pr.pure _
      | _ => exact Pr.pure _
    | _ => exact Pr.pure _
  | unload r => exact pr_resultUnload r
  | value r tag =>
    refine Pr.bind (pr_resultUnload r) fun o => ?_
    cases o <;> exact Pr.pure _

end Leaf
