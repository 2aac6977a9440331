import Verif.CtorModel
import Verif.PropFnThrow

/-!
# C70: constructors of error objects that throw
-/

namespace Leaf

/-! ## Specification -/

/-- The argument with constructors that do not throw. -/
def CtorArg.arg : CtorArg → FnArg
  | .obj ty v _ _ => .obj ty v
  | .deferred ty tag v _ _ => .deferred ty tag (some v)
  | .accum ty tag f _ _ => .accum ty tag fun v => (f v, false)
  | .action tag => .action tag false

/-- No constructor throws. -/
def CtorArg.quiet : CtorArg → Bool
  | .obj _ _ _ throws => !throws
  | .deferred _ _ _ _ throws => !throws
  | .accum _ _ _ dflt move => !dflt && !move
  | .action _ => true

/-- The object goes to a new node of a capturing scope. -/
def Captured (cfg : Cfg) (ty : Ty) (ss : List Scope) : Prop := cfg.capture = true ∧ NoPlace ty ss ∧ ∃ s ∈ ss, Captures s

/-- A new object is stored in a slot (`on_error` does so only if there is none of this error). -/
def Replaced (onError : Bool) (id : Id) (ty : Ty) (ss : List Scope) : Prop := ¬ NoPlace ty ss ∧ (onError = true → available ty id ss = none)

/-- `on_error` with a function that returns a reference to an object whose copy constructor throws, when the copy goes to a capturing scope. -/
def CtorArg.Dangles (cfg : Cfg) (onError : Bool) (memory : Bool) (ss : List Scope) : CtorArg → Prop
  | .deferred ty _ _ copied throws => onError = true ∧ copied = true ∧ throws = true ∧ Captured cfg ty ss ∧ memory = true
  | _ => False

/-- A constructor is called and throws, and the exception is not ignored. `memory`: there is memory for a new node. -/
def CtorArg.Fails (cfg : Cfg) (onError : Bool) (id : Id) (memory : Bool) (ss : List Scope) : CtorArg → Prop
  | .obj ty _ _ throws => throws = true ∧ (Replaced onError id ty ss ∨ (Captured cfg ty ss ∧ memory = true))
  | .deferred ty _ _ copied throws => throws = true ∧ (Replaced onError id ty ss ∨ (Captured cfg ty ss ∧ memory = true ∧ ¬ (onError = true ∧ copied = true)))
  | .accum ty _ _ dflt move =>
    (¬ NoPlace ty ss ∧ available ty id ss = none ∧ (dflt = true ∨ move = true)) ∨
      (Captured cfg ty ss ∧ ((dflt = true ∧ onError = false) ∨ (dflt = false ∧ move = true ∧ memory = true)))
  | .action _ => False

/-- `on_error` with a function taking `E &` that is to get a new object in a capturing scope, when the default constructor of `E` throws. -/
def CtorArg.Ignored (cfg : Cfg) (onError : Bool) (ss : List Scope) : CtorArg → Prop
  | .accum ty _ _ dflt _ => onError = true ∧ dflt = true ∧ Captured cfg ty ss
  | _ => False

/-! ## Lemmas -/

theorem construct_quiet {M : Type} (copied : Bool) : (construct copied false : CompT M Bool) = pure true := rfl

section
variable {M : Type} [Store M]

theorem dynamicLoadC_quiet (mem : Nat → Bool) (onError : Bool) (id : Id) (ty : Ty) (v : Val) (copied : Bool) (n : Nat) (w : World M) :
    dynamicLoadC mem onError id ty v copied false n w = dynamicT onError (dynamicLoadT mem id ty v) n w := by
  have key : ∀ w, (allocate mem >>= fun b => if b then do
        if ← construct copied false then do
          lift (daAppend ty id v)
          return true
        else if onError then lift ub else return false
      else return onError : CompT M Bool) n w = dynamicT onError (daAppendT mem ty id v) n w := by
    intro w
    cases onError
    · simp only [dynamicT, Bool.false_eq_true, if_false, daAppendT, construct_quiet]
      rfl
    · simp only [dynamicT, if_true, Leaf.swallow, bindT_apply, allocate_apply, Option.bind_some, daAppendT, construct_quiet]
      cases mem n with
      | false => simp [pureT_apply]
      | true =>
        simp only [if_true, bindT_apply, pureT_apply, lift_apply, Option.bind_some]
        cases (daAppend ty id v : Comp M Unit) w <;> rfl
  have sw : ∀ (onError : Bool) (x : CompT M (Option Id)) (f : Option Id → CompT M Bool) n w, dynamicT onError (x >>= f) n w = (x >>= fun a => dynamicT onError (f a)) n w := by
    intro onError x f n w
    cases onError
    · rfl
    · simp only [dynamicT, if_true, Leaf.swallow, bindT_apply]
      cases x n w with
      | none => rfl
      | some p =>
        obtain ⟨_ | ⟨a, m⟩, w1⟩ := p
        · rfl
        · rfl
  unfold dynamicLoadC dynamicLoadT
  rw [sw, bindT_apply, bindT_apply, lift_apply]
  cases (daKey : Comp M (Option Id)) w with
  | none => rfl
  | some p =>
    obtain ⟨k, w1⟩ := p
    simp only [Option.map_some, Option.bind_some]
    cases k with
    | none => cases onError <;> rfl
    | some k =>
      dsimp only
      by_cases hk : k = 0#32
      · simp only [hk, ne_eq, not_true_eq_false, if_false]
        rw [bindT_apply, lift_apply]
        have : ∀ b, dynamicT b (lift (daReset id) >>= fun _ => daAppendT mem ty id v) n w1 = (lift (daReset id) >>= fun _ => dynamicT b (daAppendT mem ty id v)) n w1 := by
          intro b
          cases b
          · rfl
          · simp only [dynamicT, if_true, Leaf.swallow, bindT_apply, lift_apply]
            cases (daReset id : Comp M Unit) w1 with
            | none => rfl
            | some p => rfl
        rw [this, bindT_apply, lift_apply]
        cases (daReset id : Comp M Unit) w1 with
        | none => rfl
        | some p => exact key p.2
      · simp only [hk, ne_eq, not_false_eq_true, if_true]
        exact key w1


theorem dynamicAccumulateC_quiet (mem : Nat → Bool) (cfg : Cfg) (onError : Bool) (id : Id) (ty : Ty) (tag : Nat) (f : Val → Val) (n : Nat) (w : World M) :
    dynamicAccumulateC mem cfg onError id ty tag f false false n w = dynamicT onError (dynamicAccumulateX mem cfg id ty tag fun v => (f v, false)) n w := by
  have key : ∀ w, (if false = true then return onError
      else allocate mem >>= fun b => if b then do
        if ← construct false false then do
          lift (daAppend ty id (f (cfg.dflt ty)))
          lift (emit (.called tag)); lift (emit (.offered id ty (f (cfg.dflt ty))))
          return true
        else return false
      else return onError : CompT M Bool) n w = dynamicT onError (daAppendT mem ty id (f (cfg.dflt ty)) >>= fun b => if b then do
        lift (emit (.called tag)); lift (emit (.offered id ty (f (cfg.dflt ty))))
        return !false
      else return false) n w := by
    intro w
    simp only [Bool.false_eq_true, if_false, construct_quiet, daAppendT, bindT_apply, allocate_apply, Option.bind_some]
    cases onError
    · simp only [dynamicT, Bool.false_eq_true, if_false, bindT_apply, allocate_apply, Option.bind_some]
      cases mem n with
      | false => rfl
      | true =>
        simp only [if_true, bindT_apply, pureT_apply, lift_apply, Option.bind_some]
        cases (daAppend ty id (f (cfg.dflt ty)) : Comp M Unit) w <;> rfl
    · simp only [dynamicT, if_true, Leaf.swallow, bindT_apply, allocate_apply, Option.bind_some]
      cases mem n with
      | false => rfl
      | true =>
        simp only [if_true, bindT_apply, pureT_apply, lift_apply, Option.bind_some]
        cases (daAppend ty id (f (cfg.dflt ty)) : Comp M Unit) w <;> rfl
  have sw : ∀ {α : Type} (x : Comp M α) (f : α → CompT M Bool) w, dynamicT onError (lift x >>= f) n w = (x w).bind fun p => dynamicT onError (f p.1) n p.2 := by
    intro α x f w
    cases onError
    · simp only [dynamicT, Bool.false_eq_true, if_false, bindT_apply, lift_apply]
      cases x w <;> rfl
    · simp only [dynamicT, if_true, Leaf.swallow, bindT_apply, lift_apply]
      cases x w <;> rfl
  unfold dynamicAccumulateC dynamicAccumulateX
  rw [sw, bindT_apply, lift_apply]
  cases (daKey : Comp M (Option Id)) w with
  | none => rfl
  | some p =>
    obtain ⟨k, w1⟩ := p
    simp only [Option.map_some, Option.bind_some]
    cases k with
    | none => cases onError <;> rfl
    | some k =>
      dsimp only
      by_cases hk : k = id
      · simp only [hk, if_true]
        exact key w1
      · simp only [hk, if_false]
        rw [sw, bindT_apply, lift_apply]
        cases (daReset id : Comp M Unit) w1 with
        | none => rfl
        | some p => exact key p.2

theorem loadArgC_quiet (mem : Nat → Bool) (cfg : Cfg) (onError : Bool) (id : Id) (a : CtorArg) (h : a.quiet = true) (n : Nat) (w : World M) :
    loadArgC mem cfg onError id a n w = loadArgX mem cfg onError id a.arg n w := by
  cases a with
  | obj ty v copied throws =>
    simp only [CtorArg.quiet, Bool.not_eq_true'] at h
    subst h
    simp only [loadArgC, CtorArg.arg, loadArgX, loadSlotC, loadSlotT, construct_quiet, bindT_apply]
    cases lift (emit (.offered id ty v)) n w with
    | none => rfl
    | some p =>
      obtain ⟨_ | ⟨_, n1⟩, w1⟩ := p
      · rfl
      · simp only [Option.bind_some]
        cases lift (assertTagged id) n1 w1 with
        | none => rfl
        | some p =>
          obtain ⟨_ | ⟨_, n2⟩, w2⟩ := p
          · rfl
          · simp only [Option.bind_some]
            cases lift (slotGet ty) n2 w2 with
            | none => rfl
            | some p =>
              obtain ⟨_ | ⟨c, n3⟩, w3⟩ := p
              · rfl
              · simp only [Option.bind_some]
                cases c with
                | some c =>
                  dsimp only
                  split <;> rfl
                | none =>
                  dsimp only
                  split
                  · exact dynamicLoadC_quiet ..
                  · rfl
  | deferred ty tag v copied throws =>
    simp only [CtorArg.quiet, Bool.not_eq_true'] at h
    subst h
    simp only [loadArgC, CtorArg.arg, loadArgX, loadSlotDeferredC, loadSlotDeferredX, construct_quiet]
    simp only [bindT_apply]
    cases lift (assertTagged id) n w with
    | none => rfl
    | some p =>
      obtain ⟨_ | ⟨_, n2⟩, w2⟩ := p
      · rfl
      · simp only [Option.bind_some]
        cases lift (slotGet ty) n2 w2 with
        | none => rfl
        | some p =>
          obtain ⟨_ | ⟨c, n3⟩, w3⟩ := p
          · rfl
          · simp only [Option.bind_some]
            cases c with
            | some c =>
              dsimp only
              split <;> rfl
            | none =>
              dsimp only
              split
              · simp only [bindT_apply, lift_apply, emit, Option.map_some, Option.bind_some]
                exact dynamicLoadC_quiet ..
              · rfl
  | accum ty tag f dflt move =>
    simp only [CtorArg.quiet, Bool.and_eq_true, Bool.not_eq_true'] at h
    obtain ⟨rfl, rfl⟩ := h
    simp only [loadArgC, CtorArg.arg, loadArgX, loadSlotAccumulateC, loadSlotAccumulateX, construct_quiet]
    simp only [bindT_apply]
    cases lift (assertTagged id) n w with
    | none => rfl
    | some p =>
      obtain ⟨_ | ⟨_, n2⟩, w2⟩ := p
      · rfl
      · simp only [Option.bind_some]
        cases lift (slotGet ty) n2 w2 with
        | none => rfl
        | some p =>
          obtain ⟨_ | ⟨c, n3⟩, w3⟩ := p
          · rfl
          · simp only [Option.bind_some]
            cases c with
            | some c =>
              dsimp only
              cases c.hasValue id <;> rfl
            | none =>
              dsimp only
              split
              · exact dynamicAccumulateC_quiet ..
              · rfl
  | action tag => rfl

end

/-- The scopes hold the same objects; only an empty list of captured objects may have been assigned to error `id`. -/
def SameObjects (w w' : World PtrStore) : Prop :=
  w'.trace = w.trace ∧ (∀ ty, boundCell ty (scopes w') = boundCell ty (scopes w)) ∧ (boundDa (scopes w')).map Prod.snd = (boundDa (scopes w)).map Prod.snd

theorem daReset_run {id : Id} (hid : id.Tagged) {w : World PtrStore} (hw : ThreadOk w) {ns : List (Ty × Cell)} (hd : boundDa (scopes w) = some (0#32, ns)) {ty : Ty}
    (hb : boundCell ty (scopes w) = none) : ∃ w', (daReset id : Comp PtrStore Unit) w = some ((), w') ∧ KeptX id w w' ∧ SameObjects w w' := by
  obtain ⟨b, n', w', h1, h2, _⟩ := dynamicLoadT_run (fun _ => false) hid 0 0 hw hb
  have hk := PtrStore.daKey_ok hw.inv
  have hs : (PtrStore.abs w.mem).frames = scopes w := rfl
  rw [hs, hd] at hk
  simp only [dynamicLoadT, daAppendT, bindT_apply, lift_apply, daKey, Store.daKey, hk, Option.map_some, Option.bind_some, ne_eq, not_true_eq_false, if_false] at h1
  cases hr : (daReset id : Comp PtrStore Unit) w with
  | none => simp [hr] at h1
  | some q =>
    obtain ⟨⟨⟩, w1⟩ := q
    simp only [hr, Option.map_some, Option.bind_some, allocate_apply, Bool.false_eq_true, if_false, pureT_apply, Option.some.injEq, Prod.mk.injEq] at h1
    obtain ⟨_, rfl⟩ := h1
    refine ⟨w1, rfl, h2, ?_⟩
    have hns : ns = [] := boundDa_good hw.good.frames hd rfl
    subst hns
    obtain ⟨m', e1, e2, _⟩ := PtrStore.daReset_ok hw.inv id (x := ⟨setBoundDa id [] (scopes w)⟩) (by simp only [Store.daReset, hs, hd])
    have hw1 : w1 = { w with mem := m' } := by
      simp only [daReset, Store.daReset, e1, Option.map_some, Option.some.injEq, Prod.mk.injEq, true_and] at hr
      exact hr.symm
    have hsc : scopes w1 = setBoundDa id [] (scopes w) := by
      rw [hw1]
      show (PtrStore.abs m').frames = _
      rw [e2]
    refine ⟨by rw [hw1], fun ty => by rw [hsc]; exact boundCell_setBoundDa_nil ty _ _ hd, by rw [hsc, boundDa_setBoundDa hd, hd]; rfl⟩


theorem slotGet_run {w : World PtrStore} (hw : ThreadOk w) (ty : Ty) : (slotGet ty : Comp PtrStore (Option Cell)) w = some (boundCell ty (scopes w), w) := by
  have hg := PtrStore.slotGet_ok hw.inv ty
  have hs : (PtrStore.abs w.mem).frames = scopes w := rfl
  simp only [slotGet, Store.slotGet, hg, hs, Option.map_some]

theorem daKey_run {w : World PtrStore} (hw : ThreadOk w) : (daKey : Comp PtrStore (Option Id)) w = some ((boundDa (scopes w)).map Prod.fst, w) := by
  have hk := PtrStore.daKey_ok hw.inv
  have hs : (PtrStore.abs w.mem).frames = scopes w := rfl
  simp only [daKey, Store.daKey, hk, hs, Option.map_some]

/-- An object whose constructor throws is to be captured. -/
theorem dynamicLoadC_throws (mem : Nat → Bool) (onError : Bool) {id : Id} (hid : id.Tagged) (ty : Ty) (v : Val) (copied : Bool) (n : Nat) {w : World PtrStore} (hw : ThreadOk w)
    (hb : boundCell ty (scopes w) = none) :
    ((∃ s ∈ scopes w, Captures s) → mem n = true → (onError = true ∧ copied = true → dynamicLoadC mem onError id ty v copied true n w = none) ∧
      (¬ (onError = true ∧ copied = true) → ∃ w', noexcept (dynamicLoadC mem onError id ty v copied true) n w = some (none, w') ∧ KeptX id w w')) ∧
    (¬ ((∃ s ∈ scopes w, Captures s) ∧ mem n = true) → dynamicLoadC mem onError id ty v copied true n w = dynamicLoadC mem onError id ty v copied false n w) := by
  have hk := daKey_run hw
  cases hd : boundDa (scopes w) with
  | none =>
    have hx : ¬ ∃ s ∈ scopes w, Captures s := fun h => by have := (boundDa_isSome _).mpr h; simp [hd] at this
    refine ⟨fun h => absurd h hx, fun _ => ?_⟩
    simp only [dynamicLoadC, bindT_apply, lift_apply, hk, hd, Option.map_none, Option.map_some, Option.bind_some]
  | some d =>
    obtain ⟨k, ns⟩ := d
    have hx : ∃ s ∈ scopes w, Captures s := (boundDa_isSome _).mp (by simp [hd])
    have hstart : ∀ t, ∃ w1, KeptX id w w1 ∧ dynamicLoadC mem onError id ty v copied t n w = (do
        if ← allocate mem then do
          if ← construct copied t then do
            lift (daAppend ty id v)
            return true
          else if onError then lift ub else return false
        else return onError : CompT PtrStore Bool) n w1 := by
      intro t
      by_cases h0 : k = 0#32
      · subst h0
        obtain ⟨w1, h1, h2, _⟩ := daReset_run hid hw hd hb
        refine ⟨w1, h2, ?_⟩
        simp only [dynamicLoadC, bindT_apply, lift_apply, hk, hd, Option.map_some, Option.bind_some, ne_eq, not_true_eq_false, if_false, h1]
      · refine ⟨w, .refl hw rfl, ?_⟩
        unfold dynamicLoadC
        rw [bindT_apply, lift_apply, hk, hd]
        simp only [Option.map_some, Option.bind_some, ne_eq, h0, not_false_eq_true, if_true]
    constructor
    · intro _ hm
      obtain ⟨w1, h1, h2⟩ := hstart true
      constructor
      · rintro ⟨rfl, rfl⟩
        rw [h2]
        simp [bindT_apply, allocate_apply, hm, construct, pureT_apply, lift_apply, ub]
      · intro hx
        refine ⟨w1, ?_, h1⟩
        rw [noexcept, bindT_apply, h2]
        cases copied with
        | false => simp [bindT_apply, allocate_apply, hm, construct, terminate_apply]
        | true =>
          have : onError = false := by
            cases onError
            · rfl
            · exact absurd ⟨rfl, rfl⟩ hx
          subst this
          simp [bindT_apply, allocate_apply, hm, construct, pureT_apply, terminate_apply]
    · intro hne
      have hm : mem n = false := by
        cases hm : mem n
        · rfl
        · exact absurd ⟨hx, hm⟩ hne
      have hsame : ∀ w1, (do
        if ← allocate mem then do
          if ← construct copied true then do
            lift (daAppend ty id v)
            return true
          else if onError then lift ub else return false
        else return onError : CompT PtrStore Bool) n w1 = (do
        if ← allocate mem then do
          if ← construct copied false then do
            lift (daAppend ty id v)
            return true
          else if onError then lift ub else return false
        else return onError : CompT PtrStore Bool) n w1 := by
        intro w1
        simp only [bindT_apply, allocate_apply, Option.bind_some, hm, Bool.false_eq_true, if_false]
      unfold dynamicLoadC
      rw [bindT_apply, bindT_apply, lift_apply, hk, hd]
      simp only [Option.map_some, Option.bind_some]
      by_cases h0 : k = 0#32
      · subst h0
        simp only [ne_eq, not_true_eq_false, if_false]
        rw [bindT_apply, bindT_apply, lift_apply]
        cases (daReset id : Comp PtrStore Unit) w with
        | none => rfl
        | some q => exact hsame q.2
      · simp only [ne_eq, h0, not_false_eq_true, if_true]
        exact hsame w


/-- A function taking `E &` is to get a new object in a capturing scope. -/
theorem dynamicAccumulateC_throws (mem : Nat → Bool) (cfg : Cfg) (onError : Bool) {id : Id} (hid : id.Tagged) (ty : Ty) (tag : Nat) (f : Val → Val) (dflt move : Bool) (n : Nat)
    {w : World PtrStore} (hw : ThreadOk w) (hc : cfg.capture = true) (hb : boundCell ty (scopes w) = none) (ha : AccOk cfg id (scopes w)) :
    ((∃ s ∈ scopes w, Captures s) →
      (dflt = true → ∃ w', KeptX id w w' ∧ SameObjects w w' ∧ dynamicAccumulateC mem cfg onError id ty tag f dflt move n w = some (some (onError, n), w')) ∧
      (dflt = false → move = true → mem n = true → ∃ w', KeptX id w w' ∧ dynamicAccumulateC mem cfg onError id ty tag f dflt move n w = some (none, w'))) ∧
    (¬ ((∃ s ∈ scopes w, Captures s) ∧ (dflt = true ∨ (move = true ∧ mem n = true))) →
      dynamicAccumulateC mem cfg onError id ty tag f dflt move n w = dynamicAccumulateC mem cfg onError id ty tag f false false n w) := by
  have hk := daKey_run hw
  cases hd : boundDa (scopes w) with
  | none =>
    have hx : ¬ ∃ s ∈ scopes w, Captures s := fun h => by have := (boundDa_isSome _).mpr h; simp [hd] at this
    refine ⟨fun h => absurd h hx, fun _ => ?_⟩
    simp only [dynamicAccumulateC, bindT_apply, lift_apply, hk, hd, Option.map_none, Option.map_some, Option.bind_some]
  | some d =>
    obtain ⟨k, ns⟩ := d
    have hx : ∃ s ∈ scopes w, Captures s := (boundDa_isSome _).mp (by simp [hd])
    have hstart : ∃ w1, KeptX id w w1 ∧ SameObjects w w1 ∧ ∀ dflt move, dynamicAccumulateC mem cfg onError id ty tag f dflt move n w = (do
        if dflt then return onError
        else if ← allocate mem then do
          if ← construct false move then do
            lift (daAppend ty id (f (cfg.dflt ty)))
            lift (emit (.called tag)); lift (emit (.offered id ty (f (cfg.dflt ty))))
            return true
          else return false
        else return onError : CompT PtrStore Bool) n w1 := by
      rcases ha hc k ns hd with h0 | h0
      · subst h0
        obtain ⟨w1, h1, h2, h3⟩ := daReset_run hid hw hd hb
        refine ⟨w1, h2, h3, fun dflt move => ?_⟩
        have hne : ¬ 0#32 = id := fun e => tagged_ne hid e.symm
        simp only [dynamicAccumulateC, bindT_apply, lift_apply, hk, hd, Option.map_some, Option.bind_some, hne, if_false, h1]
      · subst h0
        refine ⟨w, .refl hw rfl, ⟨rfl, fun _ => rfl, rfl⟩, fun dflt move => ?_⟩
        unfold dynamicAccumulateC
        rw [bindT_apply, lift_apply, hk, hd]
        simp only [Option.map_some, Option.bind_some, if_true]
    obtain ⟨w1, h1, h2, h3⟩ := hstart
    refine ⟨fun _ => ⟨?_, ?_⟩, ?_⟩
    · rintro rfl
      exact ⟨w1, h1, h2, by rw [h3]; rfl⟩
    · rintro rfl rfl hm
      exact ⟨w1, h1, by rw [h3]; simp [bindT_apply, allocate_apply, hm, construct, terminate_apply]⟩
    · intro hne
      have hdf : dflt = false := by
        cases dflt
        · rfl
        · exact absurd ⟨hx, Or.inl rfl⟩ hne
      subst hdf
      rw [h3, h3]
      cases move with
      | false => rfl
      | true =>
        have hm : mem n = false := by
          cases hm : mem n
          · rfl
          · exact absurd ⟨hx, Or.inr ⟨rfl, hm⟩⟩ hne
        simp [bindT_apply, allocate_apply, hm]

/-- Everything that can happen to one argument. -/
theorem loadArgC_cases (mem : Nat → Bool) (cfg : Cfg) (onError : Bool) {id : Id} (hid : id.Tagged) (a : CtorArg) (n : Nat) {w : World PtrStore} (hw : ThreadOk w)
    (ha : a.arg.isAccum = true → AccOk cfg id (scopes w)) :
    (a.Dangles cfg onError (mem n) (scopes w) → loadArgC mem cfg onError id a n w = none) ∧
    (a.Fails cfg onError id (mem n) (scopes w) → ∃ w', noexcept (loadArgC mem cfg onError id a) n w = some (none, w') ∧ KeptX id w w') ∧
    (a.Ignored cfg onError (scopes w) → ∃ w', loadArgC mem cfg onError id a n w = some (some (true, n), w') ∧ KeptX id w w' ∧ SameObjects w w') ∧
    (¬ a.Dangles cfg onError (mem n) (scopes w) → ¬ a.Fails cfg onError id (mem n) (scopes w) → ¬ a.Ignored cfg onError (scopes w) →
      loadArgC mem cfg onError id a n w = loadArgX mem cfg onError id a.arg n w) := by
  cases a with
  | obj ty v copied throws =>
    refine ⟨False.elim, ?_, False.elim, ?_⟩
    · rintro ⟨rfl, h⟩
      have hw1 := hw.emit (.offered id ty v)
      have hg := slotGet_run hw1 ty
      change slotGet ty _ = some (boundCell ty (scopes w), _) at hg
      unfold Replaced Captured at h
      rw [← bound_none_iff] at h
      cases hb : boundCell ty (scopes w) with
      | some c =>
        rw [hb] at hg h
        simp only [reduceCtorEq, not_false_eq_true, true_and, false_and, and_false, or_false] at h
        rw [available_of_bound hb] at h
        have hcond : (!onError || (c.hasValue id).isNone) = true := by
          cases onError
          · rfl
          · simp [h rfl]
        refine ⟨_, ?_, KeptX.refl hw1 rfl⟩
        simp only [noexcept, loadArgC, loadSlotC, bindT_apply, lift_apply, emit, assertTagged, hid, if_true, Option.map_some, Option.bind_some, hg, hcond, construct]
        cases (copied && !onError) <;> simp [pureT_apply, terminate_apply]
      | none =>
        rw [hb] at hg h
        simp only [not_true_eq_false, false_and, true_and, false_or] at h
        obtain ⟨⟨hc, hcap⟩, hm⟩ := h
        obtain ⟨w', h1, h2⟩ := ((dynamicLoadC_throws mem onError hid ty v (copied && !onError) n hw1 hb).1 hcap hm).2 (by rintro ⟨rfl, h⟩; simp at h)
        refine ⟨w', ?_, h2⟩
        rw [← h1]
        simp only [noexcept, loadArgC, loadSlotC, bindT_apply, lift_apply, emit, assertTagged, hid, if_true, Option.map_some, Option.bind_some, hg, hc]
    · intro _ hf _
      cases throws with
      | false => exact loadArgC_quiet mem cfg onError id _ rfl n w
      | true =>
        refine Eq.trans ?_ (loadArgC_quiet mem cfg onError id (.obj ty v copied false) rfl n w)
        have hw1 := hw.emit (.offered id ty v)
        have hg := slotGet_run hw1 ty
        change slotGet ty _ = some (boundCell ty (scopes w), _) at hg
        simp only [CtorArg.Fails, true_and, not_or] at hf
        unfold Replaced Captured at hf
        rw [← bound_none_iff] at hf
        simp only [loadArgC, loadSlotC, bindT_apply, lift_apply, emit, assertTagged, hid, if_true, Option.map_some, Option.bind_some, hg]
        cases hb : boundCell ty (scopes w) with
        | some c =>
          rw [hb, available_of_bound hb] at hf
          have hcond : (!onError || (c.hasValue id).isNone) = false := by
            cases onError
            · simp at hf
            · simpa [Option.isSome_iff_ne_none] using hf.1
          simp only [hcond]
          rfl
        | none =>
          dsimp only
          by_cases hc : cfg.capture = true
          · simp only [hc, if_true]
            refine (dynamicLoadC_throws mem onError hid ty v (copied && !onError) n hw1 hb).2 fun ⟨h1, h2⟩ => ?_
            exact hf.2 ⟨⟨hc, hb, h1⟩, h2⟩
          · simp only [hc]
            rfl
  | deferred ty tag v copied throws =>
    have hg := slotGet_run hw ty
    have hw1 := (hw.emit (.called tag)).emit (.offered id ty v)
    refine ⟨?_, ?_, False.elim, ?_⟩
    · rintro ⟨rfl, rfl, rfl, ⟨hc, hp, hcap⟩, hm⟩
      have hb := (bound_none_iff ty (scopes w)).mpr hp
      rw [hb] at hg
      have := ((dynamicLoadC_throws mem true hid ty v true n hw1 hb).1 hcap hm).1 ⟨rfl, rfl⟩
      simp only [loadArgC, loadSlotDeferredC, bindT_apply, lift_apply, emit, assertTagged, hid, if_true, Option.map_some, Option.bind_some, hg, hc]
      exact this
    · rintro ⟨rfl, h⟩
      unfold Replaced Captured at h
      rw [← bound_none_iff] at h
      cases hb : boundCell ty (scopes w) with
      | some c =>
        rw [hb] at hg h
        simp only [reduceCtorEq, not_false_eq_true, true_and, false_and, and_false, or_false] at h
        rw [available_of_bound hb] at h
        have hcond : (!onError || (c.hasValue id).isNone) = true := by
          cases onError
          · rfl
          · simp [h rfl]
        refine ⟨_, ?_, KeptX.refl hw1 rfl⟩
        simp only [noexcept, loadArgC, loadSlotDeferredC, bindT_apply, lift_apply, emit, assertTagged, hid, if_true, Option.map_some, Option.bind_some, hg, hcond, construct]
        cases copied <;> simp [pureT_apply, terminate_apply]
      | none =>
        rw [hb] at hg h
        simp only [not_true_eq_false, false_and, true_and, false_or] at h
        obtain ⟨⟨hc, hcap⟩, hm, hne⟩ := h
        obtain ⟨w', h1, h2⟩ := ((dynamicLoadC_throws mem onError hid ty v copied n hw1 hb).1 hcap hm).2 hne
        refine ⟨w', ?_, h2⟩
        rw [← h1]
        simp only [noexcept, loadArgC, loadSlotDeferredC, bindT_apply, lift_apply, emit, assertTagged, hid, if_true, Option.map_some, Option.bind_some, hg, hc]
    · intro hdg hf _
      cases throws with
      | false => exact loadArgC_quiet mem cfg onError id _ rfl n w
      | true =>
        refine Eq.trans ?_ (loadArgC_quiet mem cfg onError id (.deferred ty tag v copied false) rfl n w)
        simp only [CtorArg.Fails, CtorArg.Dangles, true_and, not_or] at hf hdg
        unfold Replaced Captured at hf
        unfold Captured at hdg
        rw [← bound_none_iff] at hf hdg
        simp only [loadArgC, loadSlotDeferredC, bindT_apply, lift_apply, assertTagged, hid, if_true, Option.map_some, Option.bind_some, hg]
        cases hb : boundCell ty (scopes w) with
        | some c =>
          rw [hb, available_of_bound hb] at hf
          have hcond : (!onError || (c.hasValue id).isNone) = false := by
            cases onError
            · simp at hf
            · simpa [Option.isSome_iff_ne_none] using hf.1
          simp only [hcond]
          rfl
        | none =>
          dsimp only
          by_cases hc : cfg.capture = true
          · simp only [hc, if_true, bindT_apply, lift_apply, emit, Option.map_some, Option.bind_some]
            refine (dynamicLoadC_throws mem onError hid ty v copied n hw1 hb).2 fun ⟨h1, h2⟩ => ?_
            by_cases hx : onError = true ∧ copied = true
            · exact hdg ⟨hx.1, hx.2, ⟨hc, hb, h1⟩, h2⟩
            · exact hf.2 ⟨⟨hc, hb, h1⟩, h2, hx⟩
          · simp only [hc]
            rfl
  | accum ty tag f dflt move =>
    have hg := slotGet_run hw ty
    replace ha := ha rfl
    refine ⟨False.elim, ?_, ?_, ?_⟩
    · intro h
      simp only [CtorArg.Fails, Captured] at h
      rw [← bound_none_iff] at h
      cases hb : boundCell ty (scopes w) with
      | some c =>
        rw [hb] at hg h
        simp only [reduceCtorEq, not_false_eq_true, true_and, false_and, and_false, or_false] at h
        rw [available_of_bound hb] at h
        refine ⟨_, ?_, KeptX.refl hw rfl⟩
        simp only [noexcept, loadArgC, loadSlotAccumulateC, bindT_apply, lift_apply, assertTagged, hid, if_true, Option.map_some, Option.bind_some, hg, h.1]
        rcases h.2 with rfl | rfl
        · simp [pureT_apply, terminate_apply]
        · cases dflt <;> simp [bindT_apply, construct, pureT_apply, terminate_apply]
      | none =>
        rw [hb] at hg h
        simp only [not_true_eq_false, false_and, true_and, false_or] at h
        obtain ⟨⟨hc, hcap⟩, h⟩ := h
        have key := (dynamicAccumulateC_throws mem cfg onError hid ty tag f dflt move n hw hc hb ha).1 hcap
        rcases h with ⟨h1, h2⟩ | ⟨h1, h2, h3⟩
        · obtain ⟨w', k1, _, k3⟩ := key.1 h1
          refine ⟨w', ?_, k1⟩
          subst h2
          simp only [noexcept, loadArgC, loadSlotAccumulateC, bindT_apply, lift_apply, assertTagged, hid, if_true, Option.map_some, Option.bind_some, hg, hc, k3]
          simp [terminate_apply]
        · obtain ⟨w', k1, k3⟩ := key.2 h1 h2 h3
          refine ⟨w', ?_, k1⟩
          simp only [noexcept, loadArgC, loadSlotAccumulateC, bindT_apply, lift_apply, assertTagged, hid, if_true, Option.map_some, Option.bind_some, hg, hc, k3]
    · rintro ⟨rfl, rfl, hc, hp, hcap⟩
      have hb := (bound_none_iff ty (scopes w)).mpr hp
      rw [hb] at hg
      obtain ⟨w', k1, k2, k3⟩ := ((dynamicAccumulateC_throws mem cfg true hid ty tag f true move n hw hc hb ha).1 hcap).1 rfl
      refine ⟨w', ?_, k1, k2⟩
      simp only [loadArgC, loadSlotAccumulateC, bindT_apply, lift_apply, assertTagged, hid, if_true, Option.map_some, Option.bind_some, hg, hc, k3]
    · intro _ hf hi
      refine Eq.trans ?_ (loadArgC_quiet mem cfg onError id (.accum ty tag f false false) rfl n w)
      simp only [CtorArg.Fails, CtorArg.Ignored, Captured, not_or] at hf hi
      rw [← bound_none_iff] at hf hi
      simp only [loadArgC, loadSlotAccumulateC, bindT_apply, lift_apply, assertTagged, hid, if_true, Option.map_some, Option.bind_some, hg]
      cases hb : boundCell ty (scopes w) with
      | some c =>
        rw [hb, available_of_bound hb] at hf
        dsimp only
        cases hv : c.hasValue id with
        | some v => rfl
        | none =>
          simp only [hv] at hf
          have h1 : dflt = false := by
            cases dflt
            · rfl
            · simp at hf
          have h2 : move = false := by
            cases move
            · rfl
            · simp at hf
          rw [h1, h2]
      | none =>
        dsimp only
        by_cases hc : cfg.capture = true
        · simp only [hc, if_true]
          refine (dynamicAccumulateC_throws mem cfg onError hid ty tag f dflt move n hw hc hb ha).2 fun ⟨h1, h2⟩ => ?_
          have hcap : cfg.capture = true ∧ boundCell ty (scopes w) = none ∧ ∃ s ∈ scopes w, Captures s := ⟨hc, hb, h1⟩
          cases hdf : dflt with
          | true =>
            cases ho : onError with
            | true => exact hi ⟨ho, hdf, hcap⟩
            | false => exact hf.2 ⟨hcap, Or.inl ⟨hdf, ho⟩⟩
          | false =>
            rcases h2 with h2 | h2
            · simp [hdf] at h2
            · exact hf.2 ⟨hcap, Or.inr ⟨hdf, h2⟩⟩
        · simp only [hc]
          rfl
  | action tag => exact ⟨False.elim, False.elim, False.elim, fun _ _ _ => loadArgC_quiet mem cfg onError id _ rfl n w⟩

/-! ## Theorems -/

/-- **C70 (constructors that do not throw).** -/
theorem C70_same {M : Type} [Store M] (mem : Nat → Bool) (cfg : Cfg) (onError : Bool) (id : Id) (args : List CtorArg) (h : ∀ a ∈ args, a.quiet = true) :
    (loadArgsC mem cfg onError id args : CompT M Unit) = loadArgsX mem cfg onError id (args.map CtorArg.arg) := by
  induction args with
  | nil => rfl
  | cons a as ih =>
    have : (loadArgC mem cfg onError id a : CompT M Bool) = loadArgX mem cfg onError id a.arg := by
      funext n w
      exact loadArgC_quiet mem cfg onError id a (h a (List.mem_cons_self ..)) n w
    simp only [List.map_cons, loadArgsC, loadArgsX, this, ih fun b hb => h b (List.mem_cons_of_mem _ hb)]

/-- If a function taking `E &` is among the arguments, the innermost capturing scope, if any, has captured nothing, or first captured an object of this same error (`AccumArgsOk`). -/
def CtorArgsOk (cfg : Cfg) (id : Id) (args : List CtorArg) (ss : List Scope) : Prop := AccumArgsOk cfg id (args.map CtorArg.arg) ss

theorem CtorArgsOk.acc {cfg : Cfg} {id : Id} {args : List CtorArg} {ss : List Scope} (h : CtorArgsOk cfg id args ss) (hx : ∃ a ∈ args, a.arg.isAccum = true) : AccOk cfg id ss := by
  obtain ⟨a, h1, h2⟩ := hx
  exact AccumArgsOk.acc h ⟨a.arg, List.mem_map.mpr ⟨a, h1, rfl⟩, h2⟩

/-- **C70 (otherwise).** Unless a constructor that throws is called, the argument is loaded as in the other properties. -/
theorem C70_otherwise (mem : Nat → Bool) (cfg : Cfg) (onError : Bool) {id : Id} (hid : id.Tagged) (a : CtorArg) (n : Nat) (w : World PtrStore) (hw : ThreadOk w)
    (ha : CtorArgsOk cfg id [a] (scopes w)) (h1 : ¬ a.Dangles cfg onError (mem n) (scopes w)) (h2 : ¬ a.Fails cfg onError id (mem n) (scopes w)) (h3 : ¬ a.Ignored cfg onError (scopes w)) :
    loadArgC mem cfg onError id a n w = loadArgX mem cfg onError id a.arg n w :=
  (loadArgC_cases mem cfg onError hid a n hw (fun h => ha.acc ⟨a, List.mem_singleton.mpr rfl, h⟩)).2.2.2 h1 h2 h3

/-- **C70 (ignored).** A function taking `E &`, passed to `on_error`, is to get a new object in a capturing scope, and the default constructor of `E` throws: the function is not called, nothing
is captured, and the guard goes on. -/
theorem C70_ignored (mem : Nat → Bool) (cfg : Cfg) (onError : Bool) {id : Id} (hid : id.Tagged) (a : CtorArg) (n : Nat) (w : World PtrStore) (hw : ThreadOk w)
    (ha : CtorArgsOk cfg id [a] (scopes w)) (h : a.Ignored cfg onError (scopes w)) :
    ∃ w', loadArgC mem cfg onError id a n w = some (some (true, n), w') ∧ ThreadOk w' ∧ SameObjects w w' := by
  obtain ⟨w', h1, h2, h3⟩ := (loadArgC_cases mem cfg onError hid a n hw (fun h => ha.acc ⟨a, List.mem_singleton.mpr rfl, h⟩)).2.2.1 h
  exact ⟨w', h1, h2.1, h3⟩

/-- `Dangles` and `Fails` exclude each other. -/
theorem CtorArg.Dangles.not_fails {cfg : Cfg} {onError : Bool} {id : Id} {m : Bool} {ss : List Scope} {a : CtorArg} (h : a.Dangles cfg onError m ss) : ¬ a.Fails cfg onError id m ss := by
  cases a with
  | deferred ty tag v copied throws =>
    obtain ⟨h1, h2, _, ⟨_, h3, _⟩, _⟩ := h
    rintro ⟨_, ⟨h4, _⟩ | ⟨_, _, h5⟩⟩
    · exact h4 h3
    · exact h5 ⟨h1, h2⟩
  | _ => exact h.elim

theorem loadArgsC_cons (mem : Nat → Bool) (cfg : Cfg) (onError : Bool) {id : Id} (hid : id.Tagged) (a : CtorArg) (n : Nat) {w : World PtrStore} (hw : ThreadOk w)
    (ha : a.arg.isAccum = true → AccOk cfg id (scopes w)) :
    (a.Dangles cfg onError (mem n) (scopes w) ∧ ∀ as, loadArgsC mem cfg onError id (a :: as) n w = none) ∨
    ∃ n' w', KeptX id w w' ∧ ¬ a.Dangles cfg onError (mem n) (scopes w) ∧
      (((a.Fails cfg onError id (mem n) (scopes w) ∨ (onError = false ∧ ∃ ty, a.arg.ty = some ty ∧ NoMemoryFor mem cfg ty n w)) ∧ ∀ as, loadArgsC mem cfg onError id (a :: as) n w = some (none, w')) ∨
      (¬ (a.Fails cfg onError id (mem n) (scopes w) ∨ (onError = false ∧ ∃ ty, a.arg.ty = some ty ∧ NoMemoryFor mem cfg ty n w)) ∧
        (∀ as, loadArgsC mem cfg onError id (a :: as) n w = loadArgsC mem cfg onError id as n' w'))) := by
  obtain ⟨c1, c2, c3, c4⟩ := loadArgC_cases mem cfg onError hid a n hw ha
  by_cases hd : a.Dangles cfg onError (mem n) (scopes w)
  · refine Or.inl ⟨hd, fun as => ?_⟩
    simp only [loadArgsC, noexcept, bindT_apply, c1 hd, Option.bind_none]
  · right
    by_cases hf : a.Fails cfg onError id (mem n) (scopes w)
    · obtain ⟨w', h1, h2⟩ := c2 hf
      refine ⟨n, w', h2, hd, Or.inl ⟨Or.inl hf, fun as => ?_⟩⟩
      simp only [loadArgsC, bindT_apply, h1, Option.bind_some]
    · by_cases hi : a.Ignored cfg onError (scopes w)
      · obtain ⟨w', h1, h2, _⟩ := c3 hi
        refine ⟨n, w', h2, hd, Or.inr ⟨?_, fun as => ?_⟩⟩
        · rintro (h | ⟨h, _⟩)
          · exact hf h
          · cases a with
            | accum ty tag f dflt move =>
              have := hi.1
              rw [h] at this
              cases this
            | _ => exact hi.elim
        · simp only [loadArgsC, noexcept, bindT_apply, h1, Option.bind_some, if_true, pureT_apply]
      · have heq := c4 hd hf hi
        obtain ⟨b, n', w', h1, h2, h3⟩ := loadArgX_run mem cfg onError hid a.arg n hw ha
        rw [← heq] at h1
        have hth : ¬ a.arg.Throws cfg onError id (scopes w) := by
          cases a <;> simp [CtorArg.arg, FnArg.Throws]
        simp only [hth, false_or] at h3
        refine ⟨n', w', h2, hd, ?_⟩
        have hx : ∀ bs, loadArgsC mem cfg onError id (a :: bs) n w = if b then loadArgsC mem cfg onError id bs n' w' else some (none, w') := by
          intro bs
          simp only [loadArgsC, noexcept, bindT_apply, h1, Option.bind_some]
          cases b <;> simp [pureT_apply, terminate_apply]
        cases b with
        | false => exact Or.inl ⟨Or.inr (h3.mp rfl), hx⟩
        | true => exact Or.inr ⟨fun h => absurd (h3.mpr (h.resolve_left hf)) (by simp), hx⟩

/-- **C70 (one argument).** Loading an argument is undefined exactly in the case `Dangles`; it terminates the program exactly if a constructor that throws is called (and not ignored), or, in
`new_error` and `load`, there is no memory for the object. -/
theorem C70_argument (mem : Nat → Bool) (cfg : Cfg) (onError : Bool) {id : Id} (hid : id.Tagged) (a : CtorArg) (n : Nat) (w : World PtrStore) (hw : ThreadOk w)
    (ha : CtorArgsOk cfg id [a] (scopes w)) :
    (loadArgsC mem cfg onError id [a] n w = none ↔ a.Dangles cfg onError (mem n) (scopes w)) ∧
    ((∃ w', loadArgsC mem cfg onError id [a] n w = some (none, w')) ↔
      a.Fails cfg onError id (mem n) (scopes w) ∨ (onError = false ∧ ∃ ty, a.arg.ty = some ty ∧ NoMemoryFor mem cfg ty n w)) := by
  rcases loadArgsC_cons mem cfg onError hid a n hw (fun h => ha.acc ⟨a, List.mem_singleton.mpr rfl, h⟩) with ⟨h1, h2⟩ | ⟨n', w', _, h0, ⟨h1, h2⟩ | ⟨h1, h2⟩⟩
  · refine ⟨⟨fun _ => h1, fun _ => h2 []⟩, ?_⟩
    constructor
    · rintro ⟨w', h⟩
      rw [h2] at h
      cases h
    · rintro (h | ⟨h, _⟩)
      · exact absurd h h1.not_fails
      · cases a with
        | deferred ty tag v copied throws =>
          have := h1.1
          rw [h] at this
          cases this
        | _ => exact h1.elim
  · refine ⟨⟨fun h => ?_, fun h => absurd h h0⟩, ⟨fun _ => h1, fun _ => ⟨w', h2 []⟩⟩⟩
    rw [h2] at h
    cases h
  · have : loadArgsC mem cfg onError id [] n' w' = some (some ((), n'), w') := rfl
    refine ⟨⟨fun h => ?_, fun h => absurd h h0⟩, ⟨fun ⟨w2, h⟩ => ?_, fun h => absurd h h1⟩⟩
    · rw [h2, this] at h
      cases h
    · rw [h2, this] at h
      cases h

/-- **C70 (partial), all arguments.** Loading arguments is not undefined; it terminates the program exactly if, for some argument, all before it could be loaded and, in the state they leave, a
constructor that throws is called (and not ignored) or, not in `on_error`, there is no memory for its object. *Missing*: `on_error` with functions returning references to objects whose copy
constructors throw (`C70_refuted_reference`). -/
theorem C70_arguments_partial (mem : Nat → Bool) (cfg : Cfg) (onError : Bool) {id : Id} (hid : id.Tagged) (args : List CtorArg) (n : Nat) (w : World PtrStore) (hw : ThreadOk w)
    (ha : CtorArgsOk cfg id args (scopes w)) (hr : onError = true → ∀ ty tag v, CtorArg.deferred ty tag v true true ∉ args) :
    (∃ r w', loadArgsC mem cfg onError id args n w = some (r, w') ∧ ThreadOk w' ∧ shape (scopes w') = shape (scopes w)) ∧
    ((∃ w', loadArgsC mem cfg onError id args n w = some (none, w')) ↔
      ∃ pre a post n1 w1, args = pre ++ a :: post ∧ loadArgsC mem cfg onError id pre n w = some (some ((), n1), w1) ∧
        (a.Fails cfg onError id (mem n1) (scopes w1) ∨ (onError = false ∧ ∃ ty, a.arg.ty = some ty ∧ NoMemoryFor mem cfg ty n1 w1))) := by
  replace ha := fun hx => CtorArgsOk.acc ha hx
  induction args generalizing n w with
  | nil => exact ⟨⟨_, w, rfl, hw, rfl⟩, ⟨fun ⟨w', h⟩ => by simp [loadArgsC, pureT_apply] at h, fun ⟨pre, a, post, _, _, h, _⟩ => by simp at h⟩⟩
  | cons a as ih =>
    rcases loadArgsC_cons mem cfg onError hid a n hw (fun h => ha ⟨a, List.mem_cons_self .., h⟩) with ⟨h1, _⟩ | ⟨n', w', hk, h0, ⟨h1, h2⟩ | ⟨h1, h2⟩⟩
    · exfalso
      cases a with
      | deferred ty tag v copied throws =>
        obtain ⟨e1, e2, e3, _⟩ := h1
        subst e2 e3
        exact hr e1 ty tag v (List.mem_cons_self ..)
      | _ => exact h1.elim
    · exact ⟨⟨none, w', h2 as, hk.1, hk.2.1⟩, ⟨fun _ => ⟨[], a, as, n, w, rfl, rfl, h1⟩, fun _ => ⟨w', h2 as⟩⟩⟩
    · obtain ⟨⟨r, w2, i1, i2, i3⟩, i4⟩ := ih n' w' hk.1 (fun ho ty tag v hm => hr ho ty tag v (List.mem_cons_of_mem _ hm))
        (fun ⟨b, hb, hx⟩ => hk.2.2.acc (ha ⟨b, List.mem_cons_of_mem _ hb, hx⟩))
      refine ⟨⟨r, w2, (h2 as).trans i1, i2, i3.trans hk.2.1⟩, ?_⟩
      rw [h2 as, i4]
      constructor
      · rintro ⟨pre, b, post, n1, w1, rfl, e2, e3⟩
        exact ⟨a :: pre, b, post, n1, w1, rfl, (h2 pre).trans e2, e3⟩
      · rintro ⟨pre, b, post, n1, w1, e1, e2, e3⟩
        cases pre with
        | nil =>
          simp only [List.nil_append, List.cons.injEq] at e1
          obtain ⟨rfl, rfl⟩ := e1
          simp only [loadArgsC, pureT_apply, Option.some.injEq, Prod.mk.injEq, true_and] at e2
          obtain ⟨rfl, rfl⟩ := e2
          exact absurd e3 h1
        | cons c pre =>
          simp only [List.cons_append, List.cons.injEq] at e1
          obtain ⟨rfl, e1⟩ := e1
          exact ⟨pre, b, post, n1, w1, e1, (h2 pre) ▸ e2, e3⟩

/-- **C70 (`on_error`).** If copying or moving an argument into the guard throws, the exception is thrown to the caller: the guarded code is not run, and nothing is changed. A guard that was made
and does not terminate the program ends like its block. -/
theorem C70_guard {M : Type} [Store M] (mem : Nat → Bool) (cfg : Cfg) (args : List CtorArg) (body : CompT M Out) (n : Nat) (w : World M) :
    (∀ e, onErrorGuardC mem cfg (some e) args body n w = some (some (.exc e, n), w)) ∧
    ∀ o n' w', onErrorGuardC mem cfg none args body n w = some (some (o, n'), w') → ∃ n1 w1, body n w = some (some (o, n1), w1) := by
  refine ⟨fun e => rfl, fun o n' w' h => ?_⟩
  unfold onErrorGuardC at h
  dsimp only at h
  rw [bindT_apply, lift_apply] at h
  cases h0 : (currentId : Comp M Id) w with
  | none => simp [h0] at h
  | some p =>
    obtain ⟨saved, w0⟩ := p
    have hw0 : w0 = w := by
      simp only [currentId] at h0
      split at h0 <;> simp at h0
      exact h0.2.symm
    subst hw0
    rw [h0] at h
    simp only [Option.map_some, Option.bind_some] at h
    rw [bindT_apply] at h
    cases hb : body n w0 with
    | none => simp [hb] at h
    | some p =>
      obtain ⟨r1, w1⟩ := p
      rw [hb] at h
      cases r1 with
      | none => simp at h
      | some p =>
        obtain ⟨o1, n1⟩ := p
        refine ⟨n1, w1, ?_⟩
        have hq : ∀ b, EndsT (do
            let id ← lift (checkId cfg saved b)
            if id ≠ 0#32 then do
              lift (assertTagged id)
              loadArgsC mem cfg true id args
            return o1 : CompT M Out) (· = o1) := by
          intro b
          refine EndsT.bind (fun id => ?_)
          dsimp only
          split
          · exact EndsT.bind (fun _ => EndsT.bind (fun _ => EndsT.pure rfl))
          · exact EndsT.pure rfl
        simp only [Option.bind_some] at h
        rw [hq _ _ _ _ _ _ h]

/-- **C70 (constructors that do not throw), `new_error` and `on_error`.** -/
theorem C70_same_new_error {M : Type} [Store M] (mem : Nat → Bool) (cfg : Cfg) (args : List CtorArg) (h : ∀ a ∈ args, a.quiet = true) (body : CompT M Out) :
    (newErrorC mem cfg args : CompT M Id) = newErrorX mem cfg (args.map CtorArg.arg) ∧
    onErrorGuardC mem cfg none args body = onErrorGuardX mem cfg (args.map CtorArg.arg) body := by
  constructor
  · simp only [newErrorC, newErrorX, C70_same mem cfg false _ args h]
  · simp only [onErrorGuardC, onErrorGuardX, C70_same mem cfg true _ args h]
    rfl

/-- **C70 (an error is passed on).** When a scope ends and passes an object on, the program is terminated if the move constructor throws and the object is moved: to a slot that has no object of
this error, or, if there is no slot, as soon as capturing is enabled, even if no scope captures. Otherwise the object is passed on as in the other properties. -/
theorem C70_unload (mem : Nat → Bool) (cfg : Cfg) {id : Id} (hid : id.Tagged) (ty : Ty) (c : Cell) (move : Bool) (n : Nat) (w : World PtrStore) (hw : ThreadOk w) :
    (move = true ∧ (∃ v, c = some (id, v)) ∧ ((¬ NoPlace ty (scopes w) ∧ available ty id (scopes w) = none) ∨ (NoPlace ty (scopes w) ∧ cfg.capture = true)) →
      slotUnloadC mem cfg id ty c move n w = some (none, w)) ∧
    (¬ (move = true ∧ (∃ v, c = some (id, v)) ∧ ((¬ NoPlace ty (scopes w) ∧ available ty id (scopes w) = none) ∨ (NoPlace ty (scopes w) ∧ cfg.capture = true))) →
      slotUnloadC mem cfg id ty c move n w = slotUnloadT mem cfg id ty c n w) := by
  have hg := slotGet_run hw ty
  have h0 := tagged_ne hid
  have hs : ∀ v, Cell.hasValue (some (id, v)) id = some v := fun v => by simp [Cell.hasValue]
  have hq : ∀ v, slotUnloadC mem cfg id ty (some (id, v)) false n w = slotUnloadT mem cfg id ty (some (id, v)) n w := by
    intro v
    unfold slotUnloadC slotUnloadT
    simp only [h0, if_false, hs, construct_quiet, bindT_apply, lift_apply, hg, Option.map_some, Option.bind_some]
    cases boundCell ty (scopes w) with
    | some p =>
      dsimp only
      split <;> rfl
    | none =>
      dsimp only
      split
      · simp only [bindT_apply, pureT_apply, Option.bind_some, if_true]
        exact dynamicLoadC_quiet mem false id ty v false n w
      · rfl
  rw [← bound_none_iff]
  constructor
  · rintro ⟨rfl, ⟨v, rfl⟩, h⟩
    unfold slotUnloadC
    simp only [h0, if_false, hs, bindT_apply, lift_apply, hg, Option.map_some, Option.bind_some]
    cases hb : boundCell ty (scopes w) with
    | some p =>
      rw [hb, available_of_bound hb] at h
      have : p.hasValue id = none := by simpa using h
      simp [this, bindT_apply, construct, terminate_apply]
    | none =>
      rw [hb] at h
      have : cfg.capture = true := by simpa using h
      simp [this, bindT_apply, construct, terminate_apply]
  · intro h
    cases hv : c.hasValue id with
    | none => simp only [slotUnloadC, slotUnloadT, h0, if_false, hv]
    | some v =>
      have hc : c = some (id, v) := by
        cases c with
        | none => simp [Cell.hasValue] at hv
        | some kv =>
          obtain ⟨k, v'⟩ := kv
          simp only [Cell.hasValue] at hv
          split at hv
          · rename_i hk
            simp only [Option.some.injEq] at hv
            subst hk hv
            rfl
          · cases hv
      subst hc
      cases move with
      | false => exact hq v
      | true =>
        rw [← hq v]
        unfold slotUnloadC
        simp only [h0, if_false, hs, bindT_apply, lift_apply, hg, Option.map_some, Option.bind_some]
        cases hb : boundCell ty (scopes w) with
        | some p =>
          rw [hb, available_of_bound hb] at h
          have : p.hasValue id ≠ none := by simpa using h
          have : (p.hasValue id).isNone = false := by
            cases hp : p.hasValue id
            · exact absurd hp this
            · rfl
          simp [this]
        | none =>
          rw [hb] at h
          have : cfg.capture = false := by simpa using h
          simp [this]

/-- **C70 (handlers).** A handler that takes an error object by value, when the copy constructor throws: the program is terminated, and the handler is not called. Otherwise a handler whose arguments are suitable is
called with them. -/
theorem C70_handler (cfg : Cfg) (cells : List CtxCell) (id : Id) (ex : Option Exc) (loc : Option Val) (ps : List (Arg × Bool)) (h : checkArgs cfg cells id ex (ps.map Prod.fst) = true) :
    (getArgsC cfg cells id ex loc ps = some none ↔ ∃ ty, (Arg.req ty, true) ∈ ps) ∧
    ((∀ ty, (Arg.req ty, true) ∉ ps) → ∃ vs, getArgs cfg cells id ex loc (ps.map Prod.fst) = some vs ∧ getArgsC cfg cells id ex loc ps = some (some vs)) := by
  induction ps with
  | nil => exact ⟨⟨fun h => (by cases h), fun ⟨_, h⟩ => (by cases h)⟩, fun _ => ⟨[], rfl, rfl⟩⟩
  | cons x xs ih =>
    obtain ⟨a, throws⟩ := x
    simp only [List.map_cons, checkArgs, List.all_cons, Bool.and_eq_true] at h
    obtain ⟨v, hv⟩ : ∃ v, Arg.get cfg cells id ex loc a = some v := by
      have := h.1
      cases a <;> simp only [Arg.get, Arg.check] at this ⊢
      case req ty => obtain ⟨v, hv⟩ := Option.isSome_iff_exists.mp this; exact ⟨_, by rw [hv]; rfl⟩
      case pred ty p =>
        split at this
        · rename_i v hv; exact ⟨_, by rw [hv]; rfl⟩
        · cases this
      case catch_ p =>
        split at this
        · exact ⟨_, rfl⟩
        · cases this
      all_goals exact ⟨_, rfl⟩
    obtain ⟨i1, i2⟩ := ih h.2
    by_cases hc : ∃ ty, a = .req ty ∧ throws = true
    · obtain ⟨ty, rfl, rfl⟩ := hc
      refine ⟨⟨fun _ => ⟨ty, List.mem_cons_self ..⟩, fun _ => ?_⟩, fun hn => absurd (List.mem_cons_self ..) (hn ty)⟩
      simp [getArgsC, hv, Arg.copied]
    · have hcc : (a.copied && throws) = false := by
        cases a <;> cases throws <;> simp [Arg.copied] at hc ⊢
      have he : getArgsC cfg cells id ex loc ((a, throws) :: xs) = (getArgsC cfg cells id ex loc xs).map (·.map (v :: ·)) := by
        simp only [getArgsC, hv, Option.bind_eq_bind, Option.bind_some]
        rw [hcc]
        cases getArgsC cfg cells id ex loc xs with
        | none => rfl
        | some r => cases r <;> rfl
      have hm : (∃ ty, (Arg.req ty, true) ∈ (a, throws) :: xs) ↔ ∃ ty, (Arg.req ty, true) ∈ xs := by
        constructor
        · rintro ⟨ty, hh⟩
          rcases List.mem_cons.mp hh with hh | hh
          · cases hh; exact absurd ⟨ty, rfl, rfl⟩ hc
          · exact ⟨ty, hh⟩
        · rintro ⟨ty, hh⟩; exact ⟨ty, List.mem_cons_of_mem _ hh⟩
      rw [hm, ← i1, he]
      constructor
      · cases getArgsC cfg cells id ex loc xs with
        | none => simp
        | some r => cases r <;> simp
      · intro hn
        obtain ⟨vs, e1, e2⟩ := i2 fun ty hh => hn ty (List.mem_cons_of_mem _ hh)
        exact ⟨v :: vs, by simp [getArgs, hv, e1], by rw [e2]; rfl⟩

/-- A handler with two parameters, the second by value, with a copy constructor that throws or not. -/
example : checkArgs exCfg [.obj 10 (some (5#32, 1)), .obj 11 (some (5#32, 2))] 5#32 none [.req 10, .req 11] = true ∧
    getArgsC exCfg [.obj 10 (some (5#32, 1)), .obj 11 (some (5#32, 2))] 5#32 none none [(.req 10, false), (.req 11, true)] = some none ∧
    getArgsC exCfg [.obj 10 (some (5#32, 1)), .obj 11 (some (5#32, 2))] 5#32 none none [(.req 10, false), (.req 11, false)] = some (some [.obj 10 1, .obj 11 2]) := by
  decide +kernel

/-! ## The finding -/

/-- **Finding.** A function passed to `on_error` returns a reference to an object whose copy constructor throws. Inside a scope that handles the type, the program is terminated; if no scope takes
the object, nothing happens, since it is not copied; inside a capturing scope, the behaviour is undefined: the exception is ignored, but the list of captured objects is left with a pointer to a
node that was freed (`C29_refuted_throw`). A function returning the object by value terminates the program there, if the move constructor throws. -/
theorem C70_refuted_reference :
    let guard (copied : Bool) : CompT PtrStore Out := onErrorGuardC (fun _ => true) exCfg none [.deferred 10 0 4 copied true]
      (do let id ← newErrorC (fun _ => true) exCfg []; return .err (.plain id))
    ((lift (pushCtx [.obj 10]) >>= fun _ => guard true) 0 (initThread 1#32)).map (fun r => r.1) = some none ∧
    ((guard true) 0 (initThread 1#32)).map (fun r => r.1) = some (some (.err (.plain 5#32), 0)) ∧
    ((lift (pushCtx [.da]) >>= fun _ => guard true) 0 (initThread 1#32)).map (fun r => r.1) = none ∧
    ((lift (pushCtx [.da]) >>= fun _ => guard false) 0 (initThread 1#32)).map (fun r => r.1) = some none := by
  refine ⟨?_, ?_, ?_, ?_⟩ <;> decide +kernel

/-! ## The hypotheses can be met -/

/-- Two nested scopes, the outer one capturing; the inner one has an object of type 11. Arguments with constructors that throw are told apart: whether the program goes on, in `load` and in
`on_error` (`none`: undefined). -/
example : ∃ w : World PtrStore, (do pushCtx [.da]; pushCtx [.obj 10, .obj 11]; slotSet 11 5#32 7 : Comp PtrStore Unit) (initThread 1#32) = some ((), w) ∧
    ∀ x ∈ [(CtorArg.obj 10 1 true true, some false, some false), (.obj 11 1 true true, some false, some true), (.obj 12 1 false true, some false, some false),
        (.obj 12 1 true false, some true, some true), (.deferred 11 0 1 true true, some false, some true), (.deferred 12 0 1 true true, some false, none),
        (.deferred 12 0 1 false true, some false, some false), (.accum 11 0 (· + 1) true true, some true, some true), (.accum 10 0 (· + 1) true false, some false, some false),
        (.accum 12 0 (· + 1) true true, some false, some true), (.accum 12 0 (· + 1) false true, some false, some false), (.action 0, some true, some true)],
      ((loadArgsC (fun _ => true) exCfg false 5#32 [x.1] 0 w).map fun r => r.1.isSome) = x.2.1 ∧
      ((loadArgsC (fun _ => true) exCfg true 5#32 [x.1] 0 w).map fun r => r.1.isSome) = x.2.2 := by
  refine ⟨_, rfl, ?_⟩
  intro x hx
  simp only [List.mem_cons, List.not_mem_nil, or_false] at hx
  rcases hx with rfl | rfl | rfl | rfl | rfl | rfl | rfl | rfl | rfl | rfl | rfl | rfl <;> constructor <;> decide +kernel

/-- The hypotheses of `C70_argument` hold in a new thread with a capturing scope, and `Fails` and `Ignored` do. -/
example : ∃ w : World PtrStore, (pushCtx [.da] : Comp PtrStore Unit) (initThread 1#32) = some ((), w) ∧ ThreadOk w ∧
    CtorArgsOk exCfg 5#32 [.accum 10 0 (· + 1) true false] (scopes w) ∧ (CtorArg.accum 10 0 (· + 1) true false).Ignored exCfg true (scopes w) ∧
    (CtorArg.accum 10 0 (· + 1) true false).Fails exCfg false 5#32 true (scopes w) ∧
    (CtorArg.deferred 10 0 4 true true).Dangles exCfg true true (scopes w) := by
  obtain ⟨w, h1, h2, h3⟩ := threadOk_push (w := initThread 1#32) (threadOk_init (by decide)) (spec := [.da]) (by decide)
  have hcap : Captured exCfg 10 (scopes w) := by
    rw [h3]
    refine ⟨rfl, ?_, ?_⟩
    · rw [← bound_none_iff]; rfl
    · exact (boundDa_isSome _).mp rfl
  refine ⟨w, h1, h2, ?_, ⟨rfl, rfl, hcap⟩, Or.inr ⟨hcap, Or.inl ⟨rfl, rfl⟩⟩, ⟨rfl, rfl, rfl, hcap, rfl⟩⟩
  intro _ _ inner pre k ns post outer e _
  rw [h3] at e
  have e' : [[CtxCell.da 0#32 []]] = inner ++ (pre ++ .da k ns :: post) :: outer := e
  cases inner with
  | nil =>
    simp only [List.nil_append, List.cons.injEq] at e'
    cases pre with
    | nil =>
      simp only [List.nil_append, List.cons.injEq, CtxCell.da.injEq] at e'
      exact Or.inl e'.1.1.1.symm
    | cons x xs => simp at e'
  | cons x xs => simp at e'

end Leaf
