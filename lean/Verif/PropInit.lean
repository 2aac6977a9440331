import Verif.InitModel
import Verif.PropResult

/-!
# C71: initialization of `result<T>`, and values whose constructors throw
-/

namespace Leaf

/-! ## What is meant -/

/-- A constructor that constructs a value; one that moves from another result; one that makes an error. -/
inductive InitEffect
  | value
  | moved
  | error
  deriving DecidableEq, Repr

def InitCtor.effect : InitCtor → InitEffect
  | .valRv | .valCref | .tmpl => .value
  | .move | .moveU => .moved
  | .errId | .code | .enum => .error

/-- What the result is in the end. `none`: the program does not compile. -/
def initEffect (strict : Bool) (f : InitFacts) (x : InitArg) : Option InitEffect := (chooseInit strict f x).map InitCtor.effect

/-- The value can be constructed in this way: from an object from which `T` can be constructed. -/
def ValCtor.Builds : ValCtor → Prop
  | .dflt => True
  | .args => True
  | .one f x => f.takes = true ∧ (x.kind = .val ∨ x.kind = .derived ∨ x.kind = .other)

/-- The argument is moved, not copied or converted: the library's documentation demands that the constructor called does not throw. -/
def ValCtor.Moves : ValCtor → Prop
  | .one _ x => x.kind = .val ∧ x.lvalue = false ∧ x.const = false
  | _ => False

/-- If the constructor of `T` throws, the caller gets the exception. In strict builds: only from the default constructor, and from the copy constructor if the argument is `const`. In others (clang): from all
constructors except the move constructor and those with several arguments. -/
def ValCtor.Reaches (strict : Bool) : ValCtor → Bool
  | .dflt => true
  | .args => false
  | .one _ x => if strict then x.kind = .val && x.lvalue && x.const else !(x.kind = .val && !x.lvalue && !x.const)

/-- The operation moves a value from a result. -/
def ROp.movesValue (s : RStates) : ROp → Bool
  | .moveCtor _ b _ | .moveAssign _ b _ | .take b =>
    match s b with
    | some (.value _) => true
    | _ => false
  | _ => false

/-- What the operations mean, see `RStates.step`. `some none`: the program is terminated. -/
def RStates.stepX (mv : Nat → Nat) (strict : Bool) (s : RStates) : ROpX → Option (Option (Bool × RStates))
  | .value a c v throws =>
    if s a = none then
      if throws then (if c.Reaches strict then some (some (false, s)) else some none) else some (some (true, s.set a (some (.value v))))
    else none
  | .op o throws =>
    match s.step mv o with
    | none => none
    | some s' =>
      if throws && o.movesValue s then
        match o with
        | .take _ => some (some (false, s'))
        | _ => some none
      else some (some (true, s'))

def RStates.runX (mv : Nat → Nat) (strict : Bool) (s : RStates) : List ROpX → Option (Option (List Bool × RStates))
  | [] => some (some ([], s))
  | o :: os => do
    match ← s.stepX mv strict o with
    | none => return none
    | some (b, s) =>
      match ← s.runX mv strict os with
      | none => return none
      | some (bs, s) => return some (b :: bs, s)

/-- All values are constructed in a way that is possible. -/
def ROpX.Ok : ROpX → Prop
  | .value _ c _ _ => c.Builds
  | .op _ _ => True

/-! ## Which constructor is chosen -/

/-- **C71 (values).** Initialized with an object of type `T`, or anything else from which `T` can be constructed implicitly (except `std::error_code` and error code enumerations, see below), a result is in value state. -/
theorem C71_value (strict : Bool) (f : InitFacts) (x : InitArg) (h : f.takes = true) (hk : x.kind = .val ∨ x.kind = .derived ∨ x.kind = .other) :
    initEffect strict f x = some .value := by
  obtain ⟨k, l, c⟩ := x
  obtain ⟨t, u⟩ := f
  simp only at h hk
  subst h
  rcases hk with rfl | rfl | rfl <;> cases strict <;> cases l <;> cases c <;> cases u <;> rfl

/-- **C71 (errors).** Initialized with an `error_id`, a result is in error state, whatever `T` is. -/
theorem C71_error_id (strict : Bool) (f : InitFacts) (x : InitArg) (hk : x.kind = .errId) : chooseInit strict f x = some .errId := by
  obtain ⟨k, l, c⟩ := x
  obtain ⟨t, u⟩ := f
  simp only at hk
  subst hk
  cases strict <;> cases l <;> cases c <;> cases u <;> cases t <;> rfl

/-- **C71 (partial), error codes.** Initialized with a `std::error_code`, a result is in error state, if it is a `const` variable, or `T` cannot be constructed from it implicitly. *Missing*: otherwise it is in value
state (`C71_refuted_code`). -/
theorem C71_code_partial (strict : Bool) (f : InitFacts) (x : InitArg) (hk : x.kind = .code) :
    (f.takes = false ∨ (x.lvalue = true ∧ x.const = true) → chooseInit strict f x = some .code) ∧
    (f.takes = true → ¬ (x.lvalue = true ∧ x.const = true) → initEffect strict f x = some .value) := by
  obtain ⟨k, l, c⟩ := x
  obtain ⟨t, u⟩ := f
  simp only at hk
  subst hk
  cases strict <;> cases l <;> cases c <;> cases u <;> cases t <;> simp <;> rfl

/-- **C71 (enumerations).** Initialized with an error code enumeration, a result is in error state; the program does not compile if `T` can be constructed from it implicitly. -/
theorem C71_enum (strict : Bool) (f : InitFacts) (x : InitArg) (hk : x.kind = .enum) : chooseInit strict f x = if f.takes then none else some .enum := by
  obtain ⟨k, l, c⟩ := x
  obtain ⟨t, u⟩ := f
  simp only at hk
  subst hk
  cases strict <;> cases l <;> cases c <;> cases u <;> cases t <;> rfl

/-- **C71 (results).** A `result<T>` or `result<U>` that is an rvalue is moved from, the latter if `U` converts to `T`. Results that are lvalues or `const` are never moved from or copied: the program does not compile, unless `T`
can be constructed from the result itself. -/
theorem C71_result (strict : Bool) (f : InitFacts) (x : InitArg) :
    (x.kind = .same ∨ (x.kind = .res ∧ f.conv = true) → x.lvalue = false → x.const = false → initEffect strict f x = some .moved) ∧
    (x.kind = .same ∨ x.kind = .res → x.lvalue = true ∨ x.const = true ∨ (x.kind = .res ∧ f.conv = false) → initEffect strict f x = if f.takes then some .value else none) := by
  obtain ⟨k, l, c⟩ := x
  obtain ⟨t, u⟩ := f
  cases k <;> cases strict <;> cases l <;> cases c <;> cases u <;> cases t <;> simp <;> rfl

/-- **C71 (nothing else).** Other types do not compile if `T` cannot be constructed from them. -/
theorem C71_other (strict : Bool) (f : InitFacts) (x : InitArg) (hk : x.kind = .other) (h : f.takes = false) : initEffect strict f x = none := by
  obtain ⟨k, l, c⟩ := x
  obtain ⟨t, u⟩ := f
  simp only at hk h
  subst hk h
  cases strict <;> cases l <;> cases c <;> cases u <;> rfl

/-! ## Constructors that throw -/

/-- **C71 (exceptions).** When a value is constructed, an exception either reaches the caller or terminates the program (`Reaches`). -/
theorem C71_reaches (strict : Bool) (c : ValCtor) (h : c.Builds) : c.noexcept strict = some (!c.Reaches strict) := by
  cases c with
  | dflt => rfl
  | args => rfl
  | one f x =>
    obtain ⟨k, l, c⟩ := x
    obtain ⟨t, u⟩ := f
    obtain ⟨h, hk⟩ := h
    simp only at h hk
    subst h
    rcases hk with rfl | rfl | rfl <;> cases strict <;> cases l <;> cases c <;> cases u <;> rfl

/-- **C71 (partial), exceptions, clang.** Unless `BOOST_STRICT_CONFIG` is defined, an exception of a constructor of `T` reaches the caller who initializes a result with one object, except from the move constructor, which must not
throw. *Missing*: other compilers (`C71_refuted_throw`), several arguments (`C71_refuted_arguments`). -/
theorem C71_reaches_partial (mv : Nat → Nat) (p : RPool) (a : Nat) (c : ValCtor) (v : Nat) (h : c.Builds) (hm : ¬ c.Moves) (ha : c ≠ .args) (hp : p.objs a = none) :
    p.stepX mv false (.value a c v true) = some (some (false, p)) := by
  have hr : c.Reaches false = true := by
    cases c with
    | dflt => rfl
    | args => exact absurd rfl ha
    | one f x =>
      simp only [ValCtor.Moves] at hm
      simp only [ValCtor.Reaches, Bool.false_eq_true, if_false]
      obtain ⟨k, l, c⟩ := x
      cases k <;> cases l <;> cases c <;> simp at hm ⊢
  have he : (p.put a (some ⟨0#32, .raw⟩)).put a none = p := by
    rw [put_put]
    unfold RPool.put
    congr
    funext b
    split
    · rename_i e; rw [e, hp]
    · rfl
  simp [RPool.stepX, C71_reaches false c h, hr, alloc_eq hp, he]

/-- **Finding.** In strict builds (any compiler but clang), an exception of a constructor of `T` terminates the program when a result is initialized with a variable that is not `const`, or with an object of another type (like
`result<std::string> r = "literal"`). The documentation says that initialization in value state may throw. -/
theorem C71_refuted_throw (mv : Nat → Nat) (p : RPool) (a v : Nat) (u : Bool) (x : InitArg) (hx : (x.kind = .val ∧ x.lvalue = true ∧ x.const = false) ∨ x.kind = .other) (hp : p.objs a = none) :
    p.stepX mv true (.value a (.one ⟨true, u⟩ x) v true) = some none := by
  have hb : (ValCtor.one ⟨true, u⟩ x).Builds := ⟨rfl, by rcases hx with h | h <;> simp [h]⟩
  have hr : (ValCtor.one ⟨true, u⟩ x).Reaches true = false := by
    rcases hx with h | h <;> simp [ValCtor.Reaches, h]
  simp [RPool.stepX, C71_reaches true _ hb, hr, alloc_eq hp]

/-- **Finding.** The same with several arguments, with all compilers. -/
theorem C71_refuted_arguments (mv : Nat → Nat) (strict : Bool) (p : RPool) (a v : Nat) (hp : p.objs a = none) : p.stepX mv strict (.value a .args v true) = some none := by
  simp [RPool.stepX, ValCtor.noexcept, alloc_eq hp]

/-- **Finding.** Initialized with a `std::error_code` variable, a result is in value state if `T` can be constructed from an error code and the variable is not `const`; if it is `const`, in error state. -/
theorem C71_refuted_code (strict u : Bool) :
    initEffect strict ⟨true, u⟩ ⟨.code, true, false⟩ = some .value ∧ initEffect strict ⟨true, u⟩ ⟨.code, true, true⟩ = some .error := by
  cases strict <;> cases u <;> exact ⟨rfl, rfl⟩

/-! ## Sequences of operations -/

theorem stepX_refines {mv : Nat → Nat} {strict : Bool} {p : RPool} (h : p.Inv) {o : ROpX} (ho : o.Ok) {r : Option (Bool × RStates)} (hs : p.states.stepX mv strict o = some r) :
    (r = none ∧ p.stepX mv strict o = some none) ∨ ∃ b s p', r = some (b, s) ∧ p.stepX mv strict o = some (some (b, p')) ∧ p'.Inv ∧ p'.states = s := by
  cases o with
  | value a c v throws =>
    simp only [RStates.stepX] at hs
    split at hs
    · rename_i ha
      have hp := states_none.mp ha
      cases throws with
      | true =>
        simp only [if_true] at hs
        have he : (p.put a (some ⟨0#32, .raw⟩)).put a none = p := by
          rw [put_put]
          unfold RPool.put
          congr
          funext b
          split
          · rename_i e; rw [e, hp]
          · rfl
        cases hr : c.Reaches strict with
        | true =>
          rw [hr] at hs
          simp only [if_true, Option.some.injEq] at hs
          subst hs
          exact Or.inr ⟨false, _, p, rfl, by simp [RPool.stepX, C71_reaches strict c ho, hr, alloc_eq hp, he], h, rfl⟩
        | false =>
          rw [hr] at hs
          simp only [Bool.false_eq_true, if_false, Option.some.injEq] at hs
          subst hs
          exact Or.inl ⟨rfl, by simp [RPool.stepX, C71_reaches strict c ho, hr, alloc_eq hp]⟩
      | false =>
        simp only [Bool.false_eq_true, if_false, Option.some.injEq] at hs
        subst hs
        obtain ⟨p', e1, e2, e3⟩ := step_refines (mv := mv) (op := .mkVal a v) h (s := p.states.set a (some (.value v))) (by simp [RStates.step, ha])
        refine Or.inr ⟨true, _, p', rfl, ?_, e2, e3⟩
        simp only [RPool.step] at e1
        cases hal : p.alloc a with
        | none => rw [hal] at e1; cases e1
        | some p1 =>
          rw [hal] at e1
          simp only [Option.bind_eq_bind, Option.bind_some, Option.pure_def, Option.some.injEq] at e1
          simp [RPool.stepX, C71_reaches strict c ho, hal, e1]
    · cases hs
  | op o throws =>
    simp only [RStates.stepX] at hs
    cases h1 : p.states.step mv o with
    | none => rw [h1] at hs; cases hs
    | some s' =>
      rw [h1] at hs
      dsimp only at hs
      obtain ⟨p', e1, e2, e3⟩ := step_refines h h1
      -- the source of a move, in the states and in memory
      have hk : ∀ b x, p.objs b = some x → ((match p.states b with | some (.value _) => true | _ => false) = true ↔ kind x.what = 3#32) := by
        intro b x hx
        have hst : p.states b = some x.state := by simp [RPool.states, hx]
        rw [hst]
        have := state_kind (h.ok b x hx)
        cases hxs : x.state with
        | value v => rw [hxs] at this; simp_all
        | error id => simp [(this.2.1 id hxs).1]
        | captured id l => rw [hxs] at this; simp_all
      cases o with
      | moveCtor a b conv =>
        simp only [RStates.step] at h1
        cases ha : p.states a with
        | some _ => rw [ha] at h1; cases h1
        | none =>
          cases hb : p.states b with
          | none => rw [ha, hb] at h1; cases h1
          | some xs =>
            obtain ⟨x, hx, hxs⟩ := states_some hb
            have hkk := hk b x hx
            by_cases hc : throws = true ∧ kind x.what = 3#32
            · have : (throws && (ROp.moveCtor a b conv).movesValue p.states) = true := by
                simp only [ROp.movesValue, Bool.and_eq_true]
                exact ⟨hc.1, hkk.mpr hc.2⟩
              rw [this] at hs
              simp only [if_true, Option.some.injEq] at hs
              subst hs
              refine Or.inl ⟨rfl, ?_⟩
              simp [RPool.stepX, hx, hc.1, hc.2, alloc_eq (states_none.mp ha)]
            · have : ¬ (throws && (ROp.moveCtor a b conv).movesValue p.states) = true := by
                simp only [ROp.movesValue, Bool.and_eq_true]
                exact fun hh => hc ⟨hh.1, hkk.mp hh.2⟩
              rw [if_neg this, Option.some.injEq] at hs
              subst hs
              refine Or.inr ⟨true, s', p', rfl, ?_, e2, e3⟩
              simp only [RPool.stepX, hx, Option.bind_eq_bind, Option.bind_some, if_neg hc, e1, Option.map_some]
      | moveAssign a b conv =>
        simp only [RStates.step] at h1
        cases ha : p.states a with
        | none => rw [ha] at h1; cases h1
        | some as =>
          cases hb : p.states b with
          | none => rw [ha, hb] at h1; cases h1
          | some xs =>
            obtain ⟨x, hx, hxs⟩ := states_some hb
            obtain ⟨y, hy, _⟩ := states_some ha
            have hkk := hk b x hx
            by_cases hc : throws = true ∧ kind x.what = 3#32
            · have : (throws && (ROp.moveAssign a b conv).movesValue p.states) = true := by
                simp only [ROp.movesValue, Bool.and_eq_true]
                exact ⟨hc.1, hkk.mpr hc.2⟩
              rw [this] at hs
              simp only [if_true, Option.some.injEq] at hs
              subst hs
              refine Or.inl ⟨rfl, ?_⟩
              have hd : ∃ q, p.destroy a = some q := by
                simp only [RPool.step] at e1
                cases hd : p.destroy a with
                | none => rw [hd] at e1; cases e1
                | some q => exact ⟨q, rfl⟩
              obtain ⟨q, hq⟩ := hd
              simp [RPool.stepX, hx, hc.1, hc.2, hq]
            · have : ¬ (throws && (ROp.moveAssign a b conv).movesValue p.states) = true := by
                simp only [ROp.movesValue, Bool.and_eq_true]
                exact fun hh => hc ⟨hh.1, hkk.mp hh.2⟩
              rw [if_neg this, Option.some.injEq] at hs
              subst hs
              refine Or.inr ⟨true, s', p', rfl, ?_, e2, e3⟩
              simp only [RPool.stepX, hx, Option.bind_eq_bind, Option.bind_some, if_neg hc, e1, Option.map_some]
      | take a =>
        simp only [RStates.step] at h1
        have hm : (ROp.take a).movesValue p.states = true := by
          simp only [ROp.movesValue]
          split at h1
          · rename_i v hv; rw [hv]
          · cases h1
        rw [hm] at hs
        cases throws with
        | true =>
          simp only [Bool.and_true, if_true, Option.some.injEq] at hs
          subst hs
          exact Or.inr ⟨false, s', p', rfl, by simp [RPool.stepX, e1], e2, e3⟩
        | false =>
          simp only [Bool.and_true, Bool.false_eq_true, if_false, Option.some.injEq] at hs
          subst hs
          exact Or.inr ⟨true, s', p', rfl, by simp [RPool.stepX, e1], e2, e3⟩
      | _ =>
        simp only [ROp.movesValue, Bool.and_false, Bool.false_eq_true, if_false, Option.some.injEq] at hs
        subst hs
        exact Or.inr ⟨true, s', p', rfl, by simp only [RPool.stepX, e1, Option.map_some], e2, e3⟩

theorem runX_refines {mv : Nat → Nat} {strict : Bool} (os : List ROpX) (ho : ∀ o ∈ os, o.Ok) {p : RPool} (h : p.Inv) {r : Option (List Bool × RStates)}
    (hs : p.states.runX mv strict os = some r) :
    (r = none ∧ p.runX mv strict os = some none) ∨ ∃ bs s p', r = some (bs, s) ∧ p.runX mv strict os = some (some (bs, p')) ∧ p'.Inv ∧ p'.states = s := by
  induction os generalizing p r with
  | nil =>
    simp only [RStates.runX, Option.some.injEq] at hs
    exact Or.inr ⟨[], _, p, hs.symm, rfl, h, rfl⟩
  | cons o os ih =>
    simp only [RStates.runX, Option.bind_eq_bind] at hs
    cases h1 : p.states.stepX mv strict o with
    | none => rw [h1] at hs; cases hs
    | some r1 =>
      rw [h1] at hs
      simp only [Option.bind_some] at hs
      rcases stepX_refines h (ho o (List.mem_cons_self ..)) h1 with ⟨rfl, e⟩ | ⟨b, s, p1, rfl, e, f1, f2⟩
      · simp only [Option.pure_def, Option.some.injEq] at hs
        exact Or.inl ⟨hs.symm, by simp [RPool.runX, e]⟩
      · dsimp only at hs
        rw [← f2] at hs
        cases h2 : p1.states.runX mv strict os with
        | none => rw [h2] at hs; cases hs
        | some r2 =>
          rw [h2] at hs
          simp only [Option.bind_some] at hs
          rcases ih (fun o' h' => ho o' (List.mem_cons_of_mem _ h')) f1 h2 with ⟨rfl, g⟩ | ⟨bs, s2, p2, rfl, g, g1, g2⟩
          · simp only [Option.pure_def, Option.some.injEq] at hs
            exact Or.inl ⟨hs.symm, by simp [RPool.runX, e, g]⟩
          · simp only [Option.pure_def, Option.some.injEq] at hs
            exact Or.inr ⟨b :: bs, s2, p2, hs.symm, by simp [RPool.runX, e, g], g1, g2⟩

/-- **C71 (sequences).** In any sequence of allowed operations on any number of results, with constructors that throw or do not, nothing is undefined. It terminates the program exactly if its meaning (`RStates.runX`) says so;
otherwise exactly those operations throw that its meaning says, the results are in the states it says, no value or capture list was destroyed twice, and those not destroyed are each held by exactly one result. -/
theorem C71_sequences (mv : Nat → Nat) (strict : Bool) (os : List ROpX) (ho : ∀ o ∈ os, o.Ok) {r : Option (List Bool × RStates)} (hs : RStates.runX mv strict (fun _ => none) os = some r) :
    (r = none → RPool.empty.runX mv strict os = some none) ∧
    ∀ bs s, r = some (bs, s) → ∃ p, RPool.empty.runX mv strict os = some (some (bs, p)) ∧ p.states = s ∧ p.dead.Nodup ∧
      ∀ i < p.fresh, (i ∈ p.dead ∧ ∀ a, p.held a ≠ some i) ∨ (i ∉ p.dead ∧ ∃ a, p.held a = some i ∧ ∀ b, p.held b = some i → b = a) := by
  rcases runX_refines os ho empty_inv hs with ⟨rfl, e⟩ | ⟨bs, s, p, rfl, e, f1, f2⟩
  · exact ⟨fun _ => e, fun bs s h => by cases h⟩
  · refine ⟨nofun, fun bs' s' h => ?_⟩
    cases h
    refine ⟨p, e, f2, f1.life.nodup, fun i hi => ?_⟩
    rcases f1.life.complete i hi with hd | ⟨a, ha⟩
    · exact Or.inl ⟨hd, fun a ha => (f1.life.heldLt a i ha).2 hd⟩
    · exact Or.inr ⟨(f1.life.heldLt a i ha).2, a, ha, fun b hb => f1.life.unique b a i hb ha⟩

/-- **C71 (no leak).** When all results have been destroyed, every value and capture list that was ever constructed has been destroyed, exactly once, no matter which constructors threw. -/
theorem C71_exactly_once (mv : Nat → Nat) (strict : Bool) (os : List ROpX) (ho : ∀ o ∈ os, o.Ok) {bs : List Bool} (hs : RStates.runX mv strict (fun _ => none) os = some (some (bs, fun _ => none))) :
    ∃ p, RPool.empty.runX mv strict os = some (some (bs, p)) ∧ ∀ i < p.fresh, p.dead.count i = 1 := by
  obtain ⟨p, h1, h2, h3, h4⟩ := (C71_sequences mv strict os ho hs).2 bs (fun _ => none) rfl
  refine ⟨p, h1, fun i hi => ?_⟩
  have hd : i ∈ p.dead := by
    rcases h4 i hi with ⟨hd, _⟩ | ⟨_, a, ha, _⟩
    · exact hd
    · exfalso
      have : p.objs a = none := states_none.mp (by rw [h2])
      simp [RPool.held, this] at ha
  exact List.Nodup.count h3 ▸ by simp [hd]

/-! ## The hypotheses can be met -/

def exInitOps : List ROpX := [.value 0 (.one ⟨true, false⟩ ⟨.val, false, false⟩) 7 false, .value 1 (.one ⟨true, false⟩ ⟨.val, true, true⟩) 8 true, .value 1 .dflt 9 true, .op (.take 0) true,
  .op (.mkErr 2 5#32) true, .op (.moveCtor 3 2 id) true, .op (.drop 0) false, .op (.drop 2) false, .op (.drop 3) false]

/-- A copy, a default constructor and a move out of a result throw; all results are destroyed. -/
example : (∃ s, RStates.runX id true (fun _ => none) exInitOps = some (some ([true, false, false, false, true, true, true, true, true], s)) ∧ s = fun _ => none) ∧ ∀ o ∈ exInitOps, o.Ok := by
  constructor
  · refine ⟨_, rfl, ?_⟩
    funext b
    simp only [RStates.set]
    grind
  · simp [exInitOps, ROpX.Ok, ValCtor.Builds]

/-- A converting move that throws terminates the program. -/
example : RStates.runX id false (fun _ => none) [.value 0 .dflt 7 false, .op (.moveCtor 1 0 id) true] = some none := rfl

/-- `const` and other variables of type `T`, in both builds; a `result<std::string>` from a literal. -/
example : [chooseInit true ⟨true, false⟩ ⟨.val, true, false⟩, chooseInit true ⟨true, false⟩ ⟨.val, true, true⟩, chooseInit false ⟨true, false⟩ ⟨.val, true, false⟩,
    chooseInit true ⟨true, false⟩ ⟨.val, false, false⟩, chooseInit true ⟨true, false⟩ ⟨.other, true, true⟩] = [some .tmpl, some .valCref, some .valCref, some .valRv, some .tmpl] := rfl

end Leaf
