import Verif.ThreadsLemmas

/-!
# Properties C01, C02, C03: error ids
-/

namespace Leaf

/-- **C01.** Whatever the schedule of any number of threads, two different calls generating ids give different ids
whenever fewer than `2^30` generations separate them; at distance exactly `2^30` the id repeats. -/
theorem C01_ids_unique (sched : List GenStep) (i j : Nat)
    (hi : i < ((GenState.init).run sched).hist.length) (hj : j < ((GenState.init).run sched).hist.length)
    (hij : i < j) :
    (j - i < 2 ^ 30 →
      (((GenState.init).run sched).hist[i]).2 ≠ (((GenState.init).run sched).hist[j]).2) ∧
    (j - i = 2 ^ 30 →
      (((GenState.init).run sched).hist[i]).2 = (((GenState.init).run sched).hist[j]).2) := by
  rw [hist_get sched i hi, hist_get sched j hj]
  constructor
  · intro h e
    rw [offset_inj] at e
    omega
  · intro h
    rw [offset_inj]
    omega

/-- Three threads, interleaved: three different ids. -/
example : ((GenState.init).run
    [.fetchAdd 0, .fetchAdd 1, .writeTls 1, .fetchAdd 2, .writeTls 0, .writeTls 2]).hist
    = [(0, 5#32), (1, 9#32), (2, 13#32)] := by decide

/-- After a thread's `new_id` completes, its current id is the id it generated, whatever the other threads do in
between (`others`) and afterwards (`later`). -/
theorem C01_current_is_own (s : GenState) (t : Tid) (others later : List GenStep)
    (hidle : s.reg t = none)
    (ho : ∀ st ∈ others, st ≠ .fetchAdd t ∧ st ≠ .writeTls t) (hl : ∀ st ∈ later, st ≠ .fetchAdd t ∧ st ≠ .writeTls t) :
    ∃ id, (t, id) ∈ (s.step (.fetchAdd t)).hist ∧
      ((((s.step (.fetchAdd t)).run others).step (.writeTls t)).run later).cur t = id ∧
      id = (generateNextId s.counter).1 := by
  have key : ∀ (l : List GenStep) (s' : GenState), (∀ st ∈ l, st ≠ .fetchAdd t ∧ st ≠ .writeTls t) →
      (s'.run l).reg t = s'.reg t ∧ (s'.run l).cur t = s'.cur t := by
    intro l
    induction l with
    | nil => intro s' _; exact ⟨rfl, rfl⟩
    | cons st l ih =>
      intro s' h
      have h1 := h st (by simp)
      show ((s'.step st).run l).reg t = _ ∧ ((s'.step st).run l).cur t = _
      rw [(ih (s'.step st) (fun x hx => h x (by simp [hx]))).1, (ih (s'.step st) (fun x hx => h x (by simp [hx]))).2]
      cases st with
      | fetchAdd u =>
        have hu : t ≠ u := by intro e; exact h1.1 (by rw [e])
        cases hr : s'.reg u <;> simp [GenState.step, hr, hu]
      | writeTls u =>
        have hu : t ≠ u := by intro e; exact h1.2 (by rw [e])
        cases hr : s'.reg u <;> simp [GenState.step, hr, hu]
  refine ⟨(generateNextId s.counter).1, ?_, ?_, rfl⟩
  · simp [GenState.step, hidle]
  · have h2 : ((s.step (.fetchAdd t)).run others).reg t = some (generateNextId s.counter).1 := by
      rw [(key others _ ho).1]; simp [GenState.step, hidle]
    rw [(key later _ hl).2]
    generalize (s.step (.fetchAdd t)).run others = s1 at h2 ⊢
    simp [GenState.step, h2]

example : ((((GenState.init.step (.fetchAdd 0)).run [.fetchAdd 1, .writeTls 1]).step (.writeTls 0)).run [.fetchAdd 1, .writeTls 1]).cur 0 = 5#32 := by
  decide

/-- A thread that generates no id keeps the empty current id, whatever the other threads do. -/
theorem C01_idle_thread (t : Tid) (sched : List GenStep) (h : ∀ st ∈ sched, st ≠ .fetchAdd t ∧ st ≠ .writeTls t) : (GenState.init.run sched).cur t = 0#32 := by
  have key : ∀ (l : List GenStep) (s : GenState), (∀ st ∈ l, st ≠ .fetchAdd t ∧ st ≠ .writeTls t) → (s.run l).cur t = s.cur t := by
    intro l
    induction l with
    | nil => intro s _; rfl
    | cons st l ih =>
      intro s h
      have h1 := h st (by simp)
      show ((s.step st).run l).cur t = _
      rw [ih (s.step st) (fun x hx => h x (by simp [hx]))]
      cases st with
      | fetchAdd u => cases hr : s.reg u <;> simp [GenState.step, hr]
      | writeTls u =>
        have hu : t ≠ u := by intro e; exact h1.2 (by rw [e])
        cases hr : s.reg u <;> simp [GenState.step, hr, hu]
  exact key sched _ h

example : (GenState.init.run [.fetchAdd 0, .fetchAdd 1, .writeTls 1, .writeTls 0]).cur 2 = 0#32 := by decide

/-- The steps of `n` calls of `new_id` by thread `t`, one after the other. -/
def callsBy (t : Tid) : Nat → List GenStep
  | 0 => []
  | n + 1 => .fetchAdd t :: .writeTls t :: callsBy t n

/-- Which thread takes the step. -/
def GenStep.thread : GenStep → Tid
  | .fetchAdd t | .writeTls t => t

/-- **C01, every call.** A thread that calls `new_id` any number of times gets one id for each call, whatever other threads do in between; afterwards its
current id is the last one. -/
theorem C01_every_call (t : Tid) (n : Nat) (sched : List GenStep) (h : sched.filter (fun st => decide (st.thread = t)) = callsBy t n) :
    (((GenState.init).run sched).hist.filter (fun x => decide (x.1 = t))).length = n ∧
      (((GenState.init).run sched).hist.filter (fun x => decide (x.1 = t))).getLast?.map Prod.snd =
        if n = 0 then none else some (((GenState.init).run sched).cur t) := by
  have key : ∀ (l : List GenStep) (n : Nat) (s : GenState),
      let H := fun (s : GenState) => s.hist.filter (fun x => decide (x.1 = t))
      (l.filter (fun st => decide (st.thread = t)) = callsBy t n → s.reg t = none →
        (H (s.run l)).length = (H s).length + n ∧
        ((H s).getLast?.map Prod.snd = (if H s = [] then none else some (s.cur t)) →
          (H (s.run l)).getLast?.map Prod.snd = if H (s.run l) = [] then none else some ((s.run l).cur t))) ∧
      (l.filter (fun st => decide (st.thread = t)) = .writeTls t :: callsBy t n → ∀ id, s.reg t = some id →
        (H (s.run l)).length = (H s).length + n ∧
        ((H s).getLast?.map Prod.snd = some id →
          (H (s.run l)).getLast?.map Prod.snd = if H (s.run l) = [] then none else some ((s.run l).cur t))) := by
    intro l
    induction l with
    | nil =>
      intro n s H
      refine ⟨fun h _ => ?_, fun h => by simp at h⟩
      cases n with
      | zero => exact ⟨rfl, fun h => h⟩
      | succ n => simp [callsBy] at h
    | cons st l ih =>
      intro n s H
      show (_ → _ → (H ((s.step st).run l)).length = _ ∧ (_ → Option.map Prod.snd (H ((s.step st).run l)).getLast? = if H ((s.step st).run l) = [] then none else some (((s.step st).run l).cur t))) ∧
        (_ → ∀ id, _ → (H ((s.step st).run l)).length = _ ∧ (_ → Option.map Prod.snd (H ((s.step st).run l)).getLast? = if H ((s.step st).run l) = [] then none else some (((s.step st).run l).cur t)))
      by_cases ht : st.thread = t
      · simp only [List.filter_cons, ht, decide_true, if_true]
        refine ⟨fun h hr => ?_, fun h id hr => ?_⟩
        · cases n with
          | zero => simp [callsBy] at h
          | succ n =>
            simp only [callsBy, List.cons.injEq] at h
            obtain ⟨rfl, h⟩ := h
            obtain ⟨a, b⟩ := (ih n (s.step (.fetchAdd t))).2 h (generateNextId s.counter).1 (by simp [GenState.step, hr])
            have e : H (s.step (.fetchAdd t)) = H s ++ [(t, (generateNextId s.counter).1)] := by simp [H, GenState.step, hr]
            refine ⟨by show (H _).length = _; rw [a]; show (H _).length + n = _; rw [e]; simp; omega, fun _ => b ?_⟩
            show (H _).getLast?.map Prod.snd = _
            rw [e]; simp
        · simp only [List.cons.injEq] at h
          obtain ⟨rfl, h⟩ := h
          obtain ⟨a, b⟩ := (ih n (s.step (.writeTls t))).1 h (by simp [GenState.step, hr])
          have e : H (s.step (.writeTls t)) = H s := by simp [H, GenState.step, hr]
          refine ⟨by show (H _).length = _; rw [a]; show (H _).length + n = _; rw [e], fun hl => b ?_⟩
          show (H _).getLast?.map Prod.snd = if H _ = [] then none else _
          rw [e, hl]
          have hne : H s ≠ [] := by intro e0; rw [e0] at hl; simp at hl
          simp [hne, GenState.step, hr]
      · have e1 : (s.step st).reg t = s.reg t ∧ (s.step st).cur t = s.cur t ∧ H (s.step st) = H s := by
          cases st with
          | fetchAdd u =>
            have hu : ¬ t = u := fun e => ht e.symm
            have hu' : ¬ u = t := ht
            cases hr : s.reg u <;> simp [H, GenState.step, hr, hu, hu']
          | writeTls u =>
            have hu : ¬ t = u := fun e => ht e.symm
            cases hr : s.reg u <;> simp [H, GenState.step, hr, hu]
        obtain ⟨r1, r2, r3⟩ := e1
        simp only [List.filter_cons, ht, decide_false, Bool.false_eq_true, if_false]
        have := ih n (s.step st)
        simp only [r1, r2] at this
        rw [show (List.filter (fun x : Tid × Id => decide (x.1 = t)) (s.step st).hist) = H s from r3] at this
        exact this
  have k := (key sched n GenState.init).1 h rfl
  obtain ⟨a, b⟩ := k
  have a' : (((GenState.init).run sched).hist.filter (fun x => decide (x.1 = t))).length = n := by simpa [GenState.init] using a
  refine ⟨a', ?_⟩
  rw [b rfl]
  congr 1
  rw [← List.length_eq_zero_iff, a']

/-- Thread 0 calls `new_id` twice, thread 1 once in between. -/
example : let sched : List GenStep := [.fetchAdd 0, .fetchAdd 1, .writeTls 0, .fetchAdd 0, .writeTls 1, .writeTls 0]
    sched.filter (fun st => decide (st.thread = 0)) = callsBy 0 2 ∧ ((GenState.init).run sched).hist = [(0, 5#32), (1, 9#32), (0, 13#32)] ∧
      ((GenState.init).run sched).cur 0 = 13#32 := by decide

/-- **C02.** Every id ever generated, after any number of generations (wrap-around included) on any schedule, is truthy,
carries the tag bits, and is returned unchanged by `make_error_id`. -/
theorem C02_ids_valid (sched : List GenStep) (t : Tid) (id : Id)
    (h : (t, id) ∈ ((GenState.init).run sched).hist) :
    id.truthy = true ∧ id.Tagged ∧ makeErrorId id = id := by
  have inv : ∀ (l : List GenStep) (s : GenState), s.counter.Tagged → (∀ p ∈ s.hist, p.2.Tagged) →
      (∀ p ∈ (s.run l).hist, p.2.Tagged) := by
    intro l
    induction l with
    | nil => intro s _ h2; exact h2
    | cons st l ih =>
      intro s h1 h2
      refine ih (s.step st) ?_ ?_
      · cases st with
        | fetchAdd u => cases hr : s.reg u <;> simp [GenState.step, hr, generateNextId, h1, add4_tagged h1]
        | writeTls u => cases hr : s.reg u <;> simp [GenState.step, hr, h1]
      · intro p hp
        cases st with
        | fetchAdd u =>
          cases hr : s.reg u with
          | none =>
            simp [GenState.step, hr, generateNextId] at hp
            rcases hp with hp | hp
            · exact h2 p hp
            · rw [hp]; exact add4_tagged h1
          | some v => simp [GenState.step, hr] at hp; exact h2 p hp
        | writeTls u =>
          cases hr : s.reg u <;> (simp [GenState.step, hr] at hp; exact h2 p hp)
  have ht : id.Tagged := inv sched GenState.init (by decide) (by simp [GenState.init]) (t, id) h
  refine ⟨?_, ht, makeErrorId_of_tagged ht⟩
  simp [Id.truthy, tagged_ne_zero ht]

example : (7, 5#32) ∈ ((GenState.init).run [.fetchAdd 7]).hist := by decide
/-- The step at which the counter wraps: the id after `0xFFFFFFFD` is `1`, still valid. -/
example : (generateNextId 0xFFFFFFFD#32).1 = 1#32 ∧ Id.truthy 1#32 ∧ Id.Tagged 1#32 := by decide

/-- **C03.** Two valid ids print the same serial number iff they are equal or are the pair `1`, `-3`. -/
theorem C03_serial_injective (a b : Id) (ha : a.Tagged) (hb : b.Tagged) :
    a.serial = b.serial ↔ a = b ∨ (a = 1#32 ∧ b = -3#32) ∨ (a = -3#32 ∧ b = 1#32) := by
  obtain ⟨k, hk, _, _⟩ := toInt_tagged ha
  obtain ⟨l, hl, _, _⟩ := toInt_tagged hb
  rw [serial_of_toInt hk, serial_of_toInt hl]
  have e1 : (1#32).toInt = 1 := by decide
  have e3 : (-3#32).toInt = -3 := by decide
  have inj : ∀ x y : Id, x = y ↔ x.toInt = y.toInt := fun x y => ⟨fun h => by rw [h], BitVec.eq_of_toInt_eq⟩
  rw [inj a b, inj a 1#32, inj b 1#32, inj a (-3#32), inj b (-3#32), hk, hl, e1, e3]
  constructor
  · intro h
    split at h <;> split at h <;> omega
  · intro h
    split <;> split <;> omega

/-- **C03.** Hence among the first `2^30 - 1` ids generated by the program (any schedule), different ids print different
serial numbers. -/
theorem C03_serials_distinct (sched : List GenStep) (i j : Nat)
    (hi : i < ((GenState.init).run sched).hist.length) (hj : j < ((GenState.init).run sched).hist.length)
    (hij : i < j) (hlim : j < 2 ^ 30 - 1) :
    (((GenState.init).run sched).hist[i]).2.serial ≠ (((GenState.init).run sched).hist[j]).2.serial := by
  intro hs
  have vi := C02_ids_valid sched (((GenState.init).run sched).hist[i]).1 (((GenState.init).run sched).hist[i]).2
    (List.getElem_mem hi)
  have vj := C02_ids_valid sched (((GenState.init).run sched).hist[j]).1 (((GenState.init).run sched).hist[j]).2
    (List.getElem_mem hj)
  rcases (C03_serial_injective _ _ vi.2.1 vj.2.1).1 hs with h | ⟨h, _⟩ | ⟨_, h⟩
  · exact (C01_ids_unique sched i j hi hj hij).1 (by omega) h
  · rw [hist_get sched i hi] at h
    have : counterInit + BitVec.ofNat 32 (4 * (i + 1)) = counterInit + BitVec.ofNat 32 (4 * 0) := by rw [h]; decide
    rw [offset_inj] at this
    omega
  · rw [hist_get sched j hj] at h
    have : counterInit + BitVec.ofNat 32 (4 * (j + 1)) = counterInit + BitVec.ofNat 32 (4 * 0) := by rw [h]; decide
    rw [offset_inj] at this
    omega

/-- The collision is real: both print `0`. -/
theorem C03_collision : Id.serial 1#32 = 0 ∧ Id.serial (-3#32) = 0 := by decide

example : Id.serial 5#32 = 1 ∧ Id.serial 9#32 = 2 := by decide

/-- **C59.** `operator<` is a strict total order: of two ids exactly one of "less", "equal", "greater" holds, and "less" is transitive. It agrees with the printed
serial numbers. -/
theorem C59_order (a b c : Id) :
    ((a.lt b = true ∧ a ≠ b ∧ b.lt a = false) ∨ (a.lt b = false ∧ a = b ∧ b.lt a = false) ∨ (a.lt b = false ∧ a ≠ b ∧ b.lt a = true)) ∧
    (a.lt b = true → b.lt c = true → a.lt c = true) ∧ (a.lt b = true → a.serial ≤ b.serial) := by
  have inj : a = b ↔ a.toInt = b.toInt := ⟨fun h => by rw [h], BitVec.eq_of_toInt_eq⟩
  simp only [Id.lt, decide_eq_true_eq, decide_eq_false_iff_not, ne_eq, inj]
  refine ⟨by omega, by omega, fun h => ?_⟩
  unfold Id.serial
  exact Int.tdiv_le_tdiv (by omega) (by omega)

example : Id.lt 5#32 9#32 = true ∧ Id.lt 5#32 5#32 = false ∧ Id.lt (-3#32) 5#32 = true := by decide

theorem toInt_offset {n : Nat} (h : n < 2 ^ 29) : (counterInit + BitVec.ofNat 32 (4 * n)).toInt = 4 * n + 1 := by
  have h1 : (counterInit + BitVec.ofNat 32 (4 * n)).toNat = 4 * n + 1 := by
    simp only [BitVec.toNat_add, BitVec.toNat_ofNat, counterInit]
    omega
  rw [BitVec.toInt_eq_toNat_cond, h1]
  split <;> omega

/-- **C59, order of time.** Of the first `2^29 - 1` ids generated by the program, by any threads on any schedule, an id generated earlier is less than an id
generated later, and prints a smaller serial number. -/
theorem C59_chronological (sched : List GenStep) (i j : Nat)
    (hi : i < ((GenState.init).run sched).hist.length) (hj : j < ((GenState.init).run sched).hist.length) (hlim : i < 2 ^ 29 - 1 ∧ j < 2 ^ 29 - 1) :
    ((((GenState.init).run sched).hist[i]).2.lt (((GenState.init).run sched).hist[j]).2 = true ↔ i < j) ∧
    ((((GenState.init).run sched).hist[i]).2.serial < (((GenState.init).run sched).hist[j]).2.serial ↔ i < j) := by
  rw [hist_get sched i hi, hist_get sched j hj]
  have e1 := toInt_offset (n := i + 1) (by omega)
  have e2 := toInt_offset (n := j + 1) (by omega)
  simp only [Id.lt, Id.serial, e1, e2, decide_eq_true_eq]
  rw [Int.tdiv_eq_ediv_of_nonneg (by omega), Int.tdiv_eq_ediv_of_nonneg (by omega)]
  omega

/-- The next id generated, the `2^29`-th, is less than all before (the counter has become negative). -/
theorem C59_limit (sched : List GenStep) (i j : Nat) (hi : i < ((GenState.init).run sched).hist.length) (hj : j < ((GenState.init).run sched).hist.length)
    (hi' : i < 2 ^ 29 - 1) (hj' : j = 2 ^ 29 - 1) :
    (((GenState.init).run sched).hist[j]).2.lt (((GenState.init).run sched).hist[i]).2 = true := by
  subst hj'
  rw [hist_get sched i hi, hist_get sched _ hj]
  have e1 := toInt_offset (n := i + 1) (by omega)
  have e2 : (counterInit + BitVec.ofNat 32 (4 * (2 ^ 29 - 1 + 1))).toInt = -2147483647 := by decide
  simp only [Id.lt, e1, e2, decide_eq_true_eq]
  omega

example : ((GenState.init).run [.fetchAdd 0, .fetchAdd 1, .writeTls 1, .fetchAdd 2]).hist.length = 3 := by decide

/-- A schedule long enough to reach the limit. -/
example : ((GenState.init).run ((List.range (2 ^ 29)).map .fetchAdd)).hist.length = 2 ^ 29 := by
  have key : ∀ (n : Nat), ((GenState.init).run ((List.range n).map .fetchAdd)).hist.length = n ∧
      ∀ t, n ≤ t → ((GenState.init).run ((List.range n).map .fetchAdd)).reg t = none := by
    intro n
    induction n with
    | zero => exact ⟨rfl, fun _ _ => rfl⟩
    | succ n ih =>
      obtain ⟨h1, h2⟩ := ih
      rw [List.range_succ, List.map_append]
      unfold GenState.run at h1 h2 ⊢
      rw [List.foldl_append]
      generalize List.foldl GenState.step GenState.init (List.map GenStep.fetchAdd (List.range n)) = s at h1 h2 ⊢
      have h3 := h2 n (Nat.le_refl n)
      simp only [List.map_cons, List.map_nil, List.foldl_cons, List.foldl_nil, GenState.step, h3]
      refine ⟨by simp [h1], fun t ht => ?_⟩
      have hne : t ≠ n := by omega
      simp [hne, h2 t (by omega)]
  exact (key _).1

end Leaf
