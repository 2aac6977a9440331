import Verif.DirectHandle

/-!
# C48: LEAF implements ideal error handling

`Ideal` (Direct.lean) describes runs in which an error simply carries its objects. The theorems: every run of the model is an ideal run; and the
ideal run is unique, so what a program does depends neither on the enclosing scopes nor on errors reported before.
-/

namespace Leaf

/-! ## Specification -/

/-- The thread has generated `w.ticks` ids, the first when the counter was `c`. The ids it knows (its current error, and those of the objects in its
scopes) are none of those it will generate until it has generated `n`. -/
structure Start (cfg : Cfg) (c : Id) (n : Nat) (w : World PtrStore) : Prop where
  counter : w.counter = c + BitVec.ofNat 32 (4 * gens cfg.interf w.ticks)
  cur : NotAhead cfg c w.ticks n w.cur
  stored : ∀ ty id v, Stored ty id v (scopes w) → NotAhead cfg c w.ticks n id

/-- `id` was generated, by this or any other thread, after the counter was `c` and before this thread generates its `t`-th id. -/
def Earlier (cfg : Cfg) (c : Id) (t : Nat) (id : Id) : Prop := ∃ k, 1 ≤ k ∧ k < gens cfg.interf (t + 1) ∧ id = c + BitVec.ofNat 32 (4 * k)

/-- No handler takes `diagnostic_info` or `diagnostic_details` (they list objects in no particular order). -/
def NoLists (specs : List (List Arg)) : Prop := ∀ hd ∈ specs, Arg.diag ∉ hd ∧ Arg.details ∉ hd

def Direct.NoLists : Direct → Prop
  | .ret _ => True
  | .fail _ _ => True
  | .failCode _ _ => True
  | .seq p k => p.NoLists ∧ ∀ v, (k v).NoLists
  | .next p k => p.NoLists ∧ ∀ v, (k v).NoLists
  | .orElse p k h => p.NoLists ∧ (∀ v, (k v).NoLists) ∧ h.NoLists
  | .catch_ p h => p.NoLists ∧ h.NoLists
  | .guard _ p => p.NoLists
  | .load _ p => p.NoLists
  | .monitor _ p => p.NoLists
  | .value _ p => p.NoLists
  | .toResult _ p => p.NoLists
  | .handleAll specs p body => Leaf.NoLists specs ∧ p.NoLists ∧ ∀ i args, (body i args).NoLists
  | .handleSome specs p _ body => Leaf.NoLists specs ∧ p.NoLists ∧ ∀ i args, (body i args).NoLists
  | .tryCatch specs p body => Leaf.NoLists specs ∧ p.NoLists ∧ ∀ i args, (body i args).NoLists

/-- The objects of the error are available to the enclosing scopes. -/
def Outcome.Available (cfg : Cfg) (w : World PtrStore) : Outcome → Prop
  | .ok _ => True
  | .failed id A _ => w.cur = id ∧ ∀ ty, wanted cfg ty (scopes w) = true → avail ty id (scopes w) = A ty

/-! ## Every run is ideal -/

theorem start_init (cfg : Cfg) {c : Id} (hc : c.Tagged) (n : Nat) : Start cfg c n (initThread c) := by
  refine ⟨?_, fun s _ _ h => tagged_ne_zero (add4k_tagged hc _) h.symm, fun ty id v h => ?_⟩
  · show c = c + BitVec.ofNat 32 (4 * 0)
    simp
  · have : scopes (initThread c) = [] := rfl
    rw [this] at h
    exact absurd h stored_nil

theorem Earlier.notAhead {cfg : Cfg} {c : Id} {t n : Nat} {id : Id} (h : Earlier cfg c t id) (hn : gens cfg.interf n ≤ 2 ^ 30) : NotAhead cfg c t n id := by
  obtain ⟨k, h5, hk, rfl⟩ := h
  intro s hs ht he
  unfold errorNo at he
  rw [BitVec.add_right_inj] at he
  have h1 := congrArg BitVec.toNat he
  simp only [BitVec.toNat_ofNat] at h1
  have h2 := gens_le cfg.interf (Nat.succ_le_succ hs)
  have h3 := gens_le cfg.interf (Nat.succ_le_of_lt ht)
  simp only [Nat.succ_eq_add_one] at *
  omega

/-- A thread that knows only ids generated in this process, by whichever thread. -/
theorem start_of_earlier {cfg : Cfg} {c : Id} {n : Nat} {w : World PtrStore} (hc : c.Tagged) (hn : gens cfg.interf n ≤ 2 ^ 30)
    (h : w.counter = c + BitVec.ofNat 32 (4 * gens cfg.interf w.ticks)) (hcur : w.cur = 0#32 ∨ Earlier cfg c w.ticks w.cur)
    (hst : ∀ ty id v, Stored ty id v (scopes w) → Earlier cfg c w.ticks id) : Start cfg c n w := by
  refine ⟨h, ?_, fun ty id v hs => (hst ty id v hs).notAhead hn⟩
  rcases hcur with h0 | h0
  · rw [h0]
    exact fun s _ _ h => tagged_ne_zero (add4k_tagged hc _) h.symm
  · exact h0.notAhead hn

theorem Start.inv {cfg : Cfg} {c : Id} {n : Nat} {w : World PtrStore} (h : Start cfg c n w) (hn : gens cfg.interf n ≤ 2 ^ 30) (hw : ThreadOk w) :
    IdealInv cfg c (fun _ => True) 0 n (absW w) :=
  ⟨hw.good, h.counter, h.cur, h.stored, hn, trivial, Nat.zero_le _, fun _ _ => Or.inl trivial⟩

/-- **C48: LEAF implements ideal error handling.** As long as the ids do not run out, what the program does is what an ideal run does: the same
handlers are called, in the same order, for the same errors, with the same arguments; it returns or throws the same; and the objects available
for the error it fails with are those the error has in the ideal run. The state afterwards is again one the theorem applies to. -/
theorem C48_ideal {cfg : Cfg} {c : Id} {p : Direct} {da : Bool} (hp : p.prog.WF cfg da) (hd : p.Ok) {w : World PtrStore} (hw : ThreadOk w)
    (hda : da = false → NoCapturingScope w) {n : Nat} (hn : gens cfg.interf n ≤ 2 ^ 30) (hs : Start cfg c n w) {o : Out} {w' : World PtrStore}
    (h : eval cfg p.prog w = some (o, w')) (hf : w'.ticks ≤ n) :
    ∃ io l, Ideal cfg c p w.ticks io w'.ticks l ∧ io.Is o ∧ callsIn w'.trace = l.reverse ++ callsIn w.trace ∧ io.Available cfg w' ∧
      ThreadOk w' ∧ Start cfg c n w' := by
  obtain ⟨e1, e2, _, _⟩ := eval_abs hp hw hda h
  obtain ⟨io, l, f1, f2⟩ := implements_all (c := c) p da (absW w) hp hd (hs.inv hn hw) (fun h => noDa_of (hda h)) o (absW w') e1 ⟨hf, hn⟩
  refine ⟨io, l, f1, f2.is, f2.calls, ?_, e2, f2.inv.counter, f2.inv.cur, f2.inv.stored⟩
  cases io with
  | ok v => trivial
  | failed id A ex =>
    obtain ⟨a1, _, a3, _⟩ := f2.failed id A ex rfl
    exact ⟨a1, a3.1⟩

/-! ## Ideal runs are unique -/

section
variable {cfg : Cfg} {c : Id} {A : Ty → Option Val} {ex : Option Exc} {specs : List (List Arg)}

theorem seesOf_unique {ty : Ty} {v v' : Val} (h : SeesOf cfg A ex ty v) (h' : SeesOf cfg A ex ty v') : v = v' := by
  rcases h with ⟨a, b⟩ | ⟨a, e, b, d⟩ <;> rcases h' with ⟨a', b'⟩ | ⟨a', e', b', d'⟩
  · rw [b] at b'; exact Option.some.inj b'
  · rcases a' with a' | a'
    · rw [a] at a'; cases a'
    · rw [b] at a'; cases a'
  · rcases a with a | a
    · rw [a] at a'; cases a'
    · rw [a] at b'; cases b'
  · rw [b] at b'
    cases b'
    rw [d] at d'
    exact Option.some.inj d'

theorem location_unique {loc loc' : Option Val} (h : LocationOf cfg specs A loc) (h' : LocationOf cfg specs A loc') : loc = loc' := by
  cases loc with
  | some v => exact ((h' v).mpr ((h v).mp rfl)).symm
  | none =>
    cases loc' with
    | none => rfl
    | some v => exact (h v).mpr ((h' v).mp rfl)

theorem receivesOf_unique {id : Id} {outer outer' : List Scope} {a : Arg} (ha : a ≠ .diag ∧ a ≠ .details) {x x' : ArgVal}
    (h : ReceivesOf cfg specs outer A id ex a x) (h' : ReceivesOf cfg specs outer' A id ex a x') : x = x' := by
  cases a with
  | diag => exact absurd rfl ha.1
  | details => exact absurd rfl ha.2
  | req ty =>
    cases x <;> simp only [ReceivesOf] at h
    cases x' <;> simp only [ReceivesOf] at h'
    rw [h.1, h'.1, seesOf_unique h.2 h'.2]
  | pred ty q =>
    cases x <;> simp only [ReceivesOf] at h
    cases x' <;> simp only [ReceivesOf] at h'
    rw [h.1, h'.1, seesOf_unique h.2 h'.2]
  | ptr ty =>
    cases x with
    | ptr t m =>
      cases x' with
      | ptr t' m' =>
        cases m <;> cases m' <;> simp only [ReceivesOf] at h h'
        · rw [h.1, h'.1]
        · exact absurd h'.2 (h.2 _)
        · exact absurd h.2 (h'.2 _)
        · rw [h.1, h'.1, seesOf_unique h.2 h'.2]
      | _ => simp only [ReceivesOf] at h'
    | _ => simp only [ReceivesOf] at h
  | catch_ q =>
    cases x <;> simp only [ReceivesOf] at h
    cases x' <;> simp only [ReceivesOf] at h'
    rw [h] at h'
    cases h'
    rfl
  | info =>
    cases x <;> simp only [ReceivesOf] at h
    cases x' <;> simp only [ReceivesOf] at h'
    rw [h.1, h.2.1, h'.1, h'.2.1, location_unique h.2.2 h'.2.2]

theorem gets_unique {id : Id} {i : Nat} {vals vals' : List ArgVal} (hn : NoLists specs) (h : Gets cfg specs A id ex i vals)
    (h' : Gets cfg specs A id ex i vals') : vals = vals' := by
  obtain ⟨hd, outer, h1, h2, h3⟩ := h
  obtain ⟨hd', outer', h1', h2', h3'⟩ := h'
  rw [h1] at h1'
  cases h1'
  have hnl := hn hd (List.mem_of_getElem? h1)
  refine List.ext_getElem (by rw [h2, h2']) fun j a b => ?_
  have hj : j < hd.length := by omega
  have hm : hd[j] ∈ hd := List.getElem_mem hj
  exact receivesOf_unique ⟨fun he => hnl.1 (he ▸ hm), fun he => hnl.2 (he ▸ hm)⟩
    (h3 j hd[j] _ (List.getElem?_eq_getElem hj) (List.getElem?_eq_getElem a)) (h3' j hd[j] _ (List.getElem?_eq_getElem hj) (List.getElem?_eq_getElem b))

theorem firstSuitableOf_unique {i j : Nat} (hi : FirstSuitableOf cfg A ex specs i) (hj : FirstSuitableOf cfg A ex specs j) : i = j := by
  rcases Nat.lt_trichotomy i j with h | h | h
  · obtain ⟨a, h1, h2⟩ := hi.1; exact absurd h2 (hj.2 i h a h1)
  · exact h
  · obtain ⟨a, h1, h2⟩ := hj.1; exact absurd h2 (hi.2 j h a h1)

theorem not_unhandled {i : Nat} (hi : FirstSuitableOf cfg A ex specs i) (hn : ∀ hd ∈ specs, ¬ SuitableOf cfg A ex hd) : False := by
  obtain ⟨⟨hd, h1, h2⟩, _⟩ := hi
  exact hn hd (List.mem_of_getElem? h1) h2

end

/-- **C48: the ideal run is unique.** -/
theorem C48_unique {cfg : Cfg} {c : Id} {p : Direct} (hn : p.NoLists) {t : Nat} {o o' : Outcome} {t1 t1' : Nat} {l l' : List Call}
    (h : Ideal cfg c p t o t1 l) (h' : Ideal cfg c p t o' t1' l') : o = o' ∧ t1 = t1' ∧ l = l' := by
  induction h generalizing o' t1' l' with
  | ret => cases h'; exact ⟨rfl, rfl, rfl⟩
  | fail => cases h'; exact ⟨rfl, rfl, rfl⟩
  | failCode => cases h'; exact ⟨rfl, rfl, rfl⟩
  | seq_ok _ _ ih1 ih2 =>
    cases h' with
    | seq_ok a b =>
      obtain ⟨e1, rfl, rfl⟩ := ih1 hn.1 a; cases e1
      obtain ⟨rfl, rfl, rfl⟩ := ih2 (hn.2 _) b; exact ⟨rfl, rfl, rfl⟩
    | seq_failed a => obtain ⟨e1, _⟩ := ih1 hn.1 a; cases e1
  | seq_failed _ ih1 =>
    cases h' with
    | seq_ok a b => obtain ⟨e1, _⟩ := ih1 hn.1 a; cases e1
    | seq_failed a => exact ih1 hn.1 a
  | next_ok _ _ ih1 ih2 =>
    cases h' with
    | next_ok a b =>
      obtain ⟨e1, rfl, rfl⟩ := ih1 hn.1 a; cases e1
      obtain ⟨rfl, rfl, rfl⟩ := ih2 (hn.2 _) b; exact ⟨rfl, rfl, rfl⟩
    | next_thrown a => obtain ⟨e1, _⟩ := ih1 hn.1 a; cases e1
  | next_thrown _ ih1 =>
    cases h' with
    | next_ok a b => obtain ⟨e1, _⟩ := ih1 hn.1 a; cases e1
    | next_thrown a => exact ih1 hn.1 a
  | orElse_ok _ _ ih1 ih2 =>
    cases h' with
    | orElse_ok a b =>
      obtain ⟨e1, rfl, rfl⟩ := ih1 hn.1 a; cases e1
      obtain ⟨rfl, rfl, rfl⟩ := ih2 (hn.2.1 _) b; exact ⟨rfl, rfl, rfl⟩
    | orElse_failed a b => obtain ⟨e1, _⟩ := ih1 hn.1 a; cases e1
    | orElse_thrown a => obtain ⟨e1, _⟩ := ih1 hn.1 a; cases e1
  | orElse_failed _ _ ih1 ih2 =>
    cases h' with
    | orElse_ok a b => obtain ⟨e1, _⟩ := ih1 hn.1 a; cases e1
    | orElse_failed a b =>
      obtain ⟨e1, rfl, rfl⟩ := ih1 hn.1 a; cases e1
      obtain ⟨rfl, rfl, rfl⟩ := ih2 hn.2.2 b; exact ⟨rfl, rfl, rfl⟩
    | orElse_thrown a => obtain ⟨e1, _⟩ := ih1 hn.1 a; cases e1
  | orElse_thrown _ ih1 =>
    cases h' with
    | orElse_ok a b => obtain ⟨e1, _⟩ := ih1 hn.1 a; cases e1
    | orElse_failed a b => obtain ⟨e1, _⟩ := ih1 hn.1 a; cases e1
    | orElse_thrown a => exact ih1 hn.1 a
  | catch_ok _ ih1 =>
    cases h' with
    | catch_ok a => exact ih1 hn.1 a
    | catch_failed a => obtain ⟨e1, _⟩ := ih1 hn.1 a; cases e1
    | catch_thrown a b => obtain ⟨e1, _⟩ := ih1 hn.1 a; cases e1
  | catch_failed _ ih1 =>
    cases h' with
    | catch_ok a => obtain ⟨e1, _⟩ := ih1 hn.1 a; cases e1
    | catch_failed a => exact ih1 hn.1 a
    | catch_thrown a b => obtain ⟨e1, _⟩ := ih1 hn.1 a; cases e1
  | catch_thrown _ _ ih1 ih2 =>
    cases h' with
    | catch_ok a => obtain ⟨e1, _⟩ := ih1 hn.1 a; cases e1
    | catch_failed a => obtain ⟨e1, _⟩ := ih1 hn.1 a; cases e1
    | catch_thrown a b =>
      obtain ⟨e1, rfl, rfl⟩ := ih1 hn.1 a; cases e1
      obtain ⟨rfl, rfl, rfl⟩ := ih2 hn.2 b; exact ⟨rfl, rfl, rfl⟩
  | guard_ok _ ih1 =>
    cases h' with
    | guard_ok a => exact ih1 hn a
    | guard_failed a => obtain ⟨e1, _⟩ := ih1 hn a; cases e1
  | guard_failed _ ih1 =>
    cases h' with
    | guard_ok a => obtain ⟨e1, _⟩ := ih1 hn a; cases e1
    | guard_failed a => obtain ⟨e1, rfl, rfl⟩ := ih1 hn a; cases e1; exact ⟨rfl, rfl, rfl⟩
  | load_ok _ ih1 =>
    cases h' with
    | load_ok a => exact ih1 hn a
    | load_failed a => obtain ⟨e1, _⟩ := ih1 hn a; cases e1
    | load_thrown a => obtain ⟨e1, _⟩ := ih1 hn a; cases e1
  | load_failed _ ih1 =>
    cases h' with
    | load_ok a => obtain ⟨e1, _⟩ := ih1 hn a; cases e1
    | load_failed a => obtain ⟨e1, rfl, rfl⟩ := ih1 hn a; cases e1; exact ⟨rfl, rfl, rfl⟩
    | load_thrown a => obtain ⟨e1, _⟩ := ih1 hn a; cases e1
  | load_thrown _ ih1 =>
    cases h' with
    | load_ok a => obtain ⟨e1, _⟩ := ih1 hn a; cases e1
    | load_failed a => obtain ⟨e1, _⟩ := ih1 hn a; cases e1
    | load_thrown a => exact ih1 hn a
  | monitor_ok _ ih1 =>
    cases h' with
    | monitor_ok a => exact ih1 hn a
    | monitor_failed a => obtain ⟨e1, _⟩ := ih1 hn a; cases e1
    | monitor_thrown a => obtain ⟨e1, _⟩ := ih1 hn a; cases e1
  | monitor_failed _ ih1 =>
    cases h' with
    | monitor_ok a => obtain ⟨e1, _⟩ := ih1 hn a; cases e1
    | monitor_failed a => obtain ⟨e1, rfl, rfl⟩ := ih1 hn a; cases e1; exact ⟨rfl, rfl, rfl⟩
    | monitor_thrown a => obtain ⟨e1, _⟩ := ih1 hn a; cases e1
  | monitor_thrown _ ih1 =>
    cases h' with
    | monitor_ok a => obtain ⟨e1, _⟩ := ih1 hn a; cases e1
    | monitor_failed a => obtain ⟨e1, _⟩ := ih1 hn a; cases e1
    | monitor_thrown a => exact ih1 hn a
  | value_ok _ ih1 =>
    cases h' with
    | value_ok a => exact ih1 hn a
    | value_failed a => obtain ⟨e1, _⟩ := ih1 hn a; cases e1
    | value_thrown a => obtain ⟨e1, _⟩ := ih1 hn a; cases e1
  | value_failed _ ih1 =>
    cases h' with
    | value_ok a => obtain ⟨e1, _⟩ := ih1 hn a; cases e1
    | value_failed a => obtain ⟨e1, rfl, rfl⟩ := ih1 hn a; cases e1; exact ⟨rfl, rfl, rfl⟩
    | value_thrown a => obtain ⟨e1, _⟩ := ih1 hn a; cases e1
  | value_thrown _ ih1 =>
    cases h' with
    | value_ok a => obtain ⟨e1, _⟩ := ih1 hn a; cases e1
    | value_failed a => obtain ⟨e1, _⟩ := ih1 hn a; cases e1
    | value_thrown a => exact ih1 hn a
  | toResult_ok _ ih1 =>
    cases h' with
    | toResult_ok a => exact ih1 hn a
    | toResult_failed a => obtain ⟨e1, _⟩ := ih1 hn a; cases e1
    | toResult_thrown a => obtain ⟨e1, _⟩ := ih1 hn a; cases e1
  | toResult_failed _ ih1 =>
    cases h' with
    | toResult_ok a => obtain ⟨e1, _⟩ := ih1 hn a; cases e1
    | toResult_failed a => exact ih1 hn a
    | toResult_thrown a => obtain ⟨e1, _⟩ := ih1 hn a; cases e1
  | toResult_thrown _ ih1 =>
    cases h' with
    | toResult_ok a => obtain ⟨e1, _⟩ := ih1 hn a; cases e1
    | toResult_failed a => obtain ⟨e1, _⟩ := ih1 hn a; cases e1
    | toResult_thrown a => obtain ⟨e1, rfl, rfl⟩ := ih1 hn a; cases e1; exact ⟨rfl, rfl, rfl⟩
  | all_ok _ ih1 =>
    cases h' with
    | all_ok a => exact ih1 hn.2.1 a
    | all_handled a => obtain ⟨e1, _⟩ := ih1 hn.2.1 a; cases e1
  | all_handled _ s1 g1 _ ih1 ih2 =>
    cases h' with
    | all_ok a => obtain ⟨e1, _⟩ := ih1 hn.2.1 a; cases e1
    | all_handled a s2 g2 b =>
      obtain ⟨e1, rfl, rfl⟩ := ih1 hn.2.1 a; cases e1
      cases firstSuitableOf_unique s1 s2
      cases gets_unique hn.1 g1 g2
      obtain ⟨rfl, rfl, rfl⟩ := ih2 (hn.2.2 _ _) b; exact ⟨rfl, rfl, rfl⟩
  | some_ok _ ih1 =>
    cases h' with
    | some_ok a => exact ih1 hn.2.1 a
    | some_unhandled a => obtain ⟨e1, _⟩ := ih1 hn.2.1 a; cases e1
    | some_handled a => obtain ⟨e1, _⟩ := ih1 hn.2.1 a; cases e1
    | some_again a => obtain ⟨e1, _⟩ := ih1 hn.2.1 a; cases e1
  | some_unhandled _ u ih1 =>
    cases h' with
    | some_ok a => obtain ⟨e1, _⟩ := ih1 hn.2.1 a; cases e1
    | some_unhandled a => exact ih1 hn.2.1 a
    | some_handled a s2 => obtain ⟨e1, _⟩ := ih1 hn.2.1 a; cases e1; exact (not_unhandled s2 u).elim
    | some_again a s2 => obtain ⟨e1, _⟩ := ih1 hn.2.1 a; cases e1; exact (not_unhandled s2 u).elim
  | some_handled _ s1 g1 n1 _ ih1 ih2 =>
    cases h' with
    | some_ok a => obtain ⟨e1, _⟩ := ih1 hn.2.1 a; cases e1
    | some_unhandled a u => obtain ⟨e1, _⟩ := ih1 hn.2.1 a; cases e1; exact (not_unhandled s1 u).elim
    | some_handled a s2 g2 n2 b =>
      obtain ⟨e1, rfl, rfl⟩ := ih1 hn.2.1 a; cases e1
      cases firstSuitableOf_unique s1 s2
      cases gets_unique hn.1 g1 g2
      obtain ⟨rfl, rfl, rfl⟩ := ih2 (hn.2.2 _ _) b; exact ⟨rfl, rfl, rfl⟩
    | some_again a s2 g2 n2 =>
      obtain ⟨e1, rfl, rfl⟩ := ih1 hn.2.1 a; cases e1
      cases firstSuitableOf_unique s1 s2
      cases gets_unique hn.1 g1 g2
      rw [n1] at n2; cases n2
  | some_again _ s1 g1 n1 ih1 =>
    cases h' with
    | some_ok a => obtain ⟨e1, _⟩ := ih1 hn.2.1 a; cases e1
    | some_unhandled a u => obtain ⟨e1, _⟩ := ih1 hn.2.1 a; cases e1; exact (not_unhandled s1 u).elim
    | some_handled a s2 g2 n2 b =>
      obtain ⟨e1, rfl, rfl⟩ := ih1 hn.2.1 a; cases e1
      cases firstSuitableOf_unique s1 s2
      cases gets_unique hn.1 g1 g2
      rw [n1] at n2; cases n2
    | some_again a s2 g2 n2 =>
      obtain ⟨e1, rfl, rfl⟩ := ih1 hn.2.1 a; cases e1
      cases firstSuitableOf_unique s1 s2
      cases gets_unique hn.1 g1 g2
      rw [n1] at n2; cases n2
      exact ⟨rfl, rfl, rfl⟩
  | catch_scope_ok _ ih1 =>
    cases h' with
    | catch_scope_ok a => exact ih1 hn.2.1 a
    | catch_scope_unhandled a => obtain ⟨e1, _⟩ := ih1 hn.2.1 a; cases e1
    | catch_scope_handled a => obtain ⟨e1, _⟩ := ih1 hn.2.1 a; cases e1
  | catch_scope_unhandled _ u ih1 =>
    cases h' with
    | catch_scope_ok a => obtain ⟨e1, _⟩ := ih1 hn.2.1 a; cases e1
    | catch_scope_unhandled a => exact ih1 hn.2.1 a
    | catch_scope_handled a s2 => obtain ⟨e1, _⟩ := ih1 hn.2.1 a; cases e1; exact (not_unhandled s2 u).elim
  | catch_scope_handled _ s1 g1 _ ih1 ih2 =>
    cases h' with
    | catch_scope_ok a => obtain ⟨e1, _⟩ := ih1 hn.2.1 a; cases e1
    | catch_scope_unhandled a u => obtain ⟨e1, _⟩ := ih1 hn.2.1 a; cases e1; exact (not_unhandled s1 u).elim
    | catch_scope_handled a s2 g2 b =>
      obtain ⟨e1, rfl, rfl⟩ := ih1 hn.2.1 a; cases e1
      cases firstSuitableOf_unique s1 s2
      cases gets_unique hn.1 g1 g2
      obtain ⟨rfl, rfl, rfl⟩ := ih2 (hn.2.2 _ _) b; exact ⟨rfl, rfl, rfl⟩

/-- **C48: programs do not depend on their surroundings.** Run in two states of a thread that differ in their scopes, in the objects stored there, and
in the current error, the program calls the same handlers with the same arguments, and fails with the same error or returns the same value. -/
theorem C48_independent {cfg : Cfg} {c : Id} {p : Direct} {da : Bool} (hp : p.prog.WF cfg da) (hd : p.Ok) (hn : p.NoLists) {w v : World PtrStore}
    (hw : ThreadOk w) (hv : ThreadOk v) (hdw : da = false → NoCapturingScope w) (hdv : da = false → NoCapturingScope v) {n : Nat}
    (hg : gens cfg.interf n ≤ 2 ^ 30) (hsw : Start cfg c n w) (hsv : Start cfg c n v) (ht : w.ticks = v.ticks) {o o' : Out} {w' v' : World PtrStore} (h : eval cfg p.prog w = some (o, w'))
    (h' : eval cfg p.prog v = some (o', v')) (hf : w'.ticks ≤ n) (hf' : v'.ticks ≤ n) :
    ∃ (io : Outcome) (l : List Call), io.Is o ∧ io.Is o' ∧ w'.ticks = v'.ticks ∧ callsIn w'.trace = l ++ callsIn w.trace ∧ callsIn v'.trace = l ++ callsIn v.trace := by
  obtain ⟨io, l, f1, f2, f3, _⟩ := C48_ideal hp hd hw hdw hg hsw h hf
  obtain ⟨io', l', g1, g2, g3, _⟩ := C48_ideal hp hd hv hdv hg hsv h' hf'
  rw [← ht] at g1
  obtain ⟨rfl, e2, rfl⟩ := C48_unique hn f1 g1
  exact ⟨io, l.reverse, f2, g2, e2, f3, g3⟩

/-! ## The hypotheses can be met -/

theorem returnSame_wf {cfg : Cfg} {da : Bool} {items : List Item} {args : List ArgVal} (hi : ∀ i ∈ items, i.Ok cfg da) (ha : ∀ a ∈ args, ArgVal.Ok a) :
    (returnSame items args).WF cfg da := by
  unfold returnSame
  split
  · rename_i id h
    obtain ⟨x, hx, hk⟩ := List.exists_of_findSome?_eq_some h
    refine ⟨?_, hi, trivial⟩
    have := ha x hx
    cases x <;> simp only [ArgVal.errorId, Option.some.injEq, reduceCtorEq] at hk <;> subst hk <;> exact Or.inr this.1
  · exact fun id ht => ⟨Or.inr ht, hi, trivial⟩

/-- An error (a `std::error_code`) is abandoned; another one passes a handler that returns it again with a different object of type 10, a monitor
and a guard; then it is handled. -/
def exDirect : Direct :=
  .handleAll [[.req tyErrorCode], [.req 10, .ptr 13, .ptr 14], []]
    (.orElse (.failCode ⟨42#32, 1⟩ 7) .ret
      (.guard [.item (.obj 13 4), .item (.obj 10 9)]
        (.monitor [.obj 14 6]
          (.handleSome [[.pred 10 (· == 3)], [.req 11]] (.fail [.obj 10 1, .obj 11 2] none) (fun _ _ => some [.obj 10 8]) (fun i _ => .ret i)))))
    (fun i _ => .ret i)

theorem exDirect_wf (da : Bool) : exDirect.prog.WF exCfg da := by
  refine ⟨⟨[[.req tyErrorCode], [.req 10, .ptr 13, .ptr 14]], [], rfl, rfl⟩, ⟨⟨fun h => absurd h (by decide), fun id hid => ?_⟩, fun _ => trivial,
    fun _ _ => ⟨?_, fun _ _ => ⟨⟨⟨?_, fun _ _ => trivial⟩, ?_⟩, fun _ => trivial, fun _ _ _ ht => ⟨Or.inr ht, ?_, trivial⟩⟩⟩⟩,
    fun _ _ _ => ⟨trivial, by intro r; simp⟩⟩
  · trivial
  · simp [OnItem.Ok, Item.Ok]
  · simp [Item.Ok]
  · exact fun i args ha => returnSame_wf (by simp [Item.Ok]) ha
  · simp [Item.Ok]

/-- Hypotheses of `C48_ideal` and of `C48_unique`. -/
example : exDirect.prog.WF exCfg false ∧ exDirect.Ok ∧ exDirect.NoLists ∧ ThreadOk (initThread 5#32) ∧ NoCapturingScope (initThread 5#32) ∧
    gens exCfg.interf 10 ≤ 2 ^ 30 ∧ Start exCfg 5#32 10 (initThread 5#32) ∧
    ∃ w', eval exCfg exDirect.prog (initThread 5#32) = some (.val 1, w') ∧ w'.ticks ≤ 10 ∧
      callsIn w'.trace = [(13#32, none, 1, [.obj 10 8, .ptr 13 (some 4), .ptr 14 (some 6)]), (13#32, none, 1, [.obj 11 2])] := by
  refine ⟨exDirect_wf _, ?_, ?_, threadOk_init (by decide), (fun ctx h => nomatch h), by decide, start_init _ (by decide) _, ?_⟩
  · simp [exDirect, Direct.Ok, Item.isAccum, leafCat]
  · simp [exDirect, Direct.NoLists, NoLists]
  · obtain ⟨w1, h1, h2⟩ := exists_of_map (f := fun w : World PtrStore => (w.ticks, w.trace)) (x := eval exCfg exDirect.prog (initThread 5#32)) (a := .val 1)
      (b := (2, [.handled 13#32 none 1 [.obj 10 8, .ptr 13 (some 4), .ptr 14 (some 6)], .offered 13#32 10 9, .offered 13#32 13 4, .offered 13#32 14 6,
        .offered 13#32 10 8, .handled 13#32 none 1 [.obj 11 2], .offered 13#32 11 2, .offered 13#32 10 1, .gen 13#32, .offered 9#32 tyErrorCode 7,
        .gen 9#32])) (by decide +kernel)
    simp only [Prod.mk.injEq] at h2
    exact ⟨w1, h1, by rw [h2.1]; decide, by rw [h2.2]; rfl⟩

/-- Hypotheses of `start_of_earlier`: before each id this thread generates, the other threads generate three. Its current error is one of theirs. -/
example : let cfg := { exCfg with interf := fun _ => 3 }
    Id.Tagged 5#32 ∧ gens cfg.interf 1000 ≤ 2 ^ 30 ∧ Earlier cfg 5#32 0 13#32 ∧ Start cfg 5#32 1000 { initThread 5#32 with cur := 13#32 } := by
  have h : gens (fun _ => 3) 1000 ≤ 2 ^ 30 := by decide +kernel
  have he : Earlier { exCfg with interf := fun _ => 3 } 5#32 0 13#32 := ⟨2, by decide, by decide, by decide⟩
  exact ⟨by decide, h, he, start_of_earlier (by decide) h (by decide) (Or.inr he) fun ty id v hs => absurd hs stored_nil⟩

theorem start_push {cfg : Cfg} {c : Id} {w : World PtrStore} {n : Nat} (hs : Start cfg c n w) (hw : ThreadOk w) {spec : List CellTy} (hn : spec.Nodup) :
    ∃ w', pushCtx spec w = some ((), w') ∧ ThreadOk w' ∧ Start cfg c n w' ∧ w'.ticks = w.ticks ∧ scopes w' = spec.map CellTy.empty :: scopes w := by
  obtain ⟨w', h1, h2, h3, h4⟩ := push_ptr hw hn
  have hx : pushCtx spec (absW w) = some ((), { absW w with mem := ⟨spec.map CellTy.empty :: (absW w).mem.frames⟩ }) := by
    simp [pushCtx, Store.push, hn]
  rw [hx] at h2
  simp only [Option.some.injEq, Prod.mk.injEq, true_and] at h2
  obtain ⟨_, e2, e3, _, e5, _⟩ := threadOk_of_absW h2.symm
  refine ⟨w', h1, h3, ⟨?_, ?_, ?_⟩, e5, h4⟩
  · rw [e3, e5]; exact hs.counter
  · rw [e2, e5]; exact hs.cur
  · intro ty id v h
    rw [h4, stored_cons] at h
    rw [e5]
    exact hs.stored ty id v (h.resolve_left stored_empty)

/-- Hypotheses of `C48_independent`: a thread outside of any scope, and one in a scope that holds the object of an abandoned error. -/
example : ∃ w v : World PtrStore, ThreadOk w ∧ ThreadOk v ∧ NoCapturingScope w ∧ NoCapturingScope v ∧ Start exCfg 5#32 10 w ∧ Start exCfg 5#32 10 v ∧
    w.ticks = v.ticks ∧ scopes w = [] ∧ scopes v = [[.obj 10 none, .obj 12 (some (9#32, 7))]] := by
  have hr : (Direct.fail [.obj 12 7] none).prog.WF exCfg true := ⟨by simp [Item.Ok], fun _ _ => trivial⟩
  have h0 : ThreadOk (initThread 5#32) := threadOk_init (by decide)
  obtain ⟨w, w1, w2⟩ := exists_of_map (f := fun w : World PtrStore => (w.ticks, scopes w, w.mem.ctxs)) (x := eval exCfg (Direct.fail [.obj 12 7] none).prog (initThread 5#32))
    (a := .err (.plain 9#32)) (b := (1, [], [])) (by decide +kernel)
  obtain ⟨u, u1, u2, u3, u4, _⟩ := start_push (start_init exCfg (c := 5#32) (by decide) 10) h0 (spec := [.obj 10, .obj 12]) (by decide)
  obtain ⟨v, v1, v2⟩ := exists_of_map (f := fun w : World PtrStore => (w.ticks, scopes w, w.mem.ctxs))
    (x := (pushCtx [.obj 10, .obj 12] >>= fun _ => eval exCfg (Direct.fail [.obj 12 7] none).prog : Comp PtrStore Out) (initThread 5#32))
    (a := .err (.plain 9#32)) (b := (1, [[.obj 10 none, .obj 12 (some (9#32, 7))]], [[.obj 10 0, .obj 12 1]])) (by decide +kernel)
  have v1' : eval exCfg (Direct.fail [.obj 12 7] none).prog u = some (.err (.plain 9#32), v) := by
    rw [← v1]
    simp only [bind, StateT.bind]
    rw [u1]
    rfl
  simp only [Prod.mk.injEq] at w2 v2
  obtain ⟨_, _, _, _, _, _, w3, w4⟩ := C48_ideal hr (by intro g h; cases h) h0 (by simp) (by decide) (start_init exCfg (by decide) 10) w1 (by rw [w2.1]; decide)
  obtain ⟨_, _, _, _, _, _, v3, v4⟩ := C48_ideal hr (by intro g h; cases h) u2 (by simp) (by decide) u3 v1' (by rw [v2.1]; decide)
  refine ⟨w, v, w3, v3, ?_, ?_, w4, v4, by rw [w2.1, v2.1], w2.2.1, v2.2.1⟩
  · intro ctx h; rw [w2.2.2] at h; cases h
  · intro ctx h d; rw [v2.2.2] at h; simp at h; subst h; simp

/-! ## Why the programs are restricted -/

/-- **If exceptions do not carry an error id, LEAF does not implement ideal error handling:** the handler gets an object of an error reported and
abandoned before the exception was thrown. -/
theorem C48_refuted_no_id :
    runFresh exCfg (.handleAll [[.req 10], []] (.bind (report [.obj 10 1] none) (fun v => .ret (.val v))
      (fun _ => .ret (.exc ⟨0, true, .none, [], false⟩))) (fun i _ => .ret (.val i))) =
      some (.val 0, [], [.handled 5#32 (some ⟨0, true, .none, [], false⟩) 0 [.obj 10 1], .offered 5#32 10 1, .gen 5#32]) := by
  decide +kernel

/-- **If a handler reports (and abandons) another error before it returns the one it was called for, objects may be lost:** the object of type 10 of
the first error does not reach the outer handler. -/
theorem C48_refuted_handler :
    runFresh exCfg (.handleAll [[.req 10], []] (.handleSome [[.info]] (report [.obj 10 1] none)
      (fun _ args => .bind (report [.obj 10 2] none) (fun v => .ret (.val v)) (fun _ => returnSame [] args))) (fun i _ => .ret (.val i))) =
      some (.val 1, [], [.handled 5#32 none 1 [], .offered 9#32 10 2, .gen 9#32, .handled 5#32 none 0 [.info 5#32 none none], .offered 5#32 10 1, .gen 5#32]) := by
  decide +kernel

/-- **If a handler modifies an object of the error in place before it returns the error, the object is lost:** the handler was given the object 5 of
type 10, and adds 1 to the object of this type by `info.error().load([](E & e) { ... })`. As its scope is no longer active, the function gets a new
object (0), and the handler of the enclosing scope receives the result, 1. If the handler loads the new value 6 instead, it gets there. -/
theorem C48_refuted_in_place (item : Item) (hi : item = .accum 10 0 (· + 1) ∨ item = .obj 10 6) :
    (runFresh exCfg (.handleAll [[.req 10], []] (.handleSome [[.ptr 10, .info]] (report [.obj 10 5] none) (fun _ args => returnSame [item] args))
      (fun i _ => .ret (.val i)))).map (fun r => r.2.2.filterMap fun | .handled _ _ _ args => some args | _ => none) =
      some [[.obj 10 (if item.isAccum then 1 else 6)], [.ptr 10 (some 5), .info 5#32 none none]] := by
  rcases hi with rfl | rfl <;> decide +kernel

end Leaf
