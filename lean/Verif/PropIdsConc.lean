import Verif.HistLemmas
import Verif.PropThreads
import Verif.PropGuards

/-!
# C01, for threads running whole programs

`PropIds` proves uniqueness for threads that do nothing but generate ids. Here threads run programs; nothing is assumed about them.
-/

namespace Leaf
variable {cfg : Cfg} {progs : Tid → Prog} {sched : List Tid} {s : Sys}

/-- **C01**, programs: the ids recorded by each thread are its entries in the history, and in the history ids less than `2^30` apart
are different; ids `2^30` apart are equal. -/
theorem C01_history (hr : (Sys.init cfg progs).run cfg sched = some s) :
    (∀ t, (s.thr t).ids = (s.hist.filter (·.1 == t)).map (·.2)) ∧
    ∀ i j (hi : i < s.hist.length) (hj : j < s.hist.length), i < j →
      (j - i < 2 ^ 30 → (s.hist[i]).2 ≠ (s.hist[j]).2) ∧ (j - i = 2 ^ 30 → (s.hist[i]).2 = (s.hist[j]).2) := by
  have h := (histOk_run sched (histOk_init cfg progs) hr).1
  refine ⟨h.thr, fun i j hi hj hij => ?_⟩
  rw [h.ids i hi, h.ids j hj]
  constructor
  · intro hd e
    rw [offset_inj] at e
    omega
  · intro hd
    rw [offset_inj]
    omega

/-- **C01**, programs: as long as fewer than `2^30` ids were generated by all threads together, no thread generated the same id twice, and no
id was generated by two threads. -/
theorem C01_threads (hr : (Sys.init cfg progs).run cfg sched = some s) (hn : (Sys.init cfg progs).generated cfg sched ≤ 2 ^ 30) :
    (∀ t, (s.thr t).ids.Nodup) ∧ ∀ t u, t ≠ u → ∀ id ∈ (s.thr t).ids, id ∉ (s.thr u).ids := by
  obtain ⟨h1, h2⟩ := C01_history hr
  have hl := (histOk_run sched (histOk_init cfg progs) hr).2
  have hp : s.hist.Pairwise fun a b => a.2 ≠ b.2 := by
    rw [List.pairwise_iff_getElem]
    intro i j hi hj hij
    refine (h2 i j hi hj hij).1 ?_
    simp only [Sys.init, List.length_nil] at hl
    simp only [Sys.init] at hn
    omega
  constructor
  · intro t
    rw [h1, List.nodup_iff_pairwise_ne, List.pairwise_map]
    exact hp.filter _
  · intro t u htu id ht hu
    rw [h1, List.mem_map] at ht hu
    obtain ⟨a, ha, rfl⟩ := ht
    obtain ⟨b, hb, e⟩ := hu
    simp only [List.mem_filter, beq_iff_eq] at ha hb
    obtain ⟨i, hi, hi'⟩ := List.getElem_of_mem ha.1
    obtain ⟨j, hj, hj'⟩ := List.getElem_of_mem hb.1
    rw [List.pairwise_iff_getElem] at hp
    have hij : i ≠ j := by
      intro e'
      subst e'
      rw [hi'] at hj'
      rw [hj'] at ha
      exact htu (ha.2.symm.trans hb.2)
    rcases Nat.lt_or_gt_of_ne hij with h | h
    · exact hp i j hi hj h (by rw [hi', hj', e])
    · exact hp j i hj hi h (by rw [hi', hj', e])

/-- **C02**, programs: every id generated by a thread, whatever the threads run, is truthy, carries the tag bits, and is returned unchanged by
`make_error_id`. -/
theorem C02_threads (hr : (Sys.init cfg progs).run cfg sched = some s) (t : Tid) {id : Id} (hi : id ∈ (s.thr t).ids) :
    id.truthy = true ∧ id.Tagged ∧ makeErrorId id = id := by
  have h := (histOk_run sched (histOk_init cfg progs) hr).1
  rw [h.thr, List.mem_map] at hi
  obtain ⟨a, ha, rfl⟩ := hi
  obtain ⟨k, hk, rfl⟩ := List.getElem_of_mem (List.mem_filter.mp ha).1
  have ht : ((s.hist[k]).2).Tagged := by
    rw [h.ids k hk]
    exact add4k_tagged (by decide) _
  exact ⟨by simp [Id.truthy, tagged_ne_zero ht], ht, makeErrorId_of_tagged ht⟩

/-- **C02: `new_error`.** In every state of a thread, with any arguments, `new_error` returns the id it generated, which is valid. -/
theorem C02_new_error {items : List Item} {w w' : World PtrStore} {id : Id} (hw : ThreadOk w) (h : newError cfg items w = some (id, w')) :
    id = nextId cfg w ∧ id.truthy = true ∧ id.Tagged := by
  have ht : (nextId cfg w).Tagged := nextId_tagged (w := absW w) hw.good
  have e : id = nextId cfg w := by
    obtain ⟨w1, h1, _⟩ := newId_ptr (cfg := cfg) hw
    unfold newError at h
    rw [bind_apply, h1, Option.bind_some] at h
    simp only [makeErrorId_of_tagged ht] at h
    rw [bind_apply] at h
    cases hl : errorIdLoad cfg (nextId cfg w) items w1 with
    | none => rw [hl] at h; cases h
    | some x => rw [hl] at h; cases h; rfl
  subst e
  exact ⟨rfl, by simp [Id.truthy, tagged_ne_zero ht], ht⟩

example : (newError exCfg [.obj 10 1] (initThread 0xFFFFFFFD#32 : World PtrStore)).map (·.1) = some 1#32 := by decide +kernel

/-- Two threads, two ids each, interleaved. -/
example : (match (Sys.init exCfg exThread).run exCfg exSched with
    | some s => some ((s.thr 0).ids, (s.thr 1).ids, s.hist)
    | none => none) = some ([13#32, 9#32], [17#32, 5#32], [(1, 17#32), (0, 13#32), (0, 9#32), (1, 5#32)]) := by decide +kernel

end Leaf
