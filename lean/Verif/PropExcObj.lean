import Verif.ExcObjModel

/-!
# C26: swallowed LEAF exceptions
-/

namespace Leaf

/-! ## Specification -/

/-- What matters about the history: which exception objects exist, from which throw and with which id; for each throw, the object responsible for resetting the current error, if
any; the number of throws. -/
structure XSpec where
  origin : Nat → Option (Nat × Id)
  responsible : Nat → Option Nat
  throws : Nat

def XSpec.empty : XSpec := ⟨fun _ => none, fun _ => none, 0⟩

def XSpec.setOrigin (s : XSpec) (a : Nat) (x : Option (Nat × Id)) : XSpec := { s with origin := fun b => if b = a then x else s.origin b }
def XSpec.setResp (s : XSpec) (f : Nat) (x : Option Nat) : XSpec := { s with responsible := fun g => if g = f then x else s.responsible g }

/-- A throw makes its object responsible. A copy (or moved-to object) takes over from its original, if that is responsible. Examining or destroying the responsible object ends responsibility. -/
def XSpec.step (s : XSpec) : XOp → Option XSpec
  | .make a id => if s.origin a = none then some { (s.setOrigin a (some (s.throws, id))).setResp s.throws (some a) with throws := s.throws + 1 } else none
  | .copy a b | .move a b =>
    match s.origin a, s.origin b with
    | none, some (f, id) =>
      let s1 := s.setOrigin a (some (f, id))
      some (if s.responsible f = some b then s1.setResp f (some a) else s1)
    | _, _ => none
  | .examine a =>
    match s.origin a with
    | some (f, _) => some (if s.responsible f = some a then s.setResp f none else s)
    | none => none
  | .destroy a =>
    match s.origin a with
    | some (f, _) =>
      let s1 := s.setOrigin a none
      some (if s.responsible f = some a then s1.setResp f none else s1)
    | none => none
  | .setCur _ => some s

def XSpec.run (s : XSpec) : List XOp → Option XSpec
  | [] => some s
  | op :: ops => (s.step op).bind (XSpec.run · ops)

/-! ## Proofs -/

/-- Memory and specification agree. -/
structure XMem.Rel (m : XMem) (s : XSpec) : Prop where
  origin : ∀ a, s.origin a = (m.objs a).map fun x => (x.fam, x.id)
  flag : ∀ a x, m.objs a = some x → (x.clear = true ↔ s.responsible x.fam = some a)
  live : ∀ f a, s.responsible f = some a → ∃ x, m.objs a = some x ∧ x.fam = f
  throws : m.throws = s.throws
  famLt : ∀ a x, m.objs a = some x → x.fam < m.throws
  resets : m.resets.Nodup
  resetNone : ∀ f ∈ m.resets, s.responsible f = none ∧ f < m.throws

theorem XMem.put_self (m : XMem) (a x) : (m.put a x).objs a = x := by simp [XMem.put]
theorem XMem.put_ne (m : XMem) {a b : Nat} (x) (h : b ≠ a) : (m.put a x).objs b = m.objs b := by simp [XMem.put, h]

/-- Taking over from a copied or moved-from object. -/
theorem XMem.Rel.take {m : XMem} {s : XSpec} (h : m.Rel s) {a b : Nat} {x : XObj} (ha : m.objs a = none) (hb : m.objs b = some x) :
    ((m.put b (some { x with clear := false })).put a (some x)).Rel
      (if s.responsible x.fam = some b then (s.setOrigin a (some (x.fam, x.id))).setResp x.fam (some a) else s.setOrigin a (some (x.fam, x.id))) := by
  have hab : a ≠ b := by rintro rfl; rw [ha] at hb; simp at hb
  have hobj : ∀ c, ((m.put b (some { x with clear := false })).put a (some x)).objs c = if c = a then some x else if c = b then some { x with clear := false } else m.objs c :=
    fun c => rfl
  have hflag := h.flag b x hb
  have horig : ∀ c, (if s.responsible x.fam = some b then (s.setOrigin a (some (x.fam, x.id))).setResp x.fam (some a) else s.setOrigin a (some (x.fam, x.id))).origin c =
      if c = a then some (x.fam, x.id) else s.origin c := by
    intro c; split <;> rfl
  have hresp : ∀ f, (if s.responsible x.fam = some b then (s.setOrigin a (some (x.fam, x.id))).setResp x.fam (some a) else s.setOrigin a (some (x.fam, x.id))).responsible f =
      if s.responsible x.fam = some b ∧ f = x.fam then some a else s.responsible f := by
    intro f
    by_cases hr : s.responsible x.fam = some b
    · simp only [hr, if_true, true_and]; rfl
    · simp only [hr, if_false, false_and]; rfl
  have nota : ∀ f, s.responsible f ≠ some a := by
    intro f hf
    obtain ⟨y, hy, _⟩ := h.live f a hf
    rw [ha] at hy
    simp at hy
  refine ⟨?_, ?_, ?_, ?_, ?_, h.resets, ?_⟩
  · intro c
    rw [horig, hobj]
    by_cases hca : c = a
    · simp [hca]
    · by_cases hcb : c = b
      · simp [hcb, hab.symm, h.origin b, hb]
      · simp [hca, hcb, h.origin c]
  · intro c y hc
    rw [hobj] at hc
    rw [hresp]
    by_cases hca : c = a
    · subst hca
      simp only [if_true, Option.some.injEq] at hc
      subst hc
      rw [hflag]
      by_cases hr : s.responsible x.fam = some b
      · simp [hr]
      · simp [hr, nota]
    · rw [if_neg hca] at hc
      by_cases hcb : c = b
      · subst hcb
        simp only [if_true, Option.some.injEq] at hc
        subst hc
        by_cases hr : s.responsible x.fam = some c
        · simp [hr, hab]
        · simp [hr]
      · rw [if_neg hcb] at hc
        rw [h.flag c y hc]
        by_cases hr : s.responsible x.fam = some b ∧ y.fam = x.fam
        · rw [if_pos hr, hr.2, hr.1]
          simp [Ne.symm hcb, Ne.symm hca]
        · rw [if_neg hr]
  · intro f c hf
    rw [hresp] at hf
    rw [hobj]
    split at hf
    · rename_i hr
      cases hf
      exact ⟨x, by simp, hr.2.symm⟩
    · obtain ⟨y, hy, hy'⟩ := h.live f c hf
      have hca : c ≠ a := by rintro rfl; exact nota f hf
      rw [if_neg hca]
      by_cases hcb : c = b
      · subst hcb
        rw [hb] at hy
        cases hy
        exact ⟨{ x with clear := false }, if_pos rfl, hy'⟩
      · exact ⟨y, by rw [if_neg hcb]; exact hy, hy'⟩
  · show m.throws = _
    rw [h.throws]
    split <;> rfl
  · intro c y hc
    rw [hobj] at hc
    show y.fam < m.throws
    split at hc
    · cases hc; exact h.famLt b x hb
    · split at hc
      · cases hc; exact h.famLt b x hb
      · exact h.famLt c y hc
  · intro f hf
    obtain ⟨h1, h2⟩ := h.resetNone f hf
    refine ⟨?_, h2⟩
    rw [hresp, if_neg]
    · exact h1
    · rintro ⟨hr, rfl⟩
      rw [h1] at hr
      simp at hr

/-- Ending the responsibility of an object, by examination or destruction. -/
theorem XMem.Rel.release {m : XMem} {s : XSpec} (h : m.Rel s) {a : Nat} {x : XObj} (ha : m.objs a = some x) {y : Option XObj} (hy : ∀ z, y = some z → z.fam = x.fam ∧ z.clear = false)
    {s1 : XSpec} (hs1o : ∀ c, s1.origin c = if c = a then y.map (fun z => (z.fam, z.id)) else s.origin c) (hs1r : s1.responsible = s.responsible) (hs1t : s1.throws = s.throws)
    {m1 : XMem} (hm1 : ∀ c, m1.objs c = if c = a then y else m.objs c) (hm1t : m1.throws = m.throws)
    (hm1r : m1.resets = m.resets ∨ s.responsible x.fam = some a ∧ m1.resets = x.fam :: m.resets) :
    m1.Rel (if s.responsible x.fam = some a then s1.setResp x.fam none else s1) := by
  have horig : ∀ c, (if s.responsible x.fam = some a then s1.setResp x.fam none else s1).origin c = s1.origin c := by intro c; split <;> rfl
  have hresp : ∀ f, (if s.responsible x.fam = some a then s1.setResp x.fam none else s1).responsible f = if s.responsible x.fam = some a ∧ f = x.fam then none else s.responsible f := by
    intro f
    by_cases hr : s.responsible x.fam = some a
    · simp only [hr, if_true, true_and, ← hs1r]; rfl
    · simp only [hr, if_false, false_and, hs1r]
  refine ⟨?_, ?_, ?_, ?_, ?_, ?_, ?_⟩
  · intro c
    rw [horig, hs1o, hm1]
    by_cases hca : c = a
    · simp [hca]
    · simp [hca, h.origin c]
  · intro c z hc
    rw [hm1] at hc
    rw [hresp]
    by_cases hca : c = a
    · subst hca
      simp only [if_true] at hc
      obtain ⟨h1, h2⟩ := hy z hc
      rw [h1, h2]
      by_cases hr : s.responsible x.fam = some c
      · simp [hr]
      · simp [hr]
    · rw [if_neg hca] at hc
      rw [h.flag c z hc]
      by_cases hr : s.responsible x.fam = some a ∧ z.fam = x.fam
      · rw [if_pos hr, hr.2, hr.1]
        simp [Ne.symm hca]
      · rw [if_neg hr]
  · intro f c hf
    rw [hresp] at hf
    rw [hm1]
    split at hf
    · simp at hf
    · rename_i hr
      obtain ⟨z, hz, hz'⟩ := h.live f c hf
      have hca : c ≠ a := by
        rintro rfl
        rw [ha] at hz
        cases hz
        exact hr ⟨by rw [hz']; exact hf, hz'.symm⟩
      exact ⟨z, by rw [if_neg hca]; exact hz, hz'⟩
  · rw [hm1t, h.throws, ← hs1t]
    split <;> rfl
  · intro c z hc
    rw [hm1] at hc
    rw [hm1t]
    split at hc
    · rw [(hy z hc).1]; exact h.famLt a x ha
    · exact h.famLt c z hc
  · rcases hm1r with e | ⟨hr, e⟩
    · rw [e]; exact h.resets
    · rw [e]
      refine List.nodup_cons.mpr ⟨fun hmem => ?_, h.resets⟩
      have := (h.resetNone _ hmem).1
      rw [hr] at this
      simp at this
  · intro f hf
    rw [hresp, hm1t]
    rcases hm1r with e | ⟨hr, e⟩
    · rw [e] at hf
      obtain ⟨h1, h2⟩ := h.resetNone f hf
      refine ⟨?_, h2⟩
      split
      · rfl
      · exact h1
    · rw [e] at hf
      rcases List.mem_cons.mp hf with rfl | hf
      · exact ⟨by rw [if_pos ⟨hr, rfl⟩], h.famLt a x ha⟩
      · obtain ⟨h1, h2⟩ := h.resetNone f hf
        refine ⟨?_, h2⟩
        split
        · rfl
        · exact h1

theorem XMem.Rel.step {m : XMem} {s s' : XSpec} (h : m.Rel s) {op : XOp} (hs : s.step op = some s') : ∃ m', m.step op = some m' ∧ m'.Rel s' := by
  have orig : ∀ a f id, s.origin a = some (f, id) → ∃ x, m.objs a = some x ∧ x.fam = f ∧ x.id = id := by
    intro a f id ha
    rw [h.origin, Option.map_eq_some_iff] at ha
    obtain ⟨x, hx, he⟩ := ha
    simp only [Prod.mk.injEq] at he
    exact ⟨x, hx, he.1, he.2⟩
  have orign : ∀ a, s.origin a = none → m.objs a = none := by
    intro a ha
    rw [h.origin] at ha
    simpa using ha
  cases op with
  | make a id =>
    simp only [XSpec.step, Option.ite_none_right_eq_some, Option.some.injEq] at hs
    obtain ⟨ha, rfl⟩ := hs
    have hna := orign a ha
    refine ⟨{ m.put a (some ⟨m.throws, id, true⟩) with throws := m.throws + 1 }, by simp [XMem.step, hna], ?_⟩
    have hobj : ∀ c, ({ m.put a (some ⟨m.throws, id, true⟩) with throws := m.throws + 1 } : XMem).objs c = if c = a then some ⟨m.throws, id, true⟩ else m.objs c := fun c => rfl
    have hresp : ∀ f, XSpec.responsible { (s.setOrigin a (some (s.throws, id))).setResp s.throws (some a) with throws := s.throws + 1 } f =
        if f = s.throws then some a else s.responsible f := fun f => rfl
    refine ⟨?_, ?_, ?_, by show m.throws + 1 = s.throws + 1; rw [h.throws], ?_, h.resets, ?_⟩
    · intro c
      show (if c = a then _ else s.origin c) = _
      rw [hobj]
      by_cases hca : c = a
      · simp [hca, h.throws]
      · simp [hca, h.origin c]
    · intro c y hc
      rw [hobj] at hc
      rw [hresp]
      by_cases hca : c = a
      · subst hca
        simp only [if_true, Option.some.injEq] at hc
        subst hc
        simp [h.throws]
      · rw [if_neg hca] at hc
        rw [h.flag c y hc, if_neg]
        have := h.famLt c y hc
        rw [← h.throws]
        exact Nat.ne_of_lt this
    · intro f c hf
      rw [hresp] at hf
      rw [hobj]
      split at hf
      · rename_i e
        cases hf
        exact ⟨_, if_pos rfl, by rw [e, h.throws]⟩
      · obtain ⟨y, hy, hy'⟩ := h.live f c hf
        have hca : c ≠ a := by rintro rfl; rw [hna] at hy; simp at hy
        exact ⟨y, by rw [if_neg hca]; exact hy, hy'⟩
    · intro c y hc
      rw [hobj] at hc
      show y.fam < m.throws + 1
      split at hc
      · cases hc; exact Nat.lt_succ_self _
      · exact Nat.lt_succ_of_lt (h.famLt c y hc)
    · intro f hf
      obtain ⟨h1, h2⟩ := h.resetNone f hf
      refine ⟨?_, Nat.lt_succ_of_lt h2⟩
      rw [hresp, if_neg]
      · exact h1
      · rw [← h.throws]; exact Nat.ne_of_lt h2
  | copy a b =>
    simp only [XSpec.step] at hs
    split at hs
    · rename_i f id ha hb
      obtain ⟨x, hx, rfl, rfl⟩ := orig b f id hb
      have hna := orign a ha
      refine ⟨_, by simp only [XMem.step, hna, hx]; rfl, ?_⟩
      simp only [Option.some.injEq] at hs
      rw [← hs]
      exact h.take hna hx
    · simp at hs
  | move a b =>
    simp only [XSpec.step] at hs
    split at hs
    · rename_i f id ha hb
      obtain ⟨x, hx, rfl, rfl⟩ := orig b f id hb
      have hna := orign a ha
      refine ⟨_, by simp only [XMem.step, hna, hx]; rfl, ?_⟩
      simp only [Option.some.injEq] at hs
      rw [← hs]
      exact h.take hna hx
    · simp at hs
  | examine a =>
    simp only [XSpec.step] at hs
    split at hs
    · rename_i f id ha
      obtain ⟨x, hx, rfl, rfl⟩ := orig a f id ha
      refine ⟨m.put a (some { x with clear := false }), by simp [XMem.step, hx], ?_⟩
      simp only [Option.some.injEq] at hs
      rw [← hs]
      refine h.release hx (y := some { x with clear := false }) (by rintro z ⟨rfl⟩; exact ⟨rfl, rfl⟩) ?_ rfl rfl (fun c => rfl) rfl (Or.inl rfl)
      intro c
      by_cases hca : c = a
      · simp [hca, ha]
      · simp [hca]
    · simp at hs
  | destroy a =>
    simp only [XSpec.step] at hs
    split at hs
    · rename_i f id ha
      obtain ⟨x, hx, rfl, rfl⟩ := orig a f id ha
      simp only [Option.some.injEq] at hs
      rw [← hs]
      simp only [XMem.step, hx]
      by_cases hc : x.clear = true ∧ m.cur = x.id
      · rw [if_pos hc]
        refine ⟨{ m.put a none with cur := 0#32, resets := x.fam :: m.resets }, rfl, ?_⟩
        exact h.release hx (y := none) (by simp) (m1 := { m.put a none with cur := 0#32, resets := x.fam :: m.resets }) (s1 := s.setOrigin a none) (fun c => rfl) rfl rfl (fun c => rfl) rfl (Or.inr ⟨(h.flag a x hx).mp hc.1, rfl⟩)
      · rw [if_neg hc]
        refine ⟨m.put a none, rfl, ?_⟩
        exact h.release hx (y := none) (by simp) (m1 := m.put a none) (s1 := s.setOrigin a none) (fun c => rfl) rfl rfl (fun c => rfl) rfl (Or.inl rfl)
    · simp at hs
  | setCur id =>
    simp only [XSpec.step, Option.some.injEq] at hs
    subst hs
    exact ⟨{ m with cur := id }, rfl, ⟨h.origin, h.flag, h.live, h.throws, h.famLt, h.resets, h.resetNone⟩⟩

theorem XMem.Rel.run (ops : List XOp) {m : XMem} {s s' : XSpec} (h : m.Rel s) (hs : s.run ops = some s') : ∃ m', m.run ops = some m' ∧ m'.Rel s' := by
  induction ops generalizing m s with
  | nil =>
    simp only [XSpec.run, Option.some.injEq] at hs
    exact ⟨m, rfl, hs ▸ h⟩
  | cons op ops ih =>
    unfold XSpec.run at hs
    cases h1 : s.step op with
    | none => simp [h1] at hs
    | some s1 =>
      simp only [h1, Option.bind_some] at hs
      obtain ⟨m1, e1, e2⟩ := h.step h1
      obtain ⟨m', f1, f2⟩ := ih e2 hs
      refine ⟨m', ?_, f2⟩
      unfold XMem.run
      rw [e1]
      exact f1

theorem XMem.empty_rel (cur : Id) : (XMem.empty cur).Rel XSpec.empty :=
  ⟨fun _ => rfl, by simp [XMem.empty], by simp [XSpec.empty], rfl, by simp [XMem.empty], by simp [XMem.empty], by simp [XMem.empty]⟩

/-! ## The properties -/

/-- **C26: exactly at the destruction of the responsible object.** After any history, destroying an exception object resets the current error to 0 if the object is responsible for its throw and the current
error is its id; otherwise the current error stays as it is. -/
theorem C26_destroy (ops : List XOp) (cur : Id) {s : XSpec} (hs : XSpec.empty.run ops = some s) {a f : Nat} {id : Id} (ha : s.origin a = some (f, id)) :
    ∃ m m', (XMem.empty cur).run ops = some m ∧ m.step (.destroy a) = some m' ∧ m'.cur = if s.responsible f = some a ∧ m.cur = id then 0#32 else m.cur := by
  obtain ⟨m, h1, h2⟩ := (XMem.empty_rel cur).run ops hs
  rw [h2.origin, Option.map_eq_some_iff] at ha
  obtain ⟨x, hx, he⟩ := ha
  simp only [Prod.mk.injEq] at he
  obtain ⟨rfl, rfl⟩ := he
  have := h2.flag a x hx
  by_cases hc : x.clear = true ∧ m.cur = x.id
  · exact ⟨m, { m.put a none with cur := 0#32, resets := x.fam :: m.resets }, h1, by simp only [XMem.step, hx]; rw [if_pos hc], by rw [if_pos ⟨this.mp hc.1, hc.2⟩]⟩
  · refine ⟨m, m.put a none, h1, by simp only [XMem.step, hx]; rw [if_neg hc], ?_⟩
    rw [if_neg (fun h => hc ⟨this.mpr h.1, h.2⟩)]
    rfl

/-- **C26: nothing else resets it.** The other operations on exception objects leave the current error alone. -/
theorem C26_others (m : XMem) {m' : XMem} {op : XOp} (hd : ∀ a, op ≠ .destroy a) (hc : ∀ id, op ≠ .setCur id) (hs : m.step op = some m') : m'.cur = m.cur := by
  cases op with
  | destroy a => exact absurd rfl (hd a)
  | setCur id => exact absurd rfl (hc id)
  | make a id =>
    simp only [XMem.step] at hs
    split at hs
    · cases hs; rfl
    · simp at hs
  | copy a b =>
    simp only [XMem.step] at hs
    split at hs
    · cases hs; rfl
    · simp at hs
  | move a b =>
    simp only [XMem.step] at hs
    split at hs
    · cases hs; rfl
    · simp at hs
  | examine a =>
    simp only [XMem.step] at hs
    split at hs
    · cases hs; rfl
    · simp at hs

/-- **C26: at most once per throw,** and only for throws without a responsible object left. -/
theorem C26_once (ops : List XOp) (cur : Id) {s : XSpec} (hs : XSpec.empty.run ops = some s) :
    ∃ m, (XMem.empty cur).run ops = some m ∧ m.resets.Nodup ∧ ∀ f ∈ m.resets, f < s.throws ∧ s.responsible f = none := by
  obtain ⟨m, h1, h2⟩ := (XMem.empty_rel cur).run ops hs
  exact ⟨m, h1, h2.resets, fun f hf => ⟨h2.throws ▸ (h2.resetNone f hf).2, (h2.resetNone f hf).1⟩⟩

theorem XSpec.step_none {s s' : XSpec} {op : XOp} {f : Nat} (hf : f < s.throws) (hr : s.responsible f = none) (hs : s.step op = some s') : f < s'.throws ∧ s'.responsible f = none := by
  have set1 : ∀ (t : XSpec) g x, t.responsible f = none → (g = f → x = none) → (t.setResp g x).responsible f = none := by
    intro t g x ht hg
    show (if f = g then x else t.responsible f) = none
    split
    · rename_i e; exact hg e.symm
    · exact ht
  cases op <;> simp only [XSpec.step] at hs
  case make a id =>
    simp only [Option.ite_none_right_eq_some, Option.some.injEq] at hs
    obtain ⟨_, rfl⟩ := hs
    exact ⟨Nat.lt_succ_of_lt hf, set1 _ _ _ hr fun e => absurd (e ▸ hf) (Nat.lt_irrefl _)⟩
  case setCur id => cases hs; exact ⟨hf, hr⟩
  case copy a b =>
    split at hs
    · rename_i g id _ _
      simp only [Option.some.injEq] at hs
      subst hs
      split
      · rename_i hg
        exact ⟨hf, set1 _ _ _ hr fun e => by rw [e, hr] at hg; simp at hg⟩
      · exact ⟨hf, hr⟩
    · simp at hs
  case move a b =>
    split at hs
    · rename_i g id _ _
      simp only [Option.some.injEq] at hs
      subst hs
      split
      · rename_i hg
        exact ⟨hf, set1 _ _ _ hr fun e => by rw [e, hr] at hg; simp at hg⟩
      · exact ⟨hf, hr⟩
    · simp at hs
  case examine a =>
    split at hs
    · simp only [Option.some.injEq] at hs
      subst hs
      split
      · exact ⟨hf, set1 _ _ _ hr fun _ => rfl⟩
      · exact ⟨hf, hr⟩
    · simp at hs
  case destroy a =>
    split at hs
    · simp only [Option.some.injEq] at hs
      subst hs
      split
      · exact ⟨hf, set1 _ _ _ hr fun _ => rfl⟩
      · exact ⟨hf, hr⟩
    · simp at hs

/-- **C26: examined exceptions leave the current error alone.** Once the responsible object of a throw was examined (or destroyed), no object of this throw will reset the current error, whatever happens. -/
theorem C26_examined (pre ops : List XOp) (cur : Id) {s s' : XSpec} (hpre : XSpec.empty.run pre = some s) (hs : s.run ops = some s') {f : Nat} (hf : f < s.throws)
    (hr : s.responsible f = none) :
    ∃ m m', (XMem.empty cur).run pre = some m ∧ m.run ops = some m' ∧ m'.resets.count f = m.resets.count f := by
  obtain ⟨m, h1, h2⟩ := (XMem.empty_rel cur).run pre hpre
  have key : ∀ (ops : List XOp) (m : XMem) (s s' : XSpec), m.Rel s → s.run ops = some s' → f < s.throws → s.responsible f = none →
      ∃ m', m.run ops = some m' ∧ m'.resets.count f = m.resets.count f := by
    intro ops
    induction ops with
    | nil => intro m s s' _ _ _ _; exact ⟨m, rfl, rfl⟩
    | cons op ops ih =>
      intro m s s' h hs hf hr
      unfold XSpec.run at hs
      cases h1 : s.step op with
      | none => simp [h1] at hs
      | some s1 =>
        simp only [h1, Option.bind_some] at hs
        obtain ⟨m1, e1, e2⟩ := h.step h1
        obtain ⟨hf1, hr1⟩ := XSpec.step_none hf hr h1
        obtain ⟨m', g1, g2⟩ := ih m1 s1 s' e2 hs hf1 hr1
        refine ⟨m', ?_, ?_⟩
        · unfold XMem.run; rw [e1]; exact g1
        · rw [g2]
          -- this step does not log f
          cases op with
          | destroy a =>
            simp only [XMem.step] at e1
            split at e1
            · rename_i x hx
              split at e1
              · rename_i hc
                cases e1
                have hresp := (h.flag a x hx).mp hc.1
                have : x.fam ≠ f := by rintro rfl; rw [hr] at hresp; simp at hresp
                simp [this]
              · cases e1; rfl
            · simp at e1
          | make a id => simp only [XMem.step] at e1; split at e1 <;> cases e1; rfl
          | copy a b => simp only [XMem.step] at e1; split at e1 <;> cases e1; rfl
          | move a b => simp only [XMem.step] at e1; split at e1 <;> cases e1; rfl
          | examine a => simp only [XMem.step] at e1; split at e1 <;> cases e1; rfl
          | setCur id => cases e1; rfl
  obtain ⟨m', g1, g2⟩ := key ops m s s' h2 hs hf hr
  exact ⟨m, m', h1, g1, g2⟩

/-- The operations on exception objects that do not examine them. -/
def XOp.Silent : XOp → Prop
  | .copy _ _ | .move _ _ | .destroy _ => True
  | _ => False

/-- **C26: a swallowed exception does not leave a current error behind.** An error with id `id` is created and thrown as an exception; the exception is copied, moved and destroyed, in any way, but not examined;
in the end no exception object exists: then there is no current error. -/
theorem C26_swallowed (a : Nat) (id : Id) (ops : List XOp) (cur : Id) (hq : ∀ op ∈ ops, op.Silent) {s : XSpec}
    (hs : XSpec.empty.run (.setCur id :: .make a id :: ops) = some s) (hn : ∀ b, s.origin b = none) :
    ∃ m, (XMem.empty cur).run (.setCur id :: .make a id :: ops) = some m ∧ m.cur = 0#32 := by
  have key : ∀ (ops : List XOp), (∀ op ∈ ops, op.Silent) → ∀ (m : XMem) (s s' : XSpec), m.Rel s → (∀ b x, m.objs b = some x → x.fam = 0 ∧ x.id = id) →
      (m.cur = 0#32 ∨ m.cur = id ∧ ∃ b, s.responsible 0 = some b) → s.run ops = some s' → ∃ m', m.run ops = some m' ∧ m'.Rel s' ∧
      (m'.cur = 0#32 ∨ m'.cur = id ∧ ∃ b, s'.responsible 0 = some b) := by
    intro ops
    induction ops with
    | nil =>
      intro _ m s s' h _ hc hs
      simp only [XSpec.run, Option.some.injEq] at hs
      exact ⟨m, rfl, hs ▸ h, hs ▸ hc⟩
    | cons op ops ih =>
      intro hq m s s' h hob hc hs
      unfold XSpec.run at hs
      cases h1 : s.step op with
      | none => simp [h1] at hs
      | some s1 =>
        simp only [h1, Option.bind_some] at hs
        obtain ⟨m1, e1, e2⟩ := h.step h1
        have hsil := hq op (List.mem_cons_self ..)
        have fin : (∀ b x, m1.objs b = some x → x.fam = 0 ∧ x.id = id) ∧ (m1.cur = 0#32 ∨ m1.cur = id ∧ ∃ b, s1.responsible 0 = some b) := by
          have takeCase : ∀ c d x, m.objs c = none → m.objs d = some x → m1 = (m.put d (some { x with clear := false })).put c (some x) →
              s1 = (if s.responsible x.fam = some d then (s.setOrigin c (some (x.fam, x.id))).setResp x.fam (some c) else s.setOrigin c (some (x.fam, x.id))) →
              (∀ b x, m1.objs b = some x → x.fam = 0 ∧ x.id = id) ∧ (m1.cur = 0#32 ∨ m1.cur = id ∧ ∃ b, s1.responsible 0 = some b) := by
            intro c d x hcn hd hm hs1
            subst hm hs1
            obtain ⟨hx1, hx2⟩ := hob d x hd
            refine ⟨?_, ?_⟩
            · intro b y hb
              have hb : (if b = c then some x else if b = d then some { x with clear := false } else m.objs b) = some y := hb
              split at hb
              · cases hb; exact ⟨hx1, hx2⟩
              · split at hb
                · cases hb; exact ⟨hx1, hx2⟩
                · exact hob b y hb
            · rcases hc with hc | ⟨hc, b, hb⟩
              · exact Or.inl hc
              · refine Or.inr ⟨hc, ?_⟩
                by_cases hr : s.responsible x.fam = some d
                · rw [if_pos hr, hx1]
                  exact ⟨c, rfl⟩
                · rw [if_neg hr]
                  exact ⟨b, hb⟩
          cases op with
          | make a id => exact absurd hsil (by simp [XOp.Silent])
          | examine a => exact absurd hsil (by simp [XOp.Silent])
          | setCur id => exact absurd hsil (by simp [XOp.Silent])
          | copy c d =>
            simp only [XMem.step] at e1
            split at e1
            · rename_i x hcn hd
              simp only [XSpec.step, h.origin, hcn, hd, Option.map_none, Option.map_some, Option.some.injEq] at h1
              exact takeCase c d x hcn hd (Option.some.inj e1).symm h1.symm
            · simp at e1
          | move c d =>
            simp only [XMem.step] at e1
            split at e1
            · rename_i x hcn hd
              simp only [XSpec.step, h.origin, hcn, hd, Option.map_none, Option.map_some, Option.some.injEq] at h1
              exact takeCase c d x hcn hd (Option.some.inj e1).symm h1.symm
            · simp at e1
          | destroy c =>
            simp only [XMem.step] at e1
            split at e1
            · rename_i x hx
              obtain ⟨hx1, hx2⟩ := hob c x hx
              simp only [XSpec.step, h.origin, hx, Option.map_some, Option.some.injEq] at h1
              have obs : ∀ b y, (if b = c then none else m.objs b) = some y → y.fam = 0 ∧ y.id = id := by
                intro b y hb
                split at hb
                · simp at hb
                · exact hob b y hb
              split at e1
              · cases e1
                exact ⟨obs, Or.inl rfl⟩
              · rename_i hnc
                cases e1
                refine ⟨obs, ?_⟩
                rcases hc with hc | ⟨hc, b, hb⟩
                · exact Or.inl hc
                · have hnr : ¬ s.responsible x.fam = some c := fun hr => hnc ⟨(h.flag c x hx).mpr hr, by rw [hc, hx2]⟩
                  rw [if_neg hnr] at h1
                  exact Or.inr ⟨hc, b, by rw [← h1]; exact hb⟩
            · simp at e1
        obtain ⟨m', g1, g2, g3⟩ := ih (fun op ho => hq op (List.mem_cons_of_mem _ ho)) m1 s1 s' e2 fin.1 fin.2 hs
        exact ⟨m', by unfold XMem.run; rw [e1]; exact g1, g2, g3⟩
  -- after the throw
  have hs0 : XSpec.empty.run (.setCur id :: .make a id :: ops) = ({ (XSpec.empty.setOrigin a (some (0, id))).setResp 0 (some a) with throws := 1 } : XSpec).run ops := rfl
  have hm0 : (XMem.empty cur).run (.setCur id :: .make a id :: ops) = ({ (XMem.empty id).put a (some ⟨0, id, true⟩) with throws := 1 } : XMem).run ops := rfl
  rw [hs0] at hs
  rw [hm0]
  obtain ⟨m1, e1, e2⟩ := (XMem.empty_rel id).step (op := .make a id) (s' := { (XSpec.empty.setOrigin a (some (0, id))).setResp 0 (some a) with throws := 1 }) rfl
  have he : m1 = { (XMem.empty id).put a (some ⟨0, id, true⟩) with throws := 1 } := (Option.some.inj e1).symm
  subst he
  obtain ⟨m', g1, g2, g3⟩ := key ops hq _ _ s e2 (by
      intro b x hb
      have hb : (if b = a then some ⟨0, id, true⟩ else none) = some x := hb
      split at hb
      · cases hb; exact ⟨rfl, rfl⟩
      · simp at hb) (Or.inr ⟨rfl, a, rfl⟩) hs
  refine ⟨m', g1, ?_⟩
  rcases g3 with h | ⟨_, b, hb⟩
  · exact h
  · exfalso
    obtain ⟨x, hx, _⟩ := g2.live 0 b hb
    have := g2.origin b
    rw [hn b, hx] at this
    simp at this

/-! ## The hypotheses can be met -/

/-- Thrown (0), copied to the exception object (1), caught by value (2); all destroyed. -/
def exSwallow : List XOp := [.move 1 0, .destroy 0, .copy 2 1, .destroy 2, .destroy 1]

example : ∃ s, XSpec.empty.run (.setCur 5#32 :: .make 0 5#32 :: exSwallow) = some s ∧ s.origin 0 = none ∧ s.origin 1 = none ∧ s.origin 2 = none ∧ s.responsible 0 = none :=
  ⟨_, rfl, rfl, rfl, rfl, rfl⟩

example : ∀ op ∈ exSwallow, op.Silent := by simp [exSwallow, XOp.Silent]

example : ∃ m, (XMem.empty 0#32).run (.setCur 5#32 :: .make 0 5#32 :: exSwallow) = some m ∧ m.cur = 0#32 ∧ m.resets = [0] := ⟨_, rfl, rfl, rfl⟩

/-- Examined: the current error stays. -/
example : ∃ s m, XSpec.empty.run [.setCur 5#32, .make 0 5#32, .move 1 0, .examine 1] = some s ∧ s.responsible 0 = none ∧ 0 < s.throws ∧
    (XMem.empty 0#32).run [.setCur 5#32, .make 0 5#32, .move 1 0, .examine 1, .destroy 0, .destroy 1] = some m ∧ m.cur = 5#32 :=
  ⟨_, _, rfl, rfl, by decide, rfl, rfl⟩

end Leaf
