import Verif.Direct
import Verif.RenameRun

/-!
# Lemmas for C48: LEAF implements ideal error handling (abstract storage)
-/

namespace Leaf

variable {cfg : Cfg} {c : Id} {K : Id → Prop} {lo n : Nat}

/-! ## Ids -/

theorem gens_lt (i : Nat → Nat) {a b : Nat} (h : a < b) : gens i a < gens i b := by
  induction b with
  | zero => omega
  | succ b ih =>
    simp only [gens]
    rcases Nat.lt_succ_iff_lt_or_eq.mp h with h | h
    · have := ih h; omega
    · subst h; omega

theorem gens_le (i : Nat → Nat) {a b : Nat} (h : a ≤ b) : gens i a ≤ gens i b := by
  rcases Nat.lt_or_eq_of_le h with h | h
  · exact Nat.le_of_lt (gens_lt i h)
  · rw [h]; exact Nat.le_refl _

/-- No more than `n` ids are generated by the thread, and these do not run out. -/
def Few (cfg : Cfg) (n t : Nat) : Prop := t ≤ n ∧ gens cfg.interf n ≤ 2 ^ 30

theorem Few.le {s t : Nat} (h : Few cfg n t) (hs : s ≤ t) : Few cfg n s := ⟨Nat.le_trans hs h.1, h.2⟩

theorem errorNo_ne {s t : Nat} (hs : s < t) (ht : t < n) (hn : gens cfg.interf n ≤ 2 ^ 30) : errorNo cfg c s ≠ errorNo cfg c t := by
  intro he
  unfold errorNo at he
  rw [BitVec.add_right_inj] at he
  have h1 := congrArg BitVec.toNat he
  simp only [BitVec.toNat_ofNat] at h1
  have h2 := gens_lt cfg.interf (Nat.succ_lt_succ hs)
  have h3 := gens_le cfg.interf (Nat.succ_le_of_lt ht)
  have h4 := gens_lt cfg.interf (Nat.zero_lt_succ s)
  have h0 : gens cfg.interf 0 = 0 := rfl
  simp only [Nat.succ_eq_add_one] at *
  omega

theorem NotAhead.le {s t : Nat} {id : Id} (h : NotAhead cfg c s n id) (hs : s ≤ t) : NotAhead cfg c t n id :=
  fun x h1 h2 => h x (Nat.le_trans hs h1) h2

/-- The ids the thread generated itself. -/
theorem notAhead_own {s t : Nat} (hs : s < t) (hn : gens cfg.interf n ≤ 2 ^ 30) : NotAhead cfg c t n (errorNo cfg c s) :=
  fun _ h1 h2 => errorNo_ne (Nat.lt_of_lt_of_le hs h1) h2 hn

/-! ## The number of generated ids only grows -/

def Mono {M : Type} {α : Type} (x : Comp M α) : Prop := ∀ w a w', x w = some (a, w') → w.ticks ≤ w'.ticks

section
variable {M : Type} [Store M] {α β : Type}

theorem Mono.of_den {y : Act α} {x : Comp M α} (h : Den M cfg y x) : Mono x := by
  intro w a w' hx
  unfold Den at h
  rw [← h] at hx
  exact run_ticks cfg y w w' a hx

theorem Mono.eval (p : Prog) : Mono (Leaf.eval cfg p : Comp M Out) := .of_den (den_eval cfg p)

omit [Store M] in
theorem Mono.pure (a : α) : Mono (Pure.pure a : Comp M α) := by
  intro w b w' h
  cases h
  exact Nat.le_refl _

omit [Store M] in
theorem Mono.ub : Mono (Leaf.ub : Comp M α) := by
  intro w b w' h
  cases h

omit [Store M] in
theorem Mono.bind {x : Comp M α} {f : α → Comp M β} (hx : Mono x) (hf : ∀ a, Mono (f a)) : Mono (x >>= f) := by
  intro w b w' h
  rw [bind_apply] at h
  cases h1 : x w with
  | none => simp [h1] at h
  | some p =>
    rw [h1, Option.bind_some] at h
    exact Nat.le_trans (hx w p.1 p.2 h1) (hf p.1 p.2 b w' h)

theorem Mono.callHandler (specs : List (List Arg)) (body : Nat → List ArgVal → Prog) (cells : List CtxCell) (id : Id) (ex : Option Exc) (loc : Option Val)
    (i : Nat) : Mono (Leaf.callHandler cfg specs (fun i a => Leaf.eval cfg (body i a)) cells id ex loc i : Comp M Out) :=
  .of_den (den_callHandler cfg specs (fun i a => den_eval cfg (body i a)) cells id ex loc i)

theorem Mono.catchPath (specs : List (List Arg)) (body : Nat → List ArgVal → Prog) (e : Exc) :
    Mono (Leaf.catchPath cfg specs (fun i a => Leaf.eval cfg (body i a)) e : Comp M (Out × List CtxCell)) :=
  .of_den (den_catchPath cfg specs (fun i a => den_eval cfg (body i a)) e)

theorem Mono.unloadErr (cells : List CtxCell) (o : Out) :
    Mono (match o with | .err r' => unloadCells cfg r'.errId cells | _ => Pure.pure () : Comp M Unit) := by
  cases o with
  | err r => exact .of_den (den_unloadCells _ _ _)
  | _ => exact .pure _

theorem Mono.afterSome (specs : List (List Arg)) (body : Nat → List ArgVal → Prog) (o : Out) :
    Mono (Leaf.afterSome cfg specs (fun i a => Leaf.eval cfg (body i a)) o : Comp M Out) := by
  unfold Leaf.afterSome
  cases o with
  | val v => exact .bind (.of_den (cfg := cfg) den_popCtx) fun _ => .pure _
  | err r =>
    refine .bind (.of_den (den_resultUnload cfg r)) fun _ => .bind (.of_den (cfg := cfg) den_popCtx) fun cells =>
      .bind (.of_den (cfg := cfg) (den_ctxLoc _ _)) fun loc => ?_
    cases selectSome cfg cells r.errId none specs with
    | none =>
      refine .bind (.pure _) fun rr => ?_
      cases rr <;> first | exact .bind (.of_den (den_unloadCells _ _ _)) fun _ => .pure _ | exact .pure _
    | some i =>
      refine .bind (.callHandler specs body _ _ _ _ _) fun rr => ?_
      cases rr <;> first | exact .bind (.of_den (den_unloadCells _ _ _)) fun _ => .pure _ | exact .pure _
  | exc e =>
    refine .bind (.catchPath specs body e) fun x => ?_
    obtain ⟨o, cells⟩ := x
    cases o <;> first | exact .bind (.of_den (den_unloadCells _ _ _)) fun _ => .pure _ | exact .pure _

omit [Store M] in
theorem Mono.noErr (o : Out) : Mono (Leaf.noErr o : Comp M Out) := by
  cases o with
  | err r => exact .ub
  | _ => exact .pure _

theorem Mono.afterAll (specs : List (List Arg)) (body : Nat → List ArgVal → Prog) (o : Out) :
    Mono (Leaf.afterAll cfg specs (fun i a => Leaf.eval cfg (body i a)) o : Comp M Out) := by
  unfold Leaf.afterAll
  cases o with
  | val v => exact .bind (.of_den (cfg := cfg) den_popCtx) fun _ => .pure _
  | err r =>
    refine .bind (.of_den (den_resultUnload cfg r)) fun _ => .bind (.of_den (cfg := cfg) den_popCtx) fun cells =>
      .bind (.of_den (cfg := cfg) (den_ctxLoc _ _)) fun loc => ?_
    cases selectAll cfg cells r.errId none specs with
    | none => exact .ub
    | some i => exact .bind (.callHandler specs body _ _ _ _ _) fun rr => .noErr _
  | exc e => exact .bind (.catchPath specs body e) fun x => .noErr _

end

/-! ## The invariant -/

/-- A slot of `context` type `capture` is in use for error `k`. -/
def Keyed (k : Id) (fs : List (List CtxCell)) : Prop := ∃ f ∈ fs, ∃ ns, .da k ns ∈ f

/-- The ids the thread knows are not among those it is going to generate. Capturing slots in use for an error which is not in `K` are in use for an error the thread
reported after its first `lo` ones. -/
structure IdealInv (cfg : Cfg) (c : Id) (K : Id → Prop) (lo n : Nat) (w : World AbsStore) : Prop where
  good : w.Good
  counter : w.counter = c + BitVec.ofNat 32 (4 * gens cfg.interf w.ticks)
  cur : NotAhead cfg c w.ticks n w.cur
  stored : ∀ ty id v, Stored ty id v w.mem.frames → NotAhead cfg c w.ticks n id
  few : gens cfg.interf n ≤ 2 ^ 30
  zero : K 0#32
  low : lo ≤ w.ticks
  keys : ∀ k, Keyed k w.mem.frames → K k ∨ ∃ t, lo ≤ t ∧ t < w.ticks ∧ k = errorNo cfg c t

section
variable {w w1 : World AbsStore}

theorem IdealInv.nextId (h : IdealInv cfg c K lo n w) : nextId cfg w = errorNo cfg c w.ticks := by
  unfold Leaf.nextId errorNo
  rw [h.counter]
  simp only [gens, BitVec.add_assoc, ← BitVec.ofNat_add]
  congr 2
  omega

theorem IdealInv.base (h : IdealInv cfg c K lo n w) (n : Nat) : (c + BitVec.ofNat 32 (4 * n)).Tagged := by
  have hc : c.Tagged := by
    have h1 := h.good.2
    have h2 := h.counter
    have : c = w.counter - BitVec.ofNat 32 (4 * gens cfg.interf w.ticks) := by rw [h2]; exact (BitVec.add_sub_cancel _ _).symm
    rw [this]
    generalize gens cfg.interf w.ticks = n
    have hk : w.counter - BitVec.ofNat 32 (4 * n) = w.counter + BitVec.ofNat 32 (4 * (2 ^ 30 - n % 2 ^ 30)) := by
      apply BitVec.eq_of_toNat_eq
      simp only [BitVec.toNat_sub, BitVec.toNat_add, BitVec.toNat_ofNat]
      omega
    rw [hk]
    exact add4k_tagged h1 _
  exact add4k_tagged hc _

theorem errorNo_tagged (h : IdealInv cfg c K lo n w) {t : Nat} : (errorNo cfg c t).Tagged := h.base _

theorem IdealInv.fresh (h : IdealInv cfg c K lo n w) (hf : Few cfg n (w.ticks + 1)) :
    errorNo cfg c w.ticks ≠ w.cur ∧ ∀ ty v, ¬ Stored ty (errorNo cfg c w.ticks) v w.mem.frames :=
  ⟨fun he => h.cur _ (Nat.le_refl _) hf.1 he.symm, fun _ _ hs => h.stored _ _ _ hs _ (Nat.le_refl _) hf.1 rfl⟩

theorem IdealInv.gen (h : IdealInv cfg c K lo n w) : IdealInv cfg c K lo n (w.gen cfg) where
  good := gen_good h.good
  counter := by
    show Leaf.nextId cfg w = _
    rw [h.nextId]
    rfl
  cur := by
    show NotAhead cfg c (w.ticks + 1) n (Leaf.nextId cfg w)
    rw [h.nextId]
    exact notAhead_own (Nat.lt_succ_self _) h.few
  stored ty id v hs := (h.stored ty id v hs).le (Nat.le_succ _)
  few := h.few
  zero := h.zero
  low := Nat.le_succ_of_le h.low
  keys k hk := by
    rcases h.keys k hk with h1 | ⟨t, h1, h2, h3⟩
    · exact Or.inl h1
    · exact Or.inr ⟨t, h1, Nat.lt_succ_of_lt h2, h3⟩

theorem stored_putItems {keep : Bool} {id : Id} {items : List Item} {fs : List (List CtxCell)} {ty : Ty} {k : Id} {v : Val}
    (h : Stored ty k v (putItems cfg keep id items fs)) : Stored ty k v fs ∨ k = id := by
  induction items generalizing fs with
  | nil => exact Or.inl h
  | cons i is ih =>
    rcases ih h with h | h
    · rcases stored_putObj h with h | h
      · exact Or.inl h
      · exact Or.inr h.2.1
    · exact Or.inr h

theorem keyed_cons {k : Id} {f : List CtxCell} {fs : List (List CtxCell)} : Keyed k (f :: fs) ↔ (∃ ns, .da k ns ∈ f) ∨ Keyed k fs := by
  simp [Keyed]

theorem keyed_append {k : Id} {fs gs : List (List CtxCell)} : Keyed k (fs ++ gs) ↔ Keyed k fs ∨ Keyed k gs := by
  simp only [Keyed, List.mem_append]
  constructor
  · rintro ⟨f, h | h, h'⟩
    · exact Or.inl ⟨f, h, h'⟩
    · exact Or.inr ⟨f, h, h'⟩
  · rintro (⟨f, h, h'⟩ | ⟨f, h, h'⟩)
    · exact ⟨f, Or.inl h, h'⟩
    · exact ⟨f, Or.inr h, h'⟩

theorem keyed_setBound {ty : Ty} {k : Id} {x c0 : Cell} {fs : List (List CtxCell)} (hb : boundCell ty fs = some c0)
    (h : Keyed k (setBound ty x fs)) : Keyed k fs := by
  obtain ⟨inner, f, outer, h1, _, h3, h4⟩ := setBound_split hb
  rw [h4 x] at h
  rw [h1]
  rw [keyed_append, keyed_cons] at h ⊢
  rcases h with h | h | h
  · exact Or.inl h
  · refine Or.inr (Or.inl ?_)
    rcases setFrame_split h3 with ⟨pre, post, e1, e2⟩ | ⟨pre, k', n1, n2, post, e1, e2⟩
    · rw [e2 x] at h
      rw [e1]
      simp only [List.mem_append, List.mem_cons] at h ⊢
      obtain ⟨ns, h | h | h⟩ := h
      · exact ⟨ns, Or.inl h⟩
      · cases h
      · exact ⟨ns, Or.inr (Or.inr h)⟩
    · rw [e2 x] at h
      rw [e1]
      simp only [List.mem_append, List.mem_cons, CtxCell.da.injEq] at h ⊢
      obtain ⟨ns, h | h | h⟩ := h
      · exact ⟨ns, Or.inl h⟩
      · exact ⟨_, Or.inr (Or.inl ⟨h.1, rfl⟩)⟩
      · exact ⟨ns, Or.inr (Or.inr h)⟩
  · exact Or.inr (Or.inr h)

theorem keyed_putObj {keep : Bool} {id : Id} {ty : Ty} {v : Val} {fs : List (List CtxCell)} {k : Id}
    (h : Keyed k (putObj cfg keep id ty v fs)) : Keyed k fs ∨ k = id := by
  unfold putObj at h
  split at h
  · rename_i p hp
    split at h
    · exact Or.inl (keyed_setBound hp h)
    · exact Or.inl h
  · split at h
    · split at h
      · rename_i k0 ns hd
        obtain ⟨inner, pre, post, outer, h1, h2, h3⟩ := setBoundDa_split hd
        rw [h3] at h
        rw [h1]
        simp only [keyed_append, keyed_cons, List.mem_append, List.mem_cons, CtxCell.da.injEq] at h ⊢
        rcases h with h | (⟨ns', h | ⟨h, h'⟩ | h⟩) | h
        · exact Or.inl (Or.inl h)
        · exact Or.inl (Or.inr (Or.inl ⟨ns', Or.inl h⟩))
        · split at h
          · exact Or.inr h
          · exact Or.inl (Or.inr (Or.inl ⟨ns, Or.inr (Or.inl ⟨h, rfl⟩)⟩))
        · exact Or.inl (Or.inr (Or.inl ⟨ns', Or.inr (Or.inr h)⟩))
        · exact Or.inl (Or.inr (Or.inr h))
      · exact Or.inl h
    · exact Or.inl h

theorem keyed_putItems {keep : Bool} {id : Id} {items : List Item} {fs : List (List CtxCell)} {k : Id}
    (h : Keyed k (putItems cfg keep id items fs)) : Keyed k fs ∨ k = id := by
  induction items generalizing fs with
  | nil => exact Or.inl h
  | cons i is ih =>
    rcases ih h with h | h
    · exact keyed_putObj h
    · exact Or.inr h

theorem keyed_unloadObj {id : Id} {ty : Ty} {cl : Cell} {fs : List (List CtxCell)} {k : Id} (h : Keyed k (unloadObj cfg id ty cl fs)) :
    Keyed k fs ∨ k = id := by
  unfold unloadObj at h
  split at h
  · exact keyed_putObj h
  · exact Or.inl h

theorem keyed_unloadFs {id : Id} {cs : List CtxCell} {fs : List (List CtxCell)} {k : Id} (h : Keyed k (unloadFs cfg id cs fs)) :
    Keyed k fs ∨ k = id := by
  have hda : ∀ (ns : List (Ty × Cell)) (gs : List (List CtxCell)), Keyed k (unloadDaFs cfg id ns gs) → Keyed k gs ∨ k = id := by
    intro ns
    induction ns with
    | nil => exact fun gs h => Or.inl h
    | cons n ns ih =>
      intro gs h
      rcases ih _ h with h | h
      · exact keyed_unloadObj h
      · exact Or.inr h
  induction cs with
  | nil => exact Or.inl h
  | cons x cs ih =>
    have : Keyed k (unloadFs cfg id cs fs) ∨ k = id := by
      cases x with
      | obj ty cl => exact keyed_unloadObj h
      | da key ns => exact hda ns _ h
    rcases this with h | h
    · exact ih h
    · exact Or.inr h

/-- Storing objects of an error reported after the first `lo` ones. -/
theorem IdealInv.put (h : IdealInv cfg c K lo n w) {t : Nat} (hl : lo ≤ t) (ht : t < w.ticks) (es : List Event) (keep : Bool) (items : List Item) :
    IdealInv cfg c K lo n (w.put es (putItems cfg keep (errorNo cfg c t) items w.mem.frames)) where
  good := put_good h.good (putItems_good (tagged_ne_zero (errorNo_tagged h)) h.good.4)
  counter := h.counter
  cur := h.cur
  stored ty id v hs := by
    rcases stored_putItems hs with hs | rfl
    · exact h.stored ty id v hs
    · exact notAhead_own ht h.few
  few := h.few
  zero := h.zero
  low := h.low
  keys k hk := by
    rcases keyed_putItems hk with hk | rfl
    · exact h.keys k hk
    · exact Or.inr ⟨t, hl, ht, rfl⟩

/-- States with fewer objects. -/
theorem IdealInv.less (h : IdealInv cfg c K lo n w) {w1 : World AbsStore} (hg : w1.Good) (hc : w1.counter = w.counter) (ht : w1.ticks = w.ticks)
    (hcur : w1.cur = 0#32 ∨ w1.cur = w.cur) (hs : ∀ ty id v, Stored ty id v w1.mem.frames → NotAhead cfg c w.ticks n id)
    (hk : ∀ k, Keyed k w1.mem.frames → K k ∨ ∃ t, lo ≤ t ∧ t < w.ticks ∧ k = errorNo cfg c t) :
    IdealInv cfg c K lo n w1 where
  good := hg
  counter := by rw [hc, h.counter, ht]
  cur := by
    rcases hcur with hcur | hcur
    · rw [hcur]
      exact fun s _ _ e => tagged_ne_zero (errorNo_tagged h) e.symm
    · rw [hcur, ht]; exact h.cur
  stored ty id v hv := by rw [ht]; exact hs ty id v hv
  few := h.few
  zero := h.zero
  low := by rw [ht]; exact h.low
  keys k hv := by rw [ht]; exact hk k hv

end

/-! ## What a run achieves -/

theorem Exc.Carries.seen {e : Exc} {id : Id} (h : e.Carries id) (cur : Id) : e.seenId cur = id := by
  unfold Exc.seenId
  rw [h.1]
  rcases h.2 with h | h <;> simp [h]

theorem Exc.Carries.examined {e : Exc} {id : Id} (h : e.Carries id) : e.examined.clear = false ∨ ∀ k, e.examined.idSrc ≠ .base k := by
  unfold Exc.examined
  rw [h.1]
  rcases h.2 with h | h <;> simp [h]

theorem Exc.Carries.same {e e' : Exc} {id : Id} (h : e.Carries id) (he : e'.examined = e.examined) : e'.Carries id := by
  obtain ⟨_, _, h1, h2, _⟩ := C21_same_exception e
  obtain ⟨_, _, h3, h4, _⟩ := C21_same_exception e'
  rw [he] at h3 h4
  exact ⟨by rw [← h4, h2]; exact h.1, by rw [← h3, h1]; exact h.2⟩

theorem Exc.Carries.ok {e : Exc} {id : Id} (h : e.Carries id) (hid : id.Tagged) : e.Ok := by
  unfold Exc.Ok
  rcases h.2 with h | h <;> simp [h, hid]

/-- The run that started with `t0` ids generated, current error `cur0` and trace `tr0`, and ended with outcome `o` in state `w1` achieved the ideal outcome `io`, and made the
handler calls `l`. -/
structure Achieves (cfg : Cfg) (c : Id) (K : Id → Prop) (lo n : Nat) (t0 : Nat) (cur0 : Id) (tr0 : List Event) (io : Outcome) (l : List Call) (o : Out) (w1 : World AbsStore) : Prop where
  inv : IdealInv cfg c K lo n w1
  calls : callsIn w1.trace = l.reverse ++ callsIn tr0
  is : io.Is o
  now : w1.cur = 0#32 ∨ w1.cur = cur0 ∨ ∃ t, t0 ≤ t ∧ t < w1.ticks ∧ w1.cur = errorNo cfg c t
  failed : ∀ id A ex, io = .failed id A ex → w1.cur = id ∧ (∃ t, t0 ≤ t ∧ t < w1.ticks ∧ id = errorNo cfg c t) ∧ Attached cfg id A w1.mem.frames ∧
    ∀ e, ex = some e → e.Carries id

/-- LEAF achieves what the ideal run does, for `p` in all states. -/
def Implements (cfg : Cfg) (c : Id) (K : Id → Prop) (lo n : Nat) (p : Direct) : Prop :=
  ∀ (da : Bool) (w : World AbsStore), p.prog.WF cfg da → p.Ok → IdealInv cfg c K lo n w → (da = false → NoDa (shape w.mem.frames)) →
    ∀ o w1, eval cfg p.prog w = some (o, w1) → Few cfg n w1.ticks →
      ∃ io l, Ideal cfg c p w.ticks io w1.ticks l ∧ Achieves cfg c K lo n w.ticks w.cur w.trace io l o w1

theorem callsIn_append (a b : List Event) : callsIn (a ++ b) = callsIn a ++ callsIn b := by simp [callsIn]

theorem callsIn_quiet {es : List Event} (h : ∀ id ex k args, Event.handled id ex k args ∉ es) : callsIn es = [] := by
  unfold callsIn
  rw [List.filterMap_eq_nil_iff]
  intro e he
  cases e with
  | handled id ex k args => exact absurd he (h id ex k args)
  | _ => rfl

theorem callsIn_items (keep : Bool) (id : Id) (is : List Item) (fs : List (List CtxCell)) : callsIn (itemsEvents cfg keep id is fs) = [] :=
  callsIn_quiet (itemsEvents_quiet cfg keep id is fs)

theorem callsIn_on (id : Id) (is : List OnItem) (fs : List (List CtxCell)) : callsIn (onEvents cfg id is fs) = [] :=
  callsIn_quiet (onEvents_quiet cfg id is fs)

section
variable {w w1 : World AbsStore} {p : Prog} {da : Bool} {o : Out}

theorem eval_keeps (hp : p.WF cfg da) (hw : w.Good) (hda : da = false → NoDa (shape w.mem.frames)) (h : eval cfg p w = some (o, w1)) :
    w1.Good ∧ shape w1.mem.frames = shape w.mem.frames ∧ o.Ok := by
  obtain ⟨o', w1', h1, h2, h3, h4⟩ := tot_eval cfg p hp _ hda w hw rfl
  rw [h] at h1
  cases h1
  exact ⟨h2, h3, h4⟩

theorem bind_inv {k : Val → Prog} {ke : ErrRes → Prog} (h : eval cfg (.bind p k ke) w = some (o, w1)) :
    ∃ o1 w2, eval cfg p w = some (o1, w2) ∧
      match o1 with
      | .val v => eval cfg (k v) w2 = some (o, w1)
      | .err r => eval cfg (ke r) w2 = some (o, w1)
      | .exc e => o = .exc e ∧ w1 = w2 := by
  rw [eval, bind_apply] at h
  cases h1 : eval cfg p w with
  | none => simp [h1] at h
  | some q =>
    obtain ⟨o1, w2⟩ := q
    rw [h1, Option.bind_some] at h
    refine ⟨o1, w2, rfl, ?_⟩
    cases o1 with
    | val v => exact h
    | err r => exact h
    | exc e =>
      simp only [pure_apply, Option.some.injEq, Prod.mk.injEq] at h
      exact ⟨h.1.symm, h.2.symm⟩

end

/-! ## Reporting -/

theorem newError_ideal {items : List Item} {w : World AbsStore} (hi : IdealInv cfg c K lo n w) {da : Bool} (hok : ∀ i ∈ items, i.Ok cfg da)
    (hda : da = false → NoDa (shape w.mem.frames)) (hf : Few cfg n (w.ticks + 1)) :
    ∃ w1, newError cfg items w = some (errorNo cfg c w.ticks, w1) ∧ w1.ticks = w.ticks + 1 ∧ IdealInv cfg c K lo n w1 ∧
      callsIn w1.trace = callsIn w.trace ∧ w1.cur = errorNo cfg c w.ticks ∧ Attached cfg (errorNo cfg c w.ticks) (objects cfg items) w1.mem.frames := by
  have h := newError_eq cfg items w hi.good (accOk_of_noDa hok hda _)
  rw [hi.nextId] at h
  refine ⟨_, h, rfl, hi.gen.put hi.low (Nat.lt_succ_self _) _ _ _, ?_, hi.nextId, ?_⟩
  · show callsIn (_ ++ Event.gen _ :: w.trace) = _
    rw [callsIn_append, callsIn_items]
    rfl
  · exact attached_putItems (attached_fresh (hi.fresh hf).2)

theorem implements_ret (v : Val) : Implements cfg c K lo n (.ret v) := by
  intro da w _ _ hi _ o w1 h _
  cases h
  exact ⟨.ok v, [], .ret, hi, rfl, rfl, Or.inr (Or.inl rfl), by simp⟩

theorem implements_fail (items : List Item) (thrown : Option (Id → Exc)) : Implements cfg c K lo n (.fail items thrown) := by
  intro da w hp hd hi hda o w1 h hf
  have hok : ∀ i ∈ items, i.Ok cfg da := by cases thrown <;> exact hp.1
  have hlt : w.ticks + 1 ≤ w1.ticks := by
    have : ∀ k : Id → Prog, eval cfg (.newError items k) w = some (o, w1) → w.ticks + 1 ≤ w1.ticks := by
      intro k h
      rw [eval, bind_apply, newError_eq cfg items w hi.good (accOk_of_noDa hok hda _), Option.bind_some] at h
      exact Mono.eval _ _ _ _ h
    cases thrown <;> exact this _ h
  obtain ⟨w2, e1, e2, e3, e4, e5, e6⟩ := newError_ideal hi hok hda (hf.le hlt)
  have hnow : w2.cur = 0#32 ∨ w2.cur = w.cur ∨ ∃ t, w.ticks ≤ t ∧ t < w2.ticks ∧ w2.cur = errorNo cfg c t :=
    Or.inr (Or.inr ⟨w.ticks, Nat.le_refl _, by rw [e2]; exact Nat.lt_succ_self _, e5⟩)
  have hat : ∀ ex : Option Exc, (∀ e, ex = some e → e.Carries (errorNo cfg c w.ticks)) → ∀ id A ex',
      Outcome.failed (errorNo cfg c w.ticks) (objects cfg items) ex = .failed id A ex' →
      w2.cur = id ∧ (∃ t, w.ticks ≤ t ∧ t < w2.ticks ∧ id = errorNo cfg c t) ∧ Attached cfg id A w2.mem.frames ∧ ∀ e, ex' = some e → e.Carries id := by
    intro ex hex id A ex' he
    cases he
    exact ⟨e5, ⟨w.ticks, Nat.le_refl _, by rw [e2]; exact Nat.lt_succ_self _, rfl⟩, e6, hex⟩
  cases thrown with
  | none =>
    have h' : eval cfg (.newError items (fun id => .ret (.err (.plain id)))) w = some (o, w1) := h
    rw [eval, bind_apply, e1, Option.bind_some] at h'
    cases h'
    refine ⟨.failed (errorNo cfg c w.ticks) (objects cfg items) none, [], ?_, e3, by rw [e4]; rfl, ⟨_, rfl, makeErrorId_of_tagged (errorNo_tagged hi)⟩,
      hnow, hat none (by simp)⟩
    rw [e2]
    exact .fail
  | some g =>
    have h' : eval cfg (.newError items (fun id => .ret (.exc (g id)))) w = some (o, w1) := h
    rw [eval, bind_apply, e1, Option.bind_some] at h'
    cases h'
    refine ⟨.failed (errorNo cfg c w.ticks) (objects cfg items) (some (g (errorNo cfg c w.ticks))), [], ?_, e3, by rw [e4]; rfl, ⟨_, rfl, rfl⟩,
      hnow, hat (some (g (errorNo cfg c w.ticks))) ?_⟩
    · rw [e2]
      exact .fail
    · rintro e ⟨⟩
      exact hd g rfl _ (errorNo_tagged hi)

theorem implements_failCode (ec : ErrorCode) (v : Val) : Implements cfg c K lo n (.failCode ec v) := by
  intro da w hp hd hi hda o w1 h hf
  have h' : eval cfg (Direct.fail [.obj tyErrorCode v] none).prog w = some (o, w1) := by
    rw [← h]
    show (newError cfg [.obj tyErrorCode v] >>= _) w = (importCode cfg ec v >>= _) w
    rw [bind_apply, bind_apply, C04_like_new_error cfg hd.1 hd.2 v w hi.good.2]
  obtain ⟨io, l, f1, f2⟩ := implements_fail [.obj tyErrorCode v] none da w ⟨by simp [Item.Ok], fun _ _ => trivial⟩ (by intro g h; cases h) hi hda o w1 h' hf
  generalize ht : w1.ticks = t at f1
  cases f1
  exact ⟨_, _, .failCode, f2⟩

/-! ## Sequencing and abandoning -/

/-- After `p` did `l1`, the rest did `l2`. -/
theorem Achieves.after {t0 : Nat} {cur0 : Id} {tr0 : List Event} {io1 io : Outcome} {l1 l2 : List Call} {o1 o : Out} {w1 w2 : World AbsStore}
    (h1 : Achieves cfg c K lo n t0 cur0 tr0 io1 l1 o1 w1) (ht : t0 ≤ w1.ticks) (ht2 : w1.ticks ≤ w2.ticks) (h2 : Achieves cfg c K lo n w1.ticks w1.cur w1.trace io l2 o w2) :
    Achieves cfg c K lo n t0 cur0 tr0 io (l1 ++ l2) o w2 where
  inv := h2.inv
  calls := by rw [h2.calls, h1.calls]; simp
  is := h2.is
  now := by
    rcases h2.now with h | h | ⟨t, a2, a3, a4⟩
    · exact Or.inl h
    · rw [h]
      rcases h1.now with h | h | ⟨t, a2, a3, a4⟩
      · exact Or.inl h
      · exact Or.inr (Or.inl h)
      · exact Or.inr (Or.inr ⟨t, a2, Nat.lt_of_lt_of_le a3 ht2, a4⟩)
    · exact Or.inr (Or.inr ⟨t, Nat.le_trans ht a2, a3, a4⟩)
  failed id A ex he := by
    obtain ⟨a1, ⟨t, a2, a3, a4⟩, a5⟩ := h2.failed id A ex he
    exact ⟨a1, ⟨t, Nat.le_trans ht a2, a3, a4⟩, a5⟩

section
variable {p h : Direct} {k : Val → Direct}

theorem implements_seq (ihp : Implements cfg c K lo n p) (ihk : ∀ v, Implements cfg c K lo n (k v)) : Implements cfg c K lo n (.seq p k) := by
  intro da w hp hd hi hda o w1 he hf
  obtain ⟨o1, w2, e1, e2⟩ := bind_inv he
  obtain ⟨g1, g2, g3⟩ := eval_keeps hp.1 hi.good hda e1
  have m1 := Mono.eval _ _ _ _ e1
  have m2 : w2.ticks ≤ w1.ticks := by
    cases o1 with
    | val v => exact Mono.eval _ _ _ _ e2
    | err r => exact Mono.eval _ _ _ _ e2
    | exc e => rw [e2.2]; exact Nat.le_refl _
  obtain ⟨io, l, f1, f2⟩ := ihp da w hp.1 hd.1 hi hda o1 w2 e1 (hf.le m2)
  cases io with
  | ok v =>
    have := f2.is
    cases this
    obtain ⟨io2, l2, f3, f4⟩ := ihk v da w2 (hp.2.1 v) (hd.2 v) f2.inv (by rw [g2]; exact hda) o w1 e2 hf
    exact ⟨io2, l ++ l2, .seq_ok f1 f3, f2.after m1 m2 f4⟩
  | failed id A ex =>
    have hfl := f2.failed id A ex rfl
    cases ex with
    | none =>
      obtain ⟨k', rfl, hk⟩ := f2.is
      cases e2
      refine ⟨_, l, .seq_failed f1, f2.inv, f2.calls, ⟨makeErrorId k', rfl, ?_⟩, f2.now, f2.failed⟩
      rw [makeErrorId_of_tagged (makeErrorId_tagged k')]
      exact hk
    | some e =>
      obtain ⟨e', rfl, hk⟩ := f2.is
      obtain ⟨rfl, rfl⟩ := e2
      exact ⟨_, l, .seq_failed f1, f2⟩

theorem implements_next (ihp : Implements cfg c K lo n p) (ihk : ∀ v, Implements cfg c K lo n (k v)) : Implements cfg c K lo n (.next p k) := by
  intro da w hp hd hi hda o w1 he hf
  obtain ⟨o1, w2, e1, e2⟩ := bind_inv he
  obtain ⟨g1, g2, g3⟩ := eval_keeps hp.1 hi.good hda e1
  have m1 := Mono.eval _ _ _ _ e1
  have m2 : w2.ticks ≤ w1.ticks := by
    cases o1 with
    | val v => exact Mono.eval _ _ _ _ e2
    | err r => exact Mono.eval _ _ _ _ e2
    | exc e => rw [e2.2]; exact Nat.le_refl _
  obtain ⟨io, l, f1, f2⟩ := ihp da w hp.1 hd.1 hi hda o1 w2 e1 (hf.le m2)
  cases io with
  | ok v =>
    have := f2.is
    cases this
    obtain ⟨io2, l2, f3, f4⟩ := ihk v da w2 (hp.2.1 v) (hd.2.2 v) f2.inv (by rw [g2]; exact hda) o w1 e2 hf
    exact ⟨io2, l ++ l2, .next_ok f1 f3, f2.after m1 m2 f4⟩
  | failed id A ex =>
    cases ex with
    | none =>
      obtain ⟨k', rfl, hk⟩ := f2.is
      exact absurd rfl (eval_noErr cfg _ hd.2.1 _ _ _ e1 _)
    | some e =>
      obtain ⟨e', rfl, hk⟩ := f2.is
      obtain ⟨rfl, rfl⟩ := e2
      exact ⟨_, l, .next_thrown f1, f2⟩

theorem implements_orElse (ihp : Implements cfg c K lo n p) (ihk : ∀ v, Implements cfg c K lo n (k v)) (ihh : Implements cfg c K lo n h) :
    Implements cfg c K lo n (.orElse p k h) := by
  intro da w hp hd hi hda o w1 he hf
  obtain ⟨o1, w2, e1, e2⟩ := bind_inv he
  obtain ⟨g1, g2, g3⟩ := eval_keeps hp.1 hi.good hda e1
  have m1 := Mono.eval _ _ _ _ e1
  have m2 : w2.ticks ≤ w1.ticks := by
    cases o1 with
    | val v => exact Mono.eval _ _ _ _ e2
    | err r => exact Mono.eval _ _ _ _ e2
    | exc e => rw [e2.2]; exact Nat.le_refl _
  obtain ⟨io, l, f1, f2⟩ := ihp da w hp.1 hd.1 hi hda o1 w2 e1 (hf.le m2)
  cases io with
  | ok v =>
    have := f2.is
    cases this
    obtain ⟨io2, l2, f3, f4⟩ := ihk v da w2 (hp.2.1 v) (hd.2.1 v) f2.inv (by rw [g2]; exact hda) o w1 e2 hf
    exact ⟨io2, l ++ l2, .orElse_ok f1 f3, f2.after m1 m2 f4⟩
  | failed id A ex =>
    cases ex with
    | none =>
      obtain ⟨k', rfl, hk⟩ := f2.is
      obtain ⟨io2, l2, f3, f4⟩ := ihh da w2 (hp.2.2 (.plain k') g3) hd.2.2 f2.inv (by rw [g2]; exact hda) o w1 e2 hf
      exact ⟨io2, l ++ l2, .orElse_failed f1 f3, f2.after m1 m2 f4⟩
    | some e =>
      obtain ⟨e', rfl, hk⟩ := f2.is
      obtain ⟨rfl, rfl⟩ := e2
      exact ⟨_, l, .orElse_thrown f1, f2⟩

end

/-! ## Catching -/

/-- Changes of the list of handled exceptions. -/
theorem IdealInv.handled {w : World AbsStore} (h : IdealInv cfg c K lo n w) {hs : List Exc} (hh : ∀ e ∈ hs, Exc.Ok e) (tr : List Event) :
    IdealInv cfg c K lo n { w with handling := hs, trace := tr } :=
  h.less ⟨h.good.1, h.good.2, hh, h.good.4⟩ rfl rfl (Or.inr rfl) h.stored h.keys

theorem tail_ok {l : List Exc} (h : ∀ e ∈ l, Exc.Ok e) : ∀ e ∈ l.tail, Exc.Ok e := fun e he => h e (List.mem_of_mem_tail he)

theorem Exc.Carries.id_eq {e : Exc} {id k : Id} (h : e.Carries id) (hk : e.idSrc = .base k) : k = id := by
  rcases h.2 with h | h
  · rw [h] at hk; cases hk; rfl
  · rw [h] at hk; cases hk

theorem implements_catch {p h : Direct} (ihp : Implements cfg c K lo n p) (ihh : Implements cfg c K lo n h) : Implements cfg c K lo n (.catch_ p h) := by
  intro da w hp hd hi hda o w1 he hf
  have he' : cppCatch_ (eval cfg p.prog) (fun _ => eval cfg h.prog) w = some (o, w1) := he
  unfold cppCatch_ at he'
  rw [bind_apply] at he'
  cases h1 : eval cfg p.prog w with
  | none => simp [h1] at he'
  | some q =>
    obtain ⟨o1, w2⟩ := q
    rw [h1, Option.bind_some] at he'
    obtain ⟨g1, g2, g3⟩ := eval_keeps hp.1 hi.good hda h1
    have m1 := Mono.eval _ _ _ _ h1
    cases o1 with
    | val v =>
      simp only [pure_apply, Option.some.injEq, Prod.mk.injEq] at he'
      obtain ⟨rfl, rfl⟩ := he'
      obtain ⟨io, l, f1, f2⟩ := ihp da w hp.1 hd.1 hi hda _ _ h1 hf
      cases io with
      | ok v' => exact ⟨_, l, .catch_ok f1, f2⟩
      | failed id A ex => cases ex <;> obtain ⟨_, hx, _⟩ := f2.is <;> cases hx
    | err r =>
      simp only [pure_apply, Option.some.injEq, Prod.mk.injEq] at he'
      obtain ⟨rfl, rfl⟩ := he'
      obtain ⟨io, l, f1, f2⟩ := ihp da w hp.1 hd.1 hi hda _ _ h1 hf
      cases io with
      | ok v' => have := f2.is; cases this
      | failed id A ex =>
        cases ex with
        | none => exact ⟨_, l, .catch_failed f1, f2⟩
        | some e => obtain ⟨_, hx, _⟩ := f2.is; cases hx
    | exc e' =>
      simp only [bind_apply, pushHandling, Option.bind_some] at he'
      cases h2 : eval cfg h.prog { w2 with handling := e' :: w2.handling } with
      | none => simp [h2] at he'
      | some q =>
        obtain ⟨o2, w3⟩ := q
        rw [h2] at he'
        simp only [Option.bind_some, popHandling, destroyExc_eq, pure_apply, Option.some.injEq, Prod.mk.injEq] at he'
        obtain ⟨rfl, rfl⟩ := he'
        have m2 : w2.ticks ≤ w3.ticks := Mono.eval _ { w2 with handling := e' :: w2.handling } _ _ h2
        obtain ⟨io, l, f1, f2⟩ := ihp da w hp.1 hd.1 hi hda _ _ h1 (hf.le m2)
        have hh : ∀ x ∈ e' :: w2.handling, Exc.Ok x := by
          intro x hx
          simp only [List.mem_cons] at hx
          rcases hx with rfl | hx
          · exact g3
          · exact g1.3 x hx
        obtain ⟨io2, l2, f3, f4⟩ := ihh da _ (hp.2 e' g3) hd.2 (f2.inv.handled hh w2.trace) (by show _ → NoDa (shape w2.mem.frames); rw [g2]; exact hda) _ _ h2 hf
        cases io with
        | ok v' => have := f2.is; cases this
        | failed id A ex =>
          cases ex with
          | none => obtain ⟨_, hx, _⟩ := f2.is; cases hx
          | some e =>
            obtain ⟨_, hx, hex⟩ := f2.is
            cases hx
            obtain ⟨b1, ⟨t, b2, b3, b4⟩, b5, b6⟩ := f2.failed id A (some e) rfl
            have hcar := (b6 e rfl).same hex
            have hcur : ∀ id2 A2 ex2, io2 = .failed id2 A2 ex2 → ¬ (e'.clear = true ∧ e'.idSrc = .base w3.cur) := by
              rintro id2 A2 ex2 rfl ⟨_, hb⟩
              obtain ⟨d1, ⟨t2, d2, d3, d4⟩, _⟩ := f4.failed id2 A2 ex2 rfl
              have := hcar.id_eq hb
              rw [d1, d4, b4] at this
              exact errorNo_ne (Nat.lt_of_lt_of_le b3 d2) (Nat.lt_of_lt_of_le d3 hf.1) hf.2 this.symm
            refine ⟨io2, l ++ l2, .catch_thrown f1 f3, ?_, ?_, f4.is, ?_, ?_⟩
            · refine f4.inv.less ⟨?_, f4.inv.good.2, tail_ok f4.inv.good.3, f4.inv.good.4⟩ rfl rfl ?_ f4.inv.stored f4.inv.keys
              · show Id.Ok (if _ then _ else _)
                split
                · exact Or.inl rfl
                · exact f4.inv.good.1
              · show (if _ then _ else _) = _ ∨ (if _ then _ else _) = _
                split
                · exact Or.inl rfl
                · exact Or.inr rfl
            · show callsIn w3.trace = _
              rw [f4.calls]
              show _ ++ callsIn w2.trace = _
              rw [f2.calls]
              simp
            · have hc : ∀ x : Id, (x = 0#32 ∨ x = w3.cur) → x = 0#32 ∨ x = w.cur ∨ ∃ t, w.ticks ≤ t ∧ t < w3.ticks ∧ x = errorNo cfg c t := by
                rintro x (rfl | rfl)
                · exact Or.inl rfl
                rcases f4.now with h | h | ⟨t2, a2, a3, a4⟩
                · exact Or.inl h
                · exact Or.inr (Or.inr ⟨t, b2, Nat.lt_of_lt_of_le b3 m2, by rw [h]; exact b1.trans b4⟩)
                · exact Or.inr (Or.inr ⟨t2, Nat.le_trans m1 a2, a3, a4⟩)
              refine hc _ ?_
              show (if _ then _ else _) = _ ∨ (if _ then _ else _) = _
              split
              · exact Or.inl rfl
              · exact Or.inr rfl
            · intro id2 A2 ex2 h0
              obtain ⟨d1, ⟨t2, d2, d3, d4⟩, d5⟩ := f4.failed id2 A2 ex2 h0
              refine ⟨?_, ⟨t2, Nat.le_trans m1 d2, d3, d4⟩, d5⟩
              show (if _ then _ else _) = _
              rw [if_neg (hcur id2 A2 ex2 h0)]
              exact d1

/-! ## Adding objects -/

theorem currentId_abs {w : World AbsStore} (h : w.Good) : currentId w = some (w.cur, w) := by
  unfold currentId
  have : w.cur = 0#32 ∨ Id.Tagged w.cur := h.1
  simp only [this, if_true]

theorem implements_guard {items : List OnItem} {p : Direct} (ihp : Implements cfg c K lo n p) : Implements cfg c K lo n (.guard items p) := by
  intro da w hp hd hi hda o w1 he hf
  have he' : onErrorGuard cfg items (eval cfg p.prog) w = some (o, w1) := he
  unfold onErrorGuard at he'
  rw [bind_apply, currentId_abs hi.good, Option.bind_some, bind_apply] at he'
  cases h1 : eval cfg p.prog w with
  | none => simp [h1] at he'
  | some q =>
    obtain ⟨o1, w2⟩ := q
    rw [h1, Option.bind_some] at he'
    obtain ⟨g1, g2, g3⟩ := eval_keeps hp.2 hi.good hda h1
    have m1 := Mono.eval _ _ _ _ h1
    have hda2 : da = false → NoDa (shape w2.mem.frames) := by rw [g2]; exact hda
    have hm : ∀ b, Mono (M := AbsStore) (checkId cfg w.cur b >>= fun k =>
        if k ≠ 0#32 then do assertTagged k; triggerItems cfg k items; pure o1 else pure o1) := by
      intro b
      refine .bind (.of_den (den_checkId cfg _ _)) fun k => ?_
      split
      · exact .bind (.of_den (cfg := cfg) (den_assertTagged _)) fun _ => .bind (.of_den (den_triggerItems cfg _ _)) fun _ => .pure _
      · exact .pure _
    have m2 : w2.ticks ≤ w1.ticks := hm _ _ _ _ he'
    rw [bind_apply] at he'
    obtain ⟨io, l, f1, f2⟩ := ihp da w hp.2 hd hi hda _ _ h1 (hf.le m2)
    -- triggering for an error this thread reported
    have trig : ∀ t < w2.ticks, w2.cur = errorNo cfg c t → w2.cur ≠ w.cur → o = o1 ∧
        w1 = w2.put (onEvents cfg w2.cur items w2.mem.frames) (putItems cfg true w2.cur (onItems items) w2.mem.frames) := by
      intro t ht hc hne
      have htag : Id.Tagged w2.cur := by rw [hc]; exact errorNo_tagged hi
      have hck : ∀ b, checkId cfg w.cur b w2 = some (w2.cur, w2) := by
        intro b
        unfold checkId
        rw [bind_apply, currentId_abs g1, Option.bind_some]
        simp only [hne, ne_eq, not_false_eq_true, if_true]
        rfl
      rw [hck, Option.bind_some] at he'
      simp only [tagged_ne_zero htag, ne_eq, not_false_eq_true, if_true, bind_apply, assertTagged, htag, Option.bind_some,
        triggerItems_eq cfg htag items w2 g1.4 (accOk_of_noDa (onItems_ok hp.1) hda2 _), pure_apply, Option.some.injEq, Prod.mk.injEq] at he'
      exact ⟨he'.1.symm, he'.2.symm⟩
    cases io with
    | ok v =>
      have hv := f2.is
      cases hv
      refine ⟨.ok v, l, ?_, ?_⟩
      · suffices h : w1.ticks = w2.ticks by rw [h]; exact .guard_ok f1
        by_cases hne : w2.cur = w.cur
        · simp only [checkId, bind_apply, currentId_abs g1, Option.bind_some, hne, ne_eq, not_true_eq_false, if_false] at he'
          simp only [Bool.false_eq_true, if_false, pure_apply, Option.bind_some, not_true_eq_false, Option.some.injEq, Prod.mk.injEq] at he'
          rw [← he'.2]
        · rcases f2.now with h0 | h0 | ⟨t, hl, ht, hc⟩
          · simp only [checkId, bind_apply, currentId_abs g1, Option.bind_some, hne, ne_eq, not_false_eq_true, if_true, pure_apply] at he'
            simp only [h0, not_true_eq_false, if_false, pure_apply, Option.some.injEq, Prod.mk.injEq] at he'
            rw [← he'.2]
          · exact absurd h0 hne
          · rw [(trig t ht hc hne).2]; rfl
      · by_cases hne : w2.cur = w.cur
        · simp only [checkId, bind_apply, currentId_abs g1, Option.bind_some, hne, ne_eq, not_true_eq_false, if_false] at he'
          simp only [Bool.false_eq_true, if_false, pure_apply, Option.bind_some, not_true_eq_false, Option.some.injEq, Prod.mk.injEq] at he'
          obtain ⟨rfl, rfl⟩ := he'
          exact f2
        · rcases f2.now with h0 | h0 | ⟨t, hl, ht, hc⟩
          · simp only [checkId, bind_apply, currentId_abs g1, Option.bind_some, hne, ne_eq, not_false_eq_true, if_true, pure_apply] at he'
            simp only [h0, not_true_eq_false, if_false, pure_apply, Option.some.injEq, Prod.mk.injEq] at he'
            obtain ⟨rfl, rfl⟩ := he'
            exact f2
          · exact absurd h0 hne
          · obtain ⟨rfl, rfl⟩ := trig t ht hc hne
            refine ⟨?_, ?_, rfl, f2.now, by simp⟩
            · rw [hc]; exact f2.inv.put (Nat.le_trans hi.low hl) ht _ _ _
            · show callsIn (_ ++ w2.trace) = _
              rw [callsIn_append, callsIn_on, f2.calls]; rfl
    | failed id A ex =>
      obtain ⟨b1, ⟨t, b2, b3, b4⟩, b5, b6⟩ := f2.failed id A ex rfl
      have hne : w2.cur ≠ w.cur := by
        rw [b1, b4]
        intro h0
        exact hi.cur t b2 (Nat.lt_of_lt_of_le b3 (hf.le m2).1) h0.symm
      obtain ⟨rfl, rfl⟩ := trig t b3 (b1.trans b4) hne
      refine ⟨.failed id (attach cfg true (onItems items) A) ex, l, .guard_failed f1, ?_, ?_, f2.is, f2.now, ?_⟩
      · rw [b1, b4]; exact f2.inv.put (Nat.le_trans hi.low b2) b3 _ _ _
      · show callsIn (_ ++ w2.trace) = _
        rw [callsIn_append, callsIn_on, f2.calls]; rfl
      · intro id' A' ex' h0
        cases h0
        refine ⟨b1, ⟨t, b2, b3, b4⟩, ?_, b6⟩
        rw [b1]
        exact attached_putItems b5

theorem implements_load {items : List Item} {p : Direct} (ihp : Implements cfg c K lo n p) : Implements cfg c K lo n (.load items p) := by
  intro da w hp hd hi hda o w1 he hf
  obtain ⟨o1, w2, e1, e2⟩ := bind_inv he
  obtain ⟨g1, g2, g3⟩ := eval_keeps hp.1 hi.good hda e1
  have m1 := Mono.eval _ _ _ _ e1
  have hda2 : da = false → NoDa (shape w2.mem.frames) := by rw [g2]; exact hda
  have m2 : w2.ticks ≤ w1.ticks := by
    cases o1 with
    | val v => exact Mono.eval _ _ _ _ e2
    | err r => exact Mono.eval _ _ _ _ e2
    | exc e => rw [e2.2]; exact Nat.le_refl _
  obtain ⟨io, l, f1, f2⟩ := ihp da w hp.1 hd hi hda o1 w2 e1 (hf.le m2)
  cases io with
  | ok v =>
    have hv := f2.is
    cases hv
    cases e2
    exact ⟨.ok v, l, .load_ok f1, f2⟩
  | failed id A ex =>
    obtain ⟨b1, ⟨t, b2, b3, b4⟩, b5, b6⟩ := f2.failed id A ex rfl
    cases ex with
    | none =>
      obtain ⟨k', rfl, hk⟩ := f2.is
      have hid : (ErrRes.plain k').errId = id := hk
      have htag : id.Tagged := by rw [b4]; exact errorNo_tagged hi
      have hok := (hp.2.2 (.plain k') g3).2.1
      simp only [eval, bind_apply] at e2
      rw [hid] at e2
      unfold errorIdLoad at e2
      rw [if_pos (tagged_ne_zero htag), loadItems_eq cfg false htag items w2 g1.4 (accOk_of_noDa hok hda2 _), Option.bind_some] at e2
      cases e2
      refine ⟨.failed id (attach cfg false items A) none, l, .load_failed f1, ?_, ?_, ⟨_, rfl, ?_⟩, f2.now, ?_⟩
      · rw [b4]; exact f2.inv.put (Nat.le_trans hi.low b2) b3 _ _ _
      · show callsIn (_ ++ w2.trace) = _
        rw [callsIn_append, callsIn_items, f2.calls]; rfl
      · rw [← hk]; exact makeErrorId_of_tagged (makeErrorId_tagged k')
      · intro id' A' ex' h0
        cases h0
        exact ⟨b1, ⟨t, b2, b3, b4⟩, attached_putItems b5, b6⟩
    | some e =>
      obtain ⟨e', rfl, hk⟩ := f2.is
      obtain ⟨rfl, rfl⟩ := e2
      exact ⟨_, l, .load_thrown f1, f2⟩

theorem implements_monitor {items : List Item} {p : Direct} (ihp : Implements cfg c K lo n p) : Implements cfg c K lo n (.monitor items p) := by
  intro da w hp hd hi hda o w1 he hf
  have hp := hp w.cur hi.good.1
  have he : eval cfg (.bind p.prog (fun v => .ret (.val v)) (fun _ => .monAssigned w.cur (fun id => .load id items (.ret (.err (.plain id)))))) w =
      some (o, w1) := by
    rw [← he]
    show _ = (currentId >>= _ : Comp AbsStore Out) w
    rw [bind_apply, currentId_abs hi.good, Option.bind_some]
  obtain ⟨o1, w2, e1, e2⟩ := bind_inv he
  obtain ⟨g1, g2, g3⟩ := eval_keeps hp.1 hi.good hda e1
  have m1 := Mono.eval _ _ _ _ e1
  have hda2 : da = false → NoDa (shape w2.mem.frames) := by rw [g2]; exact hda
  have m2 : w2.ticks ≤ w1.ticks := by
    cases o1 with
    | val v => exact Mono.eval _ _ _ _ e2
    | err r => exact Mono.eval _ _ _ _ e2
    | exc e => rw [e2.2]; exact Nat.le_refl _
  obtain ⟨io, l, f1, f2⟩ := ihp da w hp.1 hd hi hda o1 w2 e1 (hf.le m2)
  cases io with
  | ok v =>
    have hv := f2.is
    cases hv
    cases e2
    exact ⟨.ok v, l, .monitor_ok f1, f2⟩
  | failed id A ex =>
    obtain ⟨b1, ⟨t, b2, b3, b4⟩, b5, b6⟩ := f2.failed id A ex rfl
    cases ex with
    | none =>
      obtain ⟨k', rfl, hk⟩ := f2.is
      have htag : id.Tagged := by rw [b4]; exact errorNo_tagged hi
      have hok := (hp.2.2 (.plain k') g3 id htag).2.1
      have hne : w2.cur ≠ w.cur := by
        rw [b1, b4]
        exact fun h => hi.cur t b2 (Nat.lt_of_lt_of_le b3 (Nat.le_trans m2 hf.1)) h.symm
      have hget : getId cfg w.cur w2 = some (id, w2) := by
        unfold getId
        rw [bind_apply, currentId_abs g1, Option.bind_some]
        simp only [hne, ne_eq, not_false_eq_true, if_true]
        rw [b1]; rfl
      simp only [eval, bind_apply] at e2
      rw [hget, Option.bind_some, makeErrorId_of_tagged htag] at e2
      unfold errorIdLoad at e2
      rw [if_pos (tagged_ne_zero htag), loadItems_eq cfg false htag items w2 g1.4 (accOk_of_noDa hok hda2 _), Option.bind_some] at e2
      cases e2
      refine ⟨.failed id (attach cfg false items A) none, l, .monitor_failed f1, ?_, ?_, ⟨_, rfl, makeErrorId_of_tagged htag⟩, f2.now, ?_⟩
      · rw [b4]; exact f2.inv.put (Nat.le_trans hi.low b2) b3 _ _ _
      · show callsIn (_ ++ w2.trace) = _
        rw [callsIn_append, callsIn_items, f2.calls]; rfl
      · intro id' A' ex' h0
        cases h0
        exact ⟨b1, ⟨t, b2, b3, b4⟩, attached_putItems b5, b6⟩
    | some e =>
      obtain ⟨e', rfl, hk⟩ := f2.is
      obtain ⟨rfl, rfl⟩ := e2
      exact ⟨_, l, .monitor_thrown f1, f2⟩

/-! ## Results to exceptions, and back -/

theorem implements_value {tag : Nat} {p : Direct} (ihp : Implements cfg c K lo n p) : Implements cfg c K lo n (.value tag p) := by
  intro da w hp hd hi hda o w1 he hf
  obtain ⟨o1, w2, e1, e2⟩ := bind_inv he
  obtain ⟨g1, g2, g3⟩ := eval_keeps hp.1 hi.good hda e1
  have m2 : w2.ticks ≤ w1.ticks := by
    cases o1 with
    | val v => exact Mono.eval _ _ _ _ e2
    | err r => exact Mono.eval _ _ _ _ e2
    | exc e => rw [e2.2]; exact Nat.le_refl _
  obtain ⟨io, l, f1, f2⟩ := ihp da w hp.1 hd hi hda o1 w2 e1 (hf.le m2)
  cases io with
  | ok v =>
    have hv := f2.is
    cases hv
    cases e2
    exact ⟨.ok v, l, .value_ok f1, f2⟩
  | failed id A ex =>
    obtain ⟨b1, b2, b3, b4⟩ := f2.failed id A ex rfl
    cases ex with
    | none =>
      obtain ⟨k', rfl, hk⟩ := f2.is
      have hid : (ErrRes.plain k').errId = id := hk
      have e2' : resultValue cfg (.plain k') tag w2 = some (o, w1) := e2
      have hv : resultValue cfg (.plain k') tag w2 = some (.exc (badResultExc (ErrRes.plain k').errId tag), w2) := rfl
      rw [hv, hid] at e2'
      cases e2'
      refine ⟨.failed id A (some (badResultExc id tag)), l, .value_failed f1, f2.inv, f2.calls, ⟨_, rfl, rfl⟩, f2.now, ?_⟩
      intro id' A' ex' h0
      cases h0
      exact ⟨b1, b2, b3, fun e he => by cases he; exact ⟨rfl, Or.inl rfl⟩⟩
    | some e =>
      obtain ⟨e', rfl, hk⟩ := f2.is
      obtain ⟨rfl, rfl⟩ := e2
      exact ⟨_, l, .value_thrown f1, f2⟩

theorem excItems_examined {tys : List Ty} {e e' : Exc} (h : e'.examined = e.examined) : excItems tys e' = excItems tys e := by
  have hx : ∀ x : Exc, excItems tys x.examined = excItems tys x := by
    intro x
    cases x with
    | mk tag isStd idSrc casts clear => cases isStd <;> cases idSrc <;> rfl
  rw [← hx e', h, hx]

theorem implements_toResult {tys : List Ty} {p : Direct} (ihp : Implements cfg c K lo n p) : Implements cfg c K lo n (.toResult tys p) := by
  intro da w hp hd hi hda o w1 he hf
  have he' : exceptionToResult cfg tys (eval cfg p.prog) w = some (o, w1) := he
  unfold exceptionToResult at he'
  rw [bind_apply] at he'
  cases h1 : eval cfg p.prog w with
  | none => simp [h1] at he'
  | some q =>
    obtain ⟨o1, w2⟩ := q
    rw [h1, Option.bind_some] at he'
    obtain ⟨g1, g2, g3⟩ := eval_keeps (p := p.prog) hp hi.good hda h1
    have m1 := Mono.eval _ _ _ _ h1
    cases o1 with
    | val v =>
      simp only [pure_apply, Option.some.injEq, Prod.mk.injEq] at he'
      obtain ⟨rfl, rfl⟩ := he'
      obtain ⟨io, l, f1, f2⟩ := ihp da w hp hd hi hda _ _ h1 hf
      cases io with
      | ok v' => exact ⟨_, l, .toResult_ok f1, f2⟩
      | failed id A ex => cases ex <;> obtain ⟨_, hx, _⟩ := f2.is <;> cases hx
    | err r =>
      simp only [pure_apply, Option.some.injEq, Prod.mk.injEq] at he'
      obtain ⟨rfl, rfl⟩ := he'
      obtain ⟨io, l, f1, f2⟩ := ihp da w hp hd hi hda _ _ h1 hf
      cases io with
      | ok v' => have := f2.is; cases this
      | failed id A ex =>
        cases ex with
        | none => exact ⟨_, l, .toResult_failed f1, f2⟩
        | some e => obtain ⟨_, hx, _⟩ := f2.is; cases hx
    | exc e' =>
      simp only [bind_apply, catchHelper_eq _ e' w2 g1, Option.bind_some, pure_apply, Option.some.injEq, Prod.mk.injEq] at he'
      have hit : (Item.obj tyExPtr e'.tag :: (if e'.isStd = true then tys else []).reverse.filterMap (fun ty => (e'.cast ty).map (Item.obj ty ·))) = excItems tys e' := by
        unfold excItems
        cases e'.isStd <;> rfl
      rw [hit] at he'
      obtain ⟨rfl, rfl⟩ := he'
      have hf2 : Few cfg n (w2.ticks + 1) := hf
      obtain ⟨io, l, f1, f2⟩ := ihp da w hp hd hi hda _ _ h1 (hf2.le (Nat.le_succ _))
      cases io with
      | ok v' => have := f2.is; cases this
      | failed id A ex =>
        cases ex with
        | none => obtain ⟨_, hx, _⟩ := f2.is; cases hx
        | some e =>
          obtain ⟨_, hx, hex⟩ := f2.is
          cases hx
          have hfr := f2.inv.fresh hf2
          rw [f2.inv.nextId, excItems_examined hex]
          refine ⟨.failed (errorNo cfg c w2.ticks) (objects cfg (excItems tys e)) none, l, .toResult_thrown f1,
            f2.inv.gen.put f2.inv.low (Nat.lt_succ_self _) _ _ _, ?_, ⟨_, rfl, makeErrorId_of_tagged (errorNo_tagged hi)⟩,
            Or.inr (Or.inr ⟨w2.ticks, m1, Nat.lt_succ_self _, f2.inv.nextId⟩), ?_⟩
          · show callsIn (_ ++ Event.gen _ :: w2.trace) = _
            rw [callsIn_append, callsIn_items, ← f2.calls]
            rfl
          · intro id' A' ex' h0
            cases h0
            exact ⟨f2.inv.nextId, ⟨w2.ticks, m1, Nat.lt_succ_self _, rfl⟩, attached_putItems (attached_fresh hfr.2), by simp⟩

end Leaf
