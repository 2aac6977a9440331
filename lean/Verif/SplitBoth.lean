import Verif.SplitOuter
import Verif.Total

/-!
# Nested scopes compared with a single scope

Lemmas for `Verif/PropSplit.lean`.
-/

namespace Leaf

variable {cfg : Cfg} {H1 H2 : List (List Arg)} {b1 b2 fb : Nat → List ArgVal → Comp AbsStore Out} {g : Nat → List ArgVal → Val} {block : Comp AbsStore Out}

theorem frameCell_empty {t : Ty} {c : Cell} (S : List CellTy) (h : frameCell t (S.map CellTy.empty) = some c) : c = none := by
  induction S with
  | nil => cases h
  | cons a S ih =>
    cases a with
    | obj u =>
      simp only [List.map_cons, CellTy.empty, frameCell] at h
      split at h
      · cases h; rfl
      · exact ih h
    | da => simp only [List.map_cons, CellTy.empty, frameCell, nodeCell] at h; exact ih h

theorem cellTys_empty (S : List CellTy) : (S.map CellTy.empty).map CtxCell.cellTy = S := by
  induction S with
  | nil => rfl
  | cons a S ih => cases a <;> simp [CellTy.empty, CtxCell.cellTy] at ih ⊢ <;> exact ih

theorem unloadOut_val (x : Val) : (unloadOut cfg (.val x) : Comp AbsStore Out) = pure (.val x) := rfl
theorem unloadOut_exc (e : Exc) : (unloadOut cfg (.exc e) : Comp AbsStore Out) = pure (.exc e) := rfl

/-- No capturing scope and no slots of these types around. -/
structure Around (cfg : Cfg) (H1 H2 : List (List Arg)) (fs : List (List CtxCell)) : Prop where
  da : boundDa fs = none
  notIn : ∀ t, CellTy.obj t ∈ deduce cfg H1 → CellTy.obj t ∉ deduce cfg H2 → boundCell t fs = none

theorem split_push {w : World AbsStore} (hp1 : PlainSpecs H1) (hp2 : PlainSpecs H2) (ha : Around cfg H1 H2 w.mem.frames) :
    AgreeBelow (Split (deduce cfg H1) (deduce cfg H2)) 0 { w with mem := ⟨(deduce cfg H1).map CellTy.empty :: (deduce cfg H2).map CellTy.empty :: w.mem.frames⟩ }
      { w with mem := ⟨(deduce cfg (H1 ++ H2)).map CellTy.empty :: w.mem.frames⟩ } := by
  refine ⟨rfl, rfl, rfl, rfl, rfl, [], _, _, rfl, rfl, rfl, _, _, _, rfl, ?_, cellTys_empty _, cellTys_empty _, ?_, ?_, ?_, ha.da, ha.notIn⟩
  · rw [deduce_append, List.map_append]
    congr 2
    unfold others
    rw [List.filter_map]
    congr 1
    apply List.filter_congr
    intro t _
    cases t <;> rfl
  · unfold PlainCells; rw [cellTys_empty]; exact (deduce_plain hp1).1
  · unfold PlainCells; rw [cellTys_empty]; exact (deduce_plain hp2).1
  · intro t c _ h; exact frameCell_empty _ h

/-- Both threads up to the point where the block is done. -/
theorem split_start {w : World AbsStore} (hp1 : PlainSpecs H1) (hp2 : PlainSpecs H2) (ha : Around cfg H1 H2 w.mem.frames) (hk : Keeps (Split (deduce cfg H1) (deduce cfg H2)) 0 0 block)
    {tail1 : Out → Comp AbsStore Out} {tail2 : Out → Comp AbsStore Out} {o : Out} {v : World AbsStore}
    (h : (pushCtx (deduce cfg H2) >>= fun _ => (pushCtx (deduce cfg H1) >>= fun _ => block >>= fun o => unloadOut cfg o >>= tail1) >>= fun o => unloadOut cfg o >>= tail2) w = some (o, v)) :
    ∃ I O rest o1 w1 w1', Mid cfg H1 H2 I O rest w1 w1' ∧ (∀ r, o1 = .err r → NoNodes r) ∧ (tail1 o1 >>= fun o => unloadOut cfg o >>= tail2) w1 = some (o, v) ∧
      ∀ tail : Out → Comp AbsStore Out, (pushCtx (deduce cfg (H1 ++ H2)) >>= fun _ => block >>= fun o => unloadOut cfg o >>= tail) w = tail o1 w1' := by
  rw [bind_run (pushCtx_run (deduce_nodup _ _)), bind_apply, bind_run (pushCtx_run (deduce_nodup _ _)), bind_apply] at h
  have hp := split_push hp1 hp2 ha
  cases hb : block { w with mem := ⟨(deduce cfg H1).map CellTy.empty :: (deduce cfg H2).map CellTy.empty :: w.mem.frames⟩ } with
  | none => rw [hb] at h; cases h
  | some p =>
    obtain ⟨o0, w0⟩ := p
    rw [hb, Option.bind_some, bind_apply] at h
    obtain ⟨w0', e0, a0⟩ := hk _ _ hp o0 w0 hb
    cases hu : unloadOut cfg o0 w0 with
    | none => simp only [hu] at h; cases h
    | some p =>
      obtain ⟨o1, w1⟩ := p
      simp only [hu, Option.bind_some] at h
      obtain ⟨w1', e1, a1⟩ := keeps_unloadOut (below_split _ _) o0 _ _ a0 o1 w1 hu
      obtain ⟨top, b, b', ht, f1, f2, I, O, rest, rfl, rfl, tI, tO, pI, pO, hn, hd, hr⟩ := a1.frames
      have : top = [] := List.eq_nil_of_length_eq_zero ht
      subst this
      refine ⟨I, O, rest, o1, w1, w1', ⟨a1.cur, a1.counter, a1.ticks, a1.handling, a1.trace, f1, f2, tI, tO, pI, pO, hn, hd, hr, hp1, hp2⟩, ?_, ?_, ?_⟩
      · rintro r rfl; exact unloadOut_unloaded hu
      · rw [bind_apply]; exact h
      · intro tail
        rw [bind_run (pushCtx_run (deduce_nodup _ _)), bind_run e0, bind_run e1]

variable {w : World AbsStore}

theorem split_all (hp1 : PlainSpecs H1) (hp2 : PlainSpecs H2) (hv : ValidAll H2) (ha : Around cfg H1 H2 w.mem.frames) (hk : Keeps (Split (deduce cfg H1) (deduce cfg H2)) 0 0 block)
    (hb1 : ∀ i args, b1 i args = pure (.val (g i args))) (hfb : ∀ i args, i < H1.length → fb i args = pure (.val (g i args)))
    (hb2 : ∀ i args, Same Eq 0 0 (b2 i args) (fb (i + H1.length) args)) {o : Out} {v : World AbsStore}
    (h : tryHandleAll cfg H2 (tryHandleSome cfg H1 block b1) b2 w = some (o, v)) :
    ∃ v', tryHandleAll cfg (H1 ++ H2) block fb w = some (o, v') ∧ AgreeBelow Eq 0 v v' := by
  rw [tryHandleAll_tail, tryHandleSome_tail] at h
  obtain ⟨I, O, rest, o1, w1, w1', m, hul, ht, hflat⟩ := split_start hp1 hp2 ha hk h
  rw [tryHandleAll_tail, hflat]
  rw [bind_apply] at ht
  cases o1 with
  | val x =>
    rw [someTail, bind_run (popCtx_run m.frames)] at ht
    simp only [pure_apply, Option.bind_some] at ht
    rw [unloadOut_val, bind_run (pure_apply _ _), allTail, bind_run (popCtx_run rfl)] at ht
    cases ht
    rw [allTail, bind_run (popCtx_run m.frames')]
    exact ⟨_, rfl, show AgreeBelow Eq 0 { w1 with mem := ⟨rest⟩ } _ from agree_mid m⟩
  | err r =>
    cases hi : someTail cfg H1 b1 (.err r) w1 with
    | none => rw [hi] at ht; cases ht
    | some p =>
      obtain ⟨o2, w2⟩ := p
      rw [hi, Option.bind_some] at ht
      rcases inner_err m hb1 hfb r (hul r rfl) hi with ⟨x, w3, rfl, hf, ⟨i, hfm, hlt, hc⟩, hl⟩ | ⟨rfl, hn, h0, rfl⟩
      · simp only at ht
        rw [unloadOut_val, bind_run (pure_apply _ _), allTail, bind_run (popCtx_run hf)] at ht
        cases ht
        rw [allTail, bind_run (resultUnload_noNodes (hul r rfl) _), bind_run (popCtx_run (by rw [reCur_frames]; exact m.frames')), ctxLoc_plain m.flat m.noLoc, bind_run (pure_apply _ _),
          selectAll_first _ (validAll_append _ hv), firstMatch_append, hfm]
        simp only [Option.some_or]
        rw [bind_run hc]
        exact ⟨w3, rfl, hl.agree⟩
      · obtain ⟨O', e, q⟩ := m.out2 r.errId
        rw [e] at ht
        exact outer_all_err m hv hb2 r (hul r rfl) hn q ht
  | exc e =>
    cases hi : someTail cfg H1 b1 (.exc e) w1 with
    | none => rw [hi] at ht; cases ht
    | some p =>
      obtain ⟨o2, w2⟩ := p
      rw [hi, Option.bind_some] at ht
      rcases inner_exc m hb1 hfb e hi with ⟨x, w3, rfl, hf, hc, hl⟩ | ⟨id, e1, hu, rfl, hn, h0, rfl⟩
      · simp only at ht
        rw [unloadOut_val, bind_run (pure_apply _ _), allTail, bind_run (popCtx_run hf)] at ht
        cases ht
        rw [allTail, bind_run hc]
        exact ⟨w3, rfl, hl.agree⟩
      · obtain ⟨O', e2, q⟩ := m.out2 id
        rw [e2] at ht
        simp only at ht
        rw [unloadOut_exc, bind_run (pure_apply _ _), allTail, bind_apply] at ht
        cases hc : catchPath cfg H2 b2 e1 { w1 with mem := ⟨O' :: rest⟩ } with
        | none => rw [hc] at ht; cases ht
        | some p =>
          obtain ⟨⟨o3, c3⟩, w3⟩ := p
          rw [hc, Option.bind_some] at ht
          obtain ⟨v3, e3, a3⟩ := outer_exc m hb2 hu h0 hn q hc
          rw [allTail, bind_run e3]
          exact keeps_noErr o3 _ _ a3 o v ht

theorem split_some (hp1 : PlainSpecs H1) (hp2 : PlainSpecs H2) (ha : Around cfg H1 H2 w.mem.frames) (hk : Keeps (Split (deduce cfg H1) (deduce cfg H2)) 0 0 block)
    (hb1 : ∀ i args, b1 i args = pure (.val (g i args))) (hfb : ∀ i args, i < H1.length → fb i args = pure (.val (g i args)))
    (hb2 : ∀ i args, Same Eq 0 0 (b2 i args) (fb (i + H1.length) args)) (hne : ∀ i args, Post (b2 i args) Out.NoErr) {o : Out} {v : World AbsStore}
    (h : tryHandleSome cfg H2 (tryHandleSome cfg H1 block b1) b2 w = some (o, v)) :
    ∃ v', tryHandleSome cfg (H1 ++ H2) block fb w = some (o, v') ∧ AgreeBelow Eq 0 v v' := by
  rw [tryHandleSome_tail, tryHandleSome_tail] at h
  obtain ⟨I, O, rest, o1, w1, w1', m, hul, ht, hflat⟩ := split_start hp1 hp2 ha hk h
  rw [tryHandleSome_tail, hflat]
  rw [bind_apply] at ht
  cases o1 with
  | val x =>
    rw [someTail, bind_run (popCtx_run m.frames)] at ht
    simp only [pure_apply, Option.bind_some] at ht
    rw [unloadOut_val, bind_run (pure_apply _ _), someTail, bind_run (popCtx_run rfl)] at ht
    cases ht
    rw [someTail, bind_run (popCtx_run m.frames')]
    exact ⟨_, rfl, show AgreeBelow Eq 0 { w1 with mem := ⟨rest⟩ } _ from agree_mid m⟩
  | err r =>
    cases hi : someTail cfg H1 b1 (.err r) w1 with
    | none => rw [hi] at ht; cases ht
    | some p =>
      obtain ⟨o2, w2⟩ := p
      rw [hi, Option.bind_some] at ht
      rcases inner_err m hb1 hfb r (hul r rfl) hi with ⟨x, w3, rfl, hf, ⟨i, hfm, hlt, hc⟩, hl⟩ | ⟨rfl, hn, h0, rfl⟩
      · simp only at ht
        rw [unloadOut_val, bind_run (pure_apply _ _), someTail, bind_run (popCtx_run hf)] at ht
        cases ht
        rw [someTail, bind_run (resultUnload_noNodes (hul r rfl) _), bind_run (popCtx_run (by rw [reCur_frames]; exact m.frames')), ctxLoc_plain m.flat m.noLoc, bind_run (pure_apply _ _),
          selectSome_first, firstMatch_append, hfm]
        simp only [Option.some_or]
        rw [bind_run hc]
        exact ⟨w3, rfl, hl.agree⟩
      · obtain ⟨O', e, q⟩ := m.out2 r.errId
        rw [e] at ht
        exact outer_some_err m hb2 (fun i args u o u' hr => hne i args u o u' hr) r (hul r rfl) h0 hn q ht
  | exc e =>
    cases hi : someTail cfg H1 b1 (.exc e) w1 with
    | none => rw [hi] at ht; cases ht
    | some p =>
      obtain ⟨o2, w2⟩ := p
      rw [hi, Option.bind_some] at ht
      rcases inner_exc m hb1 hfb e hi with ⟨x, w3, rfl, hf, hc, hl⟩ | ⟨id, e1, hu, rfl, hn, h0, rfl⟩
      · simp only at ht
        rw [unloadOut_val, bind_run (pure_apply _ _), someTail, bind_run (popCtx_run hf)] at ht
        cases ht
        rw [someTail, bind_run hc]
        exact ⟨w3, rfl, hl.agree⟩
      · obtain ⟨O', e2, q⟩ := m.out2 id
        rw [e2] at ht
        simp only at ht
        rw [unloadOut_exc, bind_run (pure_apply _ _), someTail, bind_apply] at ht
        cases hc : catchPath cfg H2 b2 e1 { w1 with mem := ⟨O' :: rest⟩ } with
        | none => rw [hc] at ht; cases ht
        | some p =>
          obtain ⟨⟨o3, c3⟩, w3⟩ := p
          rw [hc, Option.bind_some] at ht
          obtain ⟨v3, e3, a3⟩ := outer_exc m hb2 hu h0 hn q hc
          have hno := post_catchPath cfg (fun i a => hne i a) (fun _ => by simp [Out.NoErr]) e1 _ _ _ hc
          rw [someTail, bind_run e3]
          cases o3 with
          | err r => exact absurd rfl (hno r)
          | val x => cases ht; exact ⟨v3, rfl, a3⟩
          | exc e => cases ht; exact ⟨v3, rfl, a3⟩

/-- What `try_catch` does with what the block returned. -/
def catchTail (cfg : Cfg) (specs : List (List Arg)) (body : Nat → List ArgVal → Comp AbsStore Out) : Out → Comp AbsStore Out
  | .exc e => do
    let (o, _) ← catchPath cfg specs body e
    return o
  | o => do
    let _ ← popCtx
    return o

theorem tryCatch_tail (cfg : Cfg) (specs : List (List Arg)) (block : Comp AbsStore Out) (body : Nat → List ArgVal → Comp AbsStore Out) :
    tryCatch cfg specs block body = pushCtx (deduce cfg specs) >>= fun _ => block >>= catchTail cfg specs body := by
  rfl

/-- For handlers that return values, `try_catch` and `try_handle_some` handle exceptions in the same way. -/
theorem catchTail_some (hb1 : ∀ i args, b1 i args = pure (.val (g i args))) {e : Exc} {u v : World AbsStore} {o : Out} (h : catchTail cfg H1 b1 (.exc e) u = some (o, v)) :
    someTail cfg H1 b1 (.exc e) u = some (o, v) := by
  rw [catchTail, bind_apply] at h
  cases hc : catchPath cfg H1 b1 e u with
  | none => rw [hc] at h; cases h
  | some p =>
    obtain ⟨⟨o1, c1⟩, v1⟩ := p
    have hno := post_catchPath cfg (Q := Out.NoErr) (fun i a => by rw [hb1]; exact Post.pure (by simp [Out.NoErr])) (fun _ => by simp [Out.NoErr]) e _ _ _ hc
    rw [hc, Option.bind_some] at h
    rw [someTail, bind_run hc]
    cases o1 with
    | err r => exact absurd rfl (hno r)
    | val x => exact h
    | exc e => exact h

theorem split_catch (hp1 : PlainSpecs H1) (hp2 : PlainSpecs H2) (ha : Around cfg H1 H2 w.mem.frames) (hk : Keeps (Split (deduce cfg H1) (deduce cfg H2)) 0 0 block)
    (hb1 : ∀ i args, b1 i args = pure (.val (g i args))) (hfb : ∀ i args, i < H1.length → fb i args = pure (.val (g i args)))
    (hb2 : ∀ i args, Same Eq 0 0 (b2 i args) (fb (i + H1.length) args)) {o : Out} {v : World AbsStore}
    (h : tryCatch cfg H2 (tryCatch cfg H1 block b1) b2 w = some (o, v)) :
    ∃ v', tryCatch cfg (H1 ++ H2) block fb w = some (o, v') ∧ AgreeBelow Eq 0 v v' := by
  rw [tryCatch_tail, tryCatch_tail, bind_run (pushCtx_run (deduce_nodup _ _)), bind_apply, bind_run (pushCtx_run (deduce_nodup _ _)), bind_apply] at h
  have hp := split_push hp1 hp2 ha
  cases hb : block { w with mem := ⟨(deduce cfg H1).map CellTy.empty :: (deduce cfg H2).map CellTy.empty :: w.mem.frames⟩ } with
  | none => rw [hb] at h; cases h
  | some p =>
    obtain ⟨o1, w1⟩ := p
    rw [hb, Option.bind_some] at h
    obtain ⟨w1', e1, a1⟩ := hk _ _ hp o1 w1 hb
    obtain ⟨top, b, b', ht, f1, f2, I, O, rest, rfl, rfl, tI, tO, pI, pO, hn, hd, hr⟩ := a1.frames
    have : top = [] := List.eq_nil_of_length_eq_zero ht
    subst this
    have m : Mid cfg H1 H2 I O rest w1 w1' := ⟨a1.cur, a1.counter, a1.ticks, a1.handling, a1.trace, f1, f2, tI, tO, pI, pO, hn, hd, hr, hp1, hp2⟩
    rw [tryCatch_tail, bind_run (pushCtx_run (deduce_nodup _ _)), bind_run e1]
    have hpop : ∀ o1, (∀ e, o1 ≠ .exc e) → ∀ (H : List (List Arg)) b, catchTail cfg H b o1 = (popCtx >>= fun _ => pure o1) := by
      intro o1 ho H b
      cases o1 with
      | exc e => exact absurd rfl (ho e)
      | _ => rfl
    have hplain : ∀ o1, (∀ e, o1 ≠ .exc e) → ((catchTail cfg H1 b1 o1 w1).bind fun p => catchTail cfg H2 b2 p.1 p.2) = some (o, v) →
        ∃ v', catchTail cfg (H1 ++ H2) fb o1 w1' = some (o, v') ∧ AgreeBelow Eq 0 v v' := by
      intro o1 ho h
      rw [hpop o1 ho, bind_run (popCtx_run m.frames), pure_apply, Option.bind_some] at h
      simp only at h
      rw [hpop o1 ho, bind_run (popCtx_run rfl)] at h
      cases h
      rw [hpop o ho, bind_run (popCtx_run m.frames')]
      exact ⟨_, rfl, show AgreeBelow Eq 0 { w1 with mem := ⟨rest⟩ } _ from agree_mid m⟩
    cases o1 with
    | val x => exact hplain _ (fun _ => by simp) h
    | err r => exact hplain _ (fun _ => by simp) h
    | exc e =>
      cases hi : catchTail cfg H1 b1 (.exc e) w1 with
      | none => simp only [hi] at h; cases h
      | some p =>
        obtain ⟨o2, w2⟩ := p
        simp only [hi, Option.bind_some] at h
        rcases inner_exc m hb1 hfb e (catchTail_some hb1 hi) with ⟨x, w3, rfl, hf, hc, hl⟩ | ⟨id, e1, hu, rfl, hn, h0, rfl⟩
        · rw [hpop _ (by simp), bind_run (popCtx_run hf)] at h
          cases h
          rw [catchTail, bind_run hc]
          exact ⟨w3, rfl, hl.agree⟩
        · obtain ⟨O', e2, q⟩ := m.out2 id
          rw [e2, catchTail, bind_apply] at h
          cases hc : catchPath cfg H2 b2 e1 { w1 with mem := ⟨O' :: rest⟩ } with
          | none => rw [hc] at h; cases h
          | some p =>
            obtain ⟨⟨o3, c3⟩, w3⟩ := p
            rw [hc, Option.bind_some] at h
            obtain ⟨v3, e3, a3⟩ := outer_exc m hb2 hu h0 hn q hc
            rw [catchTail, bind_run e3]
            cases h
            exact ⟨v3, rfl, a3⟩

end Leaf
