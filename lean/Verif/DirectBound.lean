import Verif.PropDirect
import Verif.Ticks

/-!
# Ideal runs determine what programs do

`C48_ideal` is about runs in which not too many ids are generated. For programs for which a bound is known, an ideal run determines what the program
does.
-/

namespace Leaf

/-- The program generates at most `k` ids. -/
inductive Direct.AtMost : Direct → Nat → Prop
  | ret {v k} : AtMost (.ret v) k
  | fail {items thrown k} : AtMost (.fail items thrown) (k + 1)
  | failCode {ec v k} : AtMost (.failCode ec v) (k + 1)
  | seq {p k a b} : AtMost p a → (∀ v, AtMost (k v) b) → AtMost (.seq p k) (a + b)
  | next {p k a b} : AtMost p a → (∀ v, AtMost (k v) b) → AtMost (.next p k) (a + b)
  | orElse {p k h a b} : AtMost p a → (∀ v, AtMost (k v) b) → AtMost h b → AtMost (.orElse p k h) (a + b)
  | catch_ {p h a b} : AtMost p a → AtMost h b → AtMost (.catch_ p h) (a + b)
  | guard {items p a} : AtMost p a → AtMost (.guard items p) (a + 1)
  | load {items p a} : AtMost p a → AtMost (.load items p) a
  | monitor {items p a} : AtMost p a → AtMost (.monitor items p) (a + 1)
  | value {tag p a} : AtMost p a → AtMost (.value tag p) a
  | toResult {tys p a} : AtMost p a → AtMost (.toResult tys p) (a + 1)
  | handleAll {specs p body a b} : AtMost p a → (∀ i args, AtMost (body i args) b) → AtMost (.handleAll specs p body) (a + b)
  | handleSome {specs p again body a b} : AtMost p a → (∀ i args, AtMost (body i args) b) → AtMost (.handleSome specs p again body) (a + b)
  | tryCatch {specs p body a b} : AtMost p a → (∀ i args, AtMost (body i args) b) → AtMost (.tryCatch specs p body) (a + b)

theorem tick_bind {M : Type} [Store M] {cfg : Cfg} {p : Prog} {k : Val → Prog} {ke : ErrRes → Prog} {a b : Nat} (hp : TickLe a (eval cfg p : Comp M Out))
    (hk : ∀ v, TickLe b (eval cfg (k v) : Comp M Out)) (he : ∀ r, TickLe b (eval cfg (ke r) : Comp M Out)) :
    TickLe (a + b) (eval cfg (.bind p k ke) : Comp M Out) := by
  unfold eval
  refine .bind hp fun o => ?_
  cases o with
  | val v => exact hk v
  | err r => exact he r
  | exc e => exact .pure _

theorem Direct.AtMost.ticks {M : Type} [Store M] {cfg : Cfg} {p : Direct} {k : Nat} (h : p.AtMost k) : TickLe k (eval cfg p.prog : Comp M Out) := by
  induction h with
  | ret => exact .pure _
  | @fail items thrown k =>
    have key : TickLe 1 (eval cfg (report items thrown) : Comp M Out) := by
      cases thrown with
      | none => exact .bind0' (tick_newError _ _) fun _ => .pure _
      | some f => exact .bind0' (tick_newError _ _) fun _ => .pure _
    exact key.mono (by omega)
  | @failCode ec v k => exact (TickLe.bind0' (tick_importCode cfg ec v) fun _ => .pure _).mono (by omega)
  | seq _ _ ih1 ih2 => exact tick_bind ih1 ih2 fun _ => .pure _
  | next _ _ ih1 ih2 => exact tick_bind ih1 ih2 fun _ => .pure _
  | orElse _ _ _ ih1 ih2 ih3 => exact tick_bind ih1 ih2 fun _ => ih3
  | catch_ _ _ ih1 ih2 => exact tick_cppCatch ih1 fun _ => ih2
  | guard _ ih => exact tick_onErrorGuard _ _ ih
  | load _ ih => exact tick_bind (b := 0) ih (fun _ => .pure _) fun _ => .bind0 (tick_errorIdLoad _ _ _) fun _ => .pure _
  | monitor _ ih =>
    exact .bind0 tick_currentId fun _ => tick_bind ih (fun _ => .pure _) fun _ =>
      .bind0' (tick_getId _ _) fun _ => .bind0 (tick_errorIdLoad _ _ _) fun _ => .pure _
  | value _ ih => exact tick_bind (b := 0) ih (fun _ => .pure _) fun _ => tick_resultValue _ _ _
  | toResult _ ih => exact tick_exceptionToResult _ _ ih
  | handleAll _ _ ih1 ih2 => exact tick_tryHandleAll _ _ ih1 ih2
  | @handleSome specs p again body a b _ _ ih1 ih2 =>
    refine tick_tryHandleSome _ _ ih1 fun i args => ?_
    dsimp only
    split
    · refine TickLe.mono (k := 0) ?_ (Nat.zero_le _)
      unfold returnSame
      split
      · exact .bind0 (tick_errorIdLoad _ _ _) fun _ => .pure _
      · exact .bind0 tick_currentError fun _ => .bind0 (tick_errorIdLoad _ _ _) fun _ => .pure _
    · exact ih2 i args
  | tryCatch _ _ ih1 ih2 => exact tick_tryCatch _ _ ih1 ih2

/-- If the number of ids a program generates is bounded, an ideal run determines what it does. -/
theorem ideal_determines {cfg : Cfg} {c : Id} {p : Direct} {da : Bool} (hp : p.prog.WF cfg da) (hd : p.Ok) (hl : p.NoLists) {k : Nat} (hk : p.AtMost k)
    {w : World PtrStore} (hw : ThreadOk w) (hda : da = false → NoCapturingScope w) {n : Nat} (hkn : w.ticks + k ≤ n) (hn : gens cfg.interf n ≤ 2 ^ 30)
    (hs : Start cfg c n w) {io : Outcome} {t : Nat} {l : List Call} (h : Ideal cfg c p w.ticks io t l) :
    ∃ o w', eval cfg p.prog w = some (o, w') ∧ io.Is o ∧ callsIn w'.trace = l.reverse ++ callsIn w.trace ∧ io.Available cfg w' ∧ w'.ticks = t ∧
      ThreadOk w' ∧ Start cfg c n w' := by
  obtain ⟨o, w', e⟩ := eval_total hp hw hda
  have ht := hk.ticks w o w' e
  obtain ⟨io', l', h1, h2, h3, h4, h5, h6⟩ := C48_ideal hp hd hw hda hn hs e (by omega)
  obtain ⟨rfl, rfl, rfl⟩ := C48_unique hl h h1
  exact ⟨o, w', e, h2, h3, h4, rfl, h5, h6⟩

end Leaf
