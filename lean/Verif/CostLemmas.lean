import Verif.CostModel
import Verif.SmallLemmas

/-!
# Recording accesses does not change anything
-/

namespace Leaf
namespace Traced

/-- The result without the record. -/
def val {α : Type} (x : Traced α) (m : PtrStore) : Option (α × PtrStore) := (x m).map fun r => (r.1, r.2.1)

theorem val_bind {α β : Type} (x : Traced α) (f : α → Traced β) (m : PtrStore) : (x >>= f).val m = (x.val m).bind fun r => (f r.1).val r.2 := by
  show (Traced.bind x f m).map _ = _
  unfold Traced.bind val
  cases x m with
  | none => rfl
  | some r =>
    obtain ⟨a, m1, l1⟩ := r
    simp only [Option.map_some, Option.bind_some]
    cases f a m1 with
    | none => rfl
    | some r => rfl

theorem val_pure {α : Type} (a : α) (m : PtrStore) : (pure a : Traced α).val m = some (a, m) := rfl
theorem val_ub {α : Type} (m : PtrStore) : (ub : Traced α).val m = none := rfl
theorem val_rdTls (ty : Ty) (m : PtrStore) : (rdTls ty).val m = some (m.tls ty, m) := rfl
theorem val_wrTls (ty : Ty) (p : Option Addr) (m : PtrStore) : (wrTls ty p).val m = some ((), { m with tls := upd m.tls ty p }) := rfl
theorem val_rdSlot (ty : Ty) (a : Addr) (m : PtrStore) : (rdSlot ty a).val m = (m.mem a).map (·, m) := by unfold val rdSlot; cases m.mem a <;> rfl
theorem val_wrSlot (ty : Ty) (a : Addr) (s : PSlot) (m : PtrStore) : (wrSlot ty a s).val m = some ((), { m with mem := upd m.mem a (some s) }) := rfl
theorem val_newSlot (ty : Ty) (s : PSlot) (m : PtrStore) : (newSlot ty s).val m = some (m.next, { m with mem := upd m.mem m.next (some s), next := m.next + 1 }) := rfl
theorem val_delSlot (ty : Ty) (a : Addr) (m : PtrStore) : (delSlot ty a).val m = (m.mem a).map fun _ => ((), { m with mem := upd m.mem a none }) := by
  unfold val delSlot; cases m.mem a <;> rfl
theorem val_rdTlsDa (m : PtrStore) : rdTlsDa.val m = some (m.tlsDa, m) := rfl
theorem val_wrTlsDa (p : Option Addr) (m : PtrStore) : (wrTlsDa p).val m = some ((), { m with tlsDa := p }) := rfl
theorem val_rdDa (a : Addr) (m : PtrStore) : (rdDa a).val m = (m.dmem a).map (·, m) := by unfold val rdDa; cases m.dmem a <;> rfl
theorem val_wrDa (a : Addr) (d : PDa) (m : PtrStore) : (wrDa a d).val m = some ((), { m with dmem := upd m.dmem a (some d) }) := rfl
theorem val_newDa (d : PDa) (m : PtrStore) : (newDa d).val m = some (m.next, { m with dmem := upd m.dmem m.next (some d), next := m.next + 1 }) := rfl
theorem val_delDa (a : Addr) (m : PtrStore) : (delDa a).val m = (m.dmem a).map fun _ => ((), { m with dmem := upd m.dmem a none }) := by
  unfold val delDa; cases m.dmem a <;> rfl

theorem val_slotGet (ty : Ty) (m : PtrStore) : (slotGet ty).val m = (PtrStore.slotGet ty m).map (·, m) := by
  unfold slotGet PtrStore.slotGet
  rw [val_bind, val_rdTls]
  simp only [Option.bind_some]
  cases m.tls ty with
  | none => rfl
  | some a =>
    simp only []
    rw [val_bind, val_rdSlot]
    cases m.mem a <;> rfl

theorem val_slotSet (ty : Ty) (id : Id) (v : Val) (m : PtrStore) : (slotSet ty id v).val m = (PtrStore.slotSet ty id v m).map ((), ·) := by
  unfold slotSet PtrStore.slotSet
  rw [val_bind, val_rdTls]
  simp only [Option.bind_some]
  cases m.tls ty with
  | none => rfl
  | some a =>
    simp only []
    rw [val_bind, val_rdSlot]
    cases m.mem a <;> rfl

theorem val_daKey (m : PtrStore) : daKey.val m = (PtrStore.daKey m).map (·, m) := by
  unfold daKey PtrStore.daKey
  rw [val_bind, val_rdTlsDa]
  simp only [Option.bind_some]
  cases m.tlsDa with
  | none => rfl
  | some a =>
    simp only []
    rw [val_bind, val_rdDa]
    cases m.dmem a <;> rfl

theorem val_freeSlot (ty : Ty) (a : Addr) (m : PtrStore) : (freeSlot ty a).val m = (PtrStore.freeSlot ty a m).map ((), ·) := by
  unfold freeSlot PtrStore.freeSlot
  rw [val_bind, val_rdTls]
  simp only [Option.bind_some]
  split
  · cases m.mem a <;> rfl
  · rw [val_delSlot]; cases m.mem a <;> rfl

theorem val_freeNodes (ns : List (Ty × Addr)) (m : PtrStore) : (freeNodes ns).val m = (PtrStore.freeNodes ns m).map ((), ·) := by
  induction ns generalizing m with
  | nil => rfl
  | cons x ns ih =>
    obtain ⟨ty, a⟩ := x
    unfold freeNodes PtrStore.freeNodes
    rw [val_bind, val_freeSlot]
    cases PtrStore.freeSlot ty a m with
    | none => rfl
    | some m1 => exact ih m1

theorem val_daReset (id : Id) (m : PtrStore) : (daReset id).val m = (PtrStore.daReset id m).map ((), ·) := by
  unfold daReset PtrStore.daReset
  rw [val_bind, val_rdTlsDa]
  simp only [Option.bind_some]
  cases m.tlsDa with
  | none => rfl
  | some a =>
    simp only []
    rw [val_bind, val_rdDa]
    cases m.dmem a with
    | none => rfl
    | some d =>
      simp only [Option.map_some, Option.bind_some]
      rw [val_bind, val_freeNodes]
      cases PtrStore.freeNodes d.nodes m <;> rfl

theorem val_daAppend (ty : Ty) (id : Id) (v : Val) (m : PtrStore) : (daAppend ty id v).val m = (PtrStore.daAppend ty id v m).map ((), ·) := by
  unfold daAppend PtrStore.daAppend
  rw [val_bind, val_rdTlsDa]
  simp only [Option.bind_some]
  cases hda : m.tlsDa with
  | none => rfl
  | some a =>
    simp only []
    rw [val_bind, val_rdDa]
    cases m.dmem a with
    | none => rfl
    | some d =>
      simp only [Option.map_some, Option.bind_some]
      split
      · rfl
      · rw [val_bind, val_rdTls]
        simp only [Option.bind_some]
        cases hty : m.tls ty with
        | some _ => rfl
        | none =>
          simp only [val_bind, val_newSlot, val_wrDa, val_wrTls, Option.bind_some, Option.map_some, hda]

theorem val_activate (cs : List CellTy) (m : PtrStore) : (activate cs).val m = some (PtrStore.activate cs m) := by
  induction cs generalizing m with
  | nil => rfl
  | cons c cs ih =>
    cases c with
    | obj ty =>
      unfold activate PtrStore.activate
      simp only [val_bind, val_rdTls, val_newSlot, val_wrTls, Option.bind_some, ih]
      rfl
    | da =>
      unfold activate PtrStore.activate
      simp only [val_bind, val_rdTlsDa, val_newDa, val_wrTlsDa, Option.bind_some, ih]
      rfl

theorem val_deactSlot (ty : Ty) (a : Addr) (m : PtrStore) : (deactSlot ty a).val m = (PtrStore.deactSlot ty a m).map ((), ·) := by
  unfold deactSlot PtrStore.deactSlot
  rw [val_bind, val_rdSlot]
  cases m.mem a <;> rfl

theorem val_deactNodes (ns : List (Ty × Addr)) (m : PtrStore) : (deactNodes ns).val m = (PtrStore.deactNodes ns m).map ((), ·) := by
  induction ns generalizing m with
  | nil => rfl
  | cons x ns ih =>
    obtain ⟨ty, a⟩ := x
    unfold deactNodes PtrStore.deactNodes
    rw [val_bind, val_deactSlot]
    cases PtrStore.deactSlot ty a m with
    | none => rfl
    | some m1 => exact ih m1

theorem val_deactDa (a : Addr) (m : PtrStore) : (deactDa a).val m = (PtrStore.deactDa a m).map ((), ·) := by
  unfold deactDa PtrStore.deactDa
  rw [val_bind, val_rdDa]
  cases m.dmem a with
  | none => rfl
  | some d =>
    simp only [Option.map_some, Option.bind_some]
    split
    · rw [val_bind, val_deactNodes]
      cases PtrStore.deactNodes d.nodes m <;> rfl
    · rfl

theorem val_deactivate (cs : List PCell) (m : PtrStore) : (deactivate cs).val m = (PtrStore.deactivate cs m).map ((), ·) := by
  induction cs generalizing m with
  | nil => rfl
  | cons c cs ih =>
    cases c with
    | obj ty a =>
      unfold deactivate PtrStore.deactivate
      rw [val_bind, ih]
      cases PtrStore.deactivate cs m with
      | none => rfl
      | some m1 => exact val_deactSlot ty a m1
    | da a =>
      unfold deactivate PtrStore.deactivate
      rw [val_bind, ih]
      cases PtrStore.deactivate cs m with
      | none => rfl
      | some m1 => exact val_deactDa a m1

theorem val_readNodes (ns : List (Ty × Addr)) (m : PtrStore) : (readNodes ns).val m = (PtrStore.readNodes ns m).map (·, m) := by
  induction ns with
  | nil => rfl
  | cons x ns ih =>
    obtain ⟨ty, a⟩ := x
    unfold readNodes PtrStore.readNodes
    rw [val_bind, val_rdSlot]
    cases m.mem a with
    | none => rfl
    | some s =>
      simp only [Option.map_some, Option.bind_some]
      rw [val_bind, ih]
      cases PtrStore.readNodes ns m <;> rfl

theorem val_readOut (cs : List PCell) (m : PtrStore) : (readOut cs).val m = (PtrStore.readOut cs m).map (·, m) := by
  induction cs with
  | nil => rfl
  | cons c cs ih =>
    cases c with
    | obj ty a =>
      unfold readOut PtrStore.readOut
      rw [val_bind, val_rdSlot]
      cases m.mem a with
      | none => rfl
      | some s =>
        simp only [Option.map_some, Option.bind_some]
        rw [val_bind, ih]
        cases PtrStore.readOut cs m <;> rfl
    | da a =>
      unfold readOut PtrStore.readOut
      rw [val_bind, val_rdDa]
      cases m.dmem a with
      | none => rfl
      | some d =>
        simp only [Option.map_some, Option.bind_some]
        rw [val_bind, val_readNodes]
        cases PtrStore.readNodes d.nodes m with
        | none => rfl
        | some ns =>
          simp only [Option.map_some, Option.bind_some]
          rw [val_bind, ih]
          cases PtrStore.readOut cs m <;> rfl

theorem freeNodes_dmem {ns : List (Ty × Addr)} {m m1 : PtrStore} (h : PtrStore.freeNodes ns m = some m1) : m1.dmem = m.dmem := by
  induction ns generalizing m with
  | nil => cases h; rfl
  | cons x ns ih =>
    obtain ⟨ty, b⟩ := x
    simp only [PtrStore.freeNodes] at h
    cases h1 : PtrStore.freeSlot ty b m with
    | none => rw [h1] at h; cases h
    | some m2 =>
      rw [h1] at h
      have e : m2.dmem = m.dmem := by
        unfold PtrStore.freeSlot at h1
        split at h1
        · cases h1
        · split at h1
          · cases h1
          · cases h1; rfl
      rw [← e]
      exact ih h

theorem val_destroy (cs : List PCell) (m : PtrStore) : (destroy cs).val m = (PtrStore.destroy cs m).map ((), ·) := by
  induction cs generalizing m with
  | nil => rfl
  | cons c cs ih =>
    cases c with
    | obj ty a =>
      unfold destroy PtrStore.destroy
      rw [val_bind, val_freeSlot]
      cases PtrStore.freeSlot ty a m with
      | none => rfl
      | some m1 => exact ih m1
    | da a =>
      unfold destroy PtrStore.destroy
      rw [val_bind, val_rdDa]
      cases hd : m.dmem a with
      | none => rfl
      | some d =>
        simp only [Option.map_some, Option.bind_some]
        rw [val_bind, val_rdTlsDa]
        simp only [Option.bind_some]
        split
        · rfl
        · rw [val_bind, val_freeNodes]
          cases hf : PtrStore.freeNodes d.nodes m with
          | none => rfl
          | some m1 =>
            simp only [Option.map_some, Option.bind_some]
            rw [val_bind, val_delDa]
            have := freeNodes_dmem hf
            rw [this, hd]
            exact ih _

theorem val_frames (m : PtrStore) : frames.val m = some (m.ctxs, m) := rfl
theorem val_setFrames (fs : List (List PCell)) (m : PtrStore) : (setFrames fs).val m = some ((), { m with ctxs := fs }) := rfl

theorem val_push (spec : List CellTy) (m : PtrStore) : (push spec).val m = (PtrStore.push spec m).map ((), ·) := by
  unfold push PtrStore.push
  split
  · rw [val_bind, val_activate]; rfl
  · rfl

theorem val_pop (m : PtrStore) : pop.val m = PtrStore.pop m := by
  unfold pop PtrStore.pop
  rw [val_bind, val_frames]
  simp only [Option.bind_some]
  cases m.ctxs with
  | nil => rfl
  | cons f fs =>
    simp only []
    rw [val_bind, val_deactivate]
    cases PtrStore.deactivate f m with
    | none => rfl
    | some m1 =>
      simp only [Option.map_some, Option.bind_some]
      rw [val_bind, val_readOut]
      cases PtrStore.readOut f m1 with
      | none => rfl
      | some cells =>
        simp only [Option.map_some, Option.bind_some]
        rw [val_bind, val_destroy]
        cases PtrStore.destroy f m1 <;> rfl

theorem lift_val {α : Type} (x : Traced α) (w : World PtrStore) : (x.lift w).map (fun r => (r.1, r.2.1)) = (x.val w.mem).map fun r => (r.1, { w with mem := r.2 }) := by
  unfold lift val
  cases x w.mem <;> rfl

end Traced

/-- Recording the accesses does not change what an operation does. -/
theorem execA_val (cfg : Cfg) (o : Op) (w : World PtrStore) : (o.execA cfg w).map (fun r => (r.1, r.2.1)) = o.exec cfg w := by
  cases o <;> simp only [Op.execA]
  case gen => rfl
  case getCur => rfl
  case setCur => rfl
  case emit => rfl
  case pushHandling => rfl
  case popHandling => rfl
  case currentException => rfl
  case slotGet ty => rw [Traced.lift_val, Traced.val_slotGet]; show _ = (PtrStore.slotGet ty w.mem).map _; cases PtrStore.slotGet ty w.mem <;> rfl
  case slotSet ty id v => rw [Traced.lift_val, Traced.val_slotSet]; show _ = (PtrStore.slotSet ty id v w.mem).map _; cases PtrStore.slotSet ty id v w.mem <;> rfl
  case daKey => rw [Traced.lift_val, Traced.val_daKey]; show _ = (PtrStore.daKey w.mem).map _; cases PtrStore.daKey w.mem <;> rfl
  case daReset id => rw [Traced.lift_val, Traced.val_daReset]; show _ = (PtrStore.daReset id w.mem).map _; cases PtrStore.daReset id w.mem <;> rfl
  case daAppend ty id v => rw [Traced.lift_val, Traced.val_daAppend]; show _ = (PtrStore.daAppend ty id v w.mem).map _; cases PtrStore.daAppend ty id v w.mem <;> rfl
  case pushCtx spec => rw [Traced.lift_val, Traced.val_push]; show _ = (PtrStore.push spec w.mem).map _; cases PtrStore.push spec w.mem <;> rfl
  case popCtx => rw [Traced.lift_val, Traced.val_pop]; show _ = (PtrStore.pop w.mem).map _; cases PtrStore.pop w.mem <;> rfl

theorem runA_val {α : Type} (cfg : Cfg) (x : Act α) (w : World PtrStore) : (x.runA cfg w).map (fun r => (r.1, r.2.1)) = x.run cfg w := by
  induction x generalizing w with
  | ret a => rfl
  | ub => rfl
  | op o k ih =>
    simp only [Act.run, Act.runA]
    rw [← execA_val]
    cases o.execA cfg w with
    | none => rfl
    | some r =>
      obtain ⟨a, w1, l1⟩ := r
      simp only [Option.map_some, Option.bind_some]
      rw [← ih a w1]
      cases (k a).runA cfg w1 <;> rfl

/-- Recording the accesses does not change what a program does. -/
theorem evalA_val (cfg : Cfg) (p : Prog) (w : World PtrStore) : (evalA cfg p w).map (fun r => (r.1, r.2.1)) = (eval cfg p : Comp PtrStore Out) w := by
  unfold evalA
  rw [runA_val, run_eval]

end Leaf
