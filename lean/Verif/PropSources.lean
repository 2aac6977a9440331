import Verif.Sources
import Verif.PropFlow

/-!
# Property C13: handlers only see objects of the error being handled

The specification is `HandledOk` (in `Sources`): for every handler call in the history of the thread, every error object among the arguments was,
earlier in this history, handed to LEAF for (or transported in a captured result with) exactly the id being handled, or is part of the exception
being handled.
-/

namespace Leaf

/-- Every object in the storage of the thread was supplied for the error it is tagged with. -/
def Sourced (w : World PtrStore) : Prop :=
  ∀ s ∈ scopes w, ∀ ty k v, (CtxCell.obj ty (some (k, v)) ∈ s ∨ ∃ key ns, CtxCell.da key ns ∈ s ∧ (ty, some (k, v)) ∈ ns) → Supplied w.trace k ty v

theorem srcInv_iff {w : World PtrStore} : SrcInv .none .none (absW w) ↔ Sourced w ∧ HandledOk w.trace := by
  constructor
  · intro h
    exact ⟨fun s hs ty k v hm => (h.1 ty k v ⟨s, hs, hm⟩).resolve_left (·), h.2.1⟩
  · rintro ⟨h1, h2⟩
    exact ⟨fun ty k v ⟨s, hs, hm⟩ => Or.inr (h1 s hs ty k v hm), h2, fun _ _ _ hx => hx.elim⟩

/-- **C13.** Running any program, from any consistent state whose stored objects were supplied for their errors: every handler called, then or before,
received only objects supplied for the error it handled, or parts of the exception it handled; and the stored objects are again such. -/
theorem C13_own_objects {cfg : Cfg} {da : Bool} {p : Prog} (hp : p.WF cfg da) {w : World PtrStore} (hw : ThreadOk w) (hda : da = false → NoCapturingScope w)
    (hs : Sourced w) (hh : HandledOk w.trace) {o : Out} {w' : World PtrStore} (h : eval cfg p w = some (o, w')) : HandledOk w'.trace ∧ Sourced w' := by
  obtain ⟨h1, _, _, _⟩ := eval_abs hp hw hda h
  have := pr_eval cfg p .none (absW w) (srcInv_iff.mpr ⟨hs, hh⟩) o (absW w') h1
  exact (srcInv_iff.mp this).symm

/-- **C13, from a fresh thread.** In the whole execution of any program on a new thread, every handler receives only objects supplied for the error it
handles, or parts of the exception it handles. -/
theorem C13_fresh_thread {cfg : Cfg} {p : Prog} (hp : p.WF cfg false) {c : Id} (hc : c.Tagged) {o : Out} {w' : World PtrStore}
    (h : eval cfg p (initThread c) = some (o, w')) : HandledOk w'.trace := by
  have hempty : scopes (initThread c) = [] := rfl
  refine (C13_own_objects hp (threadOk_init hc) (fun _ => ?_) ?_ ?_ h).1
  · rw [noCapturing_iff, hempty]
    intro x hx
    simp [shape] at hx
  · intro s hs
    rw [hempty] at hs
    simp at hs
  · intro post id ex i args past he
    have : (initThread c).trace = [] := rfl
    rw [this] at he
    simp at he

/-- An error is reported with an object of type 10 and abandoned; another error is reported with an object of type 11; both types are handled. -/
def abandoned : Prog :=
  .handleAll [[.req 10], [.ptr 10, .req 11, .diag], []]
    (.newError [.obj 10 1] fun _ => .newError [.obj 11 2] fun id => .ret (.err (.plain id))) (fun i _ => .ret (.val i))

example : abandoned.WF exCfg false := by
  refine ⟨⟨[[.req 10], [.ptr 10, .req 11, .diag]], [], rfl, rfl⟩, ⟨by simp [Item.Ok], fun _ _ => ⟨by simp [Item.Ok], fun _ _ => trivial⟩⟩, fun _ _ _ => ⟨trivial, by simp [Prog.NoErr]⟩⟩

/-- Although its slot is occupied, the handler does not see the object of type 10. -/
example : ((eval exCfg abandoned : Comp PtrStore Out) (initThread 1#32)).map (fun r => (r.1, r.2.trace)) =
    some (.val 1, [.handled 9#32 none 1 [.ptr 10 none, .obj 11 2, .diag 9#32 none none [(11, 2)]], .offered 9#32 11 2, .gen 9#32, .offered 5#32 10 1, .gen 5#32]) := by
  decide +kernel

end Leaf
