import Verif.Examples
import Verif.DirectBound

/-!
# C62: what the example programs do
-/

namespace Leaf

/-! ## Runs of a program from a thread -/

/-- The thread is in a good state, outside of capturing scopes, with `k` ids to generate before the ids wrap around. -/
structure Ready (cfg : Cfg) (c : Id) (k : Nat) (w : World PtrStore) : Prop where
  ok : ThreadOk w
  plain : NoCapturingScope w
  ids : ∃ n, w.ticks + k ≤ n ∧ gens cfg.interf n ≤ 2 ^ 30 ∧ Start cfg c n w

/-- The program started in `w` returns `v`, having made these handler calls, each for the first error it generated. -/
def Runs (cfg : Cfg) (c : Id) (p : Prog) (w : World PtrStore) (v : Val) (ex : Option Exc) (calls : List (Nat × List ArgVal)) : Prop :=
  ∃ w', eval cfg p w = some (.val v, w') ∧
    callsIn w'.trace = calls.map (fun (i, args) => (errorNo cfg c w.ticks, ex, i, args)) ++ callsIn w.trace

theorem ready_init (cfg : Cfg) {c : Id} (hc : c.Tagged) {k : Nat} (hk : gens cfg.interf k ≤ 2 ^ 30) : Ready cfg c k (initThread c) :=
  ⟨threadOk_init hc, (noCapturing_iff _).mpr (by intro f hf; cases hf), k, by show 0 + k ≤ k; omega, hk, start_init cfg hc k⟩

section
variable {cfg : Cfg} {c : Id} {w : World PtrStore} {A : Ty → Option Val} {ex : Option Exc}

/-! The conditions of `ideal_determines` -/

structure Part (cfg : Cfg) (da : Bool) (p : Direct) (k : Nat) : Prop where
  wf : p.prog.WF cfg da
  ok : p.Ok
  lists : p.NoLists
  bound : p.AtMost k

section
variable {da : Bool} {p : Direct} {k k' : Nat}

theorem Part.ret (v : Val) : Part cfg da (.ret v) k := ⟨trivial, trivial, trivial, .ret⟩

theorem Part.fail {items : List Item} (h : ∀ i ∈ items, i.Ok cfg da) : Part cfg da (.fail items none) (k + 1) :=
  ⟨⟨h, fun _ _ => trivial⟩, fun _ h => (by cases h), trivial, .fail⟩

theorem Part.throw_ {items : List Item} {f : Id → Exc} (h : ∀ i ∈ items, i.Ok cfg da) (hf : ∀ id, Id.Tagged id → (f id).Ok ∧ (f id).Carries id) :
    Part cfg da (.fail items (some f)) (k + 1) :=
  ⟨⟨h, fun id h => (hf id h).1⟩, fun _ h => (by cases h; exact fun id h => (hf id h).2), trivial, .fail⟩

theorem Part.guard {items : List OnItem} (hi : ∀ i ∈ items, i.Ok cfg da) (h : Part cfg da p k) : Part cfg da (.guard items p) (k + 1) :=
  ⟨⟨hi, h.wf⟩, h.ok, h.lists, .guard h.bound⟩

theorem Part.monitor {items : List Item} (hi : ∀ i ∈ items, i.Ok cfg da) (h : Part cfg da p k) : Part cfg da (.monitor items p) (k + 1) :=
  ⟨fun _ _ => ⟨h.wf, fun _ => trivial, fun _ _ _ ht => ⟨.inr ht, hi, trivial⟩⟩, h.ok, h.lists, .monitor h.bound⟩

theorem Part.seq {q : Val → Direct} (h : Part cfg da p k) (hq : ∀ v, Part cfg da (q v) k') : Part cfg da (.seq p q) (k + k') :=
  ⟨⟨h.wf, fun v => (hq v).wf, fun r h => (by cases r <;> exact h)⟩, ⟨h.ok, fun v => (hq v).ok⟩, ⟨h.lists, fun v => (hq v).lists⟩, .seq h.bound fun v => (hq v).bound⟩

theorem Part.handleAll {specs : List (List Arg)} {body : Nat → List ArgVal → Direct} (hv : ValidAll specs) (hl : Leaf.NoLists specs)
    (h : Part cfg (da || capturing cfg specs) p k) (hb : ∀ i args, Part cfg da (body i args) k' ∧ (body i args).prog.NoErr) :
    Part cfg da (.handleAll specs p body) (k + k') :=
  ⟨⟨hv, h.wf, fun i args _ => ⟨(hb i args).1.wf, (hb i args).2⟩⟩, ⟨h.ok, fun i args => (hb i args).1.ok⟩, ⟨hl, h.lists, fun i args => (hb i args).1.lists⟩,
    .handleAll h.bound fun i args => (hb i args).1.bound⟩

theorem Part.handleSome {specs : List (List Arg)} {body : Nat → List ArgVal → Direct} (hl : Leaf.NoLists specs)
    (h : Part cfg (da || capturing cfg specs) p k) (hb : ∀ i args, Part cfg da (body i args) k') :
    Part cfg da (.handleSome specs p (fun _ _ => none) body) (k + k') :=
  ⟨⟨h.wf, fun i args _ => (hb i args).wf⟩, ⟨h.ok, fun _ _ _ h => (by cases h), fun i args => (hb i args).ok⟩, ⟨hl, h.lists, fun i args => (hb i args).lists⟩,
    .handleSome h.bound fun i args => (hb i args).bound⟩

theorem Part.tryCatch {specs : List (List Arg)} {body : Nat → List ArgVal → Direct} (hl : Leaf.NoLists specs)
    (h : Part cfg (da || capturing cfg specs) p k) (hn : p.prog.NoErr) (hb : ∀ i args, Part cfg da (body i args) k') :
    Part cfg da (.tryCatch specs p body) (k + k') :=
  ⟨⟨h.wf, fun i args _ => (hb i args).wf⟩, ⟨h.ok, hn, fun i args => (hb i args).ok⟩, ⟨hl, h.lists, fun i args => (hb i args).lists⟩,
    .tryCatch h.bound fun i args => (hb i args).bound⟩

theorem Part.next {q : Val → Direct} (h : Part cfg da p k) (hn : p.prog.NoErr) (hq : ∀ v, Part cfg da (q v) k') : Part cfg da (.next p q) (k + k') :=
  ⟨⟨h.wf, fun v => (hq v).wf, fun _ _ => trivial⟩, ⟨h.ok, hn, fun v => (hq v).ok⟩, ⟨h.lists, fun v => (hq v).lists⟩, .next h.bound fun v => (hq v).bound⟩

end

theorem Part.runs {p : Direct} {k : Nat} (hp : Part cfg false p k) (h : Ready cfg c k w)
    {v : Val} {t : Nat} {l : List Call} (hi : Ideal cfg c p w.ticks (.ok v) t l) :
    ∃ w', eval cfg p.prog w = some (.val v, w') ∧ callsIn w'.trace = l.reverse ++ callsIn w.trace := by
  obtain ⟨h1, h2, n, h3, h4, h5⟩ := h
  obtain ⟨o, w', e, ho, ht, _⟩ := ideal_determines hp.wf hp.ok hp.lists hp.bound h1 (fun _ => h2) h3 h4 h5 hi
  exact ⟨w', by rw [e, show o = .val v from ho], ht⟩

theorem firstSuitable_zero {hd : List Arg} {specs : List (List Arg)} : FirstSuitableOf cfg A ex (hd :: specs) 0 ↔ SuitableOf cfg A ex hd := by
  simp [FirstSuitableOf]

theorem firstSuitable_succ {hd : List Arg} {specs : List (List Arg)} {i : Nat} :
    FirstSuitableOf cfg A ex (hd :: specs) (i + 1) ↔ ¬ SuitableOf cfg A ex hd ∧ FirstSuitableOf cfg A ex specs i := by
  unfold FirstSuitableOf
  simp only [List.getElem?_cons_succ]
  constructor
  · rintro ⟨h1, h2⟩
    exact ⟨h2 0 (by omega) hd rfl, h1, fun j hj a ha => h2 (j + 1) (by omega) a (by simpa using ha)⟩
  · rintro ⟨h1, h2, h3⟩
    refine ⟨h2, fun j hj a ha => ?_⟩
    cases j with
    | zero => simp at ha; exact ha ▸ h1
    | succ j => exact h3 j (by omega) a (by simpa using ha)

theorem suitable_nil : SuitableOf cfg A ex [] := fun a ha => by cases ha

theorem suitable_cons {a : Arg} {hd : List Arg} : SuitableOf cfg A ex (a :: hd) ↔ SuitableOf cfg A ex [a] ∧ SuitableOf cfg A ex hd := by
  constructor
  · exact fun h => ⟨fun b hb => h b (by simp_all), fun b hb => h b (by simp_all)⟩
  · rintro ⟨h1, h2⟩ b hb
    rcases List.mem_cons.mp hb with rfl | hb
    · exact h1 b (by simp)
    · exact h2 b hb

theorem suitable_req {ty : Ty} : SuitableOf cfg A ex [.req ty] ↔ ∃ v, SeesOf cfg A ex ty v := by simp [SuitableOf]

theorem suitable_ptr {ty : Ty} : SuitableOf cfg A ex [.ptr ty] ↔ True := by simp [SuitableOf]

theorem suitable_info : SuitableOf cfg A ex [.info] ↔ True := by simp [SuitableOf]

theorem suitable_pred {ty : Ty} {p : Val → Bool} : SuitableOf cfg A ex [.pred ty p] ↔ ∃ v, SeesOf cfg A ex ty v ∧ p v = true := by simp [SuitableOf]

theorem cmpValuePack_mem (v v1 : Val) (vs : List Val) : cmpValuePack (· == ·) v (.value v1) (vs.map .value) = true ↔ v = v1 ∨ v ∈ vs := by
  induction vs generalizing v1 with
  | nil => simp [cmpValuePack, cmpOne]
  | cons x xs ih => simp [cmpValuePack, cmpOne, ih]

theorem suitable_matchEnum {ty : Ty} {v1 : Val} {vs : List Val} :
    SuitableOf cfg A ex [matchEnum ty v1 vs] ↔ ∃ v, SeesOf cfg A ex ty v ∧ (v = v1 ∨ v ∈ vs) := by
  show SuitableOf cfg A ex [.pred ty _] ↔ _
  rw [suitable_pred]
  exact ⟨fun ⟨v, h1, h2⟩ => ⟨v, h1, (cmpValuePack_mem ..).mp h2⟩, fun ⟨v, h1, h2⟩ => ⟨v, h1, (cmpValuePack_mem ..).mpr h2⟩⟩

theorem suitable_matchMemberValue {ty : Ty} {v1 : Val} {vs : List Val} :
    SuitableOf cfg A ex [matchMemberValue ty v1 vs] ↔ ∃ v, SeesOf cfg A ex ty v ∧ (v = v1 ∨ v ∈ vs) := suitable_matchEnum

/-- The exception has no part of type `ty`. -/
def NoPart (ex : Option Exc) (ty : Ty) : Prop := ∀ e, ex = some e → e.cast ty = none

theorem noPart_none (ty : Ty) : NoPart none ty := fun e h => by cases h

theorem sees_iff {ty : Ty} (ha : cfg.isAbstract ty = false) (hc : NoPart ex ty) (v : Val) : SeesOf cfg A ex ty v ↔ A ty = some v := by
  unfold SeesOf
  constructor
  · rintro (⟨_, h⟩ | ⟨_, e, rfl, h⟩)
    · exact h
    · rw [hc e rfl] at h; cases h
  · exact fun h => .inl ⟨ha, h⟩

/-- Each argument is received. -/
def Each (P : Arg → ArgVal → Prop) : List Arg → List ArgVal → Prop
  | [], [] => True
  | a :: as, x :: xs => P a x ∧ Each P as xs
  | _, _ => False

theorem each_get {P : Arg → ArgVal → Prop} : ∀ {as : List Arg} {xs : List ArgVal}, Each P as xs →
    xs.length = as.length ∧ ∀ (j : Nat) a x, as[j]? = some a → xs[j]? = some x → P a x
  | [], [], _ => ⟨rfl, fun j a x h => by simp at h⟩
  | a :: as, x :: xs, h => by
    obtain ⟨h1, h2⟩ := each_get h.2
    refine ⟨by simp [h1], fun j b y hb hy => ?_⟩
    cases j with
    | zero => simp at hb hy; subst hb hy; exact h.1
    | succ j => exact h2 j b y (by simpa using hb) (by simpa using hy)

theorem gets_of {specs : List (List Arg)} {id : Id} {i : Nat} {hd : List Arg} {vals : List ArgVal} (h : specs[i]? = some hd)
    (he : Each (ReceivesOf cfg specs [] A id ex) hd vals) : Gets cfg specs A id ex i vals :=
  ⟨hd, [], h, (each_get he).1, (each_get he).2⟩

theorem receives_matchEnum {specs : List (List Arg)} {outer : List Scope} {id : Id} {ty v1 v : Val} {vs : List Val} (h : SeesOf cfg A ex ty v) :
    ReceivesOf cfg specs outer A id ex (matchEnum ty v1 vs) (.obj ty v) := ⟨rfl, h⟩

theorem receives_req {specs : List (List Arg)} {outer : List Scope} {id : Id} {ty v : Val} (h : SeesOf cfg A ex ty v) :
    ReceivesOf cfg specs outer A id ex (.req ty) (.obj ty v) := ⟨rfl, h⟩

theorem receives_ptr {specs : List (List Arg)} {outer : List Scope} {id : Id} {ty : Ty} (ha : cfg.isAbstract ty = false) (hc : NoPart ex ty) :
    ReceivesOf cfg specs outer A id ex (.ptr ty) (.ptr ty (A ty)) := by
  cases h : A ty with
  | some v => exact ⟨rfl, (sees_iff ha hc v).mpr h⟩
  | none => exact ⟨rfl, fun v => by rw [sees_iff ha hc, h]; simp⟩

end

theorem gens_exCfg (k : Nat) : gens exCfg.interf k = k := by
  induction k with
  | zero => rfl
  | succ k ih => rw [gens, ih]; rfl

/-! ## print_file -/

namespace PrintFile

/-- What the comments of the program say: the exit code, and the handler called (if any) with its arguments. -/
inductive Reaction : Option Val → Os → Val → List (Nat × List ArgVal) → Prop
  | badCommandLine {os} : Reaction none os 5 [(4, [.obj tyCode PrintFile.badCommandLine])]
  | fileNotFound {name os} : os.fopen = some enoent →
      Reaction (some name) os 1 [(0, [.obj tyCode openError, .obj tyErrno enoent, .obj tyFileName name])]
  | openFailed {name os e} : os.fopen = some e → e ≠ enoent → Reaction (some name) os 2 [(1, [.obj tyCode openError, .obj tyErrno e, .obj tyFileName name])]
  | sizeFailed {name os e} : os.fopen = none →
      (os.fseekEnd = some e ∨ (os.fseekEnd = none ∧ os.ftell = some e) ∨ (os.fseekEnd = none ∧ os.ftell = none ∧ os.fseekSet = some e)) →
      Reaction (some name) os 3 [(2, [.obj tyCode sizeError, .ptr tyErrno (some e), .obj tyFileName name])]
  | readFailed {name os e} : os.fopen = none → os.fseekEnd = none → os.ftell = none → os.fseekSet = none → os.fread = some e →
      Reaction (some name) os 3 [(2, [.obj tyCode readError, .ptr tyErrno (some e), .obj tyFileName name])]
  | tooShort {name os} : os.fopen = none → os.fseekEnd = none → os.ftell = none → os.fseekSet = none → os.fread = none → os.short = true →
      Reaction (some name) os 3 [(2, [.obj tyCode eofError, .ptr tyErrno none, .obj tyFileName name])]
  | outputFailed {name os e} : os.fopen = none → os.fseekEnd = none → os.ftell = none → os.fseekSet = none → os.fread = none → os.short = false →
      os.output = some e → Reaction (some name) os 4 [(3, [.obj tyCode outputError, .obj tyErrno e])]
  | printed {name os} : os.fopen = none → os.fseekEnd = none → os.ftell = none → os.fseekSet = none → os.fread = none → os.short = false →
      os.output = none → Reaction (some name) os 0 []

section
variable {cfg : Cfg} {c : Id} {w : World PtrStore}

/-- The types can be stored. -/
def Storable (cfg : Cfg) : Prop := cfg.isAbstract tyCode = false ∧ cfg.isAbstract tyErrno = false ∧ cfg.isAbstract tyFileName = false

/-- Which handler is called with which arguments for an error with these objects. -/
inductive Selects : Val → Option Val → Option Val → Nat → List ArgVal → Prop
  | a {name} : Selects openError (some enoent) (some name) 0 [.obj tyCode openError, .obj tyErrno enoent, .obj tyFileName name]
  | b {e name} : e ≠ enoent → Selects openError (some e) (some name) 1 [.obj tyCode openError, .obj tyErrno e, .obj tyFileName name]
  | c {code e name} : code = sizeError ∨ code = readError ∨ code = eofError →
      Selects code e (some name) 2 [.obj tyCode code, .ptr tyErrno e, .obj tyFileName name]
  | d {e name} : Selects outputError (some e) name 3 [.obj tyCode outputError, .obj tyErrno e]
  | e : Selects PrintFile.badCommandLine none none 4 [.obj tyCode PrintFile.badCommandLine]

theorem selects_sound (hs : Storable cfg) {ex : Option Exc} (hx : NoPart ex tyCode ∧ NoPart ex tyErrno ∧ NoPart ex tyFileName)
    {code : Val} {e n : Option Val} {i : Nat} {vals : List ArgVal} (h : Selects code e n i vals) (id : Id) {A : Ty → Option Val}
    (a1 : A tyCode = some code) (a2 : A tyErrno = e) (a3 : A tyFileName = n) :
    FirstSuitableOf cfg A ex handlers i ∧ Gets cfg handlers A id ex i vals := by
  obtain ⟨s1, s2, s3⟩ := hs
  obtain ⟨x1, x2, x3⟩ := hx
  have e1 := fun v => sees_iff (A := A) s1 x1 v
  have e2 := fun v => sees_iff (A := A) s2 x2 v
  have e3 := fun v => sees_iff (A := A) s3 x3 v
  simp only [a1, a2, a3] at e1 e2 e3
  constructor
  · cases h with
    | c h => rcases h with rfl | rfl | rfl <;>
        simp_all [handlers, firstSuitable_zero, firstSuitable_succ, suitable_cons (hd := _ :: _), suitable_matchEnum, suitable_matchMemberValue, suitable_req,
          suitable_ptr, openError, sizeError, readError, eofError]
    | _ =>
        simp_all [handlers, firstSuitable_zero, firstSuitable_succ, suitable_cons (hd := _ :: _), suitable_matchEnum, suitable_matchMemberValue, suitable_req,
          suitable_ptr, openError, sizeError, readError, eofError, outputError, PrintFile.badCommandLine]
  · have hp := receives_ptr (specs := handlers) (outer := []) (A := A) (id := id) s2 x2
    rw [a2] at hp
    cases h with
    | a => exact gets_of rfl ⟨⟨rfl, (e1 _).mpr rfl⟩, ⟨rfl, (e2 _).mpr rfl⟩, ⟨rfl, (e3 _).mpr rfl⟩, trivial⟩
    | b => exact gets_of rfl ⟨⟨rfl, (e1 _).mpr rfl⟩, ⟨rfl, (e2 _).mpr rfl⟩, ⟨rfl, (e3 _).mpr rfl⟩, trivial⟩
    | c => exact gets_of rfl ⟨⟨rfl, (e1 _).mpr rfl⟩, hp, ⟨rfl, (e3 _).mpr rfl⟩, trivial⟩
    | d => exact gets_of rfl ⟨⟨rfl, (e1 _).mpr rfl⟩, ⟨rfl, (e2 _).mpr rfl⟩, trivial⟩
    | e => exact gets_of rfl ⟨⟨rfl, (e1 _).mpr rfl⟩, trivial⟩

/-- What the try block does, for both ways to report errors. -/
theorem tryBlock_ideal {thrown : Option (Id → Exc)} {andThen : Direct → (Val → Direct) → Direct}
    (hok : ∀ {p k t v t1 l1 o t2 l2}, Ideal cfg c p t (.ok v) t1 l1 → Ideal cfg c (k v) t1 o t2 l2 → Ideal cfg c (andThen p k) t o t2 (l1 ++ l2))
    (hfail : ∀ {p k t id A t1 l}, Ideal cfg c p t (.failed id A (thrown.map (· id))) t1 l →
      Ideal cfg c (andThen p k) t (.failed id A (thrown.map (· id))) t1 l) (arg : Option Val) (os : Os) (t : Nat) :
    (Reaction arg os 0 [] ∧ Ideal cfg c (tryBlock (.fail · thrown) andThen arg os) t (.ok 0) t []) ∨
    ∃ i vals code e n A, Reaction arg os (i + 1) [(i, vals)] ∧ Selects code e n i vals ∧ A tyCode = some code ∧ A tyErrno = e ∧ A tyFileName = n ∧
      Ideal cfg c (tryBlock (.fail · thrown) andThen arg os) t (.failed (errorNo cfg c t) A (thrown.map (· (errorNo cfg c t)))) (t + 1) [] := by
  have hf : ∀ items, Ideal cfg c (.fail items thrown) t (.failed (errorNo cfg c t) (objects cfg items) (thrown.map (· (errorNo cfg c t)))) (t + 1) [] :=
    fun _ => .fail
  cases arg with
  | none => exact .inr ⟨4, _, _, _, _, _, .badCommandLine, .e, rfl, rfl, rfl, hfail (hf _)⟩
  | some name =>
    -- the name is added to the errors of the rest
    have hg : ∀ {p A}, Ideal cfg c p t (.failed (errorNo cfg c t) A (thrown.map (· (errorNo cfg c t)))) (t + 1) [] →
        Ideal cfg c (andThen (.ret name) fun name => .guard [.item (.obj tyFileName name)] p) t
          (.failed (errorNo cfg c t) (attach cfg true (onItems [.item (.obj tyFileName name)]) A) (thrown.map (· (errorNo cfg c t)))) (t + 1) [] :=
      fun h => hok .ret (.guard_failed h)
    unfold tryBlock parseCommandLine
    cases h1 : os.fopen with
    | some e =>
      by_cases he : e = enoent
      · subst he
        exact .inr ⟨0, _, _, _, _, _, .fileNotFound h1, .a, rfl, rfl, rfl, hg (hfail (by unfold fileOpen; rw [h1]; exact hf _))⟩
      · exact .inr ⟨1, _, _, _, _, _, .openFailed h1 he, .b he, rfl, rfl, rfl, hg (hfail (by unfold fileOpen; rw [h1]; exact hf _))⟩
    | none =>
      have ho : Ideal cfg c (fileOpen (.fail · thrown) os) t (.ok 0) t [] := by unfold fileOpen; rw [h1]; exact .ret
      -- if the size cannot be determined
      have hz : ∀ e, os.sizeErrno = e → (os.fseekEnd.isSome || os.ftell.isSome || os.fseekSet.isSome) = true →
          Ideal cfg c (fileSize (.fail · thrown) os) t (.failed (errorNo cfg c t) (attach cfg true (onItems [.item (.deferred tyErrno 0 e)])
            (objects cfg [.obj tyCode sizeError])) (thrown.map (· (errorNo cfg c t)))) (t + 1) [] := by
        rintro e rfl h
        refine .guard_failed ?_
        repeat' split
        · exact hf _
        · exact hf _
        · exact hf _
        · simp_all
      cases h2 : os.fseekEnd with
      | some e =>
        exact .inr ⟨2, _, _, _, _, _, .sizeFailed h1 (.inl h2), .c (.inl rfl), rfl, rfl, rfl,
          hg (hok ho (hfail (hz e (by simp [Os.sizeErrno, h2]) (by simp [h2]))))⟩
      | none =>
        cases h3 : os.ftell with
        | some e =>
          exact .inr ⟨2, _, _, _, _, _, .sizeFailed h1 (.inr (.inl ⟨h2, h3⟩)), .c (.inl rfl), rfl, rfl, rfl,
            hg (hok ho (hfail (hz e (by simp [Os.sizeErrno, h2, h3]) (by simp [h3]))))⟩
        | none =>
          cases h4 : os.fseekSet with
          | some e =>
            exact .inr ⟨2, _, _, _, _, _, .sizeFailed h1 (.inr (.inr ⟨h2, h3, h4⟩)), .c (.inl rfl), rfl, rfl, rfl,
              hg (hok ho (hfail (hz e (by simp [Os.sizeErrno, h2, h3, h4]) (by simp [h4]))))⟩
          | none =>
            have hs : Ideal cfg c (fileSize (.fail · thrown) os) t (.ok os.size) t [] := .guard_ok (by simp only [h2, h3, h4]; exact .ret)
            cases h5 : os.fread with
            | some e =>
              exact .inr ⟨2, _, _, _, _, _, .readFailed h1 h2 h3 h4 h5, .c (.inr (.inl rfl)), rfl, rfl, rfl,
                hg (hok ho (hok hs (hfail (by unfold fileRead; rw [h5]; exact hf _))))⟩
            | none =>
              cases h6 : os.short with
              | true =>
                exact .inr ⟨2, _, _, _, _, _, .tooShort h1 h2 h3 h4 h5 h6, .c (.inr (.inr rfl)), rfl, rfl, rfl,
                  hg (hok ho (hok hs (hfail (by unfold fileRead; rw [h5, h6]; exact hf _))))⟩
              | false =>
                have hr : Ideal cfg c (fileRead (.fail · thrown) os) t (.ok 0) t [] := by unfold fileRead; rw [h5, h6]; exact .ret
                cases h7 : os.output with
                | some e =>
                  exact .inr ⟨3, _, _, _, _, _, .outputFailed h1 h2 h3 h4 h5 h6 h7, .d, rfl, rfl, rfl,
                    hg (hok ho (hok hs (hok hr (by unfold writeOutput; rw [h7]; exact hf _))))⟩
                | none =>
                  refine .inl ⟨.printed h1 h2 h3 h4 h5 h6 h7, hok .ret (.guard_ok (hok ho (hok hs (hok hr ?_))))⟩
                  unfold writeOutput; rw [h7]; exact .ret

theorem handlers_valid : ValidAll handlers := ⟨handlers.take 5, [.info], rfl, rfl⟩

theorem handlers_noLists : NoLists handlers := by
  simp [NoLists, handlers, matchEnum, matchMemberValue, Predicate.toArg, Predicate.errorType]

theorem parts {thrown : Option (Id → Exc)} (hf : ∀ da k items, (∀ i ∈ items, i.Ok cfg da) → Part cfg da (.fail items thrown) (k + 1)) (da : Bool)
    (arg : Option Val) (os : Os) : Part cfg da (parseCommandLine (.fail · thrown) arg) 1 ∧ Part cfg da (fileOpen (.fail · thrown) os) 1 ∧
      Part cfg da (fileSize (.fail · thrown) os) 2 ∧ Part cfg da (fileRead (.fail · thrown) os) 1 ∧ Part cfg da (writeOutput (.fail · thrown) os) 1 := by
  refine ⟨?_, ?_, Part.guard (by simp [OnItem.Ok, Item.Ok]) ?_, ?_, ?_⟩
  · unfold parseCommandLine
    split
    · exact .ret _
    · exact hf _ _ _ (by simp [Item.Ok])
  · unfold fileOpen
    split
    · exact .ret _
    · exact hf _ _ _ (by simp [Item.Ok])
  · repeat' split
    · exact hf _ _ _ (by simp [Item.Ok])
    · exact hf _ _ _ (by simp [Item.Ok])
    · exact hf _ _ _ (by simp [Item.Ok])
    · exact .ret _
  · unfold fileRead
    repeat' split
    · exact hf _ _ _ (by simp [Item.Ok])
    · exact hf _ _ _ (by simp [Item.Ok])
    · exact .ret _
  · unfold writeOutput
    split
    · exact hf _ _ _ (by simp [Item.Ok])
    · exact .ret _

theorem main_part (arg : Option Val) (os : Os) : Part cfg false (main arg os) 7 := by
  refine Part.handleAll (k := 7) (k' := 0) handlers_valid handlers_noLists ?_ fun i args => ⟨.ret _, fun r => nofun⟩
  have h := parts (cfg := cfg) (thrown := none) (fun _ _ _ => .fail) (false || capturing cfg handlers)
  exact .seq (h arg os).1 fun name => .guard (by simp [OnItem.Ok, Item.Ok])
    (.seq (k' := 4) (h arg os).2.1 fun _ => .seq (k' := 2) (h arg os).2.2.1 fun _ => .seq (k' := 1) (h arg os).2.2.2.1 fun _ => (h arg os).2.2.2.2)

theorem throws_noErr {fail : List Item → Direct} (hf : ∀ items, (fail items).prog.NoErr) (arg : Option Val) (os : Os) :
    (parseCommandLine fail arg).prog.NoErr ∧ (fileOpen fail os).prog.NoErr ∧ (fileSize fail os).prog.NoErr ∧ (fileRead fail os).prog.NoErr ∧
      (writeOutput fail os).prog.NoErr := by
  have hr : ∀ v, (Direct.ret v).prog.NoErr := fun v r => nofun
  refine ⟨?_, ?_, show Prog.NoErr (Direct.prog (ite _ _ _)) from ?_, ?_, ?_⟩
  · unfold parseCommandLine; split <;> simp only [hf, hr]
  · unfold fileOpen; split <;> simp only [hf, hr]
  · repeat' split
    all_goals simp only [hf, hr]
  · unfold fileRead
    repeat' split
    all_goals simp only [hf, hr]
  · unfold writeOutput; split <;> simp only [hf, hr]

theorem mainThrows_part (casts : List (Ty × Val)) (arg : Option Val) (os : Os) : Part cfg false (mainThrows casts arg os) 7 := by
  have h := parts (cfg := cfg) (thrown := some (thrown casts))
    (fun _ _ _ hi => .throw_ hi fun id hid => ⟨hid, rfl, .inl rfl⟩) (false || capturing cfg handlers) arg os
  obtain ⟨n1, n2, n3, n4, n5⟩ := throws_noErr (fail := (.fail · (some (thrown casts)))) (fun items id r => nofun) arg os
  refine Part.tryCatch (k := 7) (k' := 0) handlers_noLists ?_ ?_ fun i args => .ret _
  · exact .next h.1 n1 fun name => .guard (by simp [OnItem.Ok, Item.Ok])
      (.next (k' := 4) h.2.1 n2 fun _ => .next (k' := 2) h.2.2.1 n3 fun _ => .next (k' := 1) h.2.2.2.1 n4 fun _ => h.2.2.2.2)
  · have hv : ∀ _ : ErrRes, (Prog.ret (.val 0)).NoErr := fun _ _ => nofun
    exact ⟨fun v => ⟨fun _ => ⟨fun _ => ⟨fun _ => n5, hv⟩, hv⟩, hv⟩, hv⟩

/-- **C62, print_file_leaf_result.cpp:** whatever the command line and the operating system, the program does what its comments say. -/
theorem C62_print_file (hs : Storable cfg) (hw : Ready cfg c 7 w) (arg : Option Val) (os : Os) :
    ∃ code calls, Reaction arg os code calls ∧ Runs cfg c (main arg os).prog w code none calls := by
  rcases tryBlock_ideal (cfg := cfg) (c := c) (thrown := none) (andThen := .seq) .seq_ok .seq_failed arg os w.ticks with
    ⟨h1, h2⟩ | ⟨i, vals, code, e, n, A, h1, h2, a1, a2, a3, h3⟩
  · obtain ⟨w', e, ht⟩ := (main_part arg os).runs hw (.all_ok h2)
    exact ⟨0, [], h1, w', e, ht⟩
  · obtain ⟨b1, b2⟩ := selects_sound hs (ex := none) ⟨nofun, nofun, nofun⟩ h2 (errorNo cfg c w.ticks) a1 a2 a3
    obtain ⟨w', e, ht⟩ := (main_part arg os).runs hw (.all_handled h3 b1 b2 .ret)
    exact ⟨i + 1, _, h1, w', e, ht⟩

/-- **C62, print_file_exceptions.cpp:** the same with exceptions. -/
theorem C62_print_file_exceptions (hs : Storable cfg) (hw : Ready cfg c 7 w) (arg : Option Val) (os : Os) (casts : List (Ty × Val))
    (hc : ∀ ty ∈ [tyCode, tyErrno, tyFileName], ty ∉ casts.map Prod.fst) :
    ∃ code calls, Reaction arg os code calls ∧
      Runs cfg c (mainThrows casts arg os).prog w code (visible (some (thrown casts (errorNo cfg c w.ticks)))) calls := by
  have hx : ∀ ty ∈ [tyCode, tyErrno, tyFileName], NoPart (visible (some (thrown casts (errorNo cfg c w.ticks)))) ty := by
    intro ty ht e he
    have : e = { thrown casts (errorNo cfg c w.ticks) with clear := false } := by
      simpa [visible, shown, Exc.examined, thrown] using he.symm
    rw [this]
    exact List.lookup_eq_none_iff.mpr fun p hp => by
      have := hc ty ht
      simp only [List.mem_map, not_exists, not_and] at this
      exact bne_iff_ne.mpr fun h => this p hp h.symm
  rcases tryBlock_ideal (cfg := cfg) (c := c) (thrown := some (thrown casts)) (andThen := .next) .next_ok .next_thrown arg os w.ticks with
    ⟨h1, h2⟩ | ⟨i, vals, code, e, n, A, h1, h2, a1, a2, a3, h3⟩
  · obtain ⟨w', e, ht⟩ := (mainThrows_part casts arg os).runs hw (.catch_scope_ok h2)
    exact ⟨0, [], h1, w', e, ht⟩
  · obtain ⟨b1, b2⟩ := selects_sound hs ⟨hx _ (by simp), hx _ (by simp), hx _ (by simp)⟩ h2 (errorNo cfg c w.ticks) a1 a2 a3
    obtain ⟨w', e, ht⟩ := (mainThrows_part casts arg os).runs hw (.catch_scope_handled h3 b1 b2 .ret)
    exact ⟨i + 1, _, h1, w', e, ht⟩

end

/-- The hypotheses can be met. -/
example : Storable exCfg ∧ Ready exCfg 1#32 7 (initThread 1#32) ∧ ∀ ty ∈ [tyCode, tyErrno, tyFileName], ty ∉ [(20, 1)].map Prod.fst :=
  ⟨⟨rfl, rfl, rfl⟩, ready_init exCfg (by decide) (by rw [gens_exCfg]; omega), by decide⟩

/-- A file that cannot be opened; a file whose size cannot be determined. -/
example : runFresh exCfg (main (some 77) ⟨some 13, none, none, none, 0, none, false, none⟩).prog = some (.val 2, [],
      [.handled 5#32 none 1 [.obj tyCode openError, .obj tyErrno 13, .obj tyFileName 77], .offered 5#32 tyFileName 77, .offered 5#32 tyErrno 13,
        .offered 5#32 tyCode openError, .gen 5#32]) ∧
    (runFresh exCfg (mainThrows [(20, 1)] (some 77) ⟨none, none, some 29, none, 0, none, false, none⟩).prog).map (·.1) = some (.val 3) := by
  decide +kernel

/-- `std::bad_alloc` -/
def badAlloc : Exc := ⟨3, true, .none, [], false⟩

/-- **The last handler can be called.** Its comment says: "In this program this handler will never be called." But it is called if the buffer cannot be allocated
(finding F40). -/
theorem C62_refuted_print_file : runFresh exCfg (mainNoBuffer badAlloc 77 (2 ^ 62)) = some (.val 6, [],
    [.handled 5#32 (some badAlloc) 5 [.info 5#32 (some badAlloc) none], .offered 5#32 tyFileName 77, .gen 5#32]) := by
  decide +kernel

end PrintFile

/-! ## error_trace -/

namespace ErrorTrace

variable {cfg : Cfg} {c : Id} {w : World PtrStore} {push : Nat → Val → Val}

/-- The trace of an error reported by function `k`: records are put in the list by the functions `k`, …, `n`, in this order. -/
def traceFrom (cfg : Cfg) (push : Nat → Val → Val) (n k : Nat) : Val := (List.range' k (n + 1 - k)).foldl (fun tr j => push j tr) (cfg.dflt tyTrace)

/-- The handler calls made in `i` more runs, if `t` ids have been generated: if a function fails, the handler gets the trace. -/
inductive Loop (cfg : Cfg) (c : Id) (push : Nat → Val → Val) (fails : Nat → Nat → Bool) (n : Nat) : Nat → Nat → List Call → Prop
  | done {t} : Loop cfg c push fails n 0 t []
  | success {i t l} : (∀ k ≤ n, fails i k = false) → Loop cfg c push fails n i t l → Loop cfg c push fails n (i + 1) t l
  | failure {i t l k} : k ≤ n → fails i k = true → (∀ j, k < j → j ≤ n → fails i j = false) → Loop cfg c push fails n i (t + 1) l →
      Loop cfg c push fails n (i + 1) t ((errorNo cfg c t, none, 0, [.obj tyTrace (traceFrom cfg push n k)]) :: l)

theorem f_ok {fails : Nat → Bool} {n t : Nat} (h : ∀ k ≤ n, fails k = false) : Ideal cfg c (f push fails n) t (.ok 0) t [] := by
  induction n with
  | zero => exact .guard_ok (by rw [h 0 (by omega)]; exact .ret)
  | succ n ih => exact .guard_ok (by rw [h (n + 1) (by omega)]; exact ih fun k hk => h k (by omega))

theorem f_failed {fails : Nat → Bool} {n k t : Nat} (hk : k ≤ n) (h1 : fails k = true) (h2 : ∀ j, k < j → j ≤ n → fails j = false) :
    ∃ A, A tyTrace = some (traceFrom cfg push n k) ∧ Ideal cfg c (f push fails n) t (.failed (errorNo cfg c t) A none) (t + 1) [] := by
  induction n with
  | zero =>
    obtain rfl : k = 0 := by omega
    exact ⟨_, rfl, .guard_failed (by rw [h1]; exact .fail)⟩
  | succ n ih =>
    by_cases he : k = n + 1
    · subst he
      refine ⟨_, ?_, .guard_failed (by rw [h1]; exact .fail)⟩
      have : n + 1 + 1 - (n + 1) = 1 := by omega
      simp [traceFrom, this, attach, onItems, objects, Item.step, Item.ty, Item.isAccum, Item.objFor]
    · obtain ⟨A, hA, hi⟩ := ih (by omega) fun j a b => h2 j a (by omega)
      refine ⟨_, ?_, .guard_failed (by rw [h2 (n + 1) (by omega) (by omega)]; exact hi)⟩
      have : n + 1 + 1 - k = n + 1 - k + 1 := by omega
      have h' : k + (n + 1 - k) = n + 1 := by omega
      simp [traceFrom, this, List.range'_1_concat, h', attach, onItems, Item.step, Item.ty, Item.isAccum, Item.objFor, hA]

theorem f_part (fails : Nat → Bool) (n : Nat) : Part cfg false (f push fails n) (n + 2) := by
  have hi : ∀ k, ∀ i ∈ [OnItem.item (.accum tyTrace k (push k))], i.Ok cfg false := by simp [OnItem.Ok, Item.Ok]
  induction n with
  | zero =>
    refine .guard (hi 0) ?_
    split
    · exact .fail (by simp)
    · exact .ret _
  | succ n ih =>
    refine .guard (hi (n + 1)) ?_
    split
    · exact .fail (by simp)
    · exact ih

theorem main_part (fails : Nat → Nat → Bool) (n i : Nat) : Part cfg false (main push fails n i) (i * (n + 2)) := by
  induction i with
  | zero => exact .ret _
  | succ i ih =>
    rw [show (i + 1) * (n + 2) = (n + 2) + i * (n + 2) by rw [Nat.add_mul]; omega]
    refine .next ?_ trivial fun _ => ih
    refine Part.handleAll (k := n + 2) (k' := 0) ⟨[[.req tyTrace]], [], rfl, rfl⟩ (by simp [NoLists]) ?_ fun _ _ => ⟨.ret _, fun r => nofun⟩
    have hc : capturing cfg [[.req tyTrace], []] = false := by simp [capturing]
    rw [hc]
    exact .seq (k' := 0) (f_part _ n) fun _ => .ret _

theorem main_ideal (hs : cfg.isAbstract tyTrace = false) (fails : Nat → Nat → Bool) (n i t : Nat) :
    ∃ l t', Loop cfg c push fails n i t l ∧ Ideal cfg c (main push fails n i) t (.ok 0) t' l := by
  induction i generalizing t with
  | zero => exact ⟨[], t, .done, .ret⟩
  | succ i ih =>
    by_cases h : ∀ k ≤ n, fails i k = false
    · obtain ⟨l, t', h1, h2⟩ := ih t
      refine ⟨l, t', .success h h1, ?_⟩
      unfold main
      exact .next_ok (l1 := []) (v := 0) (.all_ok (.seq_ok (l1 := []) (f_ok h) .ret)) h2
    · -- the last function that fails is called first
      have hex : ∃ k ≤ n, fails i k = true ∧ ∀ j, k < j → j ≤ n → fails i j = false := by
        clear ih
        induction n with
        | zero =>
          refine ⟨0, Nat.le_refl _, ?_, fun j a b => by omega⟩
          cases hb : fails i 0
          · exact absurd (fun k hk => by rw [Nat.le_zero.mp hk]; exact hb) h
          · rfl
        | succ n ihn =>
          cases hb : fails i (n + 1)
          · obtain ⟨k, h1, h2, h3⟩ := ihn fun hn => h fun k hk => by
              by_cases he : k = n + 1
              · rw [he]; exact hb
              · exact hn k (by omega)
            refine ⟨k, by omega, h2, fun j a b => ?_⟩
            by_cases he : j = n + 1
            · rw [he]; exact hb
            · exact h3 j a (by omega)
          · exact ⟨n + 1, Nat.le_refl _, hb, fun j a b => by omega⟩
      obtain ⟨k, hk, h1, h2⟩ := hex
      obtain ⟨A, hA, hi⟩ := f_failed (cfg := cfg) (c := c) (push := push) (t := t) hk h1 h2
      obtain ⟨l, t', h3, h4⟩ := ih (t + 1)
      have hse : SeesOf cfg A none tyTrace (traceFrom cfg push n k) := (sees_iff hs (noPart_none _) _).mpr hA
      refine ⟨_, t', .failure hk h1 h2 h3, ?_⟩
      unfold main
      refine .next_ok (l1 := [_]) (v := 0) (.all_handled (l1 := []) (.seq_failed hi) ?_ ?_ .ret) h4
      · exact firstSuitable_zero.mpr (suitable_req.mpr ⟨_, hse⟩)
      · exact gets_of rfl ⟨⟨rfl, hse⟩, trivial⟩

/-- **C62, error_trace.cpp:** with any number of functions and runs, and whichever functions fail, the handler is called for each run that fails, and gets
the path of the error: records of the functions, from the one that failed to the outermost, the last one in front. -/
theorem C62_error_trace (hs : cfg.isAbstract tyTrace = false) (fails : Nat → Nat → Bool) (n i : Nat) (hw : Ready cfg c (i * (n + 2)) w) :
    ∃ l w', Loop cfg c push fails n i w.ticks l ∧ eval cfg (main push fails n i).prog w = some (.val 0, w') ∧
      callsIn w'.trace = l.reverse ++ callsIn w.trace := by
  obtain ⟨l, t', h1, h2⟩ := main_ideal hs fails n i w.ticks
  obtain ⟨w', e, ht⟩ := (main_part fails n i).runs hw h2
  exact ⟨l, w', h1, e, ht⟩

/-- The hypotheses can be met: 30 runs of 5 functions, as in the program. -/
example : exCfg.isAbstract tyTrace = false ∧ Ready exCfg 1#32 (30 * (4 + 2)) (initThread 1#32) :=
  ⟨rfl, ready_init exCfg (by decide) (by rw [gens_exCfg]; omega)⟩

/-- Two runs; in the first, function 1 fails. A trace is a number in base 10, the last record in front. -/
example : (runFresh exCfg (main (fun k tr => 10 * tr + (k + 1)) (fun i k => i == 1 && k == 1) 4 2).prog).map (fun r => callsIn r.2.2) = some [(5#32, none, 0, [.obj tyTrace 2345])] := by
  decide +kernel

end ErrorTrace

/-! ## print_half -/

namespace PrintHalf

variable {cfg : Cfg} {c : Id} {w : World PtrStore}

/-- What the program does: the exit code, and the handler called (if any) with its arguments. -/
inductive Reaction : Bool → Bool → Bool → Val → List (Nat × List ArgVal) → Prop
  | empty {digits long} : Reaction true digits long 1 [(0, [.obj tyErrc emptyString])]
  | illegal {long} : Reaction false false long 2 [(1, [.obj tyErrc illegalChar])]
  /-- handled by `print_half` -/
  | long : Reaction false true true 0 [(0, [.obj tyErrc tooLong])]
  | ok : Reaction false true false 0 []

theorem main_part (empty digits long : Bool) (n : Val) : Part cfg false (main empty digits long n) 1 := by
  have hc : capturing cfg [[matchEnum tyErrc emptyString []], [matchEnum tyErrc illegalChar []], [.info]] = false := by
    simp [capturing, matchEnum, Predicate.toArg, Predicate.errorType]
  have hc' : capturing cfg [[matchEnum tyErrc tooLong []]] = false := by
    simp [capturing, matchEnum, Predicate.toArg, Predicate.errorType]
  refine Part.handleAll (k := 1) (k' := 0) ⟨[_, _], [.info], rfl, rfl⟩ (by simp [NoLists, matchEnum, Predicate.toArg, Predicate.errorType]) ?_
    fun i args => ⟨.ret _, fun r => nofun⟩
  rw [hc]
  refine .seq (k' := 0) ?_ fun _ => .ret _
  refine Part.handleSome (k := 1) (k' := 0) (by simp [NoLists, matchEnum, Predicate.toArg, Predicate.errorType]) ?_
    fun i args => .seq (k := 0) (k' := 0) (.ret _) fun _ => .ret _
  rw [hc']
  refine .seq (k' := 0) ?_ fun _ => .ret _
  unfold convert
  repeat' split
  all_goals first | exact .fail (by simp [Item.Ok]) | exact .ret _

/-- **C62, print_half.cpp:** whatever the argument, the program does what its comments say; the last handler is never called. -/
theorem C62_print_half (hs : cfg.isAbstract tyErrc = false) (hw : Ready cfg c 1 w) (empty digits long : Bool) (n : Val) :
    ∃ code calls, Reaction empty digits long code calls ∧ Runs cfg c (main empty digits long n).prog w code none calls := by
  have hsee : ∀ v, SeesOf cfg (objects cfg [.obj tyErrc v]) none tyErrc v := fun v => (sees_iff hs (noPart_none _) _).mpr rfl
  have hsee' : ∀ v v', SeesOf cfg (objects cfg [.obj tyErrc v]) none tyErrc v' ↔ v = v' := fun v v' => by
    rw [sees_iff hs (noPart_none _)]
    simp [objects, Item.step, Item.ty, Item.objFor]
  -- an error not handled by print_half
  have hun : ∀ v, v ≠ tooLong → Ideal cfg c (convert empty digits long n) w.ticks (.failed (errorNo cfg c w.ticks) (objects cfg [.obj tyErrc v]) none) (w.ticks + 1) [] →
      Ideal cfg c (.seq (printHalf empty digits long n) fun _ => .ret 0) w.ticks (.failed (errorNo cfg c w.ticks) (objects cfg [.obj tyErrc v]) none) (w.ticks + 1) [] := by
    intro v hv h
    refine .seq_failed (.some_unhandled (.seq_failed h) fun hd hh => ?_)
    simp only [List.mem_singleton] at hh
    subst hh
    show ¬ SuitableOf cfg _ none _
    rw [suitable_matchEnum]
    simpa [hsee'] using hv
  have run := fun {v t l} h => (main_part (cfg := cfg) empty digits long n).runs (v := v) (t := t) (l := l) hw h
  cases empty with
  | true =>
    obtain ⟨w', e, ht⟩ := run (.all_handled (hun emptyString (by decide) .fail) (i := 0) (vals := [.obj tyErrc emptyString])
      (firstSuitable_zero.mpr (suitable_matchEnum.mpr ⟨_, hsee _, .inl rfl⟩)) (gets_of rfl ⟨receives_matchEnum (hsee _), trivial⟩) .ret)
    exact ⟨_, _, .empty, w', e, ht⟩
  | false =>
    cases digits with
    | false =>
      obtain ⟨w', e, ht⟩ := run (.all_handled (hun illegalChar (by decide) .fail) (i := 1) (vals := [.obj tyErrc illegalChar])
        (firstSuitable_succ.mpr ⟨by show ¬ SuitableOf cfg _ none _; rw [suitable_matchEnum]; simp [hsee']; decide,
          firstSuitable_zero.mpr (suitable_matchEnum.mpr ⟨_, hsee _, .inl rfl⟩)⟩) (gets_of rfl ⟨receives_matchEnum (hsee _), trivial⟩) .ret)
      exact ⟨_, _, .illegal, w', e, ht⟩
    | true =>
      cases long with
      | true =>
        obtain ⟨w', e, ht⟩ := run (.all_ok (.seq_ok (.some_handled (.seq_failed .fail) (i := 0) (vals := [.obj tyErrc tooLong])
          (firstSuitable_zero.mpr (suitable_matchEnum.mpr ⟨_, hsee _, .inl rfl⟩)) (gets_of rfl ⟨receives_matchEnum (hsee _), trivial⟩) rfl
          (.seq_ok .ret .ret)) .ret))
        exact ⟨_, _, .long, w', e, ht⟩
      | false =>
        obtain ⟨w', e, ht⟩ := run (.all_ok (.seq_ok (.some_ok (.seq_ok .ret .ret)) .ret))
        exact ⟨_, _, .ok, w', e, ht⟩

/-- The hypotheses can be met. -/
example : exCfg.isAbstract tyErrc = false ∧ Ready exCfg 1#32 1 (initThread 1#32) := ⟨rfl, ready_init exCfg (by decide) (by rw [gens_exCfg]; omega)⟩

example : (runFresh exCfg (main false true true 99).prog).map (fun r => callsIn r.2.2) = some [(5#32, none, 0, [.obj tyErrc tooLong])] := by
  decide +kernel

end PrintHalf

/-! ## Parts of programs that can be exchanged -/

section
variable {cfg : Cfg} {w : World PtrStore} {p q : Prog}

theorem bind_exchange {k : Val → Prog} {ke : ErrRes → Prog} (h : eval (M := PtrStore) cfg p w = eval cfg q w) :
    eval (M := PtrStore) cfg (.bind p k ke) w = eval cfg (.bind q k ke) w := by
  unfold eval
  rw [bind_apply, bind_apply, h]

theorem handleAll_exchange {specs : List (List Arg)} {body : Nat → List ArgVal → Prog}
    (h : ∀ w', w'.cur = w.cur → eval (M := PtrStore) cfg p w' = eval cfg q w') :
    eval (M := PtrStore) cfg (.handleAll specs p body) w = eval cfg (.handleAll specs q body) w := by
  unfold eval tryHandleAll
  rw [bind_apply, bind_apply]
  cases hp : pushCtx (deduce cfg specs) w with
  | none => rfl
  | some x =>
    obtain ⟨_, w1⟩ := x
    have hc : w1.cur = w.cur := by
      unfold pushCtx at hp
      cases hm : Store.push (deduce cfg specs) w.mem with
      | none => rw [hm] at hp; cases hp
      | some m => rw [hm] at hp; cases hp; rfl
    simp only [Option.bind_some]
    rw [bind_apply, bind_apply, h w1 hc]

end

/-! ## lua_callback_result -/

namespace LuaCallback

variable {cfg : Cfg} {c : Id} {w : World PtrStore}

/-- What the comments of the program say: the error of `do_work` is handled by the first handler, any other error by the second. -/
inductive Reaction (err msg : Val) : Lua → List (Nat × List ArgVal) → Prop
  | answer {n} : Reaction err msg (.answer n) []
  | fails : Reaction err msg .fails [(0, [.obj tyCode ec1, .obj tyMessage msg])]
  | other : Reaction err msg .other [(1, [.obj tyPcall err, .obj tyMessage msg])]

/-- If no error has been reported, `assigned_error_id().load(...)` is the same as `new_error(...)`. -/
theorem other_exchange (err msg : Val) (h : Id.Ok w.cur) :
    eval (M := PtrStore) cfg (callLua err msg .other) w = eval cfg (report [.obj tyPcall err, .obj tyMessage msg] none) w := by
  have hc : (currentId : Comp PtrStore Id) w = some (w.cur, w) := if_pos h
  simp only [callLua, eval, report, newError, bind_apply, hc, Option.bind_some, getId, ne_eq, not_true_eq_false, if_false,
    Option.bind_assoc, pure_apply]

/-- The program run by Lua, in the language of C48. -/
def asDirect (err msg : Val) : Lua → Direct
  | .answer n => .monitor [.obj tyPcall err, .obj tyMessage msg] (.ret n)
  | .fails => .monitor [.obj tyPcall err, .obj tyMessage msg] (.fail [.obj tyCode ec1] none)
  | .other => .fail [.obj tyPcall err, .obj tyMessage msg] none

def runDirect (err msg : Val) (l : Lua) : Direct := .handleAll handlers (.seq (asDirect err msg l) fun _ => .ret 0) (fun _ _ => .ret 0)

theorem run_exchange (err msg : Val) (l : Lua) (h : Id.Ok w.cur) :
    eval (M := PtrStore) cfg (run err msg l) w = eval cfg (runDirect err msg l).prog w := by
  cases l with
  | answer n => rfl
  | fails => rfl
  | other => exact handleAll_exchange fun w' hw => bind_exchange (other_exchange err msg (hw ▸ h))

theorem run_part (err msg : Val) (l : Lua) : Part cfg false (runDirect err msg l) 2 := by
  have hc : capturing cfg handlers = false := by simp [capturing, handlers]
  refine Part.handleAll (k := 2) (k' := 0) ⟨[_, _], [.info], rfl, rfl⟩ (by simp [NoLists, handlers]) ?_ fun i args => ⟨.ret _, fun r => nofun⟩
  rw [hc]
  refine .seq (k' := 0) ?_ fun _ => .ret _
  cases l with
  | answer n => exact .monitor (by simp [Item.Ok]) (.ret _)
  | fails => exact .monitor (by simp [Item.Ok]) (.fail (by simp [Item.Ok]))
  | other => exact .fail (by simp [Item.Ok])

/-- **C62, lua_callback_result.cpp:** in every run, the error of `do_work` reaches the handlers with its error code and the message from Lua; any other
error of Lua with the code and message from Lua. The last handler is never called. -/
theorem C62_lua_callback (hs : cfg.isAbstract tyCode = false ∧ cfg.isAbstract tyPcall = false ∧ cfg.isAbstract tyMessage = false)
    (hw : Ready cfg c 2 w) (err msg : Val) (l : Lua) : ∃ calls, Reaction err msg l calls ∧ Runs cfg c (run err msg l) w 0 none calls := by
  obtain ⟨s1, s2, s3⟩ := hs
  have hx := fun {t l'} h => (run_part (cfg := cfg) err msg l).runs (v := 0) (t := t) (l := l') hw h
  unfold Runs
  rw [run_exchange err msg l hw.ok.good.cur]
  cases l with
  | answer n =>
    obtain ⟨w', e, ht⟩ := hx (.all_ok (.seq_ok (.monitor_ok .ret) .ret))
    exact ⟨_, .answer, w', e, ht⟩
  | fails =>
    obtain ⟨w', e, ht⟩ := hx (.all_handled (.seq_failed (.monitor_failed .fail)) (i := 0) (vals := [.obj tyCode ec1, .obj tyMessage msg])
      (firstSuitable_zero.mpr (suitable_cons.mpr ⟨suitable_req.mpr ⟨_, (sees_iff s1 (noPart_none _) _).mpr rfl⟩,
        suitable_req.mpr ⟨_, (sees_iff s3 (noPart_none _) _).mpr rfl⟩⟩))
      (gets_of rfl ⟨receives_req ((sees_iff s1 (noPart_none _) _).mpr rfl), receives_req ((sees_iff s3 (noPart_none _) _).mpr rfl), trivial⟩) .ret)
    exact ⟨_, .fails, w', e, ht⟩
  | other =>
    obtain ⟨w', e, ht⟩ := hx (.all_handled (.seq_failed .fail) (i := 1) (vals := [.obj tyPcall err, .obj tyMessage msg])
      (firstSuitable_succ.mpr ⟨fun h => by
          obtain ⟨v, hv⟩ := suitable_req.mp (suitable_cons.mp h).1
          have := (sees_iff s1 (noPart_none _) _).mp hv
          simp [objects, Item.step, Item.ty] at this
          exact absurd this.1 (by decide),
        firstSuitable_zero.mpr (suitable_cons.mpr ⟨suitable_req.mpr ⟨_, (sees_iff s2 (noPart_none _) _).mpr rfl⟩,
          suitable_req.mpr ⟨_, (sees_iff s3 (noPart_none _) _).mpr rfl⟩⟩)⟩)
      (gets_of rfl ⟨receives_req ((sees_iff s2 (noPart_none _) _).mpr rfl), receives_req ((sees_iff s3 (noPart_none _) _).mpr rfl), trivial⟩) .ret)
    exact ⟨_, .other, w', e, ht⟩

/-- The hypotheses can be met. -/
example : (exCfg.isAbstract tyCode = false ∧ exCfg.isAbstract tyPcall = false ∧ exCfg.isAbstract tyMessage = false) ∧ Ready exCfg 1#32 2 (initThread 1#32) :=
  ⟨⟨rfl, rfl, rfl⟩, ready_init exCfg (by decide) (by rw [gens_exCfg]; omega)⟩

example : (runFresh exCfg (run 2 9 .fails)).map (fun r => callsIn r.2.2) = some [(5#32, none, 0, [.obj tyCode ec1, .obj tyMessage 9])] := by
  decide +kernel

end LuaCallback

/-! ## exception_to_result -/

namespace ExceptionToResult

variable {cfg : Cfg} {c : Id} {w : World PtrStore}

/-- What the comments of the program say: exceptions of types `error_a` and `error_b` are handled as error objects; for any other exception, the last
handler gets a pointer to a `std::exception_ptr`. -/
inductive Reaction : Exc ⊕ Val → List (Nat × List ArgVal) → Prop
  | answer {v} : Reaction (.inr v) []
  | errorA {e v} : e.isStd = true → e.cast tyA = some v → Reaction (.inl e) [(0, [.obj tyA v])]
  | errorB {e v} : e.isStd = true → e.cast tyA = none → e.cast tyB = some v → Reaction (.inl e) [(1, [.obj tyB v])]
  | other {e} : e.isStd = true → e.cast tyA = none → e.cast tyB = none → Reaction (.inl e) [(2, [.ptr tyExPtr (some e.tag)])]

theorem errorIdLoad_append (id : Id) (a b : List Item) :
    (errorIdLoad cfg id (a ++ b) : Comp PtrStore Unit) = (do errorIdLoad cfg id a; errorIdLoad cfg id b) := by
  unfold errorIdLoad
  split
  · induction a with
    | nil => simp [loadItems]
    | cons x xs ih => simp [loadItems, ih]
  · simp

/-- `exception_to_result` makes of an exception the same as `new_error` with the exception pointer and the objects. -/
theorem catchHelper_eq (e : Exc) (tys : List Ty) :
    (catchHelper cfg e tys : Comp PtrStore Id) = newError cfg (.obj tyExPtr e.tag :: tys.reverse.filterMap (fun ty => (e.cast ty).map (.obj ty ·))) := by
  induction tys with
  | nil => rfl
  | cons ty tys ih =>
    unfold catchHelper
    rw [ih]
    unfold newError
    simp only [List.reverse_cons, List.filterMap_append, ← List.cons_append, errorIdLoad_append]
    cases h : e.cast ty with
    | none => simp [h, errorIdLoad, loadItems]
    | some v => simp [h]

theorem computeAnswer_eq (e : Exc) : eval (M := PtrStore) cfg (computeAnswer (.inl e)) = eval cfg (report (excItems [tyA, tyB] e) none) := by
  unfold computeAnswer
  simp only [eval, exceptionToResult, pure_bind, report, catchHelper_eq]
  unfold excItems
  split <;> simp

def runDirect (answer : Exc ⊕ Val) : Direct :=
  .handleAll handlers (.seq (.seq (match answer with | .inl e => .fail (excItems [tyA, tyB] e) none | .inr v => .ret v) fun _ => .ret 0) fun _ => .ret 0)
    (fun _ _ => .ret 0)

theorem run_exchange (answer : Exc ⊕ Val) : eval (M := PtrStore) cfg (run answer) w = eval cfg (runDirect answer).prog w := by
  cases answer with
  | inl e => exact handleAll_exchange fun w' _ => bind_exchange (bind_exchange (by rw [computeAnswer_eq]; rfl))
  | inr v =>
    refine handleAll_exchange fun w' _ => bind_exchange (bind_exchange ?_)
    unfold computeAnswer
    simp only [eval, exceptionToResult, pure_bind]
    rfl

theorem run_part (answer : Exc ⊕ Val) : Part cfg false (runDirect answer) 1 := by
  have hc : capturing cfg handlers = false := by simp [capturing, handlers]
  refine Part.handleAll (k := 1) (k' := 0) ⟨[_, _], [.ptr tyExPtr], rfl, rfl⟩ (by simp [NoLists, handlers]) ?_ fun i args => ⟨.ret _, fun r => nofun⟩
  rw [hc]
  refine .seq (k' := 0) (.seq (k' := 0) ?_ fun _ => .ret _) fun _ => .ret _
  cases answer with
  | inl e =>
    refine .fail fun i hi => ?_
    unfold excItems at hi
    cases i with
    | accum ty tag f => split at hi <;> simp at hi
    | _ => trivial
  | inr v => exact .ret _

/-- **C62, exception_to_result.cpp:** in every run, whatever exception (derived from `std::exception`) is thrown. -/
theorem C62_exception_to_result (hs : cfg.isAbstract tyA = false ∧ cfg.isAbstract tyB = false ∧ cfg.isAbstract tyExPtr = false)
    (hw : Ready cfg c 1 w) (answer : Exc ⊕ Val) (ha : ∀ e, answer = .inl e → e.isStd = true) :
    ∃ calls, Reaction answer calls ∧ Runs cfg c (run answer) w 0 none calls := by
  obtain ⟨s1, s2, s3⟩ := hs
  have hx := fun {t l'} h => (run_part (cfg := cfg) answer).runs (v := 0) (t := t) (l := l') hw h
  unfold Runs
  rw [run_exchange answer]
  cases answer with
  | inr v =>
    obtain ⟨w', e, ht⟩ := hx (.all_ok (.seq_ok (.seq_ok .ret .ret) .ret))
    exact ⟨_, .answer, w', e, ht⟩
  | inl e =>
    have hstd := ha e rfl
    have hi : Ideal cfg c (.seq (.seq (.fail (excItems [tyA, tyB] e) none) fun _ => .ret 0) fun _ => .ret 0) w.ticks
      (.failed (errorNo cfg c w.ticks) (objects cfg (excItems [tyA, tyB] e)) none) (w.ticks + 1) [] := .seq_failed (.seq_failed .fail)
    have hA : objects cfg (excItems [tyA, tyB] e) tyA = e.cast tyA ∧ objects cfg (excItems [tyA, tyB] e) tyB = e.cast tyB ∧
        objects cfg (excItems [tyA, tyB] e) tyExPtr = some e.tag := by
      unfold objects excItems
      rw [if_pos hstd]
      have hr : [tyA, tyB].reverse = [tyB, tyA] := rfl
      rw [hr]
      cases h1 : e.cast tyA <;> cases h2 : e.cast tyB <;>
        simp only [List.filterMap_cons, List.filterMap_nil, h1, h2, Option.map_none, Option.map_some] <;>
        exact ⟨rfl, rfl, rfl⟩
    generalize objects cfg (excItems [tyA, tyB] e) = A at hi hA
    obtain ⟨a1, a2, a3⟩ := hA
    have e1 := fun v => sees_iff (A := A) s1 (noPart_none tyA) v
    have e2 := fun v => sees_iff (A := A) s2 (noPart_none tyB) v
    have hp := receives_ptr (specs := handlers) (outer := []) (A := A) (id := errorNo cfg c w.ticks) s3 (noPart_none tyExPtr)
    rw [a3] at hp
    rw [a1] at e1
    rw [a2] at e2
    cases hca : e.cast tyA with
    | some v =>
      rw [hca] at e1
      obtain ⟨w', e', ht⟩ := hx (.all_handled hi (i := 0) (vals := [.obj tyA v]) (firstSuitable_zero.mpr (suitable_req.mpr ⟨_, (e1 v).mpr rfl⟩))
        (gets_of rfl ⟨receives_req ((e1 v).mpr rfl), trivial⟩) .ret)
      exact ⟨_, .errorA hstd hca, w', e', ht⟩
    | none =>
      have hn1 : ¬ SuitableOf cfg A none [.req tyA] := fun h => by
        obtain ⟨v, hv⟩ := suitable_req.mp h
        rw [e1, hca] at hv
        cases hv
      cases hcb : e.cast tyB with
      | some v =>
        rw [hcb] at e2
        obtain ⟨w', e', ht⟩ := hx (.all_handled hi (i := 1) (vals := [.obj tyB v])
          (firstSuitable_succ.mpr ⟨hn1, firstSuitable_zero.mpr (suitable_req.mpr ⟨_, (e2 v).mpr rfl⟩)⟩)
          (gets_of rfl ⟨receives_req ((e2 v).mpr rfl), trivial⟩) .ret)
        exact ⟨_, .errorB hstd hca hcb, w', e', ht⟩
      | none =>
        have hn2 : ¬ SuitableOf cfg A none [.req tyB] := fun h => by
          obtain ⟨v, hv⟩ := suitable_req.mp h
          rw [e2, hcb] at hv
          cases hv
        obtain ⟨w', e', ht⟩ := hx (.all_handled hi (i := 2) (vals := [.ptr tyExPtr (some e.tag)])
          (firstSuitable_succ.mpr ⟨hn1, firstSuitable_succ.mpr ⟨hn2, firstSuitable_zero.mpr (suitable_ptr.mpr trivial)⟩⟩)
          (gets_of rfl ⟨hp, trivial⟩) .ret)
        exact ⟨_, .other hstd hca hcb, w', e', ht⟩

/-- The hypotheses can be met. -/
example : (exCfg.isAbstract tyA = false ∧ exCfg.isAbstract tyB = false ∧ exCfg.isAbstract tyExPtr = false) ∧ Ready exCfg 1#32 1 (initThread 1#32) ∧
    ∀ e, (Sum.inl ⟨3, true, .none, [(tyB, 6)], false⟩ : Exc ⊕ Val) = .inl e → e.isStd = true :=
  ⟨⟨rfl, rfl, rfl⟩, ready_init exCfg (by decide) (by rw [gens_exCfg]; omega), fun e h => by cases h; rfl⟩

example : (runFresh exCfg (run (.inl ⟨3, true, .none, [(tyB, 6)], false⟩))).map (fun r => callsIn r.2.2) = some [(5#32, none, 1, [.obj tyB 6])] := by
  decide +kernel

end ExceptionToResult

end Leaf
