import Verif.Parse
import Verif.ResultLemmas

/-!
# The parser of `Parse.lean` without the threaded result

`Read ops sc ty a v`: the document `a` reads as the value `v` of type `ty` without any error. `parseF_good` relates it to the
parser.
-/

namespace Verif.Parse
open Verif Res

section
variable {A C E S F : Type}

/-- the effect of `post_parse` -/
def Post (sc : Schema C E S F) (c : C) (v w : Val C E S F) : Prop :=
  match sc.postParse c with
  | none => w = v
  | some f => f v = .ok w

mutual
inductive Read (ops : Ops A) (sc : Schema C E S F) : Ty C E S → A → Val C E S F → Prop
  | str {a s} : ops.asString a = .ok s → Read ops sc .str a (.str s)
  | bool {a b} : ops.asBool a = .ok b → Read ops sc .bool a (.bool b)
  | any {a} : Read ops sc .any a .foreign
  | enum {a e s} : ops.asString a = .ok s → s ∈ sc.enumValues e → Read ops sc (.enum e) a (.enum e s)
  | sfv {a c s} : ops.asString a = .ok s → sc.construct c s = .ok () → Read ops sc (.sfv c) a (.sfv c s)
  | list {a as it ae vs} : ops.asList a ae = .ok as → ReadL ops sc it as vs → Read ops sc (.list it ae) a (.list vs)
  | concrete {a c v w} : sc.abstract c = false → ReadObj ops sc c a v → Post sc c v w → Read ops sc (.cls c) a w
  | abstract {a c c' d v} : sc.abstract c = true → ops.modelType a = .ok d →
      (sc.subclasses c).find? (fun s => decide (d = some (sc.className s))) = some c' → ReadObj ops sc c' a v →
      Read ops sc (.cls c) a v
inductive ReadL (ops : Ops A) (sc : Schema C E S F) : Ty C E S → List A → List (Val C E S F) → Prop
  | nil {it} : ReadL ops sc it [] []
  | cons {it a as v vs} : Read ops sc it a v → ReadL ops sc it as vs → ReadL ops sc it (a :: as) (v :: vs)
inductive ReadObj (ops : Ops A) (sc : Schema C E S F) : C → A → Val C E S F → Prop
  | mk {c a obj attrs} : ops.asObject a = .ok obj →
      (sc.needsModelType c = true → ops.modelType a = .ok (some (sc.className c))) →
      (∀ e ∈ obj, e.1 ∈ allKeys (sc.fields c)) → ReadF ops sc obj (sc.fields c) attrs → ReadObj ops sc c a (.obj c attrs)
inductive ReadF (ops : Ops A) (sc : Schema C E S F) : List (Str × A) → List (Field C E S F) → List (F × Val C E S F) → Prop
  | nil {obj} : ReadF ops sc obj [] []
  | excluded {obj f fs attrs} : ReadF ops sc obj fs attrs → ReadF ops sc obj (⟨f, .excluded⟩ :: fs) ((f, .none) :: attrs)
  | absent {obj f key ty fs attrs} : dictGet key obj = none → ReadF ops sc obj fs attrs →
      ReadF ops sc obj (⟨f, .attr key ty false⟩ :: fs) ((f, .none) :: attrs)
  | present {obj f key ty req a v fs attrs} : dictGet key obj = some a → Read ops sc ty a v → ReadF ops sc obj fs attrs →
      ReadF ops sc obj (⟨f, .attr key ty req⟩ :: fs) ((f, v) :: attrs)
end

/-- error messages as results -/
def errs (notes : List Note) : List (Res Note) := notes.map (fun n => Res.new n .error)

theorem errs_append (a b : List Note) : errs (a ++ b) = errs a ++ errs b := by simp [errs]

theorem appendAll_errs_ok (res : Res Note) (notes : List Note) :
    (res.appendAll (errs notes)).ok = true ↔ res.ok = true ∧ notes = [] := by
  rw [appendAll_ok]
  cases notes with
  | nil => simp [errs]
  | cons n ns =>
    simp only [errs, List.map_cons, reduceCtorEq, and_false, iff_false, not_and]
    intro _ h
    have := h _ List.mem_cons_self
    simp [Res.ok, Res.new, Res.level] at this

theorem report_eq (k : Kind) (p : List PTok) (res : Res Note) : report k p res = res.appendAll (errs [⟨k, p⟩]) := rfl

/-- the computation yields the value described by `R`, or error messages with paths in `Q` -/
def Outcome {α : Type} (R : α → Prop) (Q : List PTok → Prop) (res : Res Note) : Except PyExc (α × Res Note) → Prop
  | .error _ => ∀ v, ¬ R v
  | .ok (v, res') => ∃ notes, res' = res.appendAll (errs notes) ∧ (∀ n ∈ notes, Q n.path) ∧
      (∀ w, R w → notes = [] ∧ (res.ok = true → w = v)) ∧ (notes = [] → res.ok = true → R v)

theorem Outcome.fail {α : Type} {R : α → Prop} {Q : List PTok → Prop} {res : Res Note} {v : α} {k : Kind} {p : List PTok}
    (hq : Q p) (h : ∀ w, ¬ R w) : Outcome R Q res (.ok (v, report k p res)) :=
  ⟨[⟨k, p⟩], report_eq .., by simpa using hq, fun w hw => absurd hw (h w), by simp⟩

theorem Outcome.succ {α : Type} {R : α → Prop} {Q : List PTok → Prop} {res : Res Note} {v : α}
    (h : R v) (h' : ∀ w, R w → w = v) : Outcome R Q res (.ok (v, res)) :=
  ⟨[], rfl, by simp, fun w hw => ⟨rfl, fun _ => h' w hw⟩, fun _ _ => h⟩

/-- children of adapters are smaller -/
structure Ops.Lawful (ops : Ops A) (size : A → Nat) : Prop where
  object : ∀ a obj, ops.asObject a = .ok obj → ∀ e ∈ obj, size e.2 < size a
  list : ∀ a ae as, ops.asList a ae = .ok as → ∀ b ∈ as, size b < size a

/-- a property of adapters that is inherited by children -/
structure Ops.Closed (ops : Ops A) (inv : A → Prop) : Prop where
  object : ∀ a obj, ops.asObject a = .ok obj → inv a → ∀ e ∈ obj, inv e.2
  list : ∀ a ae as, ops.asList a ae = .ok as → inv a → ∀ b ∈ as, inv b

theorem dictGet_mem {α : Type} {k : Str} {l : List (Str × α)} {v : α} (h : dictGet k l = some v) : (k, v) ∈ l := by
  induction l with
  | nil => simp [dictGet] at h
  | cons e l ih =>
    obtain ⟨k', v'⟩ := e
    unfold dictGet at h
    split at h
    · rename_i hk; simp at h; simp [hk, h]
    · exact List.mem_cons_of_mem _ (ih h)

section main
variable (ops : Ops A) (sc : Schema C E S F) (Q : List PTok → Prop)

theorem parseItems_good (it : Ty C E S) (rec : A → P (Val C E S F)) : ∀ as : List A,
    (∀ a ∈ as, ∀ res, Outcome (Read ops sc it a) Q res (rec a res)) →
    ∀ res, Outcome (ReadL ops sc it as) Q res (parseItems rec as res)
  | [], _, res => Outcome.succ .nil (fun w hw => by cases hw; rfl)
  | a :: as, h, res => by
    have h1 := h a List.mem_cons_self res
    have ih := parseItems_good it rec as (fun b hb => h b (List.mem_cons_of_mem _ hb))
    unfold parseItems
    cases hr : rec a res with
    | error e =>
      rw [hr] at h1
      exact fun v hv => by cases hv with | cons hv _ => exact h1 _ hv
    | ok p =>
      obtain ⟨v, res1⟩ := p
      rw [hr] at h1
      obtain ⟨n1, rfl, hq1, hu1, hr1⟩ := h1
      have h2 := ih (res.appendAll (errs n1))
      simp only
      cases hr' : parseItems rec as (res.appendAll (errs n1)) with
      | error e =>
        rw [hr'] at h2
        exact fun v hv => by cases hv with | cons _ hv => exact h2 _ hv
      | ok p =>
        obtain ⟨vs, res2⟩ := p
        rw [hr'] at h2
        obtain ⟨n2, rfl, hq2, hu2, hr2⟩ := h2
        refine ⟨n1 ++ n2, by rw [errs_append, appendAll_append], ?_, ?_, ?_⟩
        · intro n hn
          rcases List.mem_append.mp hn with hn | hn
          · exact hq1 n hn
          · exact hq2 n hn
        · intro w hw
          cases hw with
          | cons hw hws =>
            obtain ⟨rfl, e1⟩ := hu1 _ hw
            obtain ⟨rfl, e2⟩ := hu2 _ hws
            refine ⟨rfl, fun hok => ?_⟩
            rw [e1 hok, e2 (by simpa [errs, appendAll_nil] using hok)]
        · intro hn hok
          obtain ⟨rfl, rfl⟩ := List.append_eq_nil_iff.mp hn
          exact .cons (hr1 rfl hok) (hr2 rfl (by simpa [errs, appendAll_nil] using hok))

theorem parseFields_good (rec : Ty C E S → A → P (Val C E S F)) (obj : List (Str × A)) (p : List PTok) (hp : Q p)
    (h : ∀ e ∈ obj, ∀ ty res, Outcome (Read ops sc ty e.2) Q res (rec ty e.2 res)) : ∀ (fs : List (Field C E S F)) (res),
    Outcome (ReadF ops sc obj fs) Q res (parseFields rec obj p fs res)
  | [], res => Outcome.succ .nil (fun w hw => by cases hw; rfl)
  | ⟨f, .excluded⟩ :: fs, res => by
    have ih := parseFields_good rec obj p hp h fs res
    unfold parseFields
    cases hr : parseFields rec obj p fs res with
    | error e =>
      rw [hr] at ih
      exact fun v hv => by cases hv with | excluded hv => exact ih _ hv
    | ok q =>
      obtain ⟨v, res1⟩ := q
      rw [hr] at ih
      obtain ⟨n1, rfl, hq1, hu1, hr1⟩ := ih
      refine ⟨n1, rfl, hq1, ?_, fun a b => .excluded (hr1 a b)⟩
      intro w hw
      cases hw with
      | excluded hw => exact ⟨(hu1 _ hw).1, fun hok => by rw [(hu1 _ hw).2 hok]⟩
  | ⟨f, .attr key ty req⟩ :: fs, res => by
    have ih := parseFields_good rec obj p hp h fs
    unfold parseFields
    have h1 : Outcome (fun v => (dictGet key obj = none ∧ req = false ∧ v = .none) ∨
        (∃ a, dictGet key obj = some a ∧ Read ops sc ty a v)) Q res
        (parseField rec obj p key ty req res) := by
      unfold parseField
      cases hd : dictGet key obj with
      | none =>
        cases req with
        | true => exact Outcome.fail hp (by simp)
        | false => exact Outcome.succ (by simp) (by simp)
      | some a =>
        have := h _ (dictGet_mem hd) ty res
        simpa using this
    generalize parseField rec obj p key ty req res = x at h1 ⊢
    have conv : ∀ w, ReadF ops sc obj (⟨f, .attr key ty req⟩ :: fs) w ↔ ∃ v vs, w = (f, v) :: vs ∧ ReadF ops sc obj fs vs ∧
        ((dictGet key obj = none ∧ req = false ∧ v = .none) ∨ (∃ a, dictGet key obj = some a ∧ Read ops sc ty a v)) := by
      intro w
      constructor
      · intro hw
        cases hw with
        | absent g1 g2 => exact ⟨_, _, rfl, g2, .inl ⟨g1, rfl, rfl⟩⟩
        | present g1 g2 g3 => exact ⟨_, _, rfl, g3, .inr ⟨_, g1, g2⟩⟩
      · rintro ⟨v, vs, rfl, g2, ⟨g1, rfl, rfl⟩ | ⟨a, g1, g3⟩⟩
        · exact .absent g1 g2
        · exact .present g1 g3 g2
    cases x with
    | error e =>
      intro v hv
      obtain ⟨v, vs, -, -, h2⟩ := (conv _).mp hv
      exact h1 _ h2
    | ok q =>
      obtain ⟨v, res1⟩ := q
      obtain ⟨n1, rfl, hq1, hu1, hr1⟩ := h1
      have h2 := ih (res.appendAll (errs n1))
      simp only
      cases hr' : parseFields rec obj p fs (res.appendAll (errs n1)) with
      | error e =>
        rw [hr'] at h2
        intro v hv
        obtain ⟨v, vs, -, h3, -⟩ := (conv _).mp hv
        exact h2 _ h3
      | ok p =>
        obtain ⟨vs, res2⟩ := p
        rw [hr'] at h2
        obtain ⟨n2, rfl, hq2, hu2, hr2⟩ := h2
        refine ⟨n1 ++ n2, by rw [errs_append, appendAll_append], ?_, ?_, ?_⟩
        · intro n hn
          rcases List.mem_append.mp hn with hn | hn
          · exact hq1 n hn
          · exact hq2 n hn
        · intro w hw
          obtain ⟨v', vs', rfl, hws, hw⟩ := (conv _).mp hw
          obtain ⟨rfl, e1⟩ := hu1 _ hw
          obtain ⟨rfl, e2⟩ := hu2 _ hws
          refine ⟨rfl, fun hok => ?_⟩
          rw [e1 hok, e2 (by simpa [errs, appendAll_nil] using hok)]
        · intro hn hok
          obtain ⟨rfl, rfl⟩ := List.append_eq_nil_iff.mp hn
          exact (conv _).mpr ⟨_, _, rfl, hr2 rfl (by simpa [errs, appendAll_nil] using hok), hr1 rfl hok⟩

/-- the messages of `reportUnknown` -/
theorem reportUnknown_eq (keys : List Str) (p : List PTok) (obj : List (Str × A)) (res : Res Note) :
    reportUnknown keys p obj res =
      res.appendAll (errs ((obj.filter (fun e => !keys.contains e.1)).map (fun e => ⟨.unknownAttribute e.1, p⟩))) := by
  induction obj generalizing res with
  | nil => rfl
  | cons e obj ih =>
    obtain ⟨k, a⟩ := e
    unfold reportUnknown
    rw [ih]
    by_cases hk : k ∈ keys
    · simp [hk]
    · simp [hk, report_eq, errs, appendAll_cons, appendAll_nil, Function.comp_def]

theorem checkModelType_good (c : C) (a : A) (res : Res Note) (hp : Q (ops.path a)) :
    match checkModelType ops sc c a res with
    | .error _ => ¬ (sc.needsModelType c = true → ops.modelType a = .ok (some (sc.className c)))
    | .ok res' => ∃ notes, res' = res.appendAll (errs notes) ∧ (∀ n ∈ notes, Q n.path) ∧
        (notes = [] ↔ (sc.needsModelType c = true → ops.modelType a = .ok (some (sc.className c)))) := by
  unfold checkModelType
  cases hn : sc.needsModelType c with
  | false => exact ⟨[], rfl, by simp, by simp⟩
  | true =>
    simp only [if_true]
    cases hd : ops.modelType a with
    | error e =>
      cases e with
      | adapter k =>
        simp only [report_eq]
        exact ⟨_, rfl, by simpa using hp, by simp⟩
      | py e => simp
    | ok d =>
      by_cases h : d = some (sc.className c)
      · simp only [h, if_true]
        exact ⟨[], rfl, by simp, by simp⟩
      · simp only [h, if_false, report_eq]
        exact ⟨_, rfl, by simpa using hp, by simp [h]⟩

theorem parseConcrete_good (rec : Ty C E S → A → P (Val C E S F)) (c : C) (a : A) (hp : Q (ops.path a))
    (h : ∀ obj, ops.asObject a = .ok obj → ∀ e ∈ obj, ∀ ty res, Outcome (Read ops sc ty e.2) Q res (rec ty e.2 res)) (res) :
    Outcome (ReadObj ops sc c a) Q res (parseConcrete ops sc rec c a res) := by
  unfold parseConcrete
  cases ho : ops.asObject a with
  | error e =>
    cases e with
    | adapter k => exact Outcome.fail hp (fun w hw => by cases hw with | mk h1 => simp [ho] at h1)
    | py e => exact fun w hw => by cases hw with | mk h1 => simp [ho] at h1
  | ok obj =>
    have hm := checkModelType_good ops sc Q c a res hp
    simp only
    cases hc : checkModelType ops sc c a res with
    | error e =>
      rw [hc] at hm
      exact fun w hw => by cases hw with | mk h1 h2 => exact hm h2
    | ok res1 =>
      rw [hc] at hm
      obtain ⟨n1, rfl, hq1, hn1⟩ := hm
      have hf := parseFields_good ops sc Q rec obj (ops.path a) hp (h obj ho) (sc.fields c) (res.appendAll (errs n1))
      simp only
      cases hc : parseFields rec obj (ops.path a) (sc.fields c) (res.appendAll (errs n1)) with
      | error e =>
        rw [hc] at hf
        intro w hw
        cases hw with
        | mk h1 h2 h3 h4 =>
          rw [ho] at h1; cases h1
          exact hf _ h4
      | ok q =>
        rw [hc] at hf
        obtain ⟨args, res2⟩ := q
        obtain ⟨n2, rfl, hq2, hu2, hr2⟩ := hf
        simp only [reportUnknown_eq]
        refine ⟨n1 ++ n2 ++ (obj.filter (fun e => !(allKeys (sc.fields c)).contains e.1)).map
          (fun e => ⟨.unknownAttribute e.1, ops.path a⟩), by rw [errs_append, errs_append, appendAll_append, appendAll_append], ?_, ?_, ?_⟩
        · intro n hn
          rcases List.mem_append.mp hn with hn | hn
          · rcases List.mem_append.mp hn with hn | hn
            · exact hq1 n hn
            · exact hq2 n hn
          · obtain ⟨e, -, rfl⟩ := List.mem_map.mp hn
            exact hp
        · intro w hw
          cases hw with
          | mk h1 h2 h3 h4 =>
            rw [ho] at h1; cases h1
            obtain rfl := hn1.mpr h2
            obtain ⟨rfl, e2⟩ := hu2 _ h4
            refine ⟨?_, fun hok => by rw [e2 (by simpa [errs, appendAll_nil] using hok)]⟩
            simp only [List.append_nil, List.nil_append, List.map_eq_nil_iff, List.filter_eq_nil_iff]
            intro e he
            simpa using h3 e he
        · intro hn hok
          simp only [List.append_eq_nil_iff, List.map_eq_nil_iff, List.filter_eq_nil_iff] at hn
          obtain ⟨⟨rfl, rfl⟩, h3⟩ := hn
          refine .mk ho (hn1.mp rfl) (fun e he => by simpa using h3 e he) (hr2 rfl (by simpa [errs, appendAll_nil] using hok))

end main

/-- The parser reads exactly what `Read` describes; the messages have the paths of inner documents. -/
theorem parseF_good (ops : Ops A) (sc : Schema C E S F) (size : A → Nat) (hl : ops.Lawful size) (inv : A → Prop)
    (hc : ops.Closed inv) : ∀ (n : Nat) (ty : Ty C E S) (a : A), size a < n → inv a → ∀ res,
    Outcome (Read ops sc ty a) (fun p => ∃ b, inv b ∧ ops.path b = p) res (parseF ops sc n ty a res)
  | 0, _, _, hs, _, _ => absurd hs (Nat.not_lt_zero _)
  | n + 1, ty, a, hs, hi, res => by
    have ih := parseF_good ops sc size hl inv hc n
    have hp : ∃ b, inv b ∧ ops.path b = ops.path a := ⟨a, hi, rfl⟩
    have hobj : ∀ obj, ops.asObject a = .ok obj → ∀ e ∈ obj, ∀ ty res,
        Outcome (Read ops sc ty e.2) (fun p => ∃ b, inv b ∧ ops.path b = p) res (parseF ops sc n ty e.2 res) := by
      intro obj ho e he ty res
      exact ih ty e.2 (by have := hl.object a obj ho e he; omega) (hc.object a obj ho hi e he) res
    unfold parseF
    cases ty with
    | str =>
      simp only [parseString]
      cases ha : ops.asString a with
      | error e =>
        cases e with
        | adapter k => exact Outcome.fail hp (fun w hw => by cases hw with | str h => simp [ha] at h)
        | py e => exact fun w hw => by cases hw with | str h => simp [ha] at h
      | ok s => exact Outcome.succ (.str ha) (fun w hw => by cases hw with | str h => rw [ha] at h; cases h; rfl)
    | bool =>
      simp only [parseBool]
      cases ha : ops.asBool a with
      | error e =>
        cases e with
        | adapter k => exact Outcome.fail hp (fun w hw => by cases hw with | bool h => simp [ha] at h)
        | py e => exact fun w hw => by cases hw with | bool h => simp [ha] at h
      | ok s => exact Outcome.succ (.bool ha) (fun w hw => by cases hw with | bool h => rw [ha] at h; cases h; rfl)
    | any => exact Outcome.succ .any (fun w hw => by cases hw; rfl)
    | none => exact fun w hw => by cases hw
    | number => exact fun w hw => by cases hw
    | bytes => exact fun w hw => by cases hw
    | enum e =>
      simp only [parseEnum]
      cases ha : ops.asString a with
      | error e =>
        cases e with
        | adapter k => exact Outcome.fail hp (fun w hw => by cases hw with | enum h => simp [ha] at h)
        | py e => exact fun w hw => by cases hw with | enum h => simp [ha] at h
      | ok s =>
        by_cases hm : s ∈ sc.enumValues e
        · simp only [List.contains_iff_mem.mpr hm, if_true]
          exact Outcome.succ (.enum ha hm) (fun w hw => by cases hw with | enum h => rw [ha] at h; cases h; rfl)
        · have : (sc.enumValues e).contains s = false := by simpa using hm
          simp only [this, Bool.false_eq_true, if_false]
          exact Outcome.fail hp (fun w hw => by cases hw with | enum h h' => rw [ha] at h; cases h; exact hm h')
    | sfv c =>
      simp only [parseSfv]
      cases ha : ops.asString a with
      | error e =>
        cases e with
        | adapter k => exact Outcome.fail hp (fun w hw => by cases hw with | sfv h => simp [ha] at h)
        | py e =>
          by_cases hv : e = .valueError
          · subst hv
            exact Outcome.fail hp (fun w hw => by cases hw with | sfv h => simp [ha] at h)
          · have : Outcome (Read ops sc (.sfv c) a) (fun p => ∃ b, inv b ∧ ops.path b = p) res (.error e) :=
              fun w hw => by cases hw with | sfv h => simp [ha] at h
            cases e <;> first | exact absurd rfl hv | exact this
      | ok s =>
        simp only
        cases hk : sc.construct c s with
        | ok u => exact Outcome.succ (R := Read ops sc (.sfv c) a) (.sfv ha hk) (fun w hw => by cases hw with | sfv h => rw [ha] at h; cases h; rfl)
        | error e =>
          by_cases hv : e = .valueError
          · subst hv
            exact Outcome.fail hp (fun w hw => by cases hw with | sfv h h' => rw [ha] at h; cases h; simp [hk] at h')
          · have : Outcome (Read ops sc (.sfv c) a) (fun p => ∃ b, inv b ∧ ops.path b = p) res (.error e) :=
              fun w hw => by cases hw with | sfv h h' => rw [ha] at h; cases h; simp [hk] at h'
            cases e <;> first | exact absurd rfl hv | exact this
    | list it ae =>
      simp only [parseList]
      cases ha : ops.asList a ae with
      | error e =>
        cases e with
        | adapter k => exact Outcome.fail hp (fun w hw => by cases hw with | list h => simp [ha] at h)
        | py e => exact fun w hw => by cases hw with | list h => simp [ha] at h
      | ok as =>
        have hg := parseItems_good ops sc (fun p => ∃ b, inv b ∧ ops.path b = p) it (parseF ops sc n it) as
          (fun b hb res => ih it b (by have := hl.list a ae as ha b hb; omega) (hc.list a ae as ha hi b hb) res) res
        simp only
        cases hr : parseItems (parseF ops sc n it) as res with
        | error e =>
          rw [hr] at hg
          intro w hw
          cases hw with
          | list h h' => rw [ha] at h; cases h; exact hg _ h'
        | ok q =>
          rw [hr] at hg
          obtain ⟨vs, res1⟩ := q
          obtain ⟨ns, rfl, hq, hu, hr⟩ := hg
          refine ⟨ns, rfl, hq, ?_, fun h1 h2 => .list ha (hr h1 h2)⟩
          intro w hw
          cases hw with
          | list h h' =>
            rw [ha] at h; cases h
            exact ⟨(hu _ h').1, fun hok => by rw [(hu _ h').2 hok]⟩
    | cls c =>
      simp only
      cases hab : sc.abstract c with
      | true =>
        simp only [if_true, parseAbstract]
        cases hm : ops.modelType a with
        | error e =>
          cases e with
          | adapter k =>
            exact Outcome.fail hp (fun w hw => by
              cases hw with
              | concrete h => simp [hab] at h
              | abstract _ h => simp [hm] at h)
          | py e =>
            intro w hw
            cases hw with
              | concrete h => simp [hab] at h
              | abstract _ h => simp [hm] at h
        | ok d =>
          simp only
          cases hf : (sc.subclasses c).find? (fun s => decide (d = some (sc.className s))) with
          | none =>
            exact Outcome.fail hp (fun w hw => by
              cases hw with
              | concrete h => simp [hab] at h
              | abstract _ h h' => rw [hm] at h; cases h; simp [hf] at h')
          | some s =>
            have hg := parseConcrete_good ops sc (fun p => ∃ b, inv b ∧ ops.path b = p) (parseF ops sc n) s a hp hobj res
            have hiff : ∀ w, Read ops sc (.cls c) a w ↔ ReadObj ops sc s a w := by
              intro w
              constructor
              · intro hw
                cases hw with
                | concrete h => simp [hab] at h
                | abstract _ h h' h2 => rw [hm] at h; cases h; rw [hf] at h'; cases h'; exact h2
              · exact fun h => .abstract hab hm hf h
            rwa [show Read ops sc (.cls c) a = ReadObj ops sc s a from funext fun w => propext (hiff w)]
      | false =>
        simp only [Bool.false_eq_true, if_false]
        have hg := parseConcrete_good ops sc (fun p => ∃ b, inv b ∧ ops.path b = p) (parseF ops sc n) c a hp hobj res
        have hiff : ∀ w, Read ops sc (.cls c) a w ↔ ∃ v, ReadObj ops sc c a v ∧ Post sc c v w := by
          intro w
          constructor
          · intro hw
            cases hw with
            | concrete h h1 h2 => exact ⟨_, h1, h2⟩
            | abstract h => simp [hab] at h
          · exact fun ⟨v, h1, h2⟩ => .concrete hab h1 h2
        rw [show Read ops sc (.cls c) a = fun w => ∃ v, ReadObj ops sc c a v ∧ Post sc c v w from funext fun w => propext (hiff w)]
        cases hr : parseConcrete ops sc (parseF ops sc n) c a res with
        | error e =>
          rw [hr] at hg
          exact fun w ⟨v, h1, _⟩ => hg v h1
        | ok q =>
          rw [hr] at hg
          obtain ⟨v, res1⟩ := q
          obtain ⟨ns, rfl, hq, hu, hr1⟩ := hg
          simp only
          -- the value is an object of class `c`, if there was no error
          have hcls : ∀ w, ReadObj ops sc c a w → ∃ attrs, w = .obj c attrs := by
            intro w hw; cases hw; exact ⟨_, rfl⟩
          unfold runPostParse
          split
          · rename_i c' attrs
            have hcc : ns = [] → res.ok = true → c' = c := by
              intro h1 h2
              obtain ⟨at', h⟩ := hcls _ (hr1 h1 h2)
              cases h; rfl
            split
            · rename_i hpp
              refine ⟨ns, rfl, hq, ?_, ?_⟩
              · rintro w ⟨v', h1, h2⟩
                refine ⟨(hu _ h1).1, fun hok => ?_⟩
                obtain rfl := (hu _ h1).2 hok
                obtain rfl := hcc (hu _ h1).1 hok
                simpa [Post, hpp] using h2
              · intro h1 h2
                obtain rfl := hcc h1 h2
                exact ⟨_, hr1 h1 h2, by simp [Post, hpp]⟩
            · rename_i f hpp
              split
              · rename_i hok
                obtain ⟨hok, hnil⟩ := (appendAll_errs_ok _ _).mp hok
                obtain rfl := hcc hnil hok
                split
                · rename_i e hfe
                  rintro w ⟨v', h1, h2⟩
                  obtain rfl := (hu _ h1).2 hok
                  simp [Post, hpp, hfe] at h2
                · rename_i v2 hfe
                  refine ⟨ns, rfl, hq, ?_, ?_⟩
                  · rintro w ⟨v', h1, h2⟩
                    refine ⟨(hu _ h1).1, fun hok => ?_⟩
                    obtain rfl := (hu _ h1).2 hok
                    simpa [Post, hpp, hfe, eq_comm] using h2
                  · exact fun h1 h2 => ⟨_, hr1 h1 h2, by simp [Post, hpp, hfe]⟩
              · rename_i hok
                have hno : ns = [] → res.ok = true → False := fun h1 h2 => hok ((appendAll_errs_ok _ _).mpr ⟨h2, h1⟩)
                refine ⟨ns, rfl, hq, ?_, fun h1 h2 => (hno h1 h2).elim⟩
                rintro w ⟨v', h1, h2⟩
                exact ⟨(hu _ h1).1, fun hok => (hno (hu _ h1).1 hok).elim⟩
          · rename_i hnot
            have hno : ns = [] → res.ok = true → False := fun h1 h2 => by
              obtain ⟨at', h⟩ := hcls _ (hr1 h1 h2)
              exact hnot _ _ h
            refine ⟨ns, rfl, hq, ?_, fun h1 h2 => (hno h1 h2).elim⟩
            rintro w ⟨v', h1, h2⟩
            exact ⟨(hu _ h1).1, fun hok => (hno (hu _ h1).1 hok).elim⟩

end
end Verif.Parse
