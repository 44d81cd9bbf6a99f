import Verif.ParseLemmas3
import Verif.ParseJson2
import Verif.ParseReorder
import Verif.ParseXml
import Verif.ConstraintLemmas

/-!
# C35, C36, C37, C38, C40, C41: the parser

These theorems hold for every schema, document format and set of constraints; `Props/Model.lean` applies them to the classes of the
meta-model.
-/

namespace Verif.Props
open Verif Res Spec.Parse Parse

/-! ## a small schema for the examples -/

namespace Toy
/-- `Item` is abstract, with the subclasses `Leaf` and `Group`; `Root` needs a discriminator -/
inductive Cls | item | leaf | group | root deriving DecidableEq
inductive Fld | name | color | flag | items | path deriving DecidableEq

abbrev V := Val Cls Unit Unit Fld

def label : Field Cls Unit Unit Fld := ⟨.name, .attr py!"name" (.sfv ()) true⟩

def schema : Schema Cls Unit Unit Fld where
  fields
    | .item => [label]
    | .leaf => [label, ⟨.color, .attr py!"color" (.enum ()) false⟩, ⟨.flag, .attr py!"flag" .bool false⟩]
    | .group => [label, ⟨.items, .attr py!"items" (.list (.cls .item) false) true⟩]
    | .root => [⟨.items, .attr py!"items" (.list (.cls .item) false) false⟩, ⟨.path, .excluded⟩]
  abstract c := decide (c = .item)
  subclasses
    | .item => [.leaf, .group]
    | _ => []
  className
    | .item => py!"Item"
    | .leaf => py!"Leaf"
    | .group => py!"Group"
    | .root => py!"Root"
  needsModelType c := decide (c = .root)
  enumValues _ := [py!"red", py!"blue"]
  construct _ s := if s.length = 0 then .error .valueError else .ok ()
  postParse _ := none

theorem sane : Sane schema where
  keys c f ty req := by cases c <;> simp [schema, label]
  names c := by cases c <;> decide
  post c f v h := by cases h

theorem supported : schema.Supported where
  types c f key ty req h := by
    cases c <;> simp [schema, label] at h
    · obtain ⟨-, -, rfl, -⟩ := h; trivial
    · rcases h with ⟨-, -, rfl, -⟩ | ⟨-, -, rfl, -⟩ | ⟨-, -, rfl, -⟩ <;> trivial
    · rcases h with ⟨-, -, rfl, -⟩ | ⟨-, -, rfl, -⟩ <;> trivial
    · obtain ⟨-, -, rfl, -⟩ := h; trivial
  strings c s e h := by
    simp only [schema] at h
    split at h <;> cases h
    rfl

theorem distinct : DistinctKeys schema := by intro c; cases c <;> decide

def leafJ : Json := .obj [(py!"modelType", .str py!"Leaf"), (py!"name", .str py!"x"), (py!"color", .str py!"red")]
def leafJ' : Json := .obj [(py!"color", .str py!"red"), (py!"name", .str py!"x"), (py!"modelType", .str py!"Leaf")]
def groupJ : Json := .obj [(py!"modelType", .str py!"Group"), (py!"name", .str py!"g"), (py!"items", .arr [leafJ])]
def doc : Json := .obj [(py!"modelType", .str py!"Root"), (py!"items", .arr [leafJ, groupJ])]
/-- the inner leaf has an empty name and an unknown color -/
def badDoc : Json := .obj [(py!"modelType", .str py!"Root"), (py!"items", .arr [leafJ,
  .obj [(py!"modelType", .str py!"Group"), (py!"name", .str py!"g"), (py!"items", .arr [
    .obj [(py!"modelType", .str py!"Leaf"), (py!"name", .str []), (py!"color", .str py!"green")]])]])]

def leafV : V := .obj .leaf [(.name, .sfv () py!"x"), (.color, .enum () py!"red"), (.flag, .none)]
def docV : V := .obj .root [(.items, .list [leafV, .obj .group [(.name, .sfv () py!"g"), (.items, .list [leafV])]]), (.path, .none)]

theorem wf : WF doc := by
  have h1 : WF leafJ := .obj (by decide) (by simp [WF.str])
  have h2 : WF groupJ := .obj (by decide) (by simp only [List.forall_mem_cons, List.not_mem_nil, false_implies, implies_true, and_true]; exact ⟨.str _, .str _, .arr (by simpa using h1)⟩)
  exact .obj (by decide) (by simp only [List.forall_mem_cons, List.not_mem_nil, false_implies, implies_true, and_true]; exact ⟨.str _, .arr (by simp [h1, h2])⟩)

theorem parsed : parseF jsonOps schema 40 (.cls .root) ⟨doc, []⟩ (Res.new ⟨.title [], []⟩) =
    .ok (docV, Res.new ⟨.title [], []⟩) := by rfl

def nameOf : Fld → Str
  | .name => py!"name" | .color => py!"color" | .flag => py!"flag" | .items => py!"items" | .path => py!"path"

/-- red leaves violate, `Group` warns -/
def checks : Cls → List (V → Chk Unit)
  | .leaf => [fun v => match v with
      | .obj _ [_, (_, .enum _ c), _] => if c = py!"red" then .error (.violated py!"red" .error) else .ok ()
      | _ => .ok ()]
  | .group => [fun _ => .error (.violated py!"group" .warning)]
  | _ => []
end Toy

section
variable {A C E S F : Type} (sc : Schema C E S F)

/-! ## C35 -/

/-- for every JSON value the parser reports no error iff the value conforms to the type -/
theorem C35_conforms (hs : Sane sc) (ty : Ty C E S) (j : Json) (hw : WF j) (p : List PTok) (n : Nat) (hn : j.size < n)
    (res r : Res Note) (v : Val C E S F) (hres : res.ok = true) (h : parseF jsonOps sc n ty ⟨j, p⟩ res = .ok (v, r)) :
    r.ok = true ↔ Conforms sc ty j := by
  have hg := parseF_good jsonOps sc _ json_lawful (fun _ => True) ⟨fun _ _ _ _ _ _ => trivial, fun _ _ _ _ _ _ _ => trivial⟩
    n ty ⟨j, p⟩ hn trivial res
  rw [h] at hg
  obtain ⟨notes, rfl, -, hu, hr⟩ := hg
  rw [appendAll_errs_ok]
  constructor
  · rintro ⟨-, hn⟩
    exact Read.conforms hs (hr hn hres) hw
  · intro hc
    obtain ⟨w, hread⟩ := Conforms.read hs hc hw p
    exact ⟨hres, (hu w hread).1⟩

example : Conforms Toy.schema (.cls .root) Toy.doc :=
  (C35_conforms Toy.schema Toy.sane _ _ Toy.wf [] 40 (by decide) _ _ _ rfl Toy.parsed).mp rfl

/-- it returns for every JSON value, provided that the types are known and the constructors of strings raise nothing but `ValueError`;
if the value conforms nothing is reported, otherwise at least one error -/
theorem C35_returns (hs : Sane sc) (hsup : sc.Supported) (ty : Ty C E S) (hty : Parse.Supported ty) (j : Json) (hw : WF j) (p : List PTok)
    (n : Nat) (hn : j.size < n) (res : Res Note) (hres : res.ok = true) :
    ∃ v notes, parseF jsonOps sc n ty ⟨j, p⟩ res = .ok (v, res.appendAll (errs notes)) ∧ (notes = [] ↔ Conforms sc ty j) := by
  have hg := parseF_good jsonOps sc _ json_lawful (fun _ => True) ⟨fun _ _ _ _ _ _ => trivial, fun _ _ _ _ _ _ _ => trivial⟩
    n ty ⟨j, p⟩ hn trivial res
  obtain ⟨⟨v, r⟩, h⟩ := parseF_returns jsonOps json_quiet ⟨fun _ _ _ _ _ _ => trivial, fun _ _ _ _ _ _ _ => trivial⟩ sc hs hsup json_nonempty _ json_lawful
    n ty ⟨j, p⟩ hn trivial hty res
  rw [h] at hg
  obtain ⟨notes, rfl, -, hu, hr⟩ := hg
  refine ⟨v, notes, h, ⟨fun he => Read.conforms hs (hr he hres) hw, fun hc => ?_⟩⟩
  obtain ⟨w, hread⟩ := Conforms.read hs hc hw p
  exact (hu w hread).1

example : ∃ v notes, parseF jsonOps Toy.schema 40 (.cls .root) ⟨Toy.badDoc, []⟩ (Res.new ⟨.title [], []⟩) =
    .ok (v, (Res.new ⟨.title [], []⟩).appendAll (errs notes)) ∧ notes =
      [⟨.format, [.key py!"items", .idx 1, .key py!"items", .idx 0, .key py!"name"]⟩,
       ⟨.notInEnum, [.key py!"items", .idx 1, .key py!"items", .idx 0, .key py!"color"]⟩] := ⟨_, _, rfl, rfl⟩

/-! ## C36 -/

/-- JSON and XML adapters: no list is empty unless allowed -/
def NoEmpty (ops : Ops A) : Prop := ∀ a as, ops.asList a false = .ok as → as ≠ []

variable (ops : Ops A) (size : A → Nat) (hl : ops.Lawful size)
include hl

/-- For both formats: without error every attribute has a value of its type, and `INVALID` occurs nowhere. -/
theorem C36_typed (hs : Sane sc) (he : NoEmpty ops) (ty : Ty C E S) (a : A) (n : Nat) (hn : size a < n)
    (res r : Res Note) (v : Val C E S F) (h : parseF ops sc n ty a res = .ok (v, r)) (hok : r.ok = true) :
    HasType sc ty v ∧ ∀ w, Sub v w → w ≠ .invalid := by
  have hg := parseF_good ops sc _ hl (fun _ => True) ⟨fun _ _ _ _ _ _ => trivial, fun _ _ _ _ _ _ _ => trivial⟩
    n ty a hn trivial res
  rw [h] at hg
  obtain ⟨notes, rfl, -, -, hr⟩ := hg
  obtain ⟨h1, h2⟩ := (appendAll_errs_ok _ _).mp hok
  have ht := Read.typed hs he (hr h2 h1)
  exact ⟨ht, fun w hw => HasType.no_invalid hw ty ht⟩

/-- the whole check (parse.py 208-219): with an error in the document the verdict is not ok, constraints are reported as skipped and
have no influence; without error, the constraints are evaluated on a typed object -/
theorem C36_check (hs : Sane sc) (he : NoEmpty ops) (name : F → Str) (checks : C → List (Val C E S F → Chk Unit)) (ty : Ty C E S) (a : A)
    (n : Nat) (hn : size a < n) (v : Val C E S F) (mm : Res Note)
    (h : parseF ops sc n ty a (Res.new ⟨.title py!"Check meta model", []⟩) = .ok (v, mm)) :
    (mm.ok = false → parseAndCheck ops sc name checks n ty a =
        .ok (((Res.new ⟨.title py!"Check", []⟩).append mm).append (Res.new ⟨.skipped, []⟩ .warning), v) ∧
      (((Res.new (⟨.title py!"Check", []⟩ : Note)).append mm).append (Res.new ⟨.skipped, []⟩ .warning)).ok = false) ∧
    (mm.ok = true → HasType sc ty v ∧ (∀ w, Sub v w → w ≠ .invalid) ∧
      parseAndCheck ops sc name checks n ty a =
        (checkConstraints name checks v [] (Res.new ⟨.title py!"Check constraints", []⟩)).map
          (fun rc => (((Res.new ⟨.title py!"Check", []⟩).append mm).append rc, v))) := by
  have hroot : ((Res.new (⟨.title py!"Check", []⟩ : Note)).append mm).ok = mm.ok := by
    have := append_ok (Res.new (⟨.title py!"Check", []⟩ : Note)) mm
    cases hm : mm.ok
    · rw [hm] at this; simpa using this
    · rw [hm] at this; simpa [Res.ok, Res.new, Res.level] using this
  unfold parseAndCheck
  rw [h]
  simp only [hroot]
  constructor
  · intro hm
    refine ⟨by simp [hm], ?_⟩
    have := append_ok ((Res.new (⟨.title py!"Check", []⟩ : Note)).append mm) (Res.new ⟨.skipped, []⟩ .warning)
    rw [hroot, hm] at this
    simpa using this
  · intro hm
    obtain ⟨h1, h2⟩ := C36_typed sc ops size hl hs he ty a n hn _ _ _ h hm
    refine ⟨h1, h2, ?_⟩
    simp only [hm, if_true]
    cases checkConstraints name checks v [] (Res.new ⟨.title py!"Check constraints", []⟩) <;> rfl

omit hl in
/-- the two formats -/
theorem C36_formats : (jsonOps.Lawful (fun a => a.value.size) ∧ NoEmpty jsonOps) ∧ (xmlOps.Lawful (fun a => a.value.size) ∧ NoEmpty xmlOps) :=
  ⟨⟨json_lawful, json_nonempty⟩, ⟨xml_lawful, xml_nonempty⟩⟩

example : HasType Toy.schema (.cls .root) Toy.docV :=
  (C36_typed Toy.schema jsonOps _ json_lawful Toy.sane json_nonempty _ _ 40 (by decide) _ _ _ Toy.parsed rfl).1

-- constraints are skipped for the broken document, although its first leaf is red
example : ((parseAndCheck jsonOps Toy.schema Toy.nameOf Toy.checks 40 (.cls .root) ⟨Toy.badDoc, []⟩).map (fun r => r.1.subs.map (·.msg.kind)))
    = .ok [.title py!"Check meta model", .skipped] := by rfl

/-! ## C37 -/
omit hl

/-- JSON: the path of every message resolves in the document -/
theorem C37_json (ty : Ty C E S) (j : Json) (n : Nat) (hn : j.size < n) (res r : Res Note) (v : Val C E S F)
    (h : parseF jsonOps sc n ty ⟨j, []⟩ res = .ok (v, r)) :
    ∃ new, r.subs = res.subs ++ new ∧ ∀ m ∈ new, m.level = .error ∧ m.subs = [] ∧ ∃ part, At j m.msg.path part := by
  have hg := parseF_good jsonOps sc _ json_lawful _ (json_closed j) n ty ⟨j, []⟩ hn (At.root j) res
  rw [h] at hg
  obtain ⟨notes, rfl, hq, -, -⟩ := hg
  refine ⟨errs notes, appendAll_subs .., ?_⟩
  intro m hm
  obtain ⟨y, hy, rfl⟩ := List.mem_map.mp hm
  obtain ⟨b, hb, he⟩ := hq y hy
  refine ⟨rfl, rfl, b.value, ?_⟩
  change At j y.path _
  rw [← he]
  exact hb

/-- XML: likewise -/
theorem C37_xml (ty : Ty C E S) (x : Xml) (n : Nat) (hn : x.size < n) (res r : Res Note) (v : Val C E S F)
    (h : parseF xmlOps sc n ty ⟨x, []⟩ res = .ok (v, r)) :
    ∃ new, r.subs = res.subs ++ new ∧ ∀ m ∈ new, m.level = .error ∧ m.subs = [] ∧ ∃ part, XAt x m.msg.path part := by
  have hg := parseF_good xmlOps sc _ xml_lawful _ (xml_closed x) n ty ⟨x, []⟩ hn (XAt.root x) res
  rw [h] at hg
  obtain ⟨notes, rfl, hq, -, -⟩ := hg
  refine ⟨errs notes, appendAll_subs .., ?_⟩
  intro m hm
  obtain ⟨y, hy, rfl⟩ := List.mem_map.mp hm
  obtain ⟨b, hb, he⟩ := hq y hy
  refine ⟨rfl, rfl, b.value, ?_⟩
  change XAt x y.path _
  rw [← he]
  exact hb

example : At Toy.badDoc [.key py!"items", .idx 1, .key py!"items", .idx 0, .key py!"name"] (.str []) :=
  .key (.idx (.key (.idx (.key (.root _) (by simp; exact rfl)) rfl) (by simp; exact rfl)) rfl) (by simp)

/-! ## C38 -/

theorem ResEq.trans {a b c : Res Note} (h : ResEq a b) (h' : ResEq b c) : ResEq a c :=
  ⟨h.1.trans h'.1, h.2.1.trans h'.2.1, h.2.2.trans h'.2.2⟩

theorem SameOut.trans {α : Type} : ∀ {a b c : Except PyExc (α × Res Note)}, SameOut a b → SameOut b c → SameOut a c
  | .error _, .error _, .error _, h, h' => Eq.trans h h'
  | .error _, .error _, .ok _, _, h' => h'.elim
  | .error _, .ok _, _, h, _ => h.elim
  | .ok _, .error _, _, h, _ => h.elim
  | .ok _, .ok _, .error _, _, h' => h'.elim
  | .ok _, .ok _, .ok _, h, h' => ⟨h.1.trans h'.1, ResEq.trans h.2 h'.2⟩

/-- Reordering members anywhere: the same exception, or the same value and the same messages up to their order. -/
theorem C38_parse (ty : Ty C E S) (j j' : Json) (hw : WF j) (hj : Reorder j j') (p : List PTok) (n : Nat) (res : Res Note) :
    SameOut (parseF jsonOps sc n ty ⟨j, p⟩ res) (parseF jsonOps sc n ty ⟨j', p⟩ res) ∧ WF j' := by
  induction hj with
  | refl =>
    refine ⟨?_, hw⟩
    cases parseF jsonOps sc n ty ⟨j, p⟩ res with
    | error e => exact (rfl : e = e)
    | ok q => exact ⟨rfl, .refl _⟩
  | step h hstep ih =>
    rename_i j1 j2
    obtain ⟨ih, hw'⟩ := ih
    exact ⟨SameOut.trans ih (parseF_sim jsonOps OneStep oneStep_sim sc n ty ⟨j1, p⟩ ⟨j2, p⟩ ⟨rfl, hw', .inr hstep⟩ res res (.refl _)),
      WF.step hstep hw'⟩

/-- the whole check: the same exception, or the same object and the same verdict -/
theorem C38_check (name : F → Str) (checks : C → List (Val C E S F → Chk Unit)) (ty : Ty C E S) (j j' : Json) (hw : WF j)
    (hj : Reorder j j') (p : List PTok) (n : Nat) :
    (parseAndCheck jsonOps sc name checks n ty ⟨j, p⟩).map (fun r => (r.1.level, r.2)) =
      (parseAndCheck jsonOps sc name checks n ty ⟨j', p⟩).map (fun r => (r.1.level, r.2)) := by
  have h := (C38_parse sc ty j j' hw hj p n (Res.new ⟨.title py!"Check meta model", []⟩)).1
  unfold parseAndCheck
  generalize parseF jsonOps sc n ty ⟨j, p⟩ (Res.new ⟨.title py!"Check meta model", []⟩) = x at h ⊢
  generalize parseF jsonOps sc n ty ⟨j', p⟩ (Res.new ⟨.title py!"Check meta model", []⟩) = y at h ⊢
  cases x with
  | error e =>
    cases y with
    | error e' => obtain rfl : e = e' := h; rfl
    | ok q => exact h.elim
  | ok q =>
    cases y with
    | error e' => exact h.elim
    | ok q' =>
      obtain ⟨v, r⟩ := q
      obtain ⟨v', r'⟩ := q'
      obtain ⟨rfl, he⟩ : v = v' ∧ ResEq r r' := h
      have hlev : ((Res.new (⟨.title py!"Check", []⟩ : Note)).append r).level = ((Res.new (⟨.title py!"Check", []⟩ : Note)).append r').level := by
        simp [he.2.1]
      have hok : ((Res.new (⟨.title py!"Check", []⟩ : Note)).append r).ok = ((Res.new (⟨.title py!"Check", []⟩ : Note)).append r').ok := by
        simp only [Res.ok, hlev]
      simp only [hok]
      split
      · cases checkConstraints name checks v [] (Res.new ⟨.title py!"Check constraints", []⟩) with
        | error e => rfl
        | ok rc => simp only [Except.map, append_level, hlev]
      · simp only [Except.map, append_level, Except.ok.injEq, Prod.mk.injEq, and_true]
        simpa using congrArg (·.or (Level.warning)) hlev

example : Reorder Toy.doc (.obj [(py!"items", .arr [Toy.leafJ', Toy.groupJ]), (py!"modelType", .str py!"Root")]) :=
  .step (.step (.refl _) (Step.member (pre := [(py!"modelType", .str py!"Root")]) (post := []) (.item (pre := []) (.here (List.reverse_perm _).symm))))
    (.here (.swap _ _ _))

/-! ## C40 (JSON) -/

/-- every typed object is accepted in its JSON form, nothing is reported, and the same content is read back -/
theorem C40_json_content (hs : Sane sc) (hd : DistinctKeys sc) (tagged : C → Bool) (ht : TagsNeeded sc tagged) (ty : Ty C E S)
    (v : Val C E S F) (hv : HasType sc ty v) (n : Nat) (hn : (toJson sc tagged v).size < n) (res : Res Note) (hres : res.ok = true) :
    ∃ w, parseF jsonOps sc n ty ⟨toJson sc tagged v, []⟩ res = .ok (w, res) ∧ strip w = strip v := by
  obtain ⟨w, hr, he⟩ := HasType.read_json hs hd ht hv []
  have hg := parseF_good jsonOps sc _ json_lawful (fun _ => True) ⟨fun _ _ _ _ _ _ => trivial, fun _ _ _ _ _ _ _ => trivial⟩
    n ty ⟨toJson sc tagged v, []⟩ hn trivial res
  cases hx : parseF jsonOps sc n ty ⟨toJson sc tagged v, []⟩ res with
  | error e => rw [hx] at hg; exact absurd hr (hg w)
  | ok q =>
    obtain ⟨x, r⟩ := q
    rw [hx] at hg
    obtain ⟨notes, rfl, -, hu, -⟩ := hg
    obtain ⟨rfl, h2⟩ := hu w hr
    refine ⟨x, rfl, ?_⟩
    rw [← h2 hres, he]

/-- an object that was read from a document (of any format) is read back unchanged from its JSON form -/
theorem C40_json (hs : Sane sc) (hd : DistinctKeys sc) (tagged : C → Bool) (ht : TagsNeeded sc tagged) (ty : Ty C E S)
    (hl : ops.Lawful size) (he : NoEmpty ops) (a : A) (m : Nat) (hm : size a < m) (v : Val C E S F) (res r : Res Note)
    (hv : parseF ops sc m ty a res = .ok (v, r)) (hok : r.ok = true)
    (n : Nat) (hn : (toJson sc tagged v).size < n) (res' : Res Note) (hres' : res'.ok = true) :
    parseF jsonOps sc n ty ⟨toJson sc tagged v, []⟩ res' = .ok (v, res') := by
  have hg := parseF_good ops sc _ hl (fun _ => True) ⟨fun _ _ _ _ _ _ => trivial, fun _ _ _ _ _ _ _ => trivial⟩
    m ty a hm trivial res
  rw [hv] at hg
  obtain ⟨notes, rfl, -, -, hr⟩ := hg
  obtain ⟨h1, h2⟩ := (appendAll_errs_ok _ _).mp hok
  have hread := hr h2 h1
  obtain ⟨w, hw, hs'⟩ := C40_json_content sc hs hd tagged ht ty v (Read.typed hs he hread) n hn res' hres'
  have hg' := parseF_good jsonOps sc _ json_lawful (fun _ => True) ⟨fun _ _ _ _ _ _ => trivial, fun _ _ _ _ _ _ _ => trivial⟩
    n ty ⟨toJson sc tagged v, []⟩ hn trivial res'
  rw [hw] at hg' ⊢
  obtain ⟨notes', hn', -, -, hr'⟩ := hg'
  have hnil : notes' = [] := ((appendAll_errs_ok res' notes').mp (hn' ▸ hres')).2
  rw [Read.strip_inj hs he json_nonempty hread _ _ (hr' hnil hres') hs'.symm]

example : parseF jsonOps Toy.schema 40 (.cls .root) ⟨toJson Toy.schema (fun _ => true) Toy.docV, []⟩ (Res.new ⟨.title [], []⟩) =
    .ok (Toy.docV, Res.new ⟨.title [], []⟩) :=
  C40_json Toy.schema jsonOps _ Toy.sane Toy.distinct _ ⟨fun _ _ => rfl, fun _ _ _ _ => rfl⟩ _ json_lawful json_nonempty ⟨Toy.doc, []⟩ 40 (by decide) _ _ _
    Toy.parsed rfl 40 (by decide) _ rfl

/-! ## C41 -/
section
variable (name : F → Str) (checks : C → List (Val C E S F → Chk Unit)) (v : Val C E S F)

/-- `o` is a violation of a check of the object `x`, which is nested in `v` at `p` -/
def Violates (p : List PTok) (x : Val C E S F) (text : Str) (level : Level) : Prop :=
  Nested name v p x ∧ ∃ check ∈ checksOf checks x, check x = .error (.violated text level)

/-- The constraint check raises iff a check of a nested object raises something else than a violation. -/
theorem C41_raises (res : Res Note) :
    (∃ e, checkConstraints name checks v [] res = .error e) ↔
      ∃ p x e, Nested name v p x ∧ ∃ check ∈ checksOf checks x, check x = .error (.py e) := by
  have h := checkConstraints_spec name checks v [] res
  cases hc : checkConstraints name checks v [] res with
  | error e =>
    rw [hc] at h
    obtain ⟨o, ho, f, hf, hr⟩ := h
    obtain ⟨q, -, hq⟩ := (mem_objects name v [] o).mp ho
    exact ⟨fun _ => ⟨q, o.2, e, hq, f, hf, hr⟩, fun _ => ⟨e, rfl⟩⟩
  | ok r =>
    rw [hc] at h
    constructor
    · rintro ⟨e, he⟩; cases he
    · rintro ⟨p, x, e, hx, f, hf, hr⟩
      exact absurd hr (h.2 (p, x) ((mem_objects name v [] _).mpr ⟨p, rfl, hx⟩) f hf e)

/-- The exception is the one of the check. -/
theorem C41_kind (res : Res Note) (e : PyExc) (h : checkConstraints name checks v [] res = .error e) :
    ∃ p x, Nested name v p x ∧ ∃ check ∈ checksOf checks x, check x = .error (.py e) := by
  have hs := checkConstraints_spec name checks v [] res
  rw [h] at hs
  obtain ⟨o, ho, f, hf, hr⟩ := hs
  obtain ⟨q, -, hq⟩ := (mem_objects name v [] o).mp ho
  exact ⟨q, o.2, hq, f, hf, hr⟩

/-- The verdict is ok iff no nested object violates a constraint (of level ERROR or CRITICAL). -/
theorem C41_verdict (res r : Res Note) (hres : res.ok = true) (h : checkConstraints name checks v [] res = .ok r) :
    r.ok = true ↔ ∀ p x text level, Violates name checks v p x text level → level = .info ∨ level = .warning := by
  have hs := checkConstraints_spec name checks v [] res
  rw [h] at hs
  obtain ⟨rfl, -⟩ := hs
  rw [appendAll_ok]
  simp only [hres, true_and, List.mem_flatMap, List.mem_filterMap]
  constructor
  · rintro h p x text level ⟨hn, f, hf, hv⟩
    have := h (Res.new ⟨.constraint text, p⟩ level) ⟨(p, x), (mem_objects name v [] _).mpr ⟨p, rfl, hn⟩, f, hf, by simp [violation, hv]⟩
    cases level <;> simp [Res.ok, Res.new, Res.level] at this ⊢
  · rintro h s ⟨⟨p, x⟩, hm, f, hf, hv⟩
    obtain ⟨q, hq, hn⟩ := (mem_objects name v [] _).mp hm
    simp only [List.nil_append] at hq
    subst hq
    simp only [violation] at hv
    split at hv
    · rename_i text level hfx
      cases hv
      have := h p x text level ⟨hn, f, hf, hfx⟩
      rcases this with rfl | rfl <;> rfl
    · cases hv

/-- Exactly the violations are reported, each with its level and the path of the object. -/
theorem C41_reported (m : Note) (r : Res Note) (h : checkConstraints name checks v [] (Res.new m) = .ok r) (s : Res Note) :
    s ∈ r.subs ↔ ∃ p x text level, Violates name checks v p x text level ∧ s = Res.new ⟨.constraint text, p⟩ level := by
  have hs := checkConstraints_spec name checks v [] (Res.new m)
  rw [h] at hs
  obtain ⟨rfl, -⟩ := hs
  rw [appendAll_subs]
  simp only [new_subs, List.nil_append, List.mem_flatMap, List.mem_filterMap]
  constructor
  · rintro ⟨⟨p, x⟩, hm, f, hf, hv⟩
    obtain ⟨q, hq, hn⟩ := (mem_objects name v [] _).mp hm
    simp only [List.nil_append] at hq
    subst hq
    simp only [violation] at hv
    split at hv
    · rename_i text level hfx
      cases hv
      exact ⟨p, x, text, level, ⟨hn, f, hf, hfx⟩, rfl⟩
    · cases hv
  · rintro ⟨p, x, text, level, ⟨hn, f, hf, hfx⟩, rfl⟩
    exact ⟨(p, x), (mem_objects name v [] _).mpr ⟨p, rfl, hn⟩, f, hf, by simp [violation, hfx]⟩

/-- They are reported once each: in the order of the objects, and per object in the order of the checks. -/
theorem C41_once (m : Note) (r : Res Note) (h : checkConstraints name checks v [] (Res.new m) = .ok r) :
    r.subs = (objects name v []).flatMap fun o => (checksOf checks o.2).filterMap (violation o.1 o.2) := by
  have hs := checkConstraints_spec name checks v [] (Res.new m)
  rw [h] at hs
  obtain ⟨rfl, -⟩ := hs
  rw [appendAll_subs]
  rfl

/-- No place is visited twice: the objects have different paths, so that a line is about one object only. -/
theorem C41_places (hd : DistinctNames name v) : ((objects name v []).map (·.1)).Nodup ∧
    ∀ p x y, Nested name v p x → Nested name v p y → x = y := by
  have hn := places_nodup name v [] hd
  refine ⟨hn, fun p x y hx hy => ?_⟩
  have h1 := (mem_objects name v [] (p, x)).mpr ⟨p, rfl, hx⟩
  have h2 := (mem_objects name v [] (p, y)).mpr ⟨p, rfl, hy⟩
  generalize objects name v [] = l at hn h1 h2
  induction l with
  | nil => cases h1
  | cons o l ih =>
    rw [List.map_cons, List.nodup_cons] at hn
    rcases List.mem_cons.mp h1 with e1 | m1 <;> rcases List.mem_cons.mp h2 with e2 | m2
    · exact congrArg Prod.snd (e1.trans e2.symm)
    · exact absurd (List.mem_map.mpr ⟨(p, y), m2, by rw [← e1]⟩) hn.1
    · exact absurd (List.mem_map.mpr ⟨(p, x), m1, by rw [← e2]⟩) hn.1
    · exact ih hn.2 m1 m2
end

-- the places of the objects of a document
example : (objects Toy.nameOf Toy.docV []).map (·.1) = [[], [.key py!"items", .idx 0], [.key py!"items", .idx 1],
    [.key py!"items", .idx 1, .key py!"items", .idx 0]] := by decide +kernel

-- the red leaves are found at both depths
example : ((checkConstraints Toy.nameOf Toy.checks Toy.docV [] (Res.new ⟨.title [], []⟩)).map (fun r => r.subs.map (·.msg))) =
    .ok [⟨.constraint py!"red", [.key py!"items", .idx 0]⟩, ⟨.constraint py!"group", [.key py!"items", .idx 1]⟩,
      ⟨.constraint py!"red", [.key py!"items", .idx 1, .key py!"items", .idx 0]⟩] := by
  simp [checkConstraints, checkAttrs, checkItems, Toy.docV, Toy.leafV, Toy.checks, runChecks, Toy.nameOf, Except.map, Res.append, Res.new,
    Res.subs, Res.msg]

end
end Verif.Props
