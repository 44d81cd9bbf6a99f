import Verif.FaultLemmas3
import Verif.Props.XmlAccepted

/-!
# C86 Every mistake of a document is reported, with its kind and its place

`Fault` and `XFault` (Spec/Faults.lean) say what is wrong with a JSON value and with an XML element, and where.
-/

namespace Verif.Props
open Verif Verif.Parse Verif.Spec.Parse Verif.Aas Verif.Spec.Model Verif.Engine Verif.Spec.Engine Res

theorem errs_new {m : Note} (notes : List Note) : ((Res.new m).appendAll (errs notes)).subs.map (·.msg) = notes := by
  have h : ∀ (notes : List Note) (res : Res Note), (res.appendAll (errs notes)).subs = res.subs ++ errs notes := by
    intro notes
    induction notes with
    | nil => intro res; simp [errs, Res.appendAll]
    | cons n notes ih =>
      intro res
      have := ih (res.append (Res.new n .error))
      cases res
      simpa [errs, Res.appendAll, Res.append, Res.subs] using this
  rw [h]
  simp [errs, Res.new, Res.subs, Res.msg, Function.comp_def]

section
variable {C E S F : Type} (sc : Schema C E S F)

/-- JSON: the parser returns for every document, and what it adds to the report are exactly the mistakes of the document, each once. -/
theorem C86_json (hs : Sane sc) (hd : DistinctKeys sc) (hsup : sc.Supported) (ty : Ty C E S) (hty : Parse.Supported ty) (j : Json) (hw : WF j)
    (p : List PTok) (n : Nat) (hn : j.size < n) (res : Res Note) (hres : res.ok = true) :
    ∃ v notes, parseF jsonOps sc n ty ⟨j, p⟩ res = .ok (v, res.appendAll (errs notes)) ∧ (∀ m, m ∈ notes ↔ Fault sc ty j p m) ∧ notes.Nodup := by
  obtain ⟨v, notes, h, -⟩ := C35_returns sc hs hsup ty hty j hw p n hn res hres
  obtain ⟨notes', h1, h2, h3⟩ := parseF_notes json_places hd n ty ⟨j, p⟩ res hw _ _ h
  exact ⟨v, notes', by rw [h, h1], fun m => (h2 m).trans (json_fault (a := ⟨j, p⟩) hs hw), h3⟩

/-- two mistakes: a name in the wrong format and an unknown color; nothing else is wrong -/
example : ∀ m, Fault Toy.schema (.cls .root) Toy.badDoc [] m ↔
    m ∈ [(⟨.format, [.key py!"items", .idx 1, .key py!"items", .idx 0, .key py!"name"]⟩ : Note),
       ⟨.notInEnum, [.key py!"items", .idx 1, .key py!"items", .idx 0, .key py!"color"]⟩] := by
  have hw : WF Toy.badDoc := by
    unfold Toy.badDoc Toy.leafJ
    repeat first | exact .str _ | (refine .obj (by decide) ?_; simp only [List.forall_mem_cons, List.not_mem_nil, false_implies, implies_true, and_true]) | (refine .arr ?_; simp only [List.forall_mem_cons, List.not_mem_nil, false_implies, implies_true, and_true]) | constructor
  obtain ⟨v, notes, h1, h2, -⟩ := C86_json Toy.schema Toy.sane Toy.distinct Toy.supported (.cls .root) trivial Toy.badDoc hw [] 40 (by decide)
    (Res.new ⟨.title [], []⟩) rfl
  have h3 : parseF jsonOps Toy.schema 40 (.cls .root) ⟨Toy.badDoc, []⟩ (Res.new ⟨.title [], []⟩) = .ok (_, (Res.new ⟨.title [], []⟩).appendAll (errs
      [⟨.format, [.key py!"items", .idx 1, .key py!"items", .idx 0, .key py!"name"]⟩,
       ⟨.notInEnum, [.key py!"items", .idx 1, .key py!"items", .idx 0, .key py!"color"]⟩])) := rfl
  rw [h3] at h1
  simp only [Except.ok.injEq, Prod.mk.injEq] at h1
  intro m
  rw [← h2, ← errs_new notes, ← h1.2, errs_new]

/-- XML: what the parser adds to the report are exactly the mistakes of the document, each once. -/
theorem C86_xml (hs : Sane sc) (hx : XmlNames sc) (hd : DistinctKeys sc) (ty : Ty C E S) (x : Xml) (p : List PTok) (n : Nat) (res r : Res Note)
    (v : Val C E S F) (h : parseF xmlOps sc n ty ⟨x, p⟩ res = .ok (v, r)) :
    ∃ notes, r = res.appendAll (errs notes) ∧ (∀ m, m ∈ notes ↔ XFault sc ty x p m) ∧ notes.Nodup := by
  obtain ⟨notes, h1, h2, h3⟩ := parseF_notes xml_places hd n ty ⟨x, p⟩ res trivial _ _ h
  exact ⟨notes, h1, fun m => (h2 m).trans (xml_fault (a := ⟨x, p⟩) hs hx), h3⟩

/-- A JSON value has no mistakes iff it conforms to the type. -/
theorem C86_conforms (hs : Sane sc) (hd : DistinctKeys sc) (hsup : sc.Supported) (ty : Ty C E S) (hty : Parse.Supported ty) (j : Json) (hw : WF j)
    (p : List PTok) : Conforms sc ty j ↔ ∀ m, ¬ Fault sc ty j p m := by
  have hres : (Res.new (⟨.title [], []⟩ : Note)).ok = true := rfl
  obtain ⟨v, notes, h, h1, -⟩ := C86_json sc hs hd hsup ty hty j hw p (j.size + 1) (Nat.lt_succ_self _) _ hres
  rw [← C35_conforms sc hs ty j hw p (j.size + 1) (Nat.lt_succ_self _) _ _ v hres h, appendAll_errs_ok]
  simp only [hres, true_and, ← h1, List.eq_nil_iff_forall_not_mem]

/-- An XML element, in which all elements have names, has no mistakes iff it is accepted. -/
theorem C86_accepted (hs : Sane sc) (hx : XmlNames sc) (hd : DistinctKeys sc) (hsup : sc.Supported) (ty : Ty C E S) (hty : Parse.Supported ty) (x : Xml)
    (hnm : Named x) (p : List PTok) : (∃ w, XAccepts sc ty x w) ↔ ∀ m, ¬ XFault sc ty x p m := by
  have hres : (Res.new (⟨.title [], []⟩ : Note)).ok = true := rfl
  obtain ⟨v, notes, h, -⟩ := C66_format_partial sc hs hx hsup ty hty x hnm p (x.size + 1) (Nat.lt_succ_self _) _ hres
  obtain ⟨notes', h1, h2, h3⟩ := C86_xml sc hs hx hd ty x p _ _ _ v h
  constructor
  · rintro ⟨w, hw⟩ m hm
    obtain ⟨v', h4, -⟩ := (C83_accepted sc hs hx ty x p (x.size + 1) (Nat.lt_succ_self _) _ hres w).mpr hw
    rw [h] at h4
    simp only [Except.ok.injEq, Prod.mk.injEq] at h4
    rw [h1] at h4
    have h5 : ((Res.new (⟨.title [], []⟩ : Note)).appendAll (errs notes')).ok = true := by rw [h4.2]; rfl
    obtain ⟨-, rfl⟩ := (appendAll_errs_ok _ _).mp h5
    exact absurd ((h2 m).mpr hm) (by simp)
  · intro hno
    have h4 : notes' = [] := List.eq_nil_iff_forall_not_mem.mpr fun m hm => hno m ((h2 m).mp hm)
    rw [h1, h4] at h
    exact ⟨_, (C83_accepted sc hs hx ty x p (x.size + 1) (Nat.lt_succ_self _) _ hres _).mp ⟨v, h, rfl⟩⟩

end

/-! ## documents -/

section
variable (lim : Option Nat)

/-- the report on a document with these mistakes -/
def faultReport (notes : List Note) : Res Note :=
  ((Res.new ⟨.title py!"Check", []⟩).append ((Res.new ⟨.title py!"Check meta model", []⟩).appendAll (errs notes))).append (Res.new ⟨.skipped, []⟩ .warning)

/-- The whole report on JSON data that does not conform to the meta-model: all its mistakes, each once, and the note that the constraints were not
checked. -/
theorem C86_data (T : Str) (c : Cls) (hT : symbol T = .ok (.cls c)) (j : Json) (hw : WF j) (h : ¬ Conforms (schema lim) (.cls c) j) :
    ∃ notes v, jsonToObj lim j T = .ok (faultReport notes, v) ∧ notes ≠ [] ∧ notes.Nodup ∧ ∀ m, m ∈ notes ↔ Fault (schema lim) (.cls c) j [] m := by
  have hres : (Res.new (⟨.title py!"Check meta model", []⟩ : Note)).ok = true := rfl
  obtain ⟨v, notes, h1, h2, h3⟩ := C86_json (schema lim) (sane lim) (distinctKeys lim) (supported lim) (.cls c) trivial j hw [] (j.size + 1)
    (Nat.lt_succ_self _) _ hres
  have hne : notes ≠ [] := by
    rintro rfl
    exact h ((C86_conforms (schema lim) (sane lim) (distinctKeys lim) (supported lim) (.cls c) trivial j hw []).mpr fun m hm => by
      have := (h2 m).mpr hm; cases this)
  have hno : ((Res.new (⟨.title py!"Check meta model", []⟩ : Note)).appendAll (errs notes)).ok = false := by
    rw [← Bool.not_eq_true]
    exact fun hh => hne ((appendAll_errs_ok _ _).mp hh).2
  obtain ⟨h4, h5⟩ := (C36_check (schema lim) jsonOps _ json_lawful (sane lim) json_nonempty Fld.pyName (checks lim) (.cls c) ⟨j, []⟩ (j.size + 1)
    (Nat.lt_succ_self _) v _ h1).1 hno
  refine ⟨notes, v, ?_, hne, h3, h2⟩
  rw [jsonToObj, toObj, hT]
  change (parseAndCheck jsonOps (schema lim) Fld.pyName (checks lim) (j.size + 1) (.cls c) ⟨j, []⟩ >>= _) = _
  rw [h4]
  change (if (faultReport notes).ok = true then _ else _) = _
  rw [if_neg (by rw [Bool.not_eq_true]; exact h5)]
  rfl

/-- the lines below the headings of a report -/
def faultLines (x : Except PyExc (Res Note × AVal)) : Except PyExc (List Note) := x.map fun r => (r.1.subs.flatMap (·.subs)).map (·.msg)

/-- a submodel without `id`, with an unknown attribute, an empty list, a number instead of a text, and an element without type -/
def faultyJson : Json := .obj [(py!"submodels", .arr [.obj [(py!"modelType", .str py!"Submodel"), (py!"idShort", .num 7), (py!"qualifiers", .arr []),
  (py!"submodelElements", .arr [.obj [(py!"idShort", .str py!"p")], .obj [(py!"modelType", .str py!"Prop")],
    .obj [(py!"modelType", .str py!"Property"), (py!"idShort", .str py!"q"), (py!"valueType", .str py!"int")]]), (py!"Id", .str py!"urn:x")]])]

example : faultLines (jsonToObj none faultyJson py!"Environment") = .ok [
    ⟨.emptyList, [.key py!"submodels", .idx 0, .key py!"qualifiers"]⟩,
    ⟨.notAString, [.key py!"submodels", .idx 0, .key py!"idShort"]⟩,
    ⟨.missingAttribute py!"id", [.key py!"submodels", .idx 0]⟩,
    ⟨.noModelType, [.key py!"submodels", .idx 0, .key py!"submodelElements", .idx 0]⟩,
    ⟨.invalidModelType, [.key py!"submodels", .idx 0, .key py!"submodelElements", .idx 1]⟩,
    ⟨.notInEnum, [.key py!"submodels", .idx 0, .key py!"submodelElements", .idx 2, .key py!"valueType"]⟩,
    ⟨.unknownAttribute py!"Id", [.key py!"submodels", .idx 0]⟩] := by decide +kernel

/-- The whole report on XML data that has mistakes, if there is one: exceptions are raised for elements without names only (`C83_document`). -/
theorem C86_xml_data (T : Str) (c : Cls) (hT : symbol T = .ok (.cls c)) (x : Xml) (r : Res Note) (v : AVal) (h : xmlToObj lim x T = .ok (r, v))
    (m : Note) (hm : XFault (schema lim) (.cls c) x [] m) :
    ∃ notes, r = faultReport notes ∧ notes.Nodup ∧ ∀ m, m ∈ notes ↔ XFault (schema lim) (.cls c) x [] m := by
  have hres : (Res.new (⟨.title py!"Check meta model", []⟩ : Note)).ok = true := rfl
  rw [xmlToObj, toObj, hT] at h
  change (parseAndCheck xmlOps (schema lim) Fld.pyName (checks lim) (x.size + 1) (.cls c) ⟨x, []⟩ >>= _) = _ at h
  cases hp : parseF xmlOps (schema lim) (x.size + 1) (.cls c) ⟨x, []⟩ (Res.new ⟨.title py!"Check meta model", []⟩) with
  | error e => rw [parseAndCheck, hp] at h; cases h
  | ok q =>
    obtain ⟨v', r'⟩ := q
    obtain ⟨notes, rfl, h2, h3⟩ := C86_xml (schema lim) (sane lim) (xmlNames lim) (distinctKeys lim) (.cls c) x [] _ _ _ _ hp
    have hno : ((Res.new (⟨.title py!"Check meta model", []⟩ : Note)).appendAll (errs notes)).ok = false := by
      rw [← Bool.not_eq_true]
      intro hh
      have := (h2 m).mpr hm
      rw [((appendAll_errs_ok _ _).mp hh).2] at this
      cases this
    obtain ⟨h4, h5⟩ := (C36_check (schema lim) xmlOps _ xml_lawful (sane lim) xml_nonempty Fld.pyName (checks lim) (.cls c) ⟨x, []⟩ (x.size + 1)
      (Nat.lt_succ_self _) v' _ hp).1 hno
    rw [h4] at h
    change (if (faultReport notes).ok = true then _ else _) = _ at h
    rw [if_neg (by rw [Bool.not_eq_true]; exact h5)] at h
    cases h
    exact ⟨notes, rfl, h3, h2⟩

/-- another namespace, a text among the attributes, an attribute of another class, elements inside of a text, a wrong element in a list, and two
elements in the value of an operation variable -/
def faultyXml : Xml := el py!"environment" none [el py!"submodels" none [.elem py!"{x}submodel" none [],
  el py!"submodel" (some py!"text") [], el py!"submodel" none [tx py!"id" py!"urn:x", tx py!"value" py!"v", el py!"idShort" none [el py!"b" none [tx py!"c" []]],
    el py!"submodelElements" none [tx py!"prop" [], el py!"operation" none [tx py!"idShort" py!"o", el py!"inputVariables" none
      [el py!"operationVariable" none [el py!"value" none [tx py!"property" [], tx py!"property" []]]]]]]]]

example : faultLines (xmlToObj none faultyXml py!"Environment") = .ok [
    ⟨.badNamespace, [.key py!"submodels", .idx 0]⟩,
    ⟨.inlineText, [.key py!"submodels", .idx 1]⟩,
    ⟨.childElements, [.key py!"submodels", .idx 2, .key py!"idShort"]⟩,
    ⟨.invalidModelType, [.key py!"submodels", .idx 2, .key py!"submodelElements", .idx 0]⟩,
    ⟨.notOneChild, [.key py!"submodels", .idx 2, .key py!"submodelElements", .idx 1, .key py!"inputVariables", .idx 0]⟩,
    ⟨.unknownAttribute py!"value", [.key py!"submodels", .idx 2]⟩] := by decide +kernel

end

end Verif.Props
