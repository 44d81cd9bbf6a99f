import Verif.XmlSchema
import Verif.Props.Document
import Verif.Samples

/-! # XML documents -/

namespace Verif.Props
open Verif Verif.Parse Verif.Spec.Parse Verif.Aas Verif.Spec.Model Res

section
variable {C E S F A : Type} (sc : Schema C E S F)

/-- parsing, in terms of what can be read -/
theorem xml_outcome (ty : Ty C E S) (x : Xml) (p : List PTok) (n : Nat) (hn : x.size < n) (res r : Res Note) (v : Val C E S F)
    (h : parseF xmlOps sc n ty ⟨x, p⟩ res = .ok (v, r)) : ∃ notes, r = res.appendAll (errs notes) ∧
      (∀ w, Read xmlOps sc ty ⟨x, p⟩ w → notes = [] ∧ (res.ok = true → w = v)) ∧ (notes = [] → res.ok = true → Read xmlOps sc ty ⟨x, p⟩ v) := by
  have hg := parseF_good xmlOps sc _ xml_lawful (fun _ => True) ⟨fun _ _ _ _ _ _ => trivial, fun _ _ _ _ _ _ _ => trivial⟩
    n ty ⟨x, p⟩ hn trivial res
  rw [h] at hg
  obtain ⟨notes, h1, -, h2, h3⟩ := hg
  exact ⟨notes, h1, h2, h3⟩

/-! ## C66 -/

/-- Every document whose elements have names is checked without exception. If it is in the XML format of the meta-model, nothing is
reported; if nothing is reported it is, up to the deviations listed with `XDescribes`. -/
theorem C66_format_partial (hs : Sane sc) (hx : XmlNames sc) (hsup : sc.Supported) (ty : Ty C E S) (hty : Parse.Supported ty) (x : Xml)
    (hnm : Named x) (p : List PTok) (n : Nat) (hn : x.size < n) (res : Res Note) (hres : res.ok = true) :
    ∃ v notes, parseF xmlOps sc n ty ⟨x, p⟩ res = .ok (v, res.appendAll (errs notes)) ∧
      ((∃ w, XDescribes sc false .item ty x w) → notes = []) ∧ (notes = [] → XDescribes sc true .item ty x (strip v)) := by
  obtain ⟨⟨v, r⟩, h⟩ := parseF_returns xmlOps xml_quiet xml_named sc hs hsup xml_nonempty _ xml_lawful n ty ⟨x, p⟩ hn hnm hty res
  obtain ⟨notes, rfl, h2, h3⟩ := xml_outcome sc ty x p n hn res r v h
  refine ⟨v, notes, h, ?_, fun hnil => Read.xml hs hx (h3 hnil hres)⟩
  rintro ⟨w, hw⟩
  obtain ⟨w', hr, -⟩ := XDescribes.read hs hx hw p
  exact (h2 w' hr).1

/-! ## C65 -/

/-- What is read from a document in the XML format is what it describes. -/
theorem C65_xml (hs : Sane sc) (hx : XmlNames sc) (ty : Ty C E S) (x : Xml) (w : Val C E S F)
    (hw : XDescribes sc false .item ty x w) (p : List PTok) (n : Nat)
    (hn : x.size < n) (res : Res Note) (hres : res.ok = true) :
    ∃ v, parseF xmlOps sc n ty ⟨x, p⟩ res = .ok (v, res) ∧ strip v = w := by
  have hg := parseF_good xmlOps sc _ xml_lawful (fun _ => True) ⟨fun _ _ _ _ _ _ => trivial, fun _ _ _ _ _ _ _ => trivial⟩
    n ty ⟨x, p⟩ hn trivial res
  obtain ⟨w', hr, hst⟩ := XDescribes.read hs hx hw p
  cases h : parseF xmlOps sc n ty ⟨x, p⟩ res with
  | error e => rw [h] at hg; exact absurd hr (hg w')
  | ok q =>
    obtain ⟨v, r⟩ := q
    obtain ⟨notes, rfl, h2, h3⟩ := xml_outcome sc ty x p n hn res r v h
    obtain ⟨rfl, h4⟩ := h2 w' hr
    exact ⟨v, rfl, by rw [← h4 hres, hst]⟩

/-- it describes no other value -/
theorem C65_xml_unique (hs : Sane sc) (hx : XmlNames sc) (ty : Ty C E S) (x : Xml) (v w : Val C E S F)
    (hv : XDescribes sc false .item ty x v) (hw : XDescribes sc false .item ty x w) : v = w := by
  have hres : (Res.new (⟨.title [], []⟩ : Note)).ok = true := rfl
  obtain ⟨a, h1, h2⟩ := C65_xml sc hs hx ty x v hv [] (x.size + 1) (Nat.lt_succ_self _) _ hres
  obtain ⟨b, h3, h4⟩ := C65_xml sc hs hx ty x w hw [] (x.size + 1) (Nat.lt_succ_self _) _ hres
  rw [h1] at h3
  cases h3
  rw [← h2, ← h4]

/-- nothing is read from any document without error but what it describes, up to the deviations -/
theorem C65_xml_content (hs : Sane sc) (hx : XmlNames sc) (ty : Ty C E S) (x : Xml) (p : List PTok) (n : Nat)
    (hn : x.size < n) (res r : Res Note) (v : Val C E S F) (h : parseF xmlOps sc n ty ⟨x, p⟩ res = .ok (v, r)) (hok : r.ok = true) :
    XDescribes sc true .item ty x (strip v) := by
  obtain ⟨notes, rfl, -, h3⟩ := xml_outcome sc ty x p n hn res r v h
  obtain ⟨h1, h2⟩ := (appendAll_errs_ok _ _).mp hok
  exact Read.xml hs hx (h3 h2 h1)

/-! ## C40 -/

/-- every typed object is accepted in its XML form, nothing is reported, and the same content is read back -/
theorem C40_xml_content (hs : Sane sc) (hx : XmlNames sc) (hd : DistinctKeys sc) (ty : Ty C E S) (v : Val C E S F) (hv : HasType sc ty v)
    (n : Nat) (hn : (toXml sc (itemTag sc v) v).size < n) (res : Res Note) (hres : res.ok = true) :
    ∃ w, parseF xmlOps sc n ty ⟨toXml sc (itemTag sc v) v, []⟩ res = .ok (w, res) ∧ strip w = strip v :=
  C65_xml sc hs hx ty _ _ (HasType.xml hx hd hv .item _ (fun _ _ _ => rfl) (fun h => by cases h)) [] n hn res hres

variable (ops : Ops A) (size : A → Nat)

/-- an object that was read from a document (of any format) is read back unchanged from its XML form -/
theorem C40_xml (hs : Sane sc) (hx : XmlNames sc) (hd : DistinctKeys sc) (ty : Ty C E S)
    (hl : ops.Lawful size) (he : NoEmpty ops) (a : A) (m : Nat) (hm : size a < m) (v : Val C E S F) (res r : Res Note)
    (hv : parseF ops sc m ty a res = .ok (v, r)) (hok : r.ok = true)
    (n : Nat) (hn : (toXml sc (itemTag sc v) v).size < n) (res' : Res Note) (hres' : res'.ok = true) :
    parseF xmlOps sc n ty ⟨toXml sc (itemTag sc v) v, []⟩ res' = .ok (v, res') := by
  have hg := parseF_good ops sc _ hl (fun _ => True) ⟨fun _ _ _ _ _ _ => trivial, fun _ _ _ _ _ _ _ => trivial⟩
    m ty a hm trivial res
  rw [hv] at hg
  obtain ⟨notes, rfl, -, -, hr⟩ := hg
  obtain ⟨h1, h2⟩ := (appendAll_errs_ok _ _).mp hok
  have hread := hr h2 h1
  obtain ⟨w, hw, hs'⟩ := C40_xml_content sc hs hx hd ty v (Read.typed hs he hread) n hn res' hres'
  obtain ⟨notes', h4, -, h6⟩ := xml_outcome sc ty _ [] n hn res' res' w hw
  have hnil : notes' = [] := ((appendAll_errs_ok res' notes').mp (h4 ▸ hres')).2
  rw [hw, Read.strip_inj hs he xml_nonempty hread _ _ (h6 hnil hres') hs'.symm]

/-- both formats lead to the same result: same verdict, same messages, same object -/
theorem C40_same (hs : Sane sc) (hx : XmlNames sc) (hd : DistinctKeys sc) (tagged : C → Bool) (ht : TagsNeeded sc tagged) (ty : Ty C E S)
    (v : Val C E S F) (hv : HasType sc ty v) (name : F → Str) (checks : C → List (Val C E S F → Chk Unit))
    (n m : Nat) (hn : (toJson sc tagged v).size < n) (hm : (toXml sc (itemTag sc v) v).size < m) :
    parseAndCheck jsonOps sc name checks n ty ⟨toJson sc tagged v, []⟩ =
      parseAndCheck xmlOps sc name checks m ty ⟨toXml sc (itemTag sc v) v, []⟩ := by
  have hres : (Res.new (⟨.title py!"Check meta model", []⟩ : Note)).ok = true := rfl
  obtain ⟨w, h1, h2⟩ := C40_json_content sc hs hd tagged ht ty v hv n hn _ hres
  obtain ⟨w', h3, h4⟩ := C40_xml_content sc hs hx hd ty v hv m hm _ hres
  have hg := parseF_good jsonOps sc _ json_lawful (fun _ => True) ⟨fun _ _ _ _ _ _ => trivial, fun _ _ _ _ _ _ _ => trivial⟩
    n ty ⟨toJson sc tagged v, []⟩ hn trivial (Res.new ⟨.title py!"Check meta model", []⟩)
  rw [h1] at hg
  obtain ⟨notes, g1, -, -, g2⟩ := hg
  obtain ⟨notes', k1, -, k2⟩ := xml_outcome sc ty _ [] m hm _ _ _ h3
  have e1 : notes = [] := ((appendAll_errs_ok _ notes).mp (g1 ▸ hres)).2
  have e2 : notes' = [] := ((appendAll_errs_ok _ notes').mp (k1 ▸ hres)).2
  have : w = w' := Read.strip_inj hs json_nonempty xml_nonempty (g2 e1 hres) _ _ (k2 e2 hres) (h2.trans h4.symm)
  subst this
  unfold parseAndCheck
  rw [h1, h3]

end

/-! ## C64 -/

/-- XML: a document in the XML format is reported as wrong iff an object breaks a rule, and the check raises iff a check raises on one
of its objects; a document that is not in the format, not even with the deviations, is reported as wrong. -/
theorem C64_xml (lim : Option Nat) (c : Cls) (hc : c ≠ .langStringSet) (x : Xml) (n : Nat) (hn : x.size < n) :
    (∀ w, XDescribes (schema lim) false .item (.cls c) x w → ∃ v, HasType (schema lim) (.cls c) v ∧ strip v = w ∧
      (Raising lim v → ∃ e, Mishap e ∧ checkDocument xmlOps lim n c ⟨x, []⟩ = .error e) ∧
      (¬ Raising lim v → ∃ r, checkDocument xmlOps lim n c ⟨x, []⟩ = .ok (r, v) ∧ (r.ok = true ↔ ∀ p t, ¬ Breaks lim v p t .error))) ∧
    (Named x → (∀ w, ¬ XDescribes (schema lim) true .item (.cls c) x w) →
      ∃ r v, checkDocument xmlOps lim n c ⟨x, []⟩ = .ok (r, v) ∧ r.ok = false) := by
  have hres : (Res.new (⟨.title py!"Check meta model", []⟩ : Note)).ok = true := rfl
  constructor
  · intro w hw
    obtain ⟨v, h, hst⟩ := C65_xml (schema lim) (sane lim) (xmlNames lim) (.cls c) x w hw [] n hn _ hres
    obtain ⟨-, f2⟩ := C64_formats lim xmlOps (fun a => a.value.size) xml_lawful xml_nonempty c hc ⟨x, []⟩ n hn v _ h
    obtain ⟨ht, h1, h2⟩ := f2 hres
    exact ⟨v, ht, hst, h1, h2⟩
  · intro hnm hno
    obtain ⟨v, notes, h, -, h2⟩ := C66_format_partial (schema lim) (sane lim) (xmlNames lim) (supported lim) (.cls c) trivial x hnm [] n hn _ hres
    obtain ⟨f1, -⟩ := C64_formats lim xmlOps (fun a => a.value.size) xml_lawful xml_nonempty c hc ⟨x, []⟩ n hn v _ h
    have : (((Res.new (⟨.title py!"Check meta model", []⟩ : Note)).appendAll (errs notes)).ok) = false := by
      rw [← Bool.not_eq_true]
      intro hh
      exact hno _ (h2 ((appendAll_errs_ok _ _).mp hh).2)
    obtain ⟨r, h3, h4⟩ := f1 this
    exact ⟨r, v, h3, h4⟩

/-! ## examples and deviations -/

/-- an element of the namespace -/
def el (tag : Str) (text : Option Str) (children : List Xml) : Xml := .elem (xmlns ++ tag) text children
def tx (tag text : Str) : Xml := el tag (some text) []

/-- an operation with an input variable, whose value is wrapped -/
def sampleXml (category : Str) : Xml := el py!"environment" (some [10]) [el py!"submodels" none [el py!"submodel" none [tx py!"id" py!"urn:x",
  el py!"submodelElements" none [el py!"operation" none [tx py!"idShort" py!"o", el py!"inputVariables" none [el py!"operationVariable" none
    [el py!"value" none [el py!"property" none [tx py!"category" category, tx py!"idShort" py!"p", tx py!"valueType" py!"xs:int"]]]]]]]]]

def verdictXml (c : Cls) (x : Xml) : Except PyExc Bool := (checkDocument xmlOps none 40 c ⟨x, []⟩).map (fun r => r.1.ok)

/-- a key with a second value -/
def twice : Xml := el py!"key" none [tx py!"type" py!"GlobalReference", tx py!"value" py!"a", tx py!"value" py!"b"]
/-- neither `true` nor `false` -/
def maybe : Xml := el py!"submodelElementList" none [tx py!"idShort" py!"l", tx py!"orderRelevant" py!"maybe", tx py!"typeValueListElement" py!"Property"]
/-- a list of keys, called differently -/
def renamed : Xml := el py!"reference" none [tx py!"type" py!"ExternalReference",
  el py!"keys" none [el py!"schluessel" none [tx py!"type" py!"GlobalReference", tx py!"value" py!"a"]]]
/-- an element without name -/
def nameless : Xml := el [] none [tx py!"type" py!"GlobalReference"]

example : verdictXml .environment (sampleXml py!"CONSTANT") = .ok true := by decide +kernel
example : verdictXml .environment (sampleXml py!"wrong") = .ok false := by decide +kernel

/-- attributes of an object described by an element -/
theorem attr_described {lim : Option Nat} {c : Cls} {x : Xml} {w : AVal} (h : XDescribes (schema lim) false .item (.cls c) x w)
    (hab : isAbstract c = false) {f key ty req} (hf : Field.mk f (.attr key ty req) ∈ fieldsOf c) {pre y post}
    (hsplit : x.children = pre ++ y :: post) (ht : y.tag = xmlns ++ key) : ∃ v, XDescribes (schema lim) false .attr ty y v := by
  cases h with
  | obj isA _ _ _ _ once names present =>
    rcases isA with ⟨-, rfl⟩ | ⟨h, -⟩
    · obtain ⟨v, hz⟩ := zip_mem_of_names names hf
      refine ⟨v, present f key ty req v pre y post hz hsplit ht ?_⟩
      rcases once with h | h
      · cases h
      · intro z hz'
        rw [← ht]
        exact nodup_split h hsplit z hz'
    · rw [show (schema lim).abstract c = false from hab] at h; cases h
  | wrappedItem h => cases h

/-- Documents that are accepted although they are not in the XML format: an attribute that occurs twice, a boolean that is neither true
nor false, a list element of another name; and one without a name, for which the check raises. -/
theorem C66_format_violated :
    (verdictXml .key twice = .ok true ∧ ∀ w, ¬ XDescribes (schema none) false .item (.cls .key) twice w) ∧
    (verdictXml .submodelElementList maybe = .ok true ∧ ∀ w, ¬ XDescribes (schema none) false .item (.cls .submodelElementList) maybe w) ∧
    (verdictXml .reference renamed = .ok true ∧ ∀ w, ¬ XDescribes (schema none) false .item (.cls .reference) renamed w) ∧
    verdictXml .key nameless = .error .indexError := by
  refine ⟨⟨by decide +kernel, fun w h => ?_⟩, ⟨by decide +kernel, fun w h => ?_⟩, ⟨by decide +kernel, fun w h => ?_⟩, by decide +kernel⟩
  · cases h with
    | obj isA _ _ _ _ once =>
      rcases once with h | h
      · cases h
      · exact absurd h (by decide)
    | wrappedItem h => cases h
  · obtain ⟨v, hv⟩ := attr_described h rfl (f := .orderRelevant) (key := py!"orderRelevant") (ty := .bool) (req := false) (by decide +kernel)
      (pre := [_]) rfl rfl
    cases hv with
    | bool _ h =>
      rcases h with ⟨h, -⟩ | ⟨h, -⟩ | ⟨h, -⟩
      · cases h
      · cases h
      · cases h
    | wrappedValue h => cases h
  · obtain ⟨v, hv⟩ := attr_described h rfl (f := .keys) (key := py!"keys") (ty := .list (.cls .key) false) (req := true) (by decide +kernel)
      (pre := [_]) rfl rfl
    cases hv with
    | list _ _ len items =>
      rename_i vs _ _
      obtain ⟨u, hu⟩ : ∃ u, vs[0]? = some u := ⟨vs[0]'(by rw [← len]; decide), by simp⟩
      have hi := items 0 _ u rfl hu
      cases hi with
      | obj isA _ called =>
        rcases isA with ⟨-, rfl⟩ | ⟨h, -⟩
        · rcases called (by decide) with h | ⟨h, -⟩
          · exact absurd h (by decide)
          · cases h
        · cases h
      | wrappedItem h => cases h
    | wrappedValue h => cases h

/-- a reference in the XML format -/
def reference : Xml := el py!"reference" none [tx py!"type" py!"ExternalReference",
  el py!"keys" none [el py!"key" none [tx py!"type" py!"GlobalReference", tx py!"value" py!"a"]]]

example : HasType (schema none) (.cls .reference) (Samples.globalRef py!"a") ∧
    toXml (schema none) (itemTag (schema none) (Samples.globalRef py!"a")) (Samples.globalRef py!"a") = reference :=
  ⟨Samples.typedB_sound 9 _ _ (by decide +kernel), by rfl⟩

end Verif.Props
