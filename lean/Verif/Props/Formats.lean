import Verif.Props.EndToEnd
import Verif.Props.Levels

/-!
# C87: the report depends on nothing but the content of the document

Two documents of the same content lead to equal reports, or to the same exception: whether they are given as JSON or as XML, whatever the order of
their attributes and the name of list items. The content is that of C65 (JSON) and C83 (XML).
-/

namespace Verif.Props
open Verif Verif.Parse Verif.Spec.Parse Verif.Aas Verif.Spec.Model Verif.Engine Verif.Spec.Engine Verif.File Verif.Cli Verif.Spec.Cli Res

/-- The document has the content, and is accepted by the check of the meta-model. -/
inductive Holds {C E S F : Type} (sc : Schema C E S F) (ty : Ty C E S) : Json ⊕ Xml → Val C E S F → Prop
  | json {j w} : WF j → Conforms sc ty j → Spec.Parse.Describes sc ty j w → Holds sc ty (.inl j) w
  | xml {x w} : XAccepts sc ty x w → Holds sc ty (.inr x) w

/-- the check of a document of either format -/
def checkData (g : File.Engine Json Xml) (T : Str) : Json ⊕ Xml → Except PyExc (Res Str)
  | .inl j => checkJsonData g j T
  | .inr x => checkXmlData g x T

section
variable {C E S F : Type} (sc : Schema C E S F)

theorem json_reads (hs : Sane sc) {ty : Ty C E S} {j : Json} {w : Val C E S F} (hw : WF j) (hc : Conforms sc ty j) (hd : Spec.Parse.Describes sc ty j w)
    {n : Nat} (hn : j.size < n) {res : Res Note} (hres : res.ok = true) :
    ∃ v, parseF jsonOps sc n ty ⟨j, []⟩ res = .ok (v, res) ∧ strip v = w ∧ Read jsonOps sc ty ⟨j, []⟩ v := by
  obtain ⟨v', hr'⟩ := Conforms.read hs hc hw []
  have hg := parseF_good jsonOps sc _ json_lawful (fun _ => True) ⟨fun _ _ _ _ _ _ => trivial, fun _ _ _ _ _ _ _ => trivial⟩
    n ty ⟨j, []⟩ hn trivial res
  cases h : parseF jsonOps sc n ty ⟨j, []⟩ res with
  | error e => rw [h] at hg; exact absurd hr' (hg v')
  | ok q =>
    obtain ⟨v, r⟩ := q
    rw [h] at hg
    obtain ⟨notes, rfl, -, h2, h3⟩ := hg
    obtain ⟨hnil, -⟩ := h2 v' hr'
    have hread := h3 hnil hres
    subst hnil
    exact ⟨v, rfl, C65_unique sc hs ty j hw _ _ (Read.describes hs hread hw) hd, hread⟩

theorem xml_reads (hs : Sane sc) (hx : XmlNames sc) {ty : Ty C E S} {x : Xml} {w : Val C E S F} (h : XAccepts sc ty x w)
    {n : Nat} (hn : x.size < n) {res : Res Note} (hres : res.ok = true) :
    ∃ v, parseF xmlOps sc n ty ⟨x, []⟩ res = .ok (v, res) ∧ strip v = w ∧ Read xmlOps sc ty ⟨x, []⟩ v := by
  obtain ⟨v, h1, h2⟩ := (C83_accepted sc hs hx ty x [] n hn res hres w).mpr h
  obtain ⟨notes, e, -, h3⟩ := xml_outcome sc ty x [] n hn res res v h1
  have hok : (res.appendAll (errs notes)).ok = true := e ▸ hres
  exact ⟨v, h1, h2, h3 ((appendAll_errs_ok _ _).mp hok).2 hres⟩

/-- the parsed value of a document of either format -/
def parseDoc (ty : Ty C E S) (d : Json ⊕ Xml) (res : Res Note) : Except PyExc (Val C E S F × Res Note) :=
  match d with
  | .inl j => parseF jsonOps sc (j.size + 1) ty ⟨j, []⟩ res
  | .inr x => parseF xmlOps sc (x.size + 1) ty ⟨x, []⟩ res

/-- the object that is read, with all paths stored in it, is determined by the content -/
theorem C87_object (hs : Sane sc) (hx : XmlNames sc) (ty : Ty C E S) (d d' : Json ⊕ Xml) (w : Val C E S F) (h : Holds sc ty d w) (h' : Holds sc ty d' w)
    (res : Res Note) (hres : res.ok = true) : ∃ v, strip v = w ∧ parseDoc sc ty d res = .ok (v, res) ∧ parseDoc sc ty d' res = .ok (v, res) := by
  cases h with
  | json g1 g2 g3 =>
    obtain ⟨v, e, hs1, hr⟩ := json_reads sc hs g1 g2 g3 (Nat.lt_succ_self _) hres
    cases h' with
    | json k1 k2 k3 =>
      obtain ⟨v', e', hs2, hr'⟩ := json_reads sc hs k1 k2 k3 (Nat.lt_succ_self _) hres
      have := Read.strip_inj hs json_nonempty json_nonempty hr _ _ hr' (hs1.trans hs2.symm)
      subst this
      exact ⟨v, hs1, e, e'⟩
    | xml k =>
      obtain ⟨v', e', hs2, hr'⟩ := xml_reads sc hs hx k (Nat.lt_succ_self _) hres
      have := Read.strip_inj hs json_nonempty xml_nonempty hr _ _ hr' (hs1.trans hs2.symm)
      subst this
      exact ⟨v, hs1, e, e'⟩
  | xml g =>
    obtain ⟨v, e, hs1, hr⟩ := xml_reads sc hs hx g (Nat.lt_succ_self _) hres
    cases h' with
    | json k1 k2 k3 =>
      obtain ⟨v', e', hs2, hr'⟩ := json_reads sc hs k1 k2 k3 (Nat.lt_succ_self _) hres
      have := Read.strip_inj hs xml_nonempty json_nonempty hr _ _ hr' (hs1.trans hs2.symm)
      subst this
      exact ⟨v, hs1, e, e'⟩
    | xml k =>
      obtain ⟨v', e', hs2, hr'⟩ := xml_reads sc hs hx k (Nat.lt_succ_self _) hres
      have := Read.strip_inj hs xml_nonempty xml_nonempty hr _ _ hr' (hs1.trans hs2.symm)
      subst this
      exact ⟨v, hs1, e, e'⟩

end

variable (text : Note → Str) (lim : Option Nat)

theorem noModelType {lim : Option Nat} : ∀ c, py!"modelType" ∉ allKeys ((schema lim).fields c) := by
  intro c
  change py!"modelType" ∉ allKeys (fieldsOf c)
  cases c <;> decide +kernel

theorem toObj_parsed {A B : Type} {ops : Ops A} {ops' : Ops B} {n m : Nat} {a : A} {b : B} {T : Str} {ann : AAnn} (hT : symbol T = .ok ann) {v : AVal}
    (h : parseF ops (schema lim) n (ofAnn ann) a (Res.new ⟨.title py!"Check meta model", []⟩) = .ok (v, Res.new ⟨.title py!"Check meta model", []⟩))
    (h' : parseF ops' (schema lim) m (ofAnn ann) b (Res.new ⟨.title py!"Check meta model", []⟩) = .ok (v, Res.new ⟨.title py!"Check meta model", []⟩)) :
    toObj ops lim n a T = toObj ops' lim m b T := by
  have : parseAndCheck ops (schema lim) Fld.pyName (checks lim) n (ofAnn ann) a = parseAndCheck ops' (schema lim) Fld.pyName (checks lim) m (ofAnn ann) b := by
    unfold parseAndCheck
    rw [h, h']
  unfold toObj
  rw [hT]
  simp only [bind, Except.bind, this]

/-- Equal reports for equal contents, or the same exception: every line, its level and its place. -/
theorem C87_data (T : Str) (ann : AAnn) (hT : symbol T = .ok ann) (d d' : Json ⊕ Xml) (w : AVal) (h : Holds (schema lim) (ofAnn ann) d w)
    (h' : Holds (schema lim) (ofAnn ann) d' w) : checkData (engine text lim) T d = checkData (engine text lim) T d' := by
  obtain ⟨v, -, e, e'⟩ := C87_object (schema lim) (sane lim) (xmlNames lim) (ofAnn ann) d d' w h h' (Res.new ⟨.title py!"Check meta model", []⟩) rfl
  cases d <;> cases d' <;>
    exact congrArg (fun q => q.map fun p => render text p.1) (toObj_parsed lim hT e e')

mutual
theorem wf_toJson {C E S F : Type} {sc : Schema C E S F} (hd : DistinctKeys sc) {tagged : C → Bool}
    (hm : ∀ c, py!"modelType" ∉ allKeys (sc.fields c)) : ∀ v : Val C E S F, WF (toJson sc tagged v)
  | .str s => by rw [toJson]; exact .str _
  | .bool b => by rw [toJson]; exact .bool _
  | .enum _ s => by rw [toJson]; exact .str _
  | .sfv _ s => by rw [toJson]; exact .str _
  | .list l => by rw [toJson]; exact .arr (wf_toJsonL hd hm l)
  | .obj c attrs => by
    obtain ⟨h1, h2⟩ := wf_toJsonA hd hm (tagged := tagged) (sc.fields c) attrs
    rw [toJson]
    refine .obj ?_ fun e he => ?_
    · rw [List.map_append]
      split
      · exact List.nodup_cons.mpr ⟨fun h => hm c (h1.subset h), h1.nodup (hd c)⟩
      · exact h1.nodup (hd c)
    · rcases List.mem_append.mp he with h | h
      · split at h
        · obtain rfl := List.mem_singleton.mp h; exact .str _
        · cases h
      · exact h2 e h
  | .none => .null
  | .invalid => .null
  | .foreign => .null
  | .path _ _ _ => .null
theorem wf_toJsonL {C E S F : Type} {sc : Schema C E S F} (hd : DistinctKeys sc) {tagged : C → Bool}
    (hm : ∀ c, py!"modelType" ∉ allKeys (sc.fields c)) : ∀ l : List (Val C E S F), ∀ j ∈ toJsonL sc tagged l, WF j
  | [], j, h => by rw [toJsonL] at h; cases h
  | v :: vs, j, h => by
    rw [toJsonL] at h
    rcases List.mem_cons.mp h with rfl | h
    · exact wf_toJson hd hm v
    · exact wf_toJsonL hd hm vs j h
theorem wf_toJsonA {C E S F : Type} {sc : Schema C E S F} (hd : DistinctKeys sc) {tagged : C → Bool}
    (hm : ∀ c, py!"modelType" ∉ allKeys (sc.fields c)) : ∀ (fs : List (Field C E S F)) (attrs : List (F × Val C E S F)),
    List.Sublist ((toJsonA sc tagged fs attrs).map (·.1)) (allKeys fs) ∧ ∀ e ∈ toJsonA sc tagged fs attrs, WF e.2
  | [], attrs => by rw [toJsonA]; exact ⟨List.nil_sublist _, fun e he => nomatch he⟩; all_goals simp
  | ⟨f, .attr key ty req⟩ :: fs, [] => by simp [toJsonA]
  | ⟨f, .excluded⟩ :: fs, [] => by simp [toJsonA]
  | ⟨f, .excluded⟩ :: fs, a :: attrs => by
    obtain ⟨h1, h2⟩ := wf_toJsonA hd hm (tagged := tagged) fs attrs
    rw [toJsonA]
    exact ⟨h1, h2⟩
  | ⟨f, .attr key ty req⟩ :: fs, (g, v) :: attrs => by
    obtain ⟨h1, h2⟩ := wf_toJsonA hd hm (tagged := tagged) fs attrs
    have hv := wf_toJson hd hm (tagged := tagged) v
    by_cases h : v = .none
    · subst h
      rw [toJsonA]
      exact ⟨h1.cons _, h2⟩
    · rw [toJsonA]
      · exact ⟨h1.cons_cons _, fun e he => (List.mem_cons.mp he).elim (fun h => h ▸ hv) (h2 e)⟩
      · exact h
end

/-- Every document that is accepted can be written in the other format with the same content, so with the same report. -/
theorem C87_formats (T : Str) (ann : AAnn) (hT : symbol T = .ok ann) :
    (∀ j w, Holds (schema lim) (ofAnn ann) (.inl j) w → ∃ x, Holds (schema lim) (ofAnn ann) (.inr x) w ∧
      checkJsonData (engine text lim) j T = checkXmlData (engine text lim) x T) ∧
    (∀ x w, Holds (schema lim) (ofAnn ann) (.inr x) w → ∃ j, Holds (schema lim) (ofAnn ann) (.inl j) w ∧
      checkXmlData (engine text lim) x T = checkJsonData (engine text lim) j T) := by
  have hres : (Res.new (⟨.title [], []⟩ : Note)).ok = true := rfl
  constructor
  · intro j w h
    cases h with
    | json g1 g2 g3 =>
      obtain ⟨v, -, rfl, hr⟩ := json_reads (schema lim) (sane lim) g1 g2 g3 (Nat.lt_succ_self _) hres
      have hv := Read.typed (sane lim) json_nonempty hr
      have hx : Holds (schema lim) (ofAnn ann) (.inr (toXml (schema lim) (itemTag (schema lim) v) v)) (strip v) :=
        .xml ((C83_format (schema lim) (sane lim) (xmlNames lim) _ _ _).1 (HasType.xml (xmlNames lim) (distinctKeys lim) hv .item _ (fun _ _ _ => rfl) (fun h => by cases h)))
      exact ⟨_, hx, C87_data text lim T ann hT (.inl j) (.inr _) _ (.json g1 g2 g3) hx⟩
  · intro x w h
    cases h with
    | xml g =>
      obtain ⟨v, -, rfl, hr⟩ := xml_reads (schema lim) (sane lim) (xmlNames lim) g (Nat.lt_succ_self _) hres
      have hv := Read.typed (sane lim) xml_nonempty hr
      obtain ⟨v', hr', hst⟩ := HasType.read_json (sane lim) (distinctKeys lim) (nestTags lim) hv []
      have hw : WF (toJson (schema lim) nestTagged v) := wf_toJson (distinctKeys lim) noModelType v
      have hj : Holds (schema lim) (ofAnn ann) (.inl (toJson (schema lim) nestTagged v)) (strip v) :=
        .json hw (Read.conforms (sane lim) hr' hw) (hst ▸ Read.describes (sane lim) hr' hw)
      exact ⟨_, hj, C87_data text lim T ann hT (.inr x) (.inl _) _ (.xml g) hj⟩

/-- … so the command line ends alike, with the same output, for a JSON file and an XML file with the same environment. -/
theorem C87_files (c : Console) (f g : FileArg) (j : Json) (x : Xml) (hj : f.content.json = .ok j) (hx : g.content.xml = .ok x) (w : AVal)
    (h : Holds (schema lim) (.cls .environment) (.inl j) w) (h' : Holds (schema lim) (.cls .environment) (.inr x) w) (output : Option Str) :
    runFileTest c (engine text lim) { file := f, format := some py!"json", output := output } =
      runFileTest c (engine text lim) { file := g, format := some py!"xml", output := output } := by
  have he : symbol py!"Environment" = .ok (.cls .environment) := by decide +kernel
  have hd : checkJsonData (engine text lim) j py!"Environment" = checkXmlData (engine text lim) x py!"Environment" :=
    C87_data text lim py!"Environment" (.cls .environment) he (.inl j) (.inr x) w h h'
  have hf : Cli.checkFile (engine text lim) f py!"Environment" .json = Cli.checkFile (engine text lim) g py!"Environment" .xml := by
    unfold Cli.checkFile
    rw [(C51_json_file (engine text lim) f.content _).2.2 j hj, C51_xml_file_violated (engine text lim) g.content _ x hx, hd]
  unfold runFileTest
  simp only [Option.getD_some, Option.getD_none, show Format.ofText py!"json" = some .json from rfl, show Format.ofText py!"xml" = some .xml from rfl, hf]

/-! ## examples -/

/-- a property without value in an environment: as JSON, as JSON with another order of attributes, as XML, as XML with another order
and white space; the category is wrong -/
def fourJson : Json := .obj [(py!"submodels", .arr [.obj [(py!"modelType", .str py!"Submodel"), (py!"id", .str py!"urn:x"),
  (py!"submodelElements", .arr [.obj [(py!"modelType", .str py!"Property"), (py!"idShort", .str py!"p"), (py!"category", .str py!"wrong"), (py!"valueType", .str py!"xs:int")]])]])]
def fourJson' : Json := .obj [(py!"submodels", .arr [.obj [(py!"submodelElements", .arr [.obj [(py!"valueType", .str py!"xs:int"), (py!"category", .str py!"wrong"),
  (py!"idShort", .str py!"p"), (py!"modelType", .str py!"Property")]]), (py!"modelType", .str py!"Submodel"), (py!"id", .str py!"urn:x")]])]
def fourXml : Xml := el py!"environment" none [el py!"submodels" none [el py!"submodel" none [tx py!"id" py!"urn:x", el py!"submodelElements" none
  [el py!"property" none [tx py!"category" py!"wrong", tx py!"idShort" py!"p", tx py!"valueType" py!"xs:int"]]]]]
def fourXml' : Xml := el py!"environment" (some [10]) [el py!"submodels" none [el py!"submodel" none [el py!"submodelElements" none
  [el py!"property" none [tx py!"idShort" py!"p", tx py!"category" py!"wrong", tx py!"valueType" py!"xs:int"]], tx py!"id" py!"urn:x"]]]

/-- what is read of a document, if nothing is reported -/
def contentOf (d : Json ⊕ Xml) : Option AVal :=
  match parseDoc (schema none) (.cls .environment) d (Res.new ⟨.title [], []⟩) with
  | .ok (v, ⟨_, .info, []⟩) => some (strip v)
  | _ => none

theorem holds_of {d : Json ⊕ Xml} (hwf : ∀ j, d = .inl j → WF j) {w : AVal} (h : contentOf d = some w) : Holds (schema none) (.cls .environment) d w := by
  have hres : (Res.new (⟨.title [], []⟩ : Note)).ok = true := rfl
  rw [contentOf] at h
  cases hp : parseDoc (schema none) (.cls .environment) d (Res.new ⟨.title [], []⟩) with
  | error e => rw [hp] at h; cases h
  | ok q =>
    obtain ⟨v, r⟩ := q
    rw [hp] at h
    split at h
    · rename_i m e
      cases e
      cases h
      have hok : (Res.mk m Level.info []).ok = true := rfl
      cases d with
      | inl j =>
        have hw := hwf j rfl
        rw [parseDoc] at hp
        exact .json hw ((C35_conforms (schema none) (sane none) _ j hw [] _ (Nat.lt_succ_self _) _ _ _ hres hp).mp hok)
          (C65_content (schema none) (sane none) _ j hw [] _ (Nat.lt_succ_self _) _ _ _ hp hok)
      | inr x =>
        rw [parseDoc] at hp
        obtain ⟨notes, e, -, h3⟩ := xml_outcome (schema none) _ x [] _ (Nat.lt_succ_self _) _ _ _ hp
        have := (appendAll_errs_ok _ notes).mp (e ▸ hok)
        exact .xml (Read.accepts (sane none) (xmlNames none) (h3 this.2 hres))
    · cases h

theorem four_content : ∃ w, contentOf (.inl fourJson) = some w ∧ contentOf (.inl fourJson') = some w ∧ contentOf (.inr fourXml) = some w ∧
    contentOf (.inr fourXml') = some w := ⟨_, rfl, rfl, rfl, rfl⟩

/-- the same report for all four, for every wording of the lines -/
example : ∀ d ∈ [.inl fourJson, .inl fourJson', .inr fourXml, .inr fourXml'],
    checkData (engine text none) py!"Environment" d = checkData (engine text none) py!"Environment" (.inl fourJson) := by
  obtain ⟨w, h1, h2, h3, h4⟩ := four_content
  have g1 : WF fourJson := wf_sound _ (by decide +kernel)
  have g2 : WF fourJson' := wf_sound _ (by decide +kernel)
  have k1 := holds_of (fun j h => by cases h; exact g1) h1
  have k2 := holds_of (fun j h => by cases h; exact g2) h2
  have k3 := holds_of (fun j h => by cases h) h3
  have k4 := holds_of (fun j h => by cases h) h4
  have key := fun d (k : Holds (schema none) (.cls .environment) d w) => C87_data text none py!"Environment" (.cls .environment) (by decide +kernel) d _ w k k1
  simp only [List.forall_mem_cons, List.not_mem_nil, false_imp_iff, implies_true, and_true]
  exact ⟨trivial, key _ k2, key _ k3, key _ k4⟩

/-- and it is not the empty one: the category is reported -/
example : (checkData (engine (fun _ => []) none) py!"Environment" (.inr fourXml')).map (fun r => r.ok) = .ok false := by decide +kernel

end Verif.Props
