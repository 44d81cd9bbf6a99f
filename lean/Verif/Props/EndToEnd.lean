import Verif.StripLemmas
import Verif.Props.XmlAccepted
import Verif.Props.Kinds
import Verif.Props.Cli
import Verif.Props.JsonDumps

/-!
# C80: the exit code of `check_file`, from the bytes of the file

Everything together: reading of JSON (C77, C78), the parser and the meta-model (C64), the rules (C42 to C48), the templates (C52), packages (C31 to
C33) and the command line (C58).
-/

namespace Verif.Props
open Verif Verif.Cli Verif.Parse Verif.Aas Verif.Engine Verif.Spec.Parse Verif.Spec.Model Verif.Spec.Templates Verif.Spec.Engine Verif.File
open Verif.JsonText Verif.Spec.JsonText Verif.Spec.Cli
open Verif.Opc (Zip find_iff scanRoot_ok_iff)
open Verif.Generate (excOf)

variable (c : Console) (text : Note → Str) (lim : Option Nat)

theorem code_error {c : Console} {g : File.Engine Json Xml} {args : FileArgs} {format : Format} {output : Output} {e : Exc} (hf : ReadsFormat args.format format)
    (ho : ReadsOutput args.output output) (h : checkFile g args.file (args.modelType.getD py!"Environment") format = .error e) :
    (runFileTest c g args).ended.code = 1 := by
  rw [C58_exception c g args format output e hf ho h]
  rfl

theorem code_ok {c : Console} {g : File.Engine Json Xml} {args : FileArgs} {format : Format} {output : Output} {r : Res Str} (hf : ReadsFormat args.format format)
    (ho : ReadsOutput args.output output) (hp : Printable c output r) (h : checkFile g args.file (args.modelType.getD py!"Environment") format = .ok r) :
    (runFileTest c g args).ended.code = if r.ok then 0 else 1 := by
  rw [C58_printed c g args format output r hf ho h hp]
  rfl

theorem printable_json {c : Console} (hc : PrintsAscii c) (r : Res Str) : Printable c .json r := by
  intro l hl
  obtain rfl := List.mem_singleton.mp hl
  exact hc _ (C79_ascii (by simp) _)

/-- a document of the class that breaks no rule, and whose submodels follow their templates -/
def ValidJson (lim : Option Nat) (cl : Cls) (j : Json) : Prop :=
  Conforms (schema lim) (.cls cl) j ∧ ∃ w, Spec.Parse.Describes (schema lim) (.cls cl) j w ∧ Obeys lim w ∧ FollowsAll cl w

/-- a document on which the checks raise (C50) -/
def TripsJson (lim : Option Nat) (cl : Cls) (j : Json) : Prop :=
  Conforms (schema lim) (.cls cl) j ∧ ∃ w, Spec.Parse.Describes (schema lim) (.cls cl) j w ∧ Trap lim cl w

/-- The verdict on JSON data, from the data alone: the paths stored in elements do not matter. -/
theorem C80_data (T : Str) (cl : Cls) (hT : symbol T = .ok (.cls cl)) (j : Json) (hw : WF j) :
    (TripsJson lim cl j → ∃ e, Mishap e ∧ checkJsonData (engine text lim) j T = .error e) ∧
    (¬ TripsJson lim cl j → ∃ r, checkJsonData (engine text lim) j T = .ok r ∧ (r.ok = true ↔ ValidJson lim cl j)) := by
  obtain ⟨h1, h2⟩ := C51_json_partial text lim T cl hT j hw
  by_cases hc : Conforms (schema lim) (.cls cl) j
  · obtain ⟨v, ht, hd, h3, h4⟩ := h2 hc
    have tame := Strip.tame_of_type ht
    have huniq : ∀ w, Spec.Parse.Describes (schema lim) (.cls cl) j w → w = strip v := fun w h => C65_unique (schema lim) (sane lim) (.cls cl) j hw w _ h hd
    have htr : TripsJson lim cl j ↔ Trap lim cl v := by
      rw [← Strip.trap_strip tame]
      exact ⟨fun ⟨_, w, hw', h⟩ => huniq w hw' ▸ h, fun h => ⟨hc, _, hd, h⟩⟩
    have hva : ValidJson lim cl j ↔ Obeys lim v ∧ FollowsAll cl v := by
      rw [← Strip.obeys_strip tame, ← Strip.followsAll_strip tame]
      exact ⟨fun ⟨_, w, hw', h⟩ => huniq w hw' ▸ h, fun h => ⟨hc, _, hd, h⟩⟩
    rw [htr, hva]
    exact ⟨h3, h4⟩
  · refine ⟨fun h => absurd h.1 hc, fun _ => ?_⟩
    obtain ⟨r, he, hr⟩ := h1 hc
    exact ⟨r, he, by rw [hr]; exact ⟨fun h => (nomatch h), fun h => absurd h.1 hc⟩⟩

/-- The check of a JSON file passes iff its bytes are JSON text, in some encoding of Unicode, for a valid document on which the checks do not raise. -/
theorem C80_verdict (p : Nums) (x : Except Unread Xml) (b : List Nat) (hb : ∀ y ∈ b, y < 256) (T : Str) (cl : Cls) (hT : symbol T = .ok (.cls cl)) :
    (∃ r, checkJsonFile (engine text lim) (ofBytes p x b) T = .ok r ∧ r.ok = true) ↔
      ∃ s j, HasText b s ∧ Denotes p s j ∧ ValidJson lim cl j ∧ ¬ TripsJson lim cl j := by
  by_cases h : ∃ s j, HasText b s ∧ Denotes p s j
  · obtain ⟨s, j, hs, hj⟩ := h
    have hone : (∃ s j, HasText b s ∧ Denotes p s j ∧ ValidJson lim cl j ∧ ¬ TripsJson lim cl j) ↔ ValidJson lim cl j ∧ ¬ TripsJson lim cl j := by
      constructor
      · rintro ⟨s', j', hs', hj', h⟩
        have e1 := (C78_reads p hb j).mpr ⟨s, hs, hj⟩
        have e2 := (C78_reads p hb j').mpr ⟨s', hs', hj'⟩
        rw [e1] at e2
        cases e2
        exact h
      · exact fun h => ⟨s, j, hs, hj, h⟩
    have hw := C77_names ((C77_reads p s j).mpr hj)
    obtain ⟨h1, h2⟩ := C80_data text lim T cl hT j hw
    rw [hone, C78_forms p x (engine text lim) T hs hj]
    by_cases ht : TripsJson lim cl j
    · obtain ⟨e, -, he⟩ := h1 ht
      rw [he]
      exact ⟨fun ⟨r, h, _⟩ => (by cases h), fun h => absurd ht h.2⟩
    · obtain ⟨r, he, hr⟩ := h2 ht
      rw [he]
      exact ⟨fun ⟨r', h, h'⟩ => (by cases h; exact ⟨hr.mp h', ht⟩), fun h => ⟨r, rfl, hr.mpr h.1⟩⟩
  · refine ⟨?_, fun ⟨s, j, hs, hj, _⟩ => absurd ⟨s, j, hs, hj⟩ h⟩
    rintro ⟨r, h1, h2⟩
    rcases C78_unread p x (engine text lim) T hb h with ⟨t, h⟩ | h | h
    · rw [h] at h1; cases h1; cases h2
    · rw [h] at h1; cases h1
    · rw [h] at h1; cases h1

/-- JSON files of any bytes, any class as model type: the exit code is 0 iff the file is JSON text of a valid document on which the checks do not raise,
and 1 otherwise. Missing for the property: valid documents on which the checks raise have exit code 1 (`C80_violated`). -/
theorem C80_json_partial (args : FileArgs) (output : Output) (ho : ReadsOutput args.output output) (hpr : ∀ r, Printable c output r)
    (hf : args.format = some py!"json") (p : Nums) (x : Except Unread Xml) (b : List Nat) (hb : ∀ y ∈ b, y < 256) (ha : args.file.content = ofBytes p x b)
    (cl : Cls) (hT : symbol (args.modelType.getD py!"Environment") = .ok (.cls cl)) :
    ((runFileTest c (engine text lim) args).ended.code = 0 ↔ ∃ s j, HasText b s ∧ Denotes p s j ∧ ValidJson lim cl j ∧ ¬ TripsJson lim cl j) ∧
    ((runFileTest c (engine text lim) args).ended.code = 0 ∨ (runFileTest c (engine text lim) args).ended.code = 1) := by
  have hfm : ReadsFormat args.format .json := hf ▸ .json
  rw [← C80_verdict text lim p x b hb _ cl hT]
  cases he : checkJsonFile (engine text lim) (ofBytes p x b) (args.modelType.getD py!"Environment") with
  | error e =>
    rw [code_error hfm ho (e := excOf e) (by rw [checkFile, ha, he]; rfl)]
    exact ⟨⟨fun h => (by cases h), fun ⟨r, h, _⟩ => (by cases h)⟩, .inr rfl⟩
  | ok r =>
    rw [code_ok hfm ho (hpr r) (by rw [checkFile, ha, he]; rfl)]
    cases hr : r.ok with
    | true => exact ⟨⟨fun _ => ⟨r, rfl, hr⟩, fun _ => rfl⟩, .inl rfl⟩
    | false => exact ⟨⟨fun h => (by cases h), fun ⟨r', h, h'⟩ => (by cases h; rw [hr] at h'; cases h')⟩, .inr rfl⟩

/-- Any other model type: exit code 1, whatever the file. -/
theorem C80_model_type (args : FileArgs) (output : Output) (ho : ReadsOutput args.output output) (hpr : ∀ r, Printable c output r)
    (hf : args.format = some py!"json") (p : Nums) (x : Except Unread Xml) (b : List Nat) (ha : args.file.content = ofBytes p x b)
    (hT : ∀ cl, symbol (args.modelType.getD py!"Environment") ≠ .ok (.cls cl)) : (runFileTest c (engine text lim) args).ended.code = 1 := by
  have hfm : ReadsFormat args.format .json := hf ▸ .json
  cases he : checkJsonFile (engine text lim) (ofBytes p x b) (args.modelType.getD py!"Environment") with
  | error e => exact code_error hfm ho (e := excOf e) (by rw [checkFile, ha, he]; rfl)
  | ok r =>
    rw [code_ok hfm ho (hpr r) (by rw [checkFile, ha, he]; rfl)]
    rw [if_neg]
    unfold checkJsonFile ofBytes at he
    cases hl : load p b with
    | error u =>
      rw [hl] at he
      cases u with
      | malformed t => cases he; exact Bool.false_ne_true
      | raised e => cases he
    | ok j =>
      rw [hl] at he
      replace he : checkJsonData (engine text lim) j (args.modelType.getD py!"Environment") = .ok r := he
      have hw : WF j := by
        cases hd : decodeBytes (detectEncoding b) b with
        | none => unfold load at hl; rw [hd] at hl; cases hl
        | some s => exact C77_names ((C77_reads p s j).mpr ((load_ok hd j).mp hl))
      rcases symbol_spec (args.modelType.getD py!"Environment") with ⟨a, -, ⟨n, pre, hname, -⟩, hs⟩ | ⟨-, hs⟩
      · cases a with
        | cls cl => exact absurd hs (hT cl)
        | sfv sf =>
          obtain ⟨h1, h2⟩ := C51_texts_violated text lim _ sf hs j hw
          by_cases hc : Conforms (schema lim) (.sfv sf) j
          · rw [h1 hc] at he; cases he
          · obtain ⟨r', h3, h4⟩ := h2 hc
            rw [h3] at he
            cases he
            rw [h4]
            decide
        | _ => cases hname
      · simp only [checkJsonData, engine, jsonToObj, toObj, hs] at he
        cases he

/-- XML files, any model type: the exit code is 0 iff the file is well-formed and its document is a valid environment on which the checks do not
raise, and 1 otherwise. Missing for the property: the deviations from the format that are accepted (C66), and the model type, which is not used
(`C51_xml_file_violated`). -/
theorem C80_xml_partial (args : FileArgs) (output : Output) (ho : ReadsOutput args.output output) (hpr : ∀ r, Printable c output r)
    (hf : args.format = some py!"xml") :
    ((runFileTest c (engine text lim) args).ended.code = 0 ↔
      ∃ x, args.file.content.xml = .ok x ∧ ValidXml lim .environment x ∧ ¬ TripsXml lim .environment x) ∧
    ((runFileTest c (engine text lim) args).ended.code = 0 ∨ (runFileTest c (engine text lim) args).ended.code = 1) := by
  have hfm : ReadsFormat args.format .xml := hf ▸ .xml
  rw [← C83_file text lim args.file.content (args.modelType.getD py!"Environment")]
  cases he : checkXmlFile (engine text lim) args.file.content (args.modelType.getD py!"Environment") with
  | error e =>
    rw [code_error hfm ho (e := excOf e) (by rw [checkFile, he]; rfl)]
    exact ⟨⟨fun h => (by cases h), fun ⟨r, h, _⟩ => (by cases h)⟩, .inr rfl⟩
  | ok r =>
    rw [code_ok hfm ho (hpr r) (by rw [checkFile, he]; rfl)]
    cases hr : r.ok with
    | true => exact ⟨⟨fun _ => ⟨r, rfl, hr⟩, fun _ => rfl⟩, .inl rfl⟩
    | false => exact ⟨⟨fun h => (by cases h), fun ⟨r', h, h'⟩ => (by cases h; rw [hr] at h'; cases h')⟩, .inr rfl⟩

/-- AASX packages: the exit code is 0 iff the package can be read and has no mistakes and all linked files pass, otherwise 1. Missing: packages with
other links to the origin part (`C33_second_link_violated`). -/
theorem C80_aasx_partial (args : FileArgs) (output : Output) (ho : ReadsOutput args.output output) (hpr : ∀ r, Printable c output r)
    (hf : ReadsFormat args.format .aasx) (hT : args.modelType.getD py!"Environment" = py!"Environment") :
    (∀ e : Str, args.file.zip = .error e → (runFileTest c (engine text lim) args).ended.code = 1) ∧
    ∀ z p bytes (parsed : Str → Except Unread Xml), args.file.zip = .ok (z, partsOf p bytes parsed) → (∀ q, parsed q ≠ .error (.raised .keyError)) → Spec.PlainOrigins z →
      ((runFileTest c (engine text lim) args).ended.code = 0 ↔ Spec.Readable py!"/" z ∧ Spec.ProperPackage py!"/" z ∧
        ∀ q, Spec.Linked py!"/" z q → Spec.Passes (engine text lim) (partsOf p bytes parsed) q) ∧
      ((runFileTest c (engine text lim) args).ended.code = 0 ∨ (runFileTest c (engine text lim) args).ended.code = 1) := by
  have hcf : checkFile (engine text lim) args.file (args.modelType.getD py!"Environment") .aasx =
      (checkAasxFile (engine text lim) args.file.zip).mapError excOf := by rw [checkFile, if_neg (fun h => h hT)]
  constructor
  · intro e he
    rw [code_ok hf ho (hpr _) (r := Res.new (py!"Cannot read: " ++ e) .error) (by rw [hcf, he]; rfl)]
    rfl
  · intro z p bytes parsed hz hx hpl
    cases he : checkAasxData (engine text lim) z (partsOf p bytes parsed) with
    | error e =>
      have h1 : (runFileTest c (engine text lim) args).ended.code = 1 := code_error hf ho (e := excOf e) (by rw [hcf, hz, checkAasxFile, he]; rfl)
      rw [h1]
      refine ⟨⟨fun h => (by cases h), fun ⟨hr, hp, hall⟩ => ?_⟩, .inr rfl⟩
      rcases C33_raises e he with ⟨-, hb | hb⟩ | ⟨q, hq, hv⟩
      · obtain ⟨⟨els, hm⟩, -⟩ := hp
        have e1 := (find_iff _ _ _).mpr hb
        rw [(find_iff _ _ _).mpr hm] at e1
        cases e1
      · exact absurd hr hb
      · obtain ⟨r, hr', -⟩ := hall q hq
        have e1 := (verdict_iff q _).mp hr'
        rw [(verdict_iff q _).mp hv] at e1
        cases e1
    | ok r =>
      have h1 := code_ok (c := c) (g := engine text lim) (args := args) hf ho (hpr r) (by rw [hcf, hz, checkAasxFile, he]; rfl)
      have h2 := C33_engine_partial text lim z p bytes parsed hx r he hpl
      rw [h1]
      cases hr : r.ok with
      | false =>
        rw [hr] at h2
        exact ⟨⟨fun h => (by cases h), fun ⟨_, hp, hall⟩ => absurd (h2.mpr ⟨hp, hall⟩) (by decide)⟩, .inr rfl⟩
      | true =>
        rw [hr] at h2
        refine ⟨⟨fun _ => ⟨?_, h2.mp rfl⟩, fun _ => rfl⟩, .inl rfl⟩
        rcases checkAasx_cases (engine text lim) z (partsOf p bytes parsed) with ⟨e, _, he'⟩ | ⟨r', rels, _, h4, h5⟩ | ⟨r', s, _, _, h5, _⟩
        · rw [he] at he'; cases he'
        · rw [he] at h5; cases h5; rw [hr] at h4; cases h4
        · exact (scanRoot_ok_iff z deprecatedTypes).mp ⟨s, h5⟩

/-- The JSON files among them pass iff they are valid environments on which the checks do not raise. -/
theorem C80_part (p : Nums) (bytes : Str → List Nat) (parsed : Str → Except Unread Xml) (pre : Str) (hb : ∀ y ∈ bytes (pre ++ py!".json"), y < 256) :
    Spec.Passes (engine text lim) (partsOf p bytes parsed) (pre ++ py!".json") ↔
      ∃ s j, HasText (bytes (pre ++ py!".json")) s ∧ Denotes p s j ∧ ValidJson lim .environment j ∧ ¬ TripsJson lim .environment j := by
  rw [← C80_verdict text lim p (parsed (pre ++ py!".json")) _ hb environment .environment (by decide +kernel)]
  have hv : ∀ y, Spec.Verdict (engine text lim) (partsOf p bytes parsed) (pre ++ py!".json") y ↔
      checkJsonFile (engine text lim) (ofBytes p (parsed (pre ++ py!".json")) (bytes (pre ++ py!".json"))) environment = y := by
    intro y
    have h1 : Py.endsWith (pre ++ py!".json") py!".json" = true := by rw [endsWith_iff]; exact ⟨pre, rfl⟩
    rw [verdict_iff]
    unfold File.verdict
    rw [if_neg (fun h => not_both _ h h1), if_pos h1]
    rfl
  simp only [Spec.Passes, hv]

/-- The XML files among them likewise. -/
theorem C80_xml_part (p : Nums) (bytes : Str → List Nat) (parsed : Str → Except Unread Xml) (pre : Str) :
    Spec.Passes (engine text lim) (partsOf p bytes parsed) (pre ++ py!".xml") ↔
      ∃ x, parsed (pre ++ py!".xml") = .ok x ∧ ValidXml lim .environment x ∧ ¬ TripsXml lim .environment x := by
  refine Iff.trans ?_ (C83_file text lim (partsOf p bytes parsed (pre ++ py!".xml")) environment)
  have hv : ∀ y, Spec.Verdict (engine text lim) (partsOf p bytes parsed) (pre ++ py!".xml") y ↔
      checkXmlFile (engine text lim) (partsOf p bytes parsed (pre ++ py!".xml")) environment = y := by
    intro y
    have h1 : Py.endsWith (pre ++ py!".xml") py!".xml" = true := by rw [endsWith_iff]; exact ⟨pre, rfl⟩
    rw [verdict_iff]
    unfold File.verdict
    rw [if_pos h1]
  simp only [Spec.Passes, hv]

/-- JSON output is always printable where ASCII is. -/
example (hc : PrintsAscii c) : ∀ r, Printable c .json r := printable_json hc

/-- the file with this document, in UTF-8 -/
def fileWith (j : Json) : FileArgs :=
  { file := ⟨.error [], ofBytes ⟨some 4300, fun _ => .inr 0⟩ (.error (.malformed [])) (dumps (fun _ => []) j)⟩, format := some py!"json", output := some py!"json" }

example : [sampleJson py!"CONSTANT", sampleJson py!"wrong", .num 1].map (fun j => (runFileTest utf8Console (engine (fun _ => []) none) (fileWith j)).ended.code) =
    [0, 1, 1] := by decide +kernel

/-- XML data as file -/
def xmlWith (x : Except Unread Xml) : FileArgs := { file := ⟨.error [], ⟨.error (.malformed []), x⟩⟩, format := some py!"xml", output := some py!"json" }

example : [.ok (sampleXml py!"CONSTANT"), .ok (sampleXml py!"wrong"), .error (.malformed [])].map
    (fun x => (runFileTest utf8Console (engine (fun _ => []) none) (xmlWith x)).ended.code) = [0, 1, 1] := by decide +kernel

/-- a package with this document -/
def packageWith (j : Json) : FileArgs := { file := ⟨.ok (aasxPackage [relElem originUrl py!"/aasx/origin"],
  partsOf ⟨some 4300, fun _ => .inr 0⟩ (fun _ => dumps (fun _ => []) j) fun _ => .error (.malformed [])), ⟨.error (.malformed []), .error (.malformed [])⟩⟩ }

example : [sampleJson py!"CONSTANT", sampleJson py!"wrong", .num 1].map
    (fun j => (runFileTest utf8Console (engine (fun _ => []) none) (packageWith j)).ended.code) = [0, 1, 1] := by decide +kernel

/-- Exit code 1 for a document that conforms to the meta-model and breaks no rule: the check of its template raises TypeError. -/
theorem C80_violated : (runFileTest utf8Console (engine (fun _ => []) none) (fileWith EngineSamples.emptyContacts)).ended = .raised (excOf .typeError) ∧
    Conforms (schema none) (.cls .environment) EngineSamples.emptyContacts ∧
    ∃ w, Spec.Parse.Describes (schema none) (.cls .environment) EngineSamples.emptyContacts w ∧ Obeys none w := by
  refine ⟨by decide +kernel, ?_⟩
  have hw : WF EngineSamples.emptyContacts := wf_sound _ (by decide +kernel)
  obtain ⟨h1, h2⟩ := C64_json none .environment (by decide) EngineSamples.emptyContacts hw _ (Nat.lt_succ_self _)
  have hv : ((checkDocument jsonOps none (EngineSamples.emptyContacts.size + 1) .environment ⟨EngineSamples.emptyContacts, []⟩).map
    fun x => x.1.ok) = .ok true := by decide +kernel
  by_cases hc : Conforms (schema none) (.cls .environment) EngineSamples.emptyContacts
  · obtain ⟨v, ht, hd, h3, h4⟩ := h2 hc
    refine ⟨hc, _, hd, (Strip.obeys_strip (Strip.tame_of_type ht)).mpr ?_⟩
    by_cases hr : Raising none v
    · obtain ⟨e, -, he⟩ := h3 hr
      rw [he] at hv
      cases hv
    · obtain ⟨r, he, hr'⟩ := h4 hr
      rw [he] at hv
      exact hr'.mp (Except.ok.inj hv)
  · obtain ⟨r, v, he, hr⟩ := h1 hc
    rw [he] at hv
    rw [show r.ok = true from Except.ok.inj hv] at hr
    cases hr

end Verif.Props
