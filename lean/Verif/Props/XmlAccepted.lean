import Verif.XmlAccepted
import Verif.KindLemmas
import Verif.StripLemmas
import Verif.Props.Engine

/-!
# C83: which XML documents are accepted, exactly

C66 bounds the accepted documents from both sides: everything in the format, nothing beyond the listed deviations. Here is the line itself.
-/

namespace Verif.Props
open Verif Verif.Parse Verif.Spec.Parse Verif.Aas Verif.Spec.Model Verif.Engine Verif.Spec.Engine Verif.File Res

section
variable {C E S F : Type} (sc : Schema C E S F)

/-- Any schema, any type, any element: it is read without a report and yields this content iff it is accepted for it. -/
theorem C83_accepted (hs : Sane sc) (hx : XmlNames sc) (ty : Ty C E S) (x : Xml) (p : List PTok) (n : Nat) (hn : x.size < n) (res : Res Note)
    (hres : res.ok = true) (w : Val C E S F) :
    (∃ v, parseF xmlOps sc n ty ⟨x, p⟩ res = .ok (v, res) ∧ strip v = w) ↔ XAccepts sc ty x w := by
  constructor
  · rintro ⟨v, h, rfl⟩
    obtain ⟨notes, h1, -, h3⟩ := xml_outcome sc ty x p n hn res res v h
    have hok : (res.appendAll (errs notes)).ok = true := by rw [← h1]; exact hres
    exact Read.accepts hs hx (h3 ((appendAll_errs_ok _ _).mp hok).2 hres)
  · intro hw
    have hg := parseF_good xmlOps sc _ xml_lawful (fun _ => True) ⟨fun _ _ _ _ _ _ => trivial, fun _ _ _ _ _ _ _ => trivial⟩
      n ty ⟨x, p⟩ hn trivial res
    obtain ⟨w', hr, hst⟩ := XAccepts.read hs hx hw p
    cases h : parseF xmlOps sc n ty ⟨x, p⟩ res with
    | error e => rw [h] at hg; exact absurd hr (hg w')
    | ok q =>
      obtain ⟨v, r⟩ := q
      obtain ⟨notes, rfl, h2, -⟩ := xml_outcome sc ty x p n hn res r v h
      obtain ⟨rfl, h4⟩ := h2 w' hr
      exact ⟨v, rfl, by rw [← h4 hres, hst]⟩

/-- It is accepted for one content only. -/
theorem C83_unique (hs : Sane sc) (hx : XmlNames sc) (ty : Ty C E S) (x : Xml) (v w : Val C E S F) (hv : XAccepts sc ty x v) (hw : XAccepts sc ty x w) :
    v = w := by
  have hres : (Res.new (⟨.title [], []⟩ : Note)).ok = true := rfl
  obtain ⟨a, h1, h2⟩ := (C83_accepted sc hs hx ty x [] (x.size + 1) (Nat.lt_succ_self _) _ hres v).mpr hv
  obtain ⟨b, h3, h4⟩ := (C83_accepted sc hs hx ty x [] (x.size + 1) (Nat.lt_succ_self _) _ hres w).mpr hw
  rw [h1] at h3
  cases h3
  rw [← h2, ← h4]

/-- What is in the format is accepted, and what is accepted is in the format up to the deviations. -/
theorem C83_format (hs : Sane sc) (hx : XmlNames sc) (ty : Ty C E S) (x : Xml) (w : Val C E S F) :
    (XDescribes sc false .item ty x w → XAccepts sc ty x w) ∧ (XAccepts sc ty x w → XDescribes sc true .item ty x w) := by
  constructor
  · intro h
    obtain ⟨w', h1, rfl⟩ := XDescribes.read hs hx h []
    exact Read.accepts hs hx h1
  · intro h
    obtain ⟨w', h1, rfl⟩ := XAccepts.read hs hx h []
    exact Read.xml hs hx h1

theorem split_filter {t : Str} : ∀ {l pre post : List Xml} {y : Xml}, l = pre ++ y :: post → y.tag = t → (∀ z ∈ post, z.tag ≠ t) →
    (l.filter (fun z => decide (z.tag = t))).getLast? = some y := by
  intro l pre post y h ht hl
  have : post.filter (fun z => decide (z.tag = t)) = [] := by simpa using hl
  rw [h, List.filter_append, List.filter_cons_of_pos (by simpa using ht), this, List.getLast?_append]
  rfl

/-- The order of the attributes of an object does not matter: only the order of elements with the same name. -/
theorem C83_order (c : C) (t : Str) (s : Option Str) (cs cs' : List Xml) (hdc : ¬ py!"dataSpecificationContent" <:+ t)
    (h : ∀ k, cs.filter (fun z => decide (z.tag = k)) = cs'.filter (fun z => decide (z.tag = k))) (w : Val C E S F) :
    XAccepts sc (.cls c) (.elem t s cs) w → XAccepts sc (.cls c) (.elem t s cs') w := by
  have hmem : ∀ y, y ∈ cs ↔ y ∈ cs' := by
    intro y
    have h1 : y ∈ cs.filter (fun z => decide (z.tag = y.tag)) ↔ y ∈ cs := by simp
    have h2 : y ∈ cs'.filter (fun z => decide (z.tag = y.tag)) ↔ y ∈ cs' := by simp
    rw [← h1, ← h2, h]
  intro hw
  cases hw with
  | @obj _ c' _ d attrs isA inNamespace text content called named known single names present absent excluded =>
    rcases content with ⟨h', -⟩ | ⟨-, rfl⟩
    · exact absurd h' hdc
    · have hin : ∀ y z, Inside (.elem t s cs') y z → Inside (.elem t s cs) y z := fun _ _ h => h
      refine .obj isA inNamespace text (.inr ⟨hdc, rfl⟩) called ?_ (fun y hy => known y ((hmem y).mpr hy))
        (fun y hy ho => single y ((hmem y).mpr hy) ho) names ?_ ?_ excluded
      · rcases named with h' | h'
        · left
          have h' : cs = [] := h'
          subst h'
          exact List.eq_nil_iff_forall_not_mem.mpr fun y hy => absurd ((hmem y).mpr hy) List.not_mem_nil
        · exact .inr h'
      · intro f key ty req v pre y post z hz hsplit htag hlast hi
        have h1 := split_filter (show cs' = _ from hsplit) htag hlast
        rw [← h] at h1
        obtain ⟨pre', y', post', e1, e2, e3⟩ := last_exists (l := cs) (t := xmlns ++ key)
          ⟨y, (hmem y).mpr (by rw [show cs' = _ from hsplit]; simp), htag⟩
        have h2 := split_filter e1 e2 e3
        rw [h1] at h2
        cases h2
        exact present f key ty req v pre' y post' z hz e1 htag e3 (hin _ _ hi)
      · intro f key ty req v hz hno
        exact absent f key ty req v hz fun y hy => hno y ((hmem y).mp hy)

end

variable (text : Note → Str) (lim : Option Nat)

/-- Documents: an accepted one is decided by the rules. One that is not accepted is reported, or an element without a name makes the check raise
IndexError. -/
theorem C83_document (c : Cls) (hc : c ≠ .langStringSet) (x : Xml) (n : Nat) (hn : x.size < n) :
    (∀ w, XAccepts (schema lim) (.cls c) x w → ∃ v, HasType (schema lim) (.cls c) v ∧ strip v = w ∧
      (Raising lim v → ∃ e, Mishap e ∧ checkDocument xmlOps lim n c ⟨x, []⟩ = .error e) ∧
      (¬ Raising lim v → ∃ r, checkDocument xmlOps lim n c ⟨x, []⟩ = .ok (r, v) ∧ (r.ok = true ↔ ∀ p t, ¬ Breaks lim v p t .error))) ∧
    ((∀ w, ¬ XAccepts (schema lim) (.cls c) x w) → (∃ r v, checkDocument xmlOps lim n c ⟨x, []⟩ = .ok (r, v) ∧ r.ok = false) ∨
      (¬ Named x ∧ checkDocument xmlOps lim n c ⟨x, []⟩ = .error .indexError)) := by
  have hres : (Res.new (⟨.title py!"Check meta model", []⟩ : Note)).ok = true := rfl
  constructor
  · intro w hw
    obtain ⟨v, h, hst⟩ := (C83_accepted (schema lim) (sane lim) (xmlNames lim) (.cls c) x [] n hn _ hres w).mpr hw
    obtain ⟨-, f2⟩ := C64_formats lim xmlOps (fun a => a.value.size) xml_lawful xml_nonempty c hc ⟨x, []⟩ n hn v _ h
    obtain ⟨ht, h1, h2⟩ := f2 hres
    exact ⟨v, ht, hst, h1, h2⟩
  · intro hno
    cases h : parseF xmlOps (schema lim) n (.cls c) ⟨x, []⟩ (Res.new ⟨.title py!"Check meta model", []⟩) with
    | error e =>
      right
      have he := parseF_only xmlOps xml_kinds ⟨fun _ _ _ _ _ _ => trivial, fun _ _ _ _ _ _ _ => trivial⟩ (schema lim) (sane lim) (supported lim)
        xml_nonempty (fun a => a.value.size) xml_lawful n (.cls c) ⟨x, []⟩ hn trivial trivial _ e h
      refine ⟨fun hnm => ?_, ?_⟩
      · obtain ⟨v, notes, h', -⟩ := C66_format_partial (schema lim) (sane lim) (xmlNames lim) (supported lim) (.cls c) trivial x hnm [] n hn _ hres
        rw [h] at h'
        cases h'
      · rw [checkDocument, parseAndCheck, h, he]
    | ok q =>
      obtain ⟨v, r⟩ := q
      left
      obtain ⟨f1, -⟩ := C64_formats lim xmlOps (fun a => a.value.size) xml_lawful xml_nonempty c hc ⟨x, []⟩ n hn v _ h
      obtain ⟨notes, rfl, -, h3⟩ := xml_outcome (schema lim) (.cls c) x [] n hn _ r v h
      have : (((Res.new (⟨.title py!"Check meta model", []⟩ : Note)).appendAll (errs notes)).ok) = false := by
        rw [← Bool.not_eq_true]
        intro hh
        exact hno _ (Read.accepts (sane lim) (xmlNames lim) (h3 ((appendAll_errs_ok _ _).mp hh).2 hres))
      obtain ⟨r, h4, h5⟩ := f1 this
      exact ⟨r, v, h4, h5⟩

/-- an XML document that is accepted as an object of the class, breaks no rule, and whose submodels follow their templates -/
def ValidXml (lim : Option Nat) (c : Cls) (x : Xml) : Prop := ∃ w, XAccepts (schema lim) (.cls c) x w ∧ Obeys lim w ∧ FollowsAll c w

/-- an XML document on which the checks raise -/
def TripsXml (lim : Option Nat) (c : Cls) (x : Xml) : Prop := ∃ w, XAccepts (schema lim) (.cls c) x w ∧ Trap lim c w

/-- The verdict on XML data, from the data alone: it is ok iff the document is valid; the checks raise iff it is accepted and a check raises on its
content, or, in documents that are not accepted, by an element without a name. -/
theorem C83_data (T : Str) (c : Cls) (hT : symbol T = .ok (.cls c)) (x : Xml) :
    (TripsXml lim c x → ∃ e, Mishap e ∧ checkXmlData (engine text lim) x T = .error e) ∧
    (¬ TripsXml lim c x → (∃ r, checkXmlData (engine text lim) x T = .ok r ∧ (r.ok = true ↔ ValidXml lim c x)) ∨
      (¬ Named x ∧ ¬ ValidXml lim c x ∧ checkXmlData (engine text lim) x T = .error .indexError)) := by
  have hc := good_symbols (symbol_iff.mp hT).1
  obtain ⟨h1, h2⟩ := C83_document lim c hc x (x.size + 1) (Nat.lt_succ_self _)
  by_cases ha : ∃ w, XAccepts (schema lim) (.cls c) x w
  · obtain ⟨w, hw⟩ := ha
    obtain ⟨v, hv, rfl, h3, h4⟩ := h1 w hw
    have tame := Strip.tame_of_type hv
    have huniq := fun w h => C83_unique (schema lim) (sane lim) (xmlNames lim) (.cls c) x w _ h hw
    have htr : TripsXml lim c x ↔ Trap lim c v := by
      rw [← Strip.trap_strip tame]
      exact ⟨fun ⟨w, hw', h⟩ => huniq w hw' ▸ h, fun h => ⟨_, hw, h⟩⟩
    have hva : ValidXml lim c x ↔ Obeys lim v ∧ FollowsAll c v := by
      rw [← Strip.obeys_strip tame, ← Strip.followsAll_strip tame]
      exact ⟨fun ⟨w, hw', h⟩ => huniq w hw' ▸ h, fun h => ⟨_, hw, h⟩⟩
    obtain ⟨g1, g2⟩ := toObj_spec xmlOps hT hv h3 h4
    rw [htr, hva]
    refine ⟨fun ht => map_error (g1 ht), fun ht => ?_⟩
    obtain ⟨r, e, ho⟩ := g2 ht
    exact .inl ⟨render text r, by rw [checkXmlData, engine]; dsimp only; rw [xmlToObj, e]; rfl, by rw [render_level]; exact ho⟩
  · have hnv : ¬ ValidXml lim c x := fun ⟨w, hw, _⟩ => ha ⟨w, hw⟩
    refine ⟨fun ⟨w, hw, _⟩ => absurd ⟨w, hw⟩ ha, fun _ => ?_⟩
    rcases h2 (fun w hw => ha ⟨w, hw⟩) with hr | ⟨hn, he⟩
    · obtain ⟨r, v, g1, g2⟩ := toObj_wrong xmlOps hT hr
      refine .inl ⟨render text r, by rw [checkXmlData, engine]; dsimp only; rw [xmlToObj, g1]; rfl, ?_⟩
      rw [render_level, g2]
      exact ⟨fun h => (nomatch h), fun h => absurd h hnv⟩
    · refine .inr ⟨hn, hnv, ?_⟩
      rw [checkXmlData, engine]
      dsimp only
      rw [xmlToObj, toObj_cls xmlOps hT, he]
      rfl

/-- The check of an XML file passes iff the file is well-formed and its document is a valid environment on which the checks do not raise, whatever
the model type. -/
theorem C83_file (f : File.Content Json Xml) (T : Str) :
    (∃ r, checkXmlFile (engine text lim) f T = .ok r ∧ r.ok = true) ↔
      ∃ x, f.xml = .ok x ∧ ValidXml lim .environment x ∧ ¬ TripsXml lim .environment x := by
  cases hl : f.xml with
  | error u =>
    refine ⟨fun ⟨r, h, h'⟩ => ?_, fun ⟨x, h, _⟩ => by cases h⟩
    rw [checkXmlFile, hl] at h
    cases u with
    | malformed t => cases h; cases h'
    | raised e => cases h
  | ok x =>
    rw [C51_xml_file_violated (engine text lim) f T x hl]
    obtain ⟨h1, h2⟩ := C83_data text lim py!"Environment" .environment (by decide +kernel) x
    constructor
    · rintro ⟨r, h, h'⟩
      by_cases ht : TripsXml lim .environment x
      · obtain ⟨e, -, he⟩ := h1 ht
        rw [he] at h
        cases h
      · rcases h2 ht with ⟨r', he, hr⟩ | ⟨-, -, he⟩
        · rw [he] at h
          cases h
          exact ⟨x, rfl, hr.mp h', ht⟩
        · rw [he] at h
          cases h
    · rintro ⟨x', hx, hv, ht⟩
      cases hx
      rcases h2 ht with ⟨r', he, hr⟩ | ⟨-, hn, -⟩
      · exact ⟨r', he, hr.mpr hv⟩
      · exact absurd hv hn

/-! ## examples -/

theorem xml_accepted_of {c : Cls} (hc : c ≠ .langStringSet) {x : Xml} (hn : x.size < 40) (h : verdictXml c x = .ok true) :
    ∃ w, XAccepts (schema none) (.cls c) x w := by
  obtain ⟨-, h2⟩ := C83_document none c hc x 40 hn
  refine Classical.byContradiction fun hno => ?_
  rcases h2 (fun w hw => hno ⟨w, hw⟩) with ⟨r, v, h3, h4⟩ | ⟨-, h3⟩
  · rw [verdictXml, h3] at h
    rw [show r.ok = true from Except.ok.inj h] at h4
    cases h4
  · rw [verdictXml, h3] at h
    cases h

/-- accepted: a sample in the format, and the three deviations of C66 -/
example : (∃ w, XAccepts (schema none) (.cls .environment) (sampleXml py!"CONSTANT") w) ∧ (∃ w, XAccepts (schema none) (.cls .key) twice w) ∧
    (∃ w, XAccepts (schema none) (.cls .submodelElementList) maybe w) ∧ ∃ w, XAccepts (schema none) (.cls .reference) renamed w :=
  ⟨xml_accepted_of (by decide) (by decide +kernel) (by decide +kernel), xml_accepted_of (by decide) (by decide +kernel) (by decide +kernel),
    xml_accepted_of (by decide) (by decide +kernel) (by decide +kernel), xml_accepted_of (by decide) (by decide +kernel) (by decide +kernel)⟩

/-- not accepted: no name; a text in an object; a child element with children in a text; two elements in the value of an operation variable that
is overwritten; another namespace -/
example : [el [] none [tx py!"type" py!"GlobalReference", tx py!"value" py!"a"], el py!"key" (some py!"x") [tx py!"type" py!"GlobalReference", tx py!"value" py!"a"],
      el py!"key" none [tx py!"type" py!"GlobalReference", el py!"value" (some py!"a") [el py!"b" none [tx py!"c" []]]],
      el py!"operationVariable" none [el py!"value" none [], el py!"value" none [el py!"capability" none [tx py!"idShort" py!"c"]]],
      .elem py!"key" none [tx py!"type" py!"GlobalReference", tx py!"value" py!"a"]].zipWith (fun x c => verdictXml c x) [.key, .key, .key, .operationVariable, .key] =
    [.error .indexError, .ok false, .ok false, .ok false, .ok false] := by decide +kernel

/-- … while the last value of an operation variable counts, and a child element without children is ignored in a text -/
example : [el py!"operationVariable" none [el py!"value" none [tx py!"x" []], el py!"value" none [el py!"capability" none [tx py!"idShort" py!"c"]]],
      el py!"key" none [tx py!"type" py!"GlobalReference", el py!"value" (some py!"a") [el py!"b" none []]]].zipWith (fun x c => verdictXml c x)
        [.operationVariable, .key] = [.ok true, .ok true] := by decide +kernel

/-- other orders of the attributes of a key -/
example (w : AVal) (h : XAccepts (schema none) (.cls .key) twice w) :
    XAccepts (schema none) (.cls .key) (el py!"key" none [tx py!"value" py!"a", tx py!"type" py!"GlobalReference", tx py!"value" py!"b"]) w := by
  refine C83_order (schema none) .key _ none _ _ (by decide +kernel) (fun k => ?_) w h
  by_cases h1 : k = xmlns ++ py!"type"
  · subst h1; rfl
  · by_cases h2 : k = xmlns ++ py!"value"
    · subst h2; rfl
    · simp [List.filter, tx, el, Xml.tag, Ne.symm h1, Ne.symm h2]

/-- a valid document, one that breaks a rule, one that is not accepted -/
example : [sampleXml py!"CONSTANT", sampleXml py!"wrong", twice].map (fun x => (checkXmlFile (engine (fun _ => []) none) ⟨.error (.malformed []), .ok x⟩ py!"Key").map
    (fun r => r.ok)) = [.ok true, .ok false, .ok false] := by decide +kernel

end Verif.Props
