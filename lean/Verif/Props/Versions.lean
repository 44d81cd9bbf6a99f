import Verif.Versions
import Verif.Props.EndToEnd
import Verif.Props.Templates

/-!
# C97: versions of the specification
-/

namespace Verif.Props
open Verif.Parse (Xml)
open Verif Verif.Versions Verif.Spec Verif.Spec.Api Verif.Spec.Suites Verif.Spec.Routes Verif.Http Verif.Generate Verif.Spec.Model
open Verif.Api hiding sane supported
open Verif.Api.Suites

variable (env : List Sent → Sent → Answer) (cfg : Cfg)

/-- a version and a suite that `supported_versions` lists -/
def Offered (version suite : Str) : Prop := ∃ e ∈ Cli.supportedVersions (availableSuites cfg), e.1 = version ∧ suite ∈ e.2

/-- `Asked v version`: the version that is asked for; without one (or with an empty one) it is the latest -/
inductive Asked : Option Str → Str → Prop
  | none : Asked none latestVersion
  | empty : Asked (some []) latestVersion
  | given {v} : v ≠ [] → Asked (some v) v

/-- C97: the latest version is supported. -/
theorem C97_latest : latestVersion ∈ (Cli.supportedVersions (availableSuites cfg)).map (·.1) ∧ latestVersion ∈ fileVersions.map (·.1) :=
  ⟨by simp [latestVersion, defaultVersion, Cli.supportedVersions], by decide⟩

/-- C97: a run with a version and a suite that are listed is that of the operations of the suite; every other one is refused before anything
is sent. Missing: the checks of files. -/
theorem C97_api_partial (client : Client) (conf : Conf) (v : Str) (hv : Asked conf.version v) :
    (Offered cfg v conf.suite → ∃ ops, (conf.suite, ops) ∈ availableSuites cfg ∧
      executeTests (availableSuites cfg) client conf = executeOps conf client ops) ∧
    (¬ Offered cfg v conf.suite → ∃ e, run env (executeTests (availableSuites cfg) client conf) = (.raised e, [])) := by
  have hl : Offered cfg v conf.suite ↔ v = py!"3.0" ∧ ∃ ops, (conf.suite, ops) ∈ availableSuites cfg := by
    simp only [Offered, Cli.supportedVersions, List.mem_singleton]
    constructor
    · rintro ⟨e, rfl, h1, h2⟩
      obtain ⟨x, hx, hs⟩ := List.mem_map.mp h2
      exact ⟨h1.symm, x.2, by rw [← hs]; exact hx⟩
    · rintro ⟨rfl, ops, ho⟩
      exact ⟨_, rfl, rfl, List.mem_map.mpr ⟨_, ho, rfl⟩⟩
  have he : executeTests (availableSuites cfg) client conf =
      if v ≠ py!"3.0" then .raise ⟨.generic, py!"Unknown version"⟩ else executeSuite (availableSuites cfg) client conf := by
    unfold executeTests
    generalize conf.version = cv at hv
    cases hv with
    | none => rfl
    | empty => rfl
    | given hne =>
      cases v with
      | nil => exact absurd rfl hne
      | cons c v => rfl
  rw [hl]
  constructor
  · rintro ⟨rfl, ops, ho⟩
    rw [he, if_neg (by simp)]
    unfold executeSuite
    cases hf : (availableSuites cfg).find? (fun s => s.1 == conf.suite) with
    | none => exact absurd (List.find?_eq_none.mp hf _ ho) (by simp)
    | some x =>
      obtain ⟨n, ops'⟩ := x
      have hn : n = conf.suite := by simpa using List.find?_some hf
      subst hn
      exact ⟨ops', List.mem_of_find?_eq_some hf, rfl⟩
  · intro hn
    rcases run_cases env cfg client conf with ⟨text, ht, h⟩ | ⟨ops, ho, h⟩
    · exact ⟨_, h⟩
    · by_cases hv3 : v = py!"3.0"
      · exact absurd ⟨hv3, ops, ho⟩ hn
      · rw [he, if_pos hv3, run_eq]
        exact ⟨_, rfl⟩

example : Asked none py!"3.0" ∧ Offered plainCfg py!"3.0" (service 0) := ⟨.none, _, List.mem_singleton.mpr rfl, rfl, by decide +kernel⟩
example : Asked (some py!"3.1") py!"3.1" ∧ ¬ Offered plainCfg py!"3.1" (service 0) :=
  ⟨.given (by decide), fun ⟨e, h, h1, _⟩ => by rw [List.mem_singleton.mp h] at h1; exact absurd h1 (by decide)⟩

/-- C97 fails for files: with every version, whether it is listed or not, the check is the same; a file passes iff its content is valid. -/
theorem C97_file_violated (text : Parse.Note → Str) (lim : Option Nat) (v : Str) :
    (∀ p x (b : List Nat) (T : Str) (cl : Aas.Cls), (∀ y ∈ b, y < 256) → Engine.symbol T = .ok (.cls cl) →
      ((∃ r, Versions.checkJsonFile (Engine.engine text lim) (JsonText.ofBytes p x b) v T = .ok r ∧ r.ok = true) ↔
        ∃ s j, Spec.JsonText.HasText b s ∧ Spec.JsonText.Denotes p s j ∧ ValidJson lim cl j ∧ ¬ TripsJson lim cl j)) ∧
    (∀ (f : File.Content Json Xml) (T : Str), (∃ r, Versions.checkXmlFile (Engine.engine text lim) f v T = .ok r ∧ r.ok = true) ↔
      ∃ x, f.xml = .ok x ∧ ValidXml lim .environment x ∧ ¬ TripsXml lim .environment x) ∧
    (∀ (g : File.Engine Json Xml) zip, Versions.checkAasxFile g zip v = File.checkAasxFile g zip) ∧
    ∃ w, w ∉ fileVersions.map (·.1) ∧ ∃ f r, Versions.checkXmlFile (Engine.engine text lim) f w py!"Environment" = .ok r ∧ r.ok = true :=
  ⟨fun p x b T cl hb hT => C80_verdict text lim p x b hb T cl hT, fun f T => C83_file text lim f T, fun _ _ => rfl,
    py!"9.9", by decide, ⟨.error (.malformed []), .ok (.elem py!"{https://admin-shell.io/aas/3/0}environment" none [])⟩, _, rfl, rfl⟩

/-- C97: the templates that are listed for a version are those that are applied: a submodel with the semantic id of one of them is compared with
it, if the check does not raise, and a submodel with another semantic id (or none) is passed over. -/
theorem C97_templates {lim : Option Nat} : ∀ e ∈ fileVersions, e.2.Nodup ∧ ∀ (root : Res Parse.Note) (v : Aas.AVal),
    Spec.Parse.HasType (Aas.schema lim) (.cls .submodel) v →
    ((∀ sid, Spec.Templates.semanticId? v = some sid → sid ∉ e.2) → Templates.checkSubmodel root v = .ok root) ∧
    (∀ sid r, Spec.Templates.semanticId? v = some sid → sid ∈ e.2 → Templates.checkSubmodel root v = .ok r →
      ∃ c sub, (sid, c) ∈ Templates.templates ∧ r = root.append sub ∧ (sub.ok = true ↔ Spec.Templates.Follows true c v)) := by
  intro e he
  obtain rfl := List.mem_singleton.mp he
  refine ⟨by decide +kernel, fun root v ht => ⟨fun hs => ?_, fun sid r hs hm hr => ?_⟩⟩
  · exact Templates.checkSubmodel_skip (Aas.obj_of_concrete (c := .submodel) rfl ht)
      (fun sid c h hm => hs sid h (List.mem_map.mpr ⟨_, hm, rfl⟩)) root
  · obtain ⟨⟨sid', c⟩, hc, rfl⟩ := List.mem_map.mp hm
    obtain ⟨sub, h1, h2⟩ := (C52_submodel_partial v ht sid' c hs hc root).2 r hr
    exact ⟨c, sub, hc, h1, h2⟩

example : fileVersions.map (fun e => (e.1, e.2.length)) = [(py!"3.0", Templates.templates.length)] ∧ Templates.templates.length ≠ 0 := by decide +kernel

end Verif.Props
