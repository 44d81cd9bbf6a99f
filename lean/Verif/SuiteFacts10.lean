import Verif.SetupLemmas
import Verif.Props.Suites

/-! # Facts about the positive tests of all operations -/

namespace Verif.Api.Suites
open Verif Verif.Parse Verif.Aas Verif.Spec Verif.Spec.Parse Verif.Spec.Api Verif.Spec.Suites Verif.Spec.Routes Verif.Spec.Generate Verif.Generate Verif.Http Verif.Props
open Verif.Api hiding sane supported

variable {env : List Sent → Sent → Answer} {lim : Option Nat} {text : Note → Str}

theorem meaning_bind_val {Q A α β : Type} {env : List Q → Q → A} {p : Prog Q A α} {k : α → Prog Q A β} {h : List Q} {b : β}
    (ho : (meaning env (p.bind k) true h).out = .val b) :
    ∃ a, (meaning env p true h).out = .val a ∧ (meaning env (k a) true (meaning env p true h).hist).out = .val b := by
  rw [meaning_bind] at ho
  unfold Meaning.andThen at ho
  cases hp : (meaning env p true h).out with
  | val a =>
    rw [hp] at ho
    exact ⟨a, rfl, ho⟩
  | aborted x => rw [hp] at ho; cases ho
  | raised e => rw [hp] at ho; cases ho

theorem not_fills {t : Str} {rest : List Seg} (ht : t ≠ []) : ¬ Fills (.text t :: rest) [] := fun ⟨r, h, _⟩ => by
  cases t with
  | nil => exact ht rfl
  | cons => cases h

theorem put_full {vs : List Str} {t : Str} {rest : List Seg} (ht : t ≠ []) : ¬ Fills (put vs (.text t :: rest)) [] := by
  rw [put]; exact not_fills ht

/-- what is shown for an operation: with these texts as the ids in the path, the positive tests are those of the table -/
def PosOk (env : List Sent → Sent → Answer) (lim : Option Nat) (e : Str × List Seg) (op : Op) : Prop :=
  ∀ client profile pre vs, Slash pre → Fills (put vs (placeOf e.2)) pre → ∀ h st,
    (meaning env (op.suite.setup (client.descend pre)) true h).out = .val st →
    PositiveRows ⟨env, lim, client, put vs (sentTo e), profile⟩ (positivesOf e.1) (op.suite.tests.map fun t => (t.name, t.run (client.descend pre) profile st))

def PosOps (env : List Sent → Sent → Answer) (lim : Option Nat) : List (Str × List Seg) → List Op → Prop
  | [], [] => True
  | e :: es, op :: ops => PosOk env lim e op ∧ PosOps env lim es ops
  | _, _ => False

theorem PosOps.append : ∀ {es es' : List (Str × List Seg)} {ops ops' : List Op}, PosOps env lim es ops → PosOps env lim es' ops' →
    PosOps env lim (es ++ es') (ops ++ ops')
  | [], _, [], _, _, h' => h'
  | _ :: _, _, _ :: _, _, h, h' => ⟨h.1, PosOps.append h.2 h'⟩
  | [], _, _ :: _, _, h, _ => h.elim
  | _ :: _, _, [], _, h, _ => h.elim

theorem PosOps.zip : ∀ {es : List (Str × List Seg)} {ops : List Op}, PosOps env lim es ops → ∀ e op, (e, op) ∈ es.zip ops → PosOk env lim e op
  | [], [], _, _, _, h => by cases h
  | e :: es, op :: ops, h, x, y, hx => by
    rw [List.zip_cons_cons] at hx
    rcases List.mem_cons.mp hx with hx | hx
    · cases hx; exact h.1
    · exact PosOps.zip h.2 x y hx
  | [], _ :: _, h, _, _, _ => h.elim
  | _ :: _, [], h, _, _, _ => h.elim

theorem pos_ok {base : List Seg} {path : List Piece} {pre : Client → ApiM Str} {suite : Cfg → Suite} {e : Str × List Seg} (hb : fixed base = true)
    (h : ∀ client profile pre vs, Placed ⟨env, lim, client, put vs (sentTo e), profile⟩ pre (put vs base) path →
      SuitePositive ⟨env, lim, client, put vs (sentTo e), profile⟩ text pre (positivesOf e.1) suite)
    (hr : norm (base ++ segs path) = norm (sentTo e)) (hpl : base = placeOf e.2 := by first | assumption | rfl) : PosOk env lim e ⟨pre, suite ⟨lim, text⟩⟩ :=
  fun client profile p vs h1 h2 => h client profile p vs ⟨h1, hpl ▸ h2, fixed_put vs hb, by
    rw [← put_append vs base (segs_noIds path)]
    exact put_congr vs hr⟩

theorem top_ok {path : List Piece} {pre : Client → ApiM Str} {suite : Cfg → Suite} {e : Str × List Seg}
    (h : ∀ client profile pre vs, Placed ⟨env, lim, client, put vs (sentTo e), profile⟩ pre [] path →
      SuitePositive ⟨env, lim, client, put vs (sentTo e), profile⟩ text pre (positivesOf e.1) suite)
    (hr : norm (segs path) = norm (sentTo e)) (hpl : [] = placeOf e.2 := by rfl) : PosOk env lim e ⟨pre, suite ⟨lim, text⟩⟩ :=
  pos_ok (base := []) rfl (fun client profile pre vs hp => h client profile pre vs (by rwa [put_noIds vs (l := []) rfl] at hp)) hr hpl

theorem elementOps_pos (hs : Sound env) {base : List Seg} {pre : Client → ApiM Str} (hb : fixed base = true) (hpl : allBelow base (elementPaths base) = true) :
    PosOps env lim (elementPaths base) (elementOps ⟨lim, text⟩ pre) := by
  simp only [allBelow, elementPaths, List.all_cons, Bool.and_eq_true, decide_eq_true_eq] at hpl
  obtain ⟨p1, p2, p3, p4, p5, p6, p7, p8, p9, p10, p11, -⟩ := hpl
  refine ⟨pos_ok (suite := getAllSubmodelElementsSuite) hb (fun _ _ _ _ h => getAllSubmodelElements_positive hs h) ?_,
    pos_ok (suite := getAllSubmodelElementsMetaSuite) hb (fun _ _ _ _ h => getAllSubmodelElementsMeta_positive hs h) ?_,
    pos_ok (suite := getAllSubmodelElementsValueSuite) hb (fun _ _ _ _ h => getAllSubmodelElementsValue_positive hs h) ?_,
    pos_ok (suite := getAllSubmodelElementsReferenceSuite) hb (fun _ _ _ _ h => getAllSubmodelElementsReference_positive hs h) ?_,
    pos_ok (suite := getAllSubmodelElementsPathSuite) hb (fun _ _ _ _ h => getAllSubmodelElementsPath_positive hs h) ?_,
    pos_ok (suite := getElementSuite) hb (fun _ _ _ _ h => getElement_positive hs h) ?_,
    pos_ok (suite := getElementMetaSuite) hb (fun _ _ _ _ h => getElementMeta_positive hs h) ?_,
    pos_ok (suite := getElementValueSuite) hb (fun _ _ _ _ h => getElementValue_positive hs h) ?_,
    pos_ok (suite := getElementReferenceSuite) hb (fun _ _ _ _ h => getElementReference_positive hs h) ?_,
    pos_ok (suite := getElementPathSuite) hb (fun _ _ _ _ h => getElementPath_positive hs h) ?_,
    pos_ok (suite := getFileSuite) hb (fun _ _ _ _ h => getFile_positive hs h) ?_, trivial⟩
  all_goals exact norm_append base rfl

theorem byIdOps_pos (hs : Sound env) {base : List Seg} {pre : Client → ApiM Str} (hb : fixed base = true) (hpl : allBelow base (submodelPaths base) = true)
    {f : From} (hf : ∀ vs, FromOk f (put vs base)) : PosOps env lim (submodelPaths base) (byIdOps ⟨lim, text⟩ pre f) := by
  simp only [allBelow, submodelPaths, List.all_cons, Bool.and_eq_true, decide_eq_true_eq] at hpl
  obtain ⟨p1, p2, p3, p4, p5, -⟩ := hpl
  refine ⟨pos_ok (suite := (getSubmodelByIdSuite · f)) hb (fun _ _ _ _ h => getSubmodelById_positive hs h (hf _)) ?_,
    pos_ok (suite := (getSubmodelByIdMetaSuite · f)) hb (fun _ _ _ _ h => getSubmodelByIdMeta_positive hs h (hf _)) ?_,
    pos_ok (suite := (getSubmodelByIdReferenceSuite · f)) hb (fun _ _ _ _ h => getSubmodelByIdReference_positive hs h (hf _)) ?_,
    pos_ok (suite := (getSubmodelByIdValueSuite · f)) hb (fun _ _ _ _ h => getSubmodelByIdValue_positive hs h (hf _)) ?_,
    pos_ok (suite := (getSubmodelByIdPathSuite · f)) hb (fun _ _ _ _ h => getSubmodelByIdPath_positive hs h (hf _)) ?_, trivial⟩
  all_goals exact norm_append base rfl

theorem partOps_pos (hs : Sound env) {base : List Seg} {pre : Client → ApiM Str} (hb : fixed base = true) (hpl : allBelow base (shellPaths base) = true)
    (hf : ∀ vs, FromOk .aas (put vs base)) : PosOps env lim (shellPaths base)
      ([⟨pre, getAssetInformationSuite ⟨lim, text⟩⟩, ⟨pre, getThumbnailSuite ⟨lim, text⟩⟩, ⟨pre, getAllSubmodelReferencesSuite ⟨lim, text⟩⟩] ++ byIdOps ⟨lim, text⟩ pre .aas) := by
  have hpl' : allBelow base (submodelPaths base) = true := by
    simp only [allBelow, shellPaths, List.all_append, Bool.and_eq_true] at hpl
    exact hpl.2
  simp only [allBelow, shellPaths, List.cons_append, List.nil_append, List.all_cons, Bool.and_eq_true, decide_eq_true_eq] at hpl
  obtain ⟨p1, p2, p3, -⟩ := hpl
  refine .append ⟨pos_ok (suite := getAssetInformationSuite) hb (fun _ _ _ _ h => getAssetInformation_positive hs h) ?_,
    pos_ok (suite := getThumbnailSuite) hb (fun _ _ _ _ h => getThumbnail_positive h) ?_,
    pos_ok (suite := getAllSubmodelReferencesSuite) hb (fun _ _ _ _ h => getAllSubmodelReferences_positive hs h) ?_, trivial⟩ (byIdOps_pos hs hb hpl' hf)
  all_goals exact norm_append base rfl

theorem shellRepoOps_pos (hs : Sound env) : PosOps env lim (specOps 0) (shellRepoOps ⟨lim, text⟩) :=
  .append (.append (.append (es := [_, _, _, _]) (ops := [_, _, _, _])
    ⟨top_ok (suite := getAllShellsSuite) (fun _ _ _ _ h => getAllShells_positive hs h) rfl,
     top_ok (suite := getAllShellsReferenceSuite) (fun _ _ _ _ h => getAllShellsReference_positive hs h) rfl,
     top_ok (suite := getShellByIdSuite) (fun _ _ _ _ h => getShellById_positive hs h) rfl,
     top_ok (suite := getShellByIdReferenceSuite) (fun _ _ _ _ h => getShellByIdReference_positive hs h) rfl, trivial⟩
    (partOps_pos hs rfl (by decide) fun _ => put_full (by decide))) (elementOps_pos hs rfl (by decide)))
    (ops' := [_, _]) ⟨top_ok (suite := generateSerializationSuite) (fun _ _ _ _ h => generateSerialization_positive hs h) rfl,
      top_ok (suite := getDescriptionSuite) (fun _ _ _ _ h => getDescription_positive hs h) rfl, trivial⟩

theorem submodelRepoOps_pos (hs : Sound env) : PosOps env lim (specOps 1) (submodelRepoOps ⟨lim, text⟩) :=
  .append (.append (.append (es := [_, _, _, _, _]) (ops := [_, _, _, _, _])
    ⟨top_ok (suite := getAllSubmodelsSuite) (fun _ _ _ _ h => getAllSubmodels_positive hs h) rfl,
     top_ok (suite := getAllSubmodelsMetaSuite) (fun _ _ _ _ h => getAllSubmodelsMeta_positive hs h) rfl,
     top_ok (suite := getAllSubmodelsValueSuite) (fun _ _ _ _ h => getAllSubmodelsValue_positive hs h) rfl,
     top_ok (suite := getAllSubmodelsReferenceSuite) (fun _ _ _ _ h => getAllSubmodelsReference_positive hs h) rfl,
     top_ok (suite := getAllSubmodelsPathSuite) (fun _ _ _ _ h => getAllSubmodelsPath_positive hs h) rfl, trivial⟩
    (byIdOps_pos hs rfl (by decide) (f := .submodel) fun vs => by cases vs <;> rfl)) (elementOps_pos hs rfl (by decide)))
    (ops' := [_, _]) ⟨top_ok (suite := generateSerializationSuite) (fun _ _ _ _ h => generateSerialization_positive hs h) rfl,
      top_ok (suite := getDescriptionSuite) (fun _ _ _ _ h => getDescription_positive hs h) rfl, trivial⟩

theorem shellOps_pos (hs : Sound env) : PosOps env lim (specOps 2) (shellOps ⟨lim, text⟩) :=
  .append (.append (.append (es := [_, _]) (ops := [_, _])
    ⟨pos_ok (base := [.text py!"/aas"]) (suite := getShellSuite) rfl (fun _ _ _ _ h => getShell_positive hs h) rfl,
     pos_ok (base := [.text py!"/aas"]) (suite := getShellReferenceSuite) rfl (fun _ _ _ _ h => getShellReference_positive hs h) rfl, trivial⟩
    (partOps_pos hs rfl (by decide) fun _ => put_full (by decide))) (elementOps_pos hs rfl (by decide)))
    (ops' := [_, _]) ⟨pos_ok (base := [.text py!"/aas"]) (suite := generateSerializationSuite) rfl (fun _ _ _ _ h => generateSerialization_positive hs h) rfl,
      top_ok (suite := getDescriptionSuite) (fun _ _ _ _ h => getDescription_positive hs h) rfl, trivial⟩

theorem submodelOps_pos (hs : Sound env) : PosOps env lim (specOps 3) (submodelOps ⟨lim, text⟩) :=
  .append (.append (es := [_, _, _, _, _]) (ops := [_, _, _, _, _])
    ⟨pos_ok (base := [.text py!"/submodel"]) (suite := getSubmodelSuite) rfl (fun _ _ _ _ h => getSubmodel_positive hs h) rfl,
     pos_ok (base := [.text py!"/submodel"]) (suite := getSubmodelMetaSuite) rfl (fun _ _ _ _ h => getSubmodelMeta_positive hs h) rfl,
     pos_ok (base := [.text py!"/submodel"]) (suite := getSubmodelValueSuite) rfl (fun _ _ _ _ h => getSubmodelValue_positive h) rfl,
     pos_ok (base := [.text py!"/submodel"]) (suite := getSubmodelReferenceSuite) rfl (fun _ _ _ _ h => getSubmodelReference_positive hs h) rfl,
     pos_ok (base := [.text py!"/submodel"]) (suite := getSubmodelPathSuite) rfl (fun _ _ _ _ h => getSubmodelPath_positive hs h) rfl, trivial⟩
    (elementOps_pos hs rfl (by decide)))
    (ops' := [_, _]) ⟨pos_ok (base := [.text py!"/submodel"]) (suite := generateSerializationSuite) rfl (fun _ _ _ _ h => generateSerialization_positive hs h) rfl,
      top_ok (suite := getDescriptionSuite) (fun _ _ _ _ h => getDescription_positive hs h) rfl, trivial⟩

end Verif.Api.Suites
