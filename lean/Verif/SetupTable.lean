import Verif.SetupPrefixes
import Verif.Props.Suites

/-! # The setups of all operations -/

namespace Verif.Api.Suites
open Verif Verif.Parse Verif.Aas Verif.Spec Verif.Spec.Parse Verif.Spec.Api Verif.Spec.Suites Verif.Spec.Routes Verif.Spec.Generate Verif.Generate Verif.Http Verif.Props
open Verif.Api hiding sane supported

variable {env : List Sent → Sent → Answer} {lim : Option Nat} {text : Note → Str}

/-- what is shown for an operation -/
def PlanOk (env : List Sent → Sent → Answer) (lim : Option Nat) (e : Str × List Seg) (op : Op) : Prop :=
  ∃ asked own, plan e = asked ++ own ∧ PrefixPlan env lim (placeOf e.2) asked op.prefixOf ∧ SuitePlan env lim (placeOf e.2) own op.suite

def PlanOps (env : List Sent → Sent → Answer) (lim : Option Nat) : List (Str × List Seg) → List Op → Prop
  | [], [] => True
  | e :: es, op :: ops => PlanOk env lim e op ∧ PlanOps env lim es ops
  | _, _ => False

theorem PlanOps.append : ∀ {es es' : List (Str × List Seg)} {ops ops' : List Op}, PlanOps env lim es ops → PlanOps env lim es' ops' →
    PlanOps env lim (es ++ es') (ops ++ ops')
  | [], _, [], _, _, h' => h'
  | _ :: _, _, _ :: _, _, h, h' => ⟨h.1, PlanOps.append h.2 h'⟩
  | [], _, _ :: _, _, h, _ => h.elim
  | _ :: _, _, [], _, h, _ => h.elim

theorem PlanOps.zip : ∀ {es : List (Str × List Seg)} {ops : List Op}, PlanOps env lim es ops → ∀ e op, (e, op) ∈ es.zip ops → PlanOk env lim e op
  | [], [], _, _, _, h => by cases h
  | e :: es, op :: ops, h, x, y, hx => by
    rw [List.zip_cons_cons] at hx
    rcases List.mem_cons.mp hx with hx | hx
    · cases hx; exact h.1
    · exact PlanOps.zip h.2 x y hx
  | [], _ :: _, h, _, _, _ => h.elim
  | _ :: _, [], h, _, _, _ => h.elim

theorem plan_ok {base : List Seg} {asked own : List Ask} {pre : Client → ApiM Str} {suite : Suite} {e : Str × List Seg} (hp : PrefixPlan env lim base asked pre)
    (hs : SuitePlan env lim base own suite) (hq : plan e = asked ++ own) (hpl : base = placeOf e.2 := by first | assumption | rfl) : PlanOk env lim e ⟨pre, suite⟩ :=
  ⟨asked, own, hq, hpl ▸ hp, hpl ▸ hs⟩

theorem elementOps_plan (hs : Sound env) {base : List Seg} {asked : List Ask} {pre : Client → ApiM Str} (hp : PrefixPlan env lim base asked pre)
    (hq : (elementPaths base).map plan = [asked ++ [cursorAsk (base ++ [.text py!"/submodel-elements"]) .elements],
      asked ++ [cursorAsk (base ++ [.text py!"/submodel-elements/$metadata"]) .elements], asked ++ [cursorAsk (base ++ [.text py!"/submodel-elements/$value"]) .elementValues],
      asked ++ [], asked ++ [cursorAsk (base ++ [.text py!"/submodel-elements/$path"]) .elementPaths]] ++
      List.replicate 6 (asked ++ [elementsAsk (base ++ [.text py!"/submodel-elements"])])) (hpl : allBelow base (elementPaths base) = true) :
    PlanOps env lim (elementPaths base) (elementOps ⟨lim, text⟩ pre) := by
  simp only [allBelow, elementPaths, List.all_cons, Bool.and_eq_true, decide_eq_true_eq] at hpl
  obtain ⟨p1, p2, p3, p4, p5, p6, p7, p8, p9, p10, p11, -⟩ := hpl
  simp only [elementPaths, List.map_cons, List.map_nil, List.cons_append, List.nil_append, List.replicate, List.cons.injEq] at hq
  obtain ⟨q1, q2, q3, q4, q5, q6, q7, q8, q9, q10, q11, -⟩ := hq
  exact ⟨plan_ok hp (getAllSubmodelElements_plan hs) q1, plan_ok hp (getAllSubmodelElementsMeta_plan hs) q2, plan_ok hp (getAllSubmodelElementsValue_plan hs) q3,
    plan_ok hp (no_plan () fun _ => rfl) q4, plan_ok hp (getAllSubmodelElementsPath_plan hs) q5, plan_ok hp (elementSuite_plan hs) q6, plan_ok hp (elementSuite_plan hs) q7,
    plan_ok hp (elementSuite_plan hs) q8, plan_ok hp (elementSuite_plan hs) q9, plan_ok hp (elementSuite_plan hs) q10, plan_ok hp (elementSuite_plan hs) q11, trivial⟩

theorem partOps_plan (hs : Sound env) {base : List Seg} {asked : List Ask} {pre : Client → ApiM Str} (hp : PrefixPlan env lim base asked pre)
    (hq : (shellPaths base).map plan = [asked ++ [], asked ++ [], asked ++ [cursorAsk (base ++ [.text py!"/submodel-refs"]) .submodelRefs]] ++
      List.replicate 5 (asked ++ [firstEntry (base ++ [.text py!"/submodel-refs"]) .submodelRefs])) (hpl : allBelow base (shellPaths base) = true) :
    PlanOps env lim (shellPaths base)
      ([⟨pre, getAssetInformationSuite ⟨lim, text⟩⟩, ⟨pre, getThumbnailSuite ⟨lim, text⟩⟩, ⟨pre, getAllSubmodelReferencesSuite ⟨lim, text⟩⟩] ++ byIdOps ⟨lim, text⟩ pre .aas) := by
  simp only [allBelow, shellPaths, submodelPaths, List.cons_append, List.nil_append, List.all_cons, Bool.and_eq_true, decide_eq_true_eq] at hpl
  obtain ⟨p1, p2, p3, p4, p5, p6, p7, p8, -⟩ := hpl
  simp only [shellPaths, submodelPaths, List.map_cons, List.map_nil, List.cons_append, List.nil_append, List.replicate, List.cons.injEq] at hq
  obtain ⟨q1, q2, q3, q4, q5, q6, q7, q8, -⟩ := hq
  exact ⟨plan_ok hp (no_plan () fun _ => rfl) q1, plan_ok hp (no_plan () fun _ => rfl) q2, plan_ok hp (getAllSubmodelReferences_plan hs) q3,
    plan_ok hp (fromAas_plan hs) q4, plan_ok hp (fromAas_plan hs) q5, plan_ok hp (fromAas_plan hs) q6, plan_ok hp (fromAas_plan hs) q7, plan_ok hp (fromAas_plan hs) q8, trivial⟩

theorem shellRepoOps_plan (hs : Sound env) : PlanOps env lim (specOps 0) (shellRepoOps ⟨lim, text⟩) :=
  .append (.append (.append (es := [_, _, _, _]) (ops := [_, _, _, _])
    ⟨plan_ok noPrefix_plan (getAllShells_plan hs) rfl, plan_ok noPrefix_plan (getAllShellsReference_plan hs) rfl, plan_ok noPrefix_plan (shellById_plan hs) rfl,
     plan_ok noPrefix_plan (shellById_plan hs) rfl, trivial⟩
    (partOps_plan hs (aasRepoPrefix_plan hs) rfl (by decide))) (elementOps_plan hs (aasRepoSubmodelPrefix_plan hs) rfl (by decide)))
    (ops' := [_, _]) ⟨plan_ok noPrefix_plan (generateSerialization_plan hs rfl) rfl, plan_ok noPrefix_plan (no_plan () fun _ => rfl) rfl, trivial⟩

theorem submodelRepoOps_plan (hs : Sound env) : PlanOps env lim (specOps 1) (submodelRepoOps ⟨lim, text⟩) :=
  .append (.append (.append (es := [_, _, _, _, _]) (ops := [_, _, _, _, _])
    ⟨plan_ok noPrefix_plan (allSubmodels_plan hs) rfl, plan_ok noPrefix_plan (allSubmodels_plan hs) rfl, plan_ok noPrefix_plan (allSubmodels_plan hs) rfl,
     plan_ok noPrefix_plan (allSubmodels_plan hs) rfl, plan_ok noPrefix_plan (allSubmodels_plan hs) rfl, trivial⟩
    (es' := [_, _, _, _, _]) (ops' := [_, _, _, _, _])
    ⟨plan_ok noPrefix_plan (fromSubmodel_plan hs) rfl, plan_ok noPrefix_plan (fromSubmodel_plan hs) rfl, plan_ok noPrefix_plan (fromSubmodel_plan hs) rfl,
     plan_ok noPrefix_plan (fromSubmodel_plan hs) rfl, plan_ok noPrefix_plan (fromSubmodel_plan hs) rfl, trivial⟩)
    (elementOps_plan hs (submodelRepoSubmodelPrefix_plan hs) rfl (by decide)))
    (ops' := [_, _]) ⟨plan_ok noPrefix_plan (generateSerialization_plan hs rfl) rfl, plan_ok noPrefix_plan (no_plan () fun _ => rfl) rfl, trivial⟩

theorem shellOps_plan (hs : Sound env) : PlanOps env lim (specOps 2) (shellOps ⟨lim, text⟩) :=
  .append (.append (.append (es := [_, _]) (ops := [_, _])
    ⟨plan_ok aasPrefix_plan (no_plan () fun _ => rfl) rfl, plan_ok aasPrefix_plan (no_plan () fun _ => rfl) rfl, trivial⟩
    (partOps_plan hs aasPrefix_plan rfl (by decide))) (elementOps_plan hs (aasSubmodelPrefix_plan hs) rfl (by decide)))
    (ops' := [_, _]) ⟨plan_ok aasPrefix_plan (generateSerialization_plan hs (path := [.text py!"/aas/shells"]) rfl) rfl, plan_ok noPrefix_plan (no_plan () fun _ => rfl) rfl, trivial⟩

theorem submodelOps_plan (hs : Sound env) : PlanOps env lim (specOps 3) (submodelOps ⟨lim, text⟩) :=
  .append (.append (es := [_, _, _, _, _]) (ops := [_, _, _, _, _])
    ⟨plan_ok submodelPrefix_plan (no_plan () fun _ => rfl) rfl, plan_ok submodelPrefix_plan (no_plan () fun _ => rfl) rfl, plan_ok submodelPrefix_plan (no_plan () fun _ => rfl) rfl,
     plan_ok submodelPrefix_plan (no_plan () fun _ => rfl) rfl, plan_ok submodelPrefix_plan (no_plan () fun _ => rfl) rfl, trivial⟩
    (elementOps_plan hs submodelPrefix_plan rfl (by decide)))
    (ops' := [_, _]) ⟨plan_ok submodelPrefix_plan (generateSerialization_plan hs (path := [.text py!"/submodel/shells"]) rfl) rfl, plan_ok noPrefix_plan (no_plan () fun _ => rfl) rfl, trivial⟩

end Verif.Api.Suites
