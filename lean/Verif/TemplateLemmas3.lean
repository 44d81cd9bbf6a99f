import Verif.TemplateLemmas2
import Verif.Spec.Paths
import Verif.ConstraintLemmas

/-! # The template parser: submodels -/

namespace Verif.Templates
open Verif Verif.Parse Verif.Aas Verif.Spec.Model Verif.Spec.Templates Verif.Spec.Parse Verif.Spec Verif.Spec.Paths

variable {lim : Option Nat} {v : AVal}

theorem submodel_out (h : Obj lim .submodel v) (c : TCls) (res : Res Note) :
    Out (RaisesSubmodel c v) (FitsAll true c (elems v .submodelElements))
      (fun w => ∃ attrs, w = .obj c attrs ∧ AttrsOk (elems v .submodelElements) (tfieldsOf c) attrs) res (parseSubmodel c v res) := by
  rw [parseSubmodel]
  rcases h.list? value_slots.2.2 with ⟨h1, h2, h3⟩ | ⟨h1, h2, h3, h4⟩
  · rw [getAttr_of h1]
    exact .raise (.empty h2) (.inr (.inl rfl))
  · rw [getAttr_of h1]
    refine (elements_out (rec := tparse depth) (c := c) (path := []) (fun x hx => isElement_of_typed (h4 x hx)) ?_ res).congr ?_ .rfl
      (fun _ h => h)
    · intro f hf y hy
      have := rank_fields c f hf
      have : rank (.cls c) ≤ 3 := by cases c <;> decide
      exact tparse_out depth f.ty y (by unfold depth; omega) (isElement_of_typed (h4 y (List.mem_filter.mp hy).1))
    · constructor
      · rintro ⟨f, hf, hW, y, hy, hR⟩
        exact .deeper hf hW hy hR
      · rintro (h | ⟨hf, hW, hy, hR⟩)
        · exact absurd h2 h
        · exact ⟨_, hf, hW, _, hy, hR⟩

/-! ## the constraint -/

theorem attrs_get {els : List AVal} : ∀ {fs : List TField} {attrs : List (Str × TVal)}, (fs.map (·.name)).Nodup → AttrsOk els fs attrs →
    ∀ f ∈ fs, ∃ w, dictGet f.name attrs = some w ∧ (w = .none ↔ matching f els = [])
  | [], _, _, _, f, hf => by simp at hf
  | f' :: fs, [], _, h, f, hf => by simp [AttrsOk] at h
  | f' :: fs, (n, w) :: attrs, hn, h, f, hf => by
    obtain ⟨h1, h2⟩ := h
    simp only [List.map_cons, List.cons.injEq] at h1
    rw [List.map_cons, List.nodup_cons] at hn
    obtain ⟨rfl, h1⟩ := h1
    rcases List.mem_cons.mp hf with rfl | hf
    · exact ⟨w, by simp [dictGet], (h2 (f, (f.name, w)) (by simp)).1⟩
    · obtain ⟨w', h3, h4⟩ := attrs_get hn.2 ⟨h1, fun p hp => h2 p (by simp [hp])⟩ f hf
      refine ⟨w', ?_, h4⟩
      rw [dictGet, if_neg]
      · exact h3
      · intro e
        exact hn.1 (by rw [e]; exact List.mem_map_of_mem hf)

def familyField : TField := ⟨py!"manufacturer_product_family", py!"0173-1#02-AAU731#001", 0, some 1, .lang⟩
def typeField : TField := ⟨py!"manufacturer_product_type", py!"0173-1#02-AAO057#002", 0, some 1, .lang⟩

theorem matching_nil (f : TField) (els : List AVal) : matching f els = [] ↔ ∀ x ∈ els, semanticId? x ≠ some f.semanticId := by
  simp [matching, List.filter_eq_nil_iff]

theorem family_iff (els : List AVal) : FamilyOrType els ↔ ¬ (matching familyField els = [] ∧ matching typeField els = []) := by
  rw [matching_nil, matching_nil]
  constructor
  · rintro ⟨x, hx, h | h⟩ ⟨h1, h2⟩
    · exact h1 x hx h
    · exact h2 x hx h
  · intro h
    refine Classical.byContradiction fun hh => h ⟨fun x hx he => hh ⟨x, hx, .inl he⟩, fun x hx he => hh ⟨x, hx, .inr he⟩⟩

theorem checkFamily_spec {els : List AVal} {attrs : List (Str × TVal)} (h : AttrsOk els (tfieldsOf .digitalNameplate) attrs) :
    (FamilyOrType els → checkFamily (.obj .digitalNameplate attrs) = .ok ()) ∧
    (¬ FamilyOrType els → ∃ t, checkFamily (.obj .digitalNameplate attrs) = .error (.violated t .error)) := by
  have hn : ((tfieldsOf .digitalNameplate).map (·.name)).Nodup := by decide +kernel
  obtain ⟨w1, h1, e1⟩ := attrs_get hn h familyField (by decide +kernel)
  obtain ⟨w2, h2, e2⟩ := attrs_get hn h typeField (by decide +kernel)
  have habs : ∀ w : TVal, (match some w with | some .none => true | _ => false) = true ↔ w = .none := by
    intro w; cases w <;> simp
  rw [family_iff, ← e1, ← e2, checkFamily]
  change dictGet py!"manufacturer_product_family" attrs = _ at h1
  change dictGet py!"manufacturer_product_type" attrs = _ at h2
  simp only [h1, h2]
  by_cases hh : w1 = .none ∧ w2 = .none
  · rw [hh.1, hh.2]
    exact ⟨fun h => absurd ⟨rfl, rfl⟩ h, fun _ => ⟨_, rfl⟩⟩
  · refine ⟨fun _ => ?_, fun h => absurd hh h⟩
    rw [if_neg]
    rw [Bool.and_eq_true]
    rintro ⟨a, b⟩
    exact hh ⟨(habs w1).mp a, (habs w2).mp b⟩

theorem tchecks_other {c : TCls} (h : c ≠ .digitalNameplate) : tchecks c = [] := by
  cases c <;> first | rfl | exact absurd rfl h

/-- the constraints of a parsed template -/
theorem constraints_spec {c : TCls} {els : List AVal} {attrs : List (Str × TVal)} (h : AttrsOk els (tfieldsOf c) attrs) (res : Res Note)
    (hres : res.ok = true) :
    ∃ r, checkConstraints id tchecks (.obj c attrs) [] res = .ok r ∧ (r.ok = true ↔ (c = .digitalNameplate → FamilyOrType els)) := by
  have hs := checkConstraints_spec id tchecks (.obj c attrs) [] res
  have hobj : ∀ o ∈ objects id (.obj c attrs : TVal) [], ∀ f ∈ checksOf tchecks o.2, o = ([], .obj .digitalNameplate attrs) ∧ c = .digitalNameplate ∧ f = checkFamily := by
    intro o ho f hf
    obtain ⟨q, hq, hn⟩ := (mem_objects id _ [] o).mp ho
    obtain ⟨p, x⟩ := o
    simp only [List.nil_append] at hq
    subst hq
    match x with
    | .obj c' attrs' =>
      rw [checksOf] at hf
      rcases nested_free h hn with ⟨rfl, rfl, rfl⟩ | hne
      · by_cases hc : c' = .digitalNameplate
        · subst hc
          have : f ∈ [checkFamily] := hf
          exact ⟨rfl, rfl, by simpa using this⟩
        · rw [tchecks_other hc] at hf; simp at hf
      · rw [tchecks_other hne] at hf; simp at hf
  cases hc : checkConstraints id tchecks (.obj c attrs) [] res with
  | error e =>
    rw [hc] at hs
    obtain ⟨o, ho, f, hf, hr⟩ := hs
    obtain ⟨rfl, rfl, rfl⟩ := hobj o ho f hf
    have := checkFamily_spec h
    change checkFamily (.obj .digitalNameplate attrs) = .error (.py e) at hr
    by_cases hF : FamilyOrType els
    · rw [this.1 hF] at hr; cases hr
    · obtain ⟨t, ht⟩ := this.2 hF
      rw [ht] at hr; cases hr
  | ok r =>
    rw [hc] at hs
    obtain ⟨rfl, -⟩ := hs
    refine ⟨_, rfl, ?_⟩
    rw [Res.appendAll_ok]
    simp only [hres, true_and, List.mem_flatMap, List.mem_filterMap]
    constructor
    · rintro hall rfl
      refine Classical.byContradiction fun hF => ?_
      obtain ⟨t, ht⟩ := (checkFamily_spec h).2 hF
      have := hall _ ⟨([], .obj .digitalNameplate attrs), (mem_objects id _ [] _).mpr ⟨[], rfl, .here _ _⟩, checkFamily,
        (by change checkFamily ∈ [checkFamily]; simp), by rw [violation, ht]⟩
      cases this
    · rintro hF s ⟨o, ho, f, hf, hv⟩
      obtain ⟨rfl, rfl, rfl⟩ := hobj o ho f hf
      rw [violation, (checkFamily_spec h).1 (hF rfl)] at hv
      cases hv

/-! ## one submodel -/

theorem dictGet_templates {sid : Str} {c : TCls} : dictGet sid templates = some c ↔ (sid, c) ∈ templates := by
  constructor
  · exact dictGet_mem
  · exact dictGet_of_mem (by decide +kernel)

theorem checkSubmodel_spec (h : Obj lim .submodel v) {sid : Str} {c : TCls} (hs : semanticId? v = some sid) (ht : (sid, c) ∈ templates)
    (root : Res Note) :
    (RaisesSubmodel c v → ∃ e, Mishap e ∧ checkSubmodel root v = .error e) ∧
    (¬ RaisesSubmodel c v → ∃ sub, checkSubmodel root v = .ok (root.append sub) ∧ (sub.ok = true ↔ Follows true c v)) := by
  rw [checkSubmodel, submodelKey_spec h, hs]
  simp only [bind, Except.bind, dictGet_templates.mpr ht]
  generalize hr : ((Res.new ⟨.title py!"Check submodel", []⟩).append (Res.new ⟨.title (py!"Template: " ++ c.pyName), []⟩) : Res Note) = res
  have hok : res.ok = true := by rw [← hr]; rfl
  have ho := submodel_out h c res
  refine ⟨fun hR => ?_, fun hR => ?_⟩
  · obtain ⟨e, hm, he⟩ := ho.1 hR
    exact ⟨e, hm, by rw [he]⟩
  · obtain ⟨w, notes, he, hf, hv⟩ := ho.2 hR
    rw [he]
    by_cases hn : notes = []
    · subst hn
      obtain ⟨attrs, rfl, hA⟩ := hv hok rfl
      have hok' : (res.appendAll (errs [])).ok = true := hok
      obtain ⟨r, hr, hro⟩ := constraints_spec hA (res.appendAll (errs [])) hok'
      simp only [hok', if_true, hr, pure, Except.pure]
      refine ⟨r, rfl, ?_⟩
      rw [hro, Follows, and_iff_right ((hf hok).mp rfl)]
    · have hno : (res.appendAll (errs notes)).ok = false := by
        rw [← Bool.not_eq_true, appendAll_errs_ok]
        exact fun h => hn h.2
      simp only [hno, Bool.false_eq_true, if_false, pure, Except.pure]
      refine ⟨_, rfl, ?_⟩
      rw [hno]
      simp only [Bool.false_eq_true, false_iff]
      rintro ⟨hF, -⟩
      exact hn ((hf hok).mpr hF)

theorem checkSubmodel_skip (h : Obj lim .submodel v) (hs : ∀ sid c, semanticId? v = some sid → (sid, c) ∉ templates) (root : Res Note) :
    checkSubmodel root v = .ok root := by
  rw [checkSubmodel, submodelKey_spec h]
  match hk : semanticId? v with
  | none => rfl
  | some sid =>
    have : dictGet sid templates = none := by
      match hd : dictGet sid templates with
      | none => rfl
      | some c => exact absurd (dictGet_mem hd) (hs sid c hk)
    simp only [bind, Except.bind, this, pure, Except.pure]

/-! ## all submodels -/

theorem template_of {sid : Str} {c : TCls} (h : (sid, c) ∈ templates) : templates.find? (fun t => decide (t.1 = sid)) = some (sid, c) := by
  simp only [templates, List.mem_cons, List.not_mem_nil, or_false, Prod.mk.injEq] at h
  rcases h with ⟨rfl, rfl⟩ | ⟨rfl, rfl⟩ <;> decide +kernel

theorem template_none {sid : Str} (h : ∀ c, (sid, c) ∉ templates) : templates.find? (fun t => decide (t.1 = sid)) = none := by
  rw [List.find?_eq_none]
  intro t ht e
  simp only [decide_eq_true_eq] at e
  subst e
  exact h t.2 ht

theorem submodels_spec : ∀ (sms : List AVal) (root : Res Note), (∀ x ∈ sms, Obj lim .submodel x) →
    ((∃ p ∈ templated sms, RaisesSubmodel p.2 p.1) → ∃ e, Mishap e ∧ checkSubmodels root sms = .error e) ∧
    ((∀ p ∈ templated sms, ¬ RaisesSubmodel p.2 p.1) → ∃ subs, checkSubmodels root sms = .ok (root.appendAll subs) ∧
      subs.length = (templated sms).length ∧ ∀ p ∈ (templated sms).zip subs, (p.2.ok = true ↔ Follows true p.1.2 p.1.1))
  | [], root, _ => ⟨by simp [templated], fun _ => ⟨[], rfl, rfl, by simp [templated]⟩⟩
  | sm :: sms, root, h => by
    have ho := h sm (by simp)
    have ih := fun root => submodels_spec sms root (fun x hx => h x (by simp [hx]))
    have hcase : (∃ sid c, semanticId? sm = some sid ∧ (sid, c) ∈ templates) ∨ ∀ sid c, semanticId? sm = some sid → (sid, c) ∉ templates := by
      by_cases hh : ∃ sid c, semanticId? sm = some sid ∧ (sid, c) ∈ templates
      · exact .inl hh
      · exact .inr fun sid c h1 h2 => hh ⟨sid, c, h1, h2⟩
    rcases hcase with ⟨sid, c, h1, h2⟩ | hno
    · have hT : templated (sm :: sms) = (sm, c) :: templated sms := by
        rw [templated, List.filterMap_cons, h1, Option.bind_some, template_of h2]; rfl
      have hs := checkSubmodel_spec ho h1 h2 root
      rw [hT, checkSubmodels]
      by_cases hR : RaisesSubmodel c sm
      · obtain ⟨e, hm, he⟩ := hs.1 hR
        exact ⟨fun _ => ⟨e, hm, by rw [he]; rfl⟩, fun hh => absurd hR (hh (sm, c) (by simp))⟩
      · obtain ⟨sub, he, hf⟩ := hs.2 hR
        rw [he]
        refine ⟨fun hh => ?_, fun hh => ?_⟩
        · obtain ⟨p, hp, hp'⟩ := hh
          rcases List.mem_cons.mp hp with rfl | hp
          · exact absurd hp' hR
          · exact (ih (root.append sub)).1 ⟨p, hp, hp'⟩
        · obtain ⟨subs, h3, h4, h5⟩ := (ih (root.append sub)).2 (fun p hp => hh p (by simp [hp]))
          refine ⟨sub :: subs, h3, by simp [h4], ?_⟩
          intro p hp
          rw [List.zip_cons_cons, List.mem_cons] at hp
          rcases hp with rfl | hp
          · exact hf
          · exact h5 p hp
    · have hT : templated (sm :: sms) = templated sms := by
        rw [templated, List.filterMap_cons]
        match hk : semanticId? sm with
        | none => rfl
        | some sid => rw [Option.bind_some, template_none (fun c => hno sid c hk)]; rfl
      rw [hT, checkSubmodels, checkSubmodel_skip ho hno root]
      exact ih root

theorem templates_spec {env : AVal} (h : Obj lim .environment env) (root : Res Note) :
    ((∃ p ∈ templated (elems env .submodels), RaisesSubmodel p.2 p.1) → ∃ e, Mishap e ∧ parseSubmodelTemplates root env = .error e) ∧
    ((∀ p ∈ templated (elems env .submodels), ¬ RaisesSubmodel p.2 p.1) → ∃ subs, parseSubmodelTemplates root env = .ok (root.appendAll subs) ∧
      subs.length = (templated (elems env .submodels)).length ∧
      ∀ p ∈ (templated (elems env .submodels)).zip subs, (p.2.ok = true ↔ Follows true p.1.2 p.1.1)) := by
  rw [parseSubmodelTemplates]
  rcases h.list? (f := .submodels) (key := py!"submodels") (ty := .cls .submodel) rfl with ⟨h1, h2, h3⟩ | ⟨h1, h2, h3, h4⟩
  · rw [getAttr_of h1, h3]
    exact ⟨by simp [templated], fun _ => ⟨[], rfl, rfl, by simp [templated]⟩⟩
  · rw [getAttr_of h1]
    exact submodels_spec _ root (fun x hx => obj_of_concrete (c := .submodel) rfl (h4 x hx))

/-! ## without the deviations of the code -/

theorem class_eq {x : AVal} {d : Cls} (h : className x = d.pyName) (hd : d.pyName ≠ []) : ∃ attrs, x = .obj d attrs := by
  match x with
  | .obj c attrs => exact ⟨attrs, by rw [pyName_inj h]⟩
  | .none | .str _ | .bool _ | .enum _ _ | .sfv _ _ | .list _ | .path _ _ _ | .invalid | .foreign => exact absurd h.symm hd

/-- no lists of elements, no empty collections -/
def Orthodox (x : AVal) : Prop := ∀ is ts y, Under x is ts y →
  className y ≠ py!"SubmodelElementList" ∧ (className y = py!"SubmodelElementCollection" → Set y .value)

theorem collection_child {x y : AVal} (h : className x = py!"SubmodelElementCollection") (hy : y ∈ elems x .value) : ∃ i t, Child x i t y := by
  obtain ⟨attrs, rfl⟩ := class_eq (d := .submodelElementCollection) h (by decide)
  obtain ⟨i, hi⟩ := List.getElem?_of_mem hy
  exact ⟨i, _, .collection hi⟩

theorem fits_orthodox {l l' : Bool} {ty : TTy} {x : AVal} (h : Fits l ty x) (ho : Orthodox x) : Fits l' ty x := by
  induction h with
  | str h => exact .str h
  | date h => exact .date h
  | lang h h' => exact .lang h h'
  | enum h h' => exact .enum h h'
  | @cls c x hC hW _ ih =>
    have hx := ho [] [] x .here
    have hc : className x = py!"SubmodelElementCollection" := hC.1.elim id (fun h => absurd h.2 hx.1)
    refine .cls ⟨.inl hc, fun _ => hx.2 hc⟩ hW (fun f hf y hy => ih f hf y hy fun is ts z hz => ?_)
    obtain ⟨i, t, hi⟩ := collection_child hc (List.mem_filter.mp hy).1
    exact ho _ _ z (.step hi hz)

theorem follows_orthodox {l l' : Bool} {c : TCls} {sm : AVal} (hs : className sm = py!"Submodel") (h : Follows l c sm)
    (ho : ∀ is ts y, is ≠ [] → Under sm is ts y →
      className y ≠ py!"SubmodelElementList" ∧ (className y = py!"SubmodelElementCollection" → Set y .value)) : Follows l' c sm := by
  refine ⟨fun f hf => ⟨(h.1 f hf).1, fun y hy => fits_orthodox ((h.1 f hf).2 y hy) fun is ts z hz => ?_⟩, h.2⟩
  obtain ⟨attrs, rfl⟩ := class_eq (d := .submodel) hs (by decide)
  obtain ⟨i, hi⟩ := List.getElem?_of_mem (List.mem_filter.mp hy).1
  exact ho (i :: is) _ z (by simp) (.step (.submodel hi) hz)

end Verif.Templates
