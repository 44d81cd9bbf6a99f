import Verif.TemplateTellLemmas3
import Verif.MessageLemmas6
import Verif.EngineLemmas
import Verif.TellLemmas3
import Verif.TellLemmas4
import Verif.TellLemmas5
import Verif.Props.XmlAccepted

/-! # The whole check with the texts of all lines -/

namespace Verif.Engine
open Verif Verif.Parse Verif.Spec Verif.Spec.Parse Verif.Aas Verif.Spec.Model Verif.Templates Res

variable {lim : Option Nat}

/-- the same outcome except for the texts -/
def SameR {μ ν : Type} (x : Except PyExc (Res μ)) (y : Except PyExc (Res ν)) : Prop := x.map shape = y.map shape

theorem SameR.seq {x y : Except PyExc (Res Note)} {f g : Res Note → Except PyExc (Res Note)}
    (h : SameR x y) (hf : ∀ r r', shape r = shape r' → SameR (f r) (g r')) :
    SameR (match (generalizing := false) x with | .error e => .error e | .ok r => f r) (match (generalizing := false) y with | .error e => .error e | .ok r => g r) := by
  cases x <;> cases y
  · exact h
  · cases h
  · cases h
  · exact hf _ _ (by injection h)

theorem runChecks_same (v : AVal) (p : List PTok) : ∀ (ms : List Method) (r r' : Res Note), shape r = shape r' →
    SameR (runChecks v p (ms.map (tellMethod lim)) r) (runChecks v p (ms.map (runMethod lim)) r')
  | [], _, _, h => congrArg Except.ok h
  | m :: ms, r, r', h => by
    have hs := tell_same lim m v
    rw [List.map_cons, List.map_cons, runChecks, runChecks]
    cases ha : tellMethod lim m v with
    | ok u =>
      cases hb : runMethod lim m v with
      | ok u' => exact runChecks_same v p ms r r' h
      | error e => rw [ha, hb] at hs; cases hs
    | error e =>
      cases hb : runMethod lim m v with
      | ok u' => rw [ha, hb] at hs; cases hs
      | error e' =>
        rw [ha, hb] at hs
        have hs : mute e = mute e' := by injection hs
        cases e with
        | violated a la =>
          cases e' with
          | violated b lb =>
            simp only [mute, Fail.violated.injEq, true_and] at hs
            subst hs
            exact runChecks_same v p ms _ _ (by rw [shape_append, shape_append, h]; rfl)
          | py e' => simp [mute] at hs
        | py e =>
          cases e' with
          | violated b lb => simp [mute] at hs
          | py e' => simp only [mute, Fail.py.injEq] at hs; subst hs; rfl

mutual
theorem constraints_same : ∀ (v : AVal) (p : List PTok) (r r' : Res Note), shape r = shape r' →
    SameR (checkConstraints Fld.pyName (tells lim) v p r) (checkConstraints Fld.pyName (checks lim) v p r')
  | .obj c attrs, p, r, r', h => by
    simp only [checkConstraints]
    exact SameR.seq (runChecks_same _ p (checkTable c) r r' h) (fun a b hab => attrs_same attrs p a b hab)
  | .none, _, _, _, h => by simp only [checkConstraints]; exact congrArg Except.ok h
  | .invalid, _, _, _, h => by simp only [checkConstraints]; exact congrArg Except.ok h
  | .foreign, _, _, _, h => by simp only [checkConstraints]; exact congrArg Except.ok h
  | .str _, _, _, _, h => by simp only [checkConstraints]; exact congrArg Except.ok h
  | .bool _, _, _, _, h => by simp only [checkConstraints]; exact congrArg Except.ok h
  | .enum _ _, _, _, _, h => by simp only [checkConstraints]; exact congrArg Except.ok h
  | .sfv _ _, _, _, _, h => by simp only [checkConstraints]; exact congrArg Except.ok h
  | .list _, _, _, _, h => by simp only [checkConstraints]; exact congrArg Except.ok h
  | .path _ _ _, _, _, _, h => by simp only [checkConstraints]; exact congrArg Except.ok h
theorem attrs_same : ∀ (attrs : List (Fld × AVal)) (p : List PTok) (r r' : Res Note), shape r = shape r' →
    SameR (checkAttrs Fld.pyName (tells lim) attrs p r) (checkAttrs Fld.pyName (checks lim) attrs p r')
  | [], _, _, _, h => by simp only [checkAttrs]; exact congrArg Except.ok h
  | (f, v) :: rest, p, r, r', h => by
    have hv := constraints_same v (p ++ [.key f.pyName]) r r' h
    have hrest := attrs_same rest p
    cases v with
    | list l => simp only [checkAttrs]; exact SameR.seq (items_same l _ 0 r r' h) hrest
    | _ => simp only [checkAttrs]; exact SameR.seq hv hrest
theorem items_same : ∀ (xs : List AVal) (p : List PTok) (i : Nat) (r r' : Res Note), shape r = shape r' →
    SameR (checkItems Fld.pyName (tells lim) xs p i r) (checkItems Fld.pyName (checks lim) xs p i r')
  | [], _, _, _, _, h => by simp only [checkItems]; exact congrArg Except.ok h
  | v :: vs, p, i, r, r', h => by
    simp only [checkItems]
    exact SameR.seq (constraints_same v _ r r' h) (fun a b hab => items_same vs p (i + 1) a b hab)
end

/-- the same report and the same value -/
def SameV {μ ν : Type} (x : Except PyExc (Res μ × AVal)) (y : Except PyExc (Res ν × AVal)) : Prop :=
  x.map (fun p => (shape p.1, p.2)) = y.map (fun p => (shape p.1, p.2))

theorem document_same {A : Type} (ops : Ops A) (n : Nat) (ty : Ty Cls EnumCls SfvCls) (a : A) :
    SameV (parseAndCheck ops (schema lim) Fld.pyName (tells lim) n ty a) (parseAndCheck ops (schema lim) Fld.pyName (checks lim) n ty a) := by
  unfold parseAndCheck
  cases parseF ops (schema lim) n ty a (Res.new ⟨.title py!"Check meta model", []⟩) with
  | error e => rfl
  | ok q =>
    obtain ⟨v, r⟩ := q
    dsimp only
    split
    · have h := constraints_same (lim := lim) v [] (Res.new ⟨.title py!"Check constraints", []⟩) _ rfl
      cases hx : checkConstraints Fld.pyName (tells lim) v [] (Res.new ⟨.title py!"Check constraints", []⟩) <;>
        cases hy : checkConstraints Fld.pyName (checks lim) v [] (Res.new ⟨.title py!"Check constraints", []⟩) <;> rw [hx, hy] at h <;> simp only [SameR, Except.map] at h
      · injection h with h; subst h; rfl
      · cases h
      · cases h
      · injection h with h
        simp only [SameV, Except.map, shape_append, h]
    · rfl

theorem tell_document {A : Type} {W : Words} {tops : TOps A} {ops : Ops A} (hs : Verif.Parse.Same tops ops) (n : Nat) (ty : Ty Cls EnumCls SfvCls) (a : A) :
    SameV ((tellAndCheck W tops (schema lim) (texts lim) Fld.pyName (tells lim) n ty a).map fun p => (p.1.mapMsg Line.said, p.2))
      (parseAndCheck ops (schema lim) Fld.pyName (checks lim) n ty a) := by
  refine Eq.trans ?_ (document_same ops n ty a)
  rw [← tellAndCheck_quiet (W := W) hs (same_texts lim) Fld.pyName (tells lim) n ty a]
  cases tellAndCheck W tops (schema lim) (texts lim) Fld.pyName (tells lim) n ty a with
  | error e => rfl
  | ok q => simp only [Except.map, quiet, shape_mapMsg]

/-- the checks of submodel templates for all classes -/
theorem late_same (W : Words) {c : Cls} (hcs : Reflect.Ann.cls c ∈ symbolTypes) {v : AVal} (hv : HasType (schema lim) (.cls c) v) {r : Res Note} {s : Res Str}
    (h : shape r = shape s) : SameR (parseSubmodelTemplates r v) (tellTemplates W s v) := by
  by_cases h1 : c = .environment
  · subst h1
    rcases sim_templates W (obj_of_concrete (c := .environment) rfl hv) h with ⟨e, h2, h3⟩ | ⟨r', s', h2, h3, h4⟩
    · rw [h2, h3]; rfl
    · rw [h2, h3]; exact congrArg Except.ok h4
  · obtain ⟨c', hi, ho⟩ := obj_of_typed hv
    have hc : c' ≠ .environment := by
      rcases hi with ⟨-, rfl⟩ | ⟨-, hs⟩
      · exact h1
      · rintro rfl
        exact (subclasses_symbols hcs).1 hs
    by_cases h2 : c' = .assetAdministrationShell
    · subst h2
      rw [parseSubmodelTemplates, tellTemplates]
      rcases ho.list? (f := .submodels) (key := py!"submodels") (ty := .cls .reference) rfl with ⟨h1, h2, h3⟩ | ⟨h1, h2, h3, h4⟩
      · rw [getAttr_of h1]
        exact congrArg Except.ok h
      · rw [getAttr_of h1]
        cases hl : elems v .submodels with
        | nil => exact absurd hl h3
        | cons x xs =>
          obtain ⟨attrs, rfl, hf⟩ := (obj_of_concrete (c := .reference) rfl (h4 x (by rw [hl]; simp))).fields
          have : getAttr (.obj .reference attrs) .semanticId = .error .attributeError := by
            rw [getAttr, lookup_none_of]
            rw [fieldsOk_names hf]
            decide +kernel
          simp only [bind, Except.bind]
          rw [checkSubmodels, tellAll, checkSubmodel, tellOne, submodelKey, this]
          rfl
    · rw [templates_other ho hc h2]
      obtain ⟨attrs, rfl, hf⟩ := ho.fields
      have : getAttr (.obj c' attrs) .submodels = .error .attributeError := by
        rw [getAttr, lookup_none_of]
        rw [fieldsOk_names hf]
        exact no_submodels hc h2
      rw [tellTemplates, this]
      rfl

theorem obj_same {A : Type} {W : Words} {tops : TOps A} {ops : Ops A} (hs : Verif.Parse.Same tops ops) {n : Nat} {a : A} {T : Str} {c : Cls}
    (hT : symbol T = .ok (.cls c)) (hv : ∀ r v, Props.checkDocument ops lim n c a = .ok (r, v) → r.ok = true → HasType (schema lim) (.cls c) v) :
    SameV (sayObj W tops lim n a T) (toObj ops lim n a T) := by
  have h := tell_document (lim := lim) (W := W) hs n (.cls c) a
  rw [toObj_cls ops hT, sayObj, tellObj, hT]
  simp only [bind, Except.bind, ofAnn]
  change SameV _ (Props.checkDocument ops lim n c a) at h
  generalize Props.checkDocument ops lim n c a = y at h hv ⊢
  cases hx : tellAndCheck W tops (schema lim) (texts lim) Fld.pyName (tells lim) n (.cls c) a with
  | error e =>
    rw [hx] at h
    cases y with
    | error e' => injection h with h; subst h; rfl
    | ok q => cases h
  | ok p =>
    obtain ⟨s, w⟩ := p
    rw [hx] at h
    cases y with
    | error e' => cases h
    | ok q =>
      obtain ⟨r, v⟩ := q
      simp only [SameV, Except.map, Except.ok.injEq, Prod.mk.injEq] at h
      obtain ⟨h1, rfl⟩ := h
      dsimp only
      rw [ok_of_shape h1]
      cases hr : r.ok with
      | false => exact congrArg Except.ok (Prod.ext h1 rfl)
      | true =>
        have hl := late_same W (symbol_iff.mp hT).1 (hv r w rfl hr) h1.symm
        rw [if_pos rfl, if_pos rfl]
        generalize parseSubmodelTemplates r w = x at hl ⊢
        generalize tellTemplates W (s.mapMsg Line.said) w = y at hl ⊢
        cases x <;> cases y <;> simp only [SameR, Except.map] at hl
        · injection hl with hl; subst hl; rfl
        · cases hl
        · cases hl
        · injection hl with hl; exact congrArg Except.ok (Prod.ext hl.symm rfl)

theorem json_typed {c : Cls} (hc : c ≠ .langStringSet) (j : Json) (hw : WF j) (r : Res Note) (v : AVal)
    (h : Props.checkDocument jsonOps lim (j.size + 1) c ⟨j, []⟩ = .ok (r, v)) (hr : r.ok = true) : HasType (schema lim) (.cls c) v := by
  obtain ⟨h1, h2⟩ := Props.C64_json lim c hc j hw (j.size + 1) (Nat.lt_succ_self _)
  by_cases hcf : Conforms (schema lim) (.cls c) j
  · obtain ⟨v', hv, -, h3, h4⟩ := h2 hcf
    by_cases hx : Props.Raising lim v'
    · obtain ⟨e, -, he⟩ := h3 hx
      rw [he] at h; cases h
    · obtain ⟨r', he, -⟩ := h4 hx
      rw [he] at h; cases h
      exact hv
  · obtain ⟨r', v', he, ho⟩ := h1 hcf
    rw [he] at h; cases h
    rw [hr] at ho; cases ho

theorem xml_typed {c : Cls} (hc : c ≠ .langStringSet) (x : Xml) (r : Res Note) (v : AVal)
    (h : Props.checkDocument xmlOps lim (x.size + 1) c ⟨x, []⟩ = .ok (r, v)) (hr : r.ok = true) : HasType (schema lim) (.cls c) v := by
  obtain ⟨h1, h2⟩ := Props.C83_document lim c hc x (x.size + 1) (Nat.lt_succ_self _)
  by_cases ha : ∃ w, XAccepts (schema lim) (.cls c) x w
  · obtain ⟨w, hw⟩ := ha
    obtain ⟨v', hv, -, h3, h4⟩ := h1 w hw
    by_cases hx : Props.Raising lim v'
    · obtain ⟨e, -, he⟩ := h3 hx
      rw [he] at h; cases h
    · obtain ⟨r', he, -⟩ := h4 hx
      rw [he] at h; cases h
      exact hv
  · rcases h2 (fun w hw => ha ⟨w, hw⟩) with ⟨r', v', he, ho⟩ | ⟨-, he⟩
    · rw [he] at h; cases h
      rw [hr] at ho; cases ho
    · rw [he] at h; cases h

mutual
theorem shape_render (text : Note → Str) : ∀ r : Res Note, shape (render text r) = shape r
  | .mk m l subs => by rw [render, shape, shape, Res.mapMsg, Res.mapMsg, shape_renderL text subs]
theorem shape_renderL (text : Note → Str) : ∀ rs : List (Res Note), mapMsgL (fun _ => ()) (renderL text rs) = mapMsgL (fun _ => ()) rs
  | [] => rfl
  | r :: rs => by
    have := shape_render text r
    rw [renderL, mapMsgL, mapMsgL, shape_renderL text rs]
    rw [shape, shape] at this
    rw [this]
end

theorem same_of_sameV {x : Except PyExc (Res Str × AVal)} {y : Except PyExc (Res Note × AVal)} (text : Note → Str) (h : SameV x y) :
    SameR (x.map (·.1)) (y.map fun p => render text p.1) := by
  cases x <;> cases y <;> simp only [SameV, Except.map] at h
  · injection h with h; subst h; rfl
  · cases h
  · cases h
  · injection h with h
    simp only [SameR, Except.map, shape_render]
    exact congrArg Except.ok (congrArg Prod.fst h)

end Verif.Engine
