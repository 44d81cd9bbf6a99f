import Verif.EngineLemmas
import Verif.Props.Xml

/-! # The kinds of exceptions: adapters, and the whole check -/

namespace Verif.Parse
open Verif Verif.Spec.Parse

theorem modelType_kinds (a : XmlA) (e : PyExc) (h : XmlA.modelType a = .error (.py e)) : e = .indexError := by
  unfold XmlA.modelType at h
  cases hd : XmlA.data a.value with
  | error k => rw [hd] at h; simp only [Except.error.injEq] at h; exact absurd (h ▸ hd) (data_quiet _ _)
  | ok d =>
    rw [hd] at h
    simp only at h
    unfold XmlA.modelTypeOf at h
    cases ht : d.tag.drop XmlA.ns.length with
    | nil => rw [ht] at h; cases h; rfl
    | cons => rw [ht] at h; cases h

theorem members_kinds {a : XmlA} (e : PyExc) : ∀ (cs : List Xml) (acc : List (Str × XmlA)),
    XmlA.members a cs acc = .error (.py e) → e = .indexError
  | [], acc => by simp [XmlA.members]
  | c :: cs, acc => by
    unfold XmlA.members
    split
    · cases hm : XmlA.modelType a with
      | error k => intro e'; simp only [Except.error.injEq] at e'; exact modelType_kinds _ _ (e' ▸ hm)
      | ok mt =>
        simp only
        split
        · cases hs : XmlA.singleChild c with
          | error k => intro e'; simp only [Except.error.injEq] at e'; exact absurd (e' ▸ hs) (singleChild_quiet _ _)
          | ok d => exact members_kinds e cs _
        · exact members_kinds e cs _
    · simp

theorem xml_kinds : xmlOps.Kinds (fun _ => True) (· = .indexError) where
  asObject a e _ := by
    simp only [xmlOps, XmlA.asObject]
    split
    · cases hn : XmlA.assertNoText a.value with
      | error k =>
        intro e'; simp only [Except.error.injEq] at e'; subst e'
        unfold XmlA.assertNoText at hn
        split at hn
        · cases hn
        · split at hn <;> cases hn
      | ok u =>
        simp only
        cases hd : XmlA.data a.value with
        | error k => intro e'; simp only [Except.error.injEq] at e'; exact absurd (e' ▸ hd) (data_quiet _ _)
        | ok d => exact members_kinds e _ _
    · simp
  asList a ae e _ := by
    simp only [xmlOps, XmlA.asList]
    split <;> simp
  asString a e _ := by
    simp only [xmlOps, XmlA.asString, XmlA.assertNoChildren]
    split
    · rename_i h
      intro e'; simp only [Except.error.injEq] at e'; subst e'
      split at h
      · split at h <;> cases h
      · cases h
    · simp
  asBool a e _ := by
    simp only [xmlOps, XmlA.asBool, XmlA.assertNoChildren]
    split
    · rename_i h
      intro e'; simp only [Except.error.injEq] at e'; subst e'
      split at h
      · split at h <;> cases h
      · cases h
    · simp
  modelType a e _ := modelType_kinds a e

end Verif.Parse

namespace Verif.Engine
open Verif Verif.Parse Verif.Aas Verif.Reflect Verif.Spec.Engine Verif.Spec.Parse Verif.Spec.Model Verif.Spec.Templates Verif.Templates

variable {lim : Option Nat}

/-- the whole check raises what the adapter raises, and mishaps -/
theorem toObj_only {A : Type} (ops : Ops A) {inv : A → Prop} {K : PyExc → Prop} (hq : ops.Kinds inv K) (hcl : ops.Closed inv) (size : A → Nat)
    (hl : ops.Lawful size) (he : Props.NoEmpty ops) {n : Nat} {a : A} (hn : size a < n) (hi : inv a) (T : Str) (e : PyExc)
    (h : toObj ops lim n a T = .error e) : K e ∨ Mishap e := by
  have hp : ∀ ty, Parse.Supported ty → Only K (parseF ops (schema lim) n ty a (Res.new ⟨.title py!"Check meta model", []⟩)) := fun ty ht =>
    parseF_only ops hq hcl (schema lim) (sane lim) (supported lim) he size hl n ty a hn hi ht _
  rcases symbol_spec T with ⟨t, hm, ⟨m, pre, hname, -⟩, hT⟩ | ⟨-, hT⟩
  · cases t with
    | cls c =>
      have hc := good_symbols hm
      rw [toObj_cls ops hT] at h
      cases hx : parseF ops (schema lim) n (.cls c) a (Res.new ⟨.title py!"Check meta model", []⟩) with
      | error e' =>
        have : Props.checkDocument ops lim n c a = .error e' := by rw [Props.checkDocument, parseAndCheck, hx]
        rw [this] at h
        cases h
        exact .inl (hp (.cls c) trivial e hx)
      | ok p =>
        obtain ⟨v, mm⟩ := p
        obtain ⟨f1, f2⟩ := Props.C64_formats lim ops size hl he c hc a n hn v mm hx
        cases hmm : mm.ok with
        | false =>
          obtain ⟨r, h1, h2⟩ := f1 hmm
          rw [h1] at h
          dsimp only at h
          rw [h2, if_neg (by decide)] at h
          cases h
        | true =>
          obtain ⟨hv, h1, h2⟩ := f2 hmm
          by_cases hr : Props.Raising lim v
          · obtain ⟨e', hk, h3⟩ := h1 hr
            rw [h3] at h
            cases h
            exact .inr hk
          · obtain ⟨r, h3, -⟩ := h2 hr
            rw [h3] at h
            dsimp only at h
            split at h
            · rename_i hok
              obtain ⟨l1, l2⟩ := late_spec hm hv r hok
              by_cases hlr : LateRaise c v
              · obtain ⟨e', hk, h4⟩ := l1 hlr
                rw [h4] at h
                cases h
                exact .inr hk
              · obtain ⟨r', h4, -⟩ := l2 hlr
                rw [h4] at h
                cases h
            · cases h
    | sfv s =>
      rw [toObj, hT] at h
      simp only [bind, Except.bind, ofAnn] at h
      cases hx : parseF ops (schema lim) n (.sfv s) a (Res.new ⟨.title py!"Check meta model", []⟩) with
      | error e' =>
        rw [parseAndCheck, hx] at h
        cases h
        exact .inl (hp (.sfv s) trivial e hx)
      | ok p =>
        obtain ⟨v, mm⟩ := p
        obtain ⟨f1, f2⟩ := Props.C36_check (schema lim) ops size hl (sane lim) he Fld.pyName (checks lim) (.sfv s) a n hn v mm hx
        cases hmm : mm.ok with
        | false =>
          obtain ⟨h1, h2⟩ := f1 hmm
          rw [h1] at h
          simp only [h2, Bool.false_eq_true, if_false] at h
          cases h
        | true =>
          obtain ⟨ht, -, h3⟩ := f2 hmm
          cases ht with
          | sfv hcon =>
            rename_i raw
            have hcc : ∀ r, checkConstraints Fld.pyName (checks lim) (.sfv s raw : AVal) [] r = .ok r := fun r => by simp [checkConstraints]
            rw [h3, hcc] at h
            simp only [Except.map] at h
            split at h
            · cases h
              exact .inr (.inl rfl)
            · cases h
    | _ => cases hname
  · rw [toObj, hT] at h
    cases h
    exact .inr (.inr (.inr rfl))

end Verif.Engine
