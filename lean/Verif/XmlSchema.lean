import Verif.ParseXml5
import Verif.ModelLemmas

/-! # The names in the meta-model, and exceptions of the XML adapter -/

namespace Verif.Aas
open Verif Verif.Parse Verif.Spec.Parse

def upperB (s : Str) : Bool := match s with
  | a :: _ => decide (65 ≤ a) && decide (a ≤ 90)
  | [] => false

theorem all_upper : ∀ c : Cls, upperB c.pyName = true := by intro c; cases c <;> decide +kernel

def contentB (c : Cls) : Bool :=
  decide (¬ py!"dataSpecificationContent" <:+ xmlns ++ lowerFirst c.pyName ∧ c.pyName ≠ py!"DataSpecificationContent" ∧ c.pyName ≠ py!"Value")

theorem all_content : ∀ b : Cls, ((if isAbstract b then subclassesOf b else [b]).all contentB) = true := by
  intro b; cases b <;> decide +kernel

def attrB (c : Cls) (f : AField) : Bool :=
  match f.slot with
  | .attr key (.cls d) _ =>
    if isAbstract d then decide (key = py!"dataSpecificationContent" ∨ (c.pyName = py!"OperationVariable" ∧ key = py!"value"))
    else decide (needsModelTypeOf d = false ∧ d.pyName ≠ py!"OperationVariable" ∧ ¬ py!"dataSpecificationContent" <:+ xmlns ++ key ∧
      key ≠ py!"operationVariable" ∧ key ≠ py!"OperationVariable" ∧ key ≠ [] ∧ ¬ (c.pyName = py!"OperationVariable" ∧ key = py!"value"))
  | .attr key _ _ => decide (¬ (c.pyName = py!"OperationVariable" ∧ key = py!"value"))
  | .excluded => true

theorem all_attrs : ∀ c : Cls, ((fieldsOf c).all (attrB c)) = true := by intro c; cases c <;> decide +kernel

theorem xmlNames (lim : Option Nat) : XmlNames (schema lim) where
  upper c := by
    have := all_upper c
    change ∃ a s, c.pyName = a :: s ∧ _
    unfold upperB at this
    split at this
    · rename_i a s h
      simp only [Bool.and_eq_true, decide_eq_true_eq] at this
      exact ⟨a, s, h, this⟩
    · cases this
  noContent b c h := by
    have := all_content b
    rw [List.all_eq_true] at this
    have hc : contentB c = true := by
      refine this c ?_
      rcases h with ⟨hab, rfl⟩ | ⟨hab, hm⟩
      · change isAbstract c = false at hab; simp [hab]
      · change isAbstract b = true at hab
        rw [if_pos hab]; exact hm
    exact of_decide_eq_true hc
  abs c f key d req hf hab := by
    have := all_attrs c
    rw [List.all_eq_true] at this
    have h := this _ hf
    change isAbstract d = true at hab
    simp only [attrB, hab, if_true, decide_eq_true_eq] at h
    exact h
  opVar c f ty req hc hf := by
    have := all_attrs c
    rw [List.all_eq_true] at this
    have h := this _ hf
    change c.pyName = _ at hc
    cases ty with
    | cls d =>
      cases hab : isAbstract d with
      | true => exact ⟨d, rfl, hab⟩
      | false =>
        simp only [attrB, hab, Bool.false_eq_true, if_false, decide_eq_true_eq] at h
        exact absurd ⟨hc, trivial⟩ h.2.2.2.2.2.2
    | _ => simp only [attrB, decide_eq_true_eq] at h; exact absurd ⟨hc, trivial⟩ h
  conc c f key d req hf hab := by
    have := all_attrs c
    rw [List.all_eq_true] at this
    have h := this _ hf
    change isAbstract d = false at hab
    simp only [attrB, hab, Bool.false_eq_true, if_false, decide_eq_true_eq] at h
    exact ⟨h.1, h.2.1, h.2.2.1, h.2.2.2.1, h.2.2.2.2.1, h.2.2.2.2.2.1⟩

end Verif.Aas

namespace Verif.Parse
open Verif Verif.Spec.Parse

theorem Named.here {x : Xml} (h : Named x) : xmlns.length < x.tag.length := by cases h; assumption
theorem Named.child {x y : Xml} (h : Named x) (hy : y ∈ x.children) : Named y := by
  cases h with
  | mk _ h => exact h y hy

theorem Named.data {x d : Xml} (h : Named x) (hd : XmlA.data x = .ok d) : Named d := by
  rcases XmlA.data_ok hd with ⟨-, h'⟩ | ⟨-, rfl⟩
  · exact Named.child h (by rw [h']; simp)
  · exact h

theorem xml_named : xmlOps.Closed (fun a => Named a.value) where
  object a obj h hi e he := by
    obtain ⟨d, hd, hm⟩ := XmlA.asObject_ok h
    have hd' := Named.data hi hd
    rcases XmlA.mem_members hm e he with h' | ⟨c, hc, -, -, h3⟩
    · simp at h'
    · have hc' := Named.child hd' hc
      rcases h3 with h3 | h3
      · rw [h3]; exact hc'
      · exact Named.child hc' (by rw [h3]; simp)
  list a ae as h hi b hb := by
    obtain ⟨-, rfl⟩ := XmlA.asList_ok h
    obtain ⟨i, h1, -⟩ := XmlA.mem_items hb
    exact Named.child hi (List.mem_of_getElem? h1)

theorem singleChild_quiet (x : Xml) (e : PyExc) : XmlA.singleChild x ≠ .error (.py e) := by
  unfold XmlA.singleChild; split <;> simp

theorem data_quiet (x : Xml) (e : PyExc) : XmlA.data x ≠ .error (.py e) := by
  unfold XmlA.data; split
  · exact singleChild_quiet _ _
  · simp

theorem modelType_quiet (a : XmlA) (e : PyExc) (h : Named a.value) : XmlA.modelType a ≠ .error (.py e) := by
  unfold XmlA.modelType
  cases hd : XmlA.data a.value with
  | error k => intro e'; simp only [Except.error.injEq] at e'; exact data_quiet _ _ (e' ▸ hd)
  | ok d =>
    have := Named.here (Named.data h hd)
    simp only
    unfold XmlA.modelTypeOf
    cases ht : d.tag.drop XmlA.ns.length with
    | nil => rw [List.drop_eq_nil_iff, XmlA.ns_eq] at ht; omega
    | cons => simp

theorem members_quiet {a : XmlA} (h : Named a.value) (e : PyExc) : ∀ (cs : List Xml) (acc : List (Str × XmlA)),
    XmlA.members a cs acc ≠ .error (.py e)
  | [], acc => by simp [XmlA.members]
  | c :: cs, acc => by
    unfold XmlA.members
    split
    · cases hm : XmlA.modelType a with
      | error k => intro e'; simp only [Except.error.injEq] at e'; exact modelType_quiet _ _ h (e' ▸ hm)
      | ok mt =>
        simp only
        split
        · cases hs : XmlA.singleChild c with
          | error k => intro e'; simp only [Except.error.injEq] at e'; exact singleChild_quiet _ _ (e' ▸ hs)
          | ok d => exact members_quiet h e cs _
        · exact members_quiet h e cs _
    · simp

theorem xml_quiet : xmlOps.Quiet (fun a => Named a.value) where
  asObject a e h := by
    simp only [xmlOps, XmlA.asObject]
    split
    · cases hn : XmlA.assertNoText a.value with
      | error k =>
        intro e'; simp only [Except.error.injEq] at e'; subst e'
        unfold XmlA.assertNoText at hn
        split at hn
        · cases hn
        · split at hn <;> cases hn
      | ok u =>
        simp only
        cases hd : XmlA.data a.value with
        | error k => intro e'; simp only [Except.error.injEq] at e'; exact data_quiet _ _ (e' ▸ hd)
        | ok d => exact members_quiet h e _ _
    · simp
  asList a ae e _ := by
    simp only [xmlOps, XmlA.asList]
    split <;> simp
  asString a e _ := by
    simp only [xmlOps, XmlA.asString, XmlA.assertNoChildren]
    split
    · rename_i h
      intro e'; simp only [Except.error.injEq] at e'; subst e'
      split at h
      · split at h <;> cases h
      · cases h
    · simp
  asBool a e _ := by
    simp only [xmlOps, XmlA.asBool, XmlA.assertNoChildren]
    split
    · rename_i h
      intro e'; simp only [Except.error.injEq] at e'; subst e'
      split at h
      · split at h <;> cases h
      · cases h
    · simp
  modelType a e h := modelType_quiet a e h

end Verif.Parse
