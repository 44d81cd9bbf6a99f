import Verif.CheckLemmas3

/-!
# Concrete typed objects

Used by the examples beside the theorems, to show that their hypotheses can be met. `typedB` is a checker for `HasType`, sound
(`typedB_sound`) but not complete: it only accepts plain strings.
-/

namespace Verif.Aas.Samples
open Verif Verif.Parse Verif.Spec.Parse Verif.Aas Verif.Spec Verif.Spec.Model

variable {lim : Option Nat}

/-- visible ASCII text (or blanks and line feeds) of admissible length, for classes without further conditions -/
def plainB (c : SfvCls) (s : Str) : Bool :=
  !((minLengthOf c).any (fun m => decide (s.length < m))) && !((maxLengthOf c).any (fun m => decide (m < s.length))) &&
  s.all (fun x => decide (x = 10 ∨ 32 ≤ x ∧ x < 127)) && (patternOf c).isNone &&
  (match c with | .pathString | .dateTime | .dateTimeUtc => false | _ => true)

theorem plainB_sound {c : SfvCls} {s : Str} (h : plainB c s = true) : construct lim c s = .ok () := by
  simp only [plainB, Bool.and_eq_true, Bool.not_eq_true', Option.isNone_iff_eq_none] at h
  obtain ⟨⟨⟨⟨h1, h2⟩, h3⟩, h4⟩, h5⟩ := h
  have hx : Re.fullmatch xmlRe s = true := by
    rw [xml_iff]
    intro x hx
    have := List.all_eq_true.mp h3 x hx
    simp only [decide_eq_true_eq] at this
    unfold XmlChar; omega
  have hb : constructBase c s = .ok () := by
    rw [constructBase, h1, h2, hx, h4]; rfl
  cases c <;> first | (cases h5; done) | (simp only [construct, hb])

def isPath : AVal → Bool
  | .none => true
  | .path _ _ _ => true
  | _ => false

def typedB : Nat → ATy → AVal → Bool
  | 0, _, _ => false
  | n + 1, ty, v =>
    match ty, v with
    | .str, .str _ => true
    | .bool, .bool _ => true
    | .enum e, .enum e' s => decide (e = e') && (enumValuesOf e).contains s
    | .sfv c, .sfv c' s => decide (c = c') && plainB c s
    | .list it ae, .list l => (ae || !l.isEmpty) && l.all (typedB n it)
    | .cls c, .obj c' attrs =>
      (if isAbstract c then (subclassesOf c).contains c' else decide (c' = c)) &&
      decide (attrs.map (·.1) = (fieldsOf c').map (·.name)) &&
      ((fieldsOf c').zip attrs).all (fun p =>
        match p.1.slot with
        | .attr _ ty req => (isNone p.2.2 && !req) || typedB n ty p.2.2
        | .excluded => isPath p.2.2)
    | _, _ => false

theorem typedB_sound : ∀ (n : Nat) (ty : ATy) (v : AVal), typedB n ty v = true → HasType (schema lim) ty v
  | 0, _, _, h => by simp [typedB] at h
  | n + 1, ty, v, h => by
    rw [typedB.eq_def] at h
    simp only at h
    split at h
    · exact .str _
    · exact .bool _
    · simp only [Bool.and_eq_true, decide_eq_true_eq, List.contains_iff_mem] at h
      obtain ⟨rfl, h⟩ := h
      exact .enum h
    · simp only [Bool.and_eq_true, decide_eq_true_eq] at h
      obtain ⟨rfl, h⟩ := h
      exact .sfv (plainB_sound h)
    · rename_i it ae l
      simp only [Bool.and_eq_true, Bool.or_eq_true, Bool.not_eq_true', List.isEmpty_eq_false_iff, List.all_eq_true] at h
      exact .list (h.1.symm) (fun x hx => typedB_sound n it x (h.2 x hx))
    · rename_i c c' attrs
      simp only [Bool.and_eq_true, decide_eq_true_eq] at h
      obtain ⟨⟨h1, h2⟩, h3⟩ := h
      rw [List.all_eq_true] at h3
      refine .obj ?_ h2 ?_ ?_ ?_
      · cases ha : isAbstract c with
        | true => rw [ha] at h1; exact .inr ⟨ha, List.contains_iff_mem.mp h1⟩
        | false => rw [ha] at h1; exact .inl ⟨ha, by simpa using h1⟩
      · intro f key ty req w hm hw
        have := h3 _ hm
        simp only [Bool.or_eq_true, Bool.and_eq_true] at this
        rcases this with ⟨h, _⟩ | h
        · cases w <;> simp_all [isNone]
        · exact typedB_sound n ty w h
      · intro f key ty w hm hw
        have := h3 _ hm
        subst hw
        simp only [Bool.not_true, Bool.and_false, Bool.false_or] at this
        have ht := typedB_sound n ty _ this
        exact HasType.ne_none ht rfl
      · intro f w hm
        have := h3 _ hm
        simp only at this
        cases w <;> simp_all [isPath]
    · cases h

/-- an object from some of its attributes -/
def mk (c : Cls) (l : List (Fld × AVal)) : AVal :=
  .obj c ((fieldsOf c).map fun f => (f.name, ((l.find? (fun a => decide (a.1 = f.name))).map (·.2)).getD .none))

theorem obj_of_check (n : Nat) {c : Cls} {v : AVal} (hc : isAbstract c = false) (h : typedB n (.cls c) v = true) : Obj lim c v :=
  obj_of_concrete hc (typedB_sound n _ _ h)

def key (t s : Str) : AVal := mk .key [(.type_, .enum .keyType t), (.value, .sfv .identifierString s)]
def ref (t : Str) (ks : List AVal) : AVal := mk .reference [(.type_, .enum .referenceType t), (.keys, .list ks)]
def modelRef : AVal := ref py!"ModelReference" [key py!"Submodel" py!"urn:1", key py!"SubmodelElementList" py!"l", key py!"File" py!"3",
  key py!"FragmentReference" py!"f"]
def badRef : AVal := ref py!"ModelReference" [key py!"Submodel" py!"urn:1", key py!"SubmodelElementList" py!"l", key py!"Blob" py!"-1"]
def globalRef (s : Str) : AVal := ref py!"ExternalReference" [key py!"GlobalReference" s]

example : Obj lim .reference modelRef := obj_of_check 9 rfl (by decide +kernel)

end Verif.Aas.Samples
