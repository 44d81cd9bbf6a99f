import Verif.ParseLemmas
import Verif.Adapter
import Verif.Spec.Parse

/-!
# Typing of parsed values
-/

namespace Verif.Parse
open Verif Verif.Spec.Parse

section
variable {A C E S F : Type}

theorem HasType.ne_none {sc : Schema C E S F} {ty v} (h : HasType sc ty v) : v ≠ .none := by cases h <;> simp

/-- an attribute fits to a field -/
def FieldOk (sc : Schema C E S F) (f : Field C E S F) (a : F × Val C E S F) : Prop :=
  a.1 = f.name ∧ match f.slot with
    | .attr _ ty req => (a.2 = .none ∧ req = false) ∨ HasType sc ty a.2
    | .excluded => a.2 = .none ∨ ∃ x y t, a.2 = .path x y t

inductive FieldsOk (sc : Schema C E S F) : List (Field C E S F) → List (F × Val C E S F) → Prop
  | nil : FieldsOk sc [] []
  | cons {f a fs as} : FieldOk sc f a → FieldsOk sc fs as → FieldsOk sc (f :: fs) (a :: as)

theorem FieldsOk.names {sc : Schema C E S F} {fs as} (h : FieldsOk sc fs as) : as.map (·.1) = fs.map (·.name) := by
  induction h with
  | nil => rfl
  | cons h _ ih => simp [ih, h.1]

theorem FieldsOk.zip {sc : Schema C E S F} {fs as} (h : FieldsOk sc fs as) : ∀ p ∈ fs.zip as, FieldOk sc p.1 p.2 := by
  induction h with
  | nil => simp
  | cons h _ ih => simp only [List.zip_cons_cons, List.mem_cons]; exact fun p hp => hp.elim (fun e => e ▸ h) (ih p)

theorem fieldsOk_of {sc : Schema C E S F} : ∀ {fs : List (Field C E S F)} {as : List (F × Val C E S F)},
    as.map (·.1) = fs.map (·.name) → (∀ p ∈ fs.zip as, p.2.1 = p.1.name → FieldOk sc p.1 p.2) → FieldsOk sc fs as
  | [], [], _, _ => .nil
  | [], _ :: _, h, _ => by simp at h
  | _ :: _, [], h, _ => by simp at h
  | f :: fs, a :: as, h, h' => by
    simp only [List.map_cons, List.cons.injEq] at h
    exact .cons (h' (f, a) (by simp) h.1) (fieldsOk_of h.2 (fun p hp hn => h' p (by simp [hp]) hn))

theorem hasType_obj {sc : Schema C E S F} {c c' : C} {attrs : List (F × Val C E S F)} :
    HasType sc (.cls c) (.obj c' attrs) ↔ IsA sc c c' ∧ FieldsOk sc (sc.fields c') attrs := by
  constructor
  · intro h
    cases h with
    | obj isA names typed required excluded =>
      refine ⟨isA, fieldsOk_of names ?_⟩
      rintro ⟨⟨f, slot⟩, f', v⟩ hp hn
      simp only at hn
      subst hn
      refine ⟨rfl, ?_⟩
      cases slot with
      | excluded => exact excluded _ _ hp
      | attr key ty req =>
        simp only
        by_cases hv : v = .none
        · subst hv
          refine .inl ⟨rfl, ?_⟩
          cases req with
          | false => rfl
          | true => exact absurd rfl (required _ _ _ _ hp)
        · exact .inr (typed _ _ _ _ _ hp hv)
  · rintro ⟨isA, h⟩
    refine .obj isA h.names ?_ ?_ ?_
    · intro f key ty req v hp hv
      obtain ⟨-, h⟩ := h.zip _ hp
      rcases h with h | h
      · exact absurd h.1 hv
      · exact h
    · intro f key ty v hp
      obtain ⟨-, h⟩ := h.zip _ hp
      rcases h with h | h
      · simp at h
      · exact HasType.ne_none h
    · intro f v hp
      exact (h.zip _ hp).2

theorem hasType_cls {sc : Schema C E S F} {c : C} {v : Val C E S F} (h : HasType sc (.cls c) v) :
    ∃ c' attrs, v = .obj c' attrs ∧ IsA sc c c' ∧ FieldsOk sc (sc.fields c') attrs := by
  have h' := h
  cases h with
  | obj => exact ⟨_, _, rfl, hasType_obj.mp h'⟩

/-- what is read is typed -/
theorem Read.typed {ops : Ops A} {sc : Schema C E S F} (hs : Sane sc)
    (he : ∀ a as, ops.asList a false = .ok as → as ≠ []) {ty a v} (h : Read ops sc ty a v) : HasType sc ty v := by
  refine Read.rec (ops := ops) (sc := sc) (motive_1 := fun ty _ v _ => HasType sc ty v)
    (motive_2 := fun it as vs _ => (∀ v ∈ vs, HasType sc it v) ∧ (as ≠ [] → vs ≠ []))
    (motive_3 := fun c _ v _ => ∃ attrs, v = .obj c attrs ∧ FieldsOk sc (sc.fields c) attrs)
    (motive_4 := fun _ fs attrs _ => FieldsOk sc fs attrs) ?_ ?_ ?_ ?_ ?_ ?_ ?_ ?_ ?_ ?_ ?_ ?_ ?_ ?_ ?_ h
  · intros; exact .str _
  · intros; exact .bool _
  · intros; exact .any
  · intro _ _ _ _ h; exact .enum h
  · intro _ _ _ _ h; exact .sfv h
  · intro a as it ae vs ha _ ih
    refine .list ?_ ih.1
    cases ae with
    | true => exact .inr rfl
    | false => exact .inl (ih.2 (he _ _ ha))
  · intro a c v w hab _ hp ih
    have ht : HasType sc (.cls c) v := by
      obtain ⟨attrs, rfl, hf⟩ := ih
      exact hasType_obj.mpr ⟨.inl ⟨hab, rfl⟩, hf⟩
    unfold Post at hp
    cases hpp : sc.postParse c with
    | none => simp only [hpp] at hp; exact hp ▸ ht
    | some f =>
      simp only [hpp] at hp
      obtain ⟨w', h1, h2, -⟩ := hs.post c f v hpp ht
      rw [hp] at h1
      cases h1
      exact h2
  · intro a c c' d v hab _ hf _ ih
    obtain ⟨attrs, rfl, hfs⟩ := ih
    exact hasType_obj.mpr ⟨.inr ⟨hab, List.mem_of_find?_eq_some hf⟩, hfs⟩
  · intro it; simp
  · intro it a as v vs _ _ h1 h2
    simpa using ⟨h1, h2.1⟩
  · intro c a obj attrs _ _ _ _ ih
    exact ⟨_, rfl, ih⟩
  · intro obj; exact .nil
  · intro obj f fs attrs _ ih; exact .cons ⟨rfl, .inl rfl⟩ ih
  · intro obj f key ty fs attrs _ _ ih; exact .cons ⟨rfl, .inl ⟨rfl, rfl⟩⟩ ih
  · intro obj f key ty req a v fs attrs _ _ _ h1 h2; exact .cons ⟨rfl, .inr h1⟩ h2

theorem ReadF.typed {ops : Ops A} {sc : Schema C E S F} (hs : Sane sc)
    (he : ∀ a as, ops.asList a false = .ok as → as ≠ []) {obj} : ∀ {fs attrs}, ReadF ops sc obj fs attrs → FieldsOk sc fs attrs
  | [], _, h => by cases h; exact .nil
  | _ :: _, _, h => by
    cases h with
    | excluded h => exact .cons ⟨rfl, .inl rfl⟩ (ReadF.typed hs he h)
    | absent _ h => exact .cons ⟨rfl, .inl ⟨rfl, rfl⟩⟩ (ReadF.typed hs he h)
    | present _ h h' => exact .cons ⟨rfl, .inr (Read.typed hs he h)⟩ (ReadF.typed hs he h')

/-- typed values contain no placeholder -/
theorem HasType.no_invalid {sc : Schema C E S F} : ∀ {v w : Val C E S F}, Sub v w → ∀ ty, HasType sc ty v → w ≠ .invalid
  | _, _, .refl _, _, h => by cases h <;> simp
  | _, _, .item hm hs, _, h => by
    cases h with
    | list _ h => exact HasType.no_invalid hs _ (h _ hm)
  | _, _, .attr (a := a) hm hs, _, h => by
    cases h with
    | obj isA names typed required excluded =>
      have hf := (hasType_obj.mp (HasType.obj isA names typed required excluded)).2
      clear typed required excluded names isA
      generalize sc.fields _ = fs at hf
      induction hf with
      | nil => simp at hm
      | cons hok _ ih =>
        rcases List.mem_cons.mp hm with rfl | hm
        · rename_i f _ _ _
          obtain ⟨-, hok⟩ := hok
          obtain ⟨n, slot⟩ := f
          cases slot with
          | attr k ty r =>
            rcases hok with ⟨h, -⟩ | h
            · rw [h] at hs; cases hs; simp
            · exact HasType.no_invalid hs _ h
          | excluded =>
            rcases hok with h | ⟨_, _, _, h⟩
            · rw [h] at hs; cases hs; simp
            · rw [h] at hs; cases hs; simp
        · exact ih hm

end
end Verif.Parse
