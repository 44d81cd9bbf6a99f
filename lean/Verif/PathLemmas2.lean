import Verif.PathLemmas

/-! # `elements`: each element once, in document order -/

namespace Verif.Aas
open Verif Verif.Parse Verif.Spec.Parse Verif.Spec.Model Verif.Spec.Paths Verif.DataTypes Verif.Spec

variable {lim : Option Nat}

/-- typed submodel elements -/
def IsElement (lim : Option Nat) (v : AVal) : Prop := ∃ c ∈ subclassesOf .submodelElement, Obj lim c v

theorem isElement_of_typed {v : AVal} (h : HasType (schema lim) (.cls .submodelElement) v) : IsElement lim v :=
  obj_of_abstract abstract_submodelElement h

theorem value_slots : slotOf .submodelElementCollection .value = some (.attr py!"value" (.list (.cls .submodelElement) false) false) ∧
    slotOf .submodelElementList .value = some (.attr py!"value" (.list (.cls .submodelElement) false) false) ∧
    slotOf .submodel .submodelElements = some (.attr py!"submodelElements" (.list (.cls .submodelElement) false) false) :=
  ⟨rfl, rfl, rfl⟩

/-- an attribute that is a list of elements -/
theorem elems_elements {c : Cls} {v : AVal} {f : Fld} {key : Str} (ho : Obj lim c v)
    (hs : slotOf c f = some (.attr key (.list (.cls .submodelElement) false) false)) : ∀ x ∈ elems v f, IsElement lim x := by
  intro x hx
  obtain ⟨-, h⟩ := ho.field hs
  rw [elems] at hx
  rcases h with ⟨h, -⟩ | h
  · simp [h, Model.items] at hx
  · generalize Model.get v f = y at h hx
    cases h with
    | list _ hall => exact isElement_of_typed (hall x hx)

theorem child_element {x y : AVal} {i : Nat} {t : Tok} (h : Child x i t y) {c : Cls} (hx : Obj lim c x) : IsElement lim y := by
  obtain ⟨attrs, rfl, hf⟩ := hx.fields
  cases h with
  | submodel hm => exact elems_elements hx value_slots.2.2 y (List.mem_of_getElem? hm)
  | collection hm => exact elems_elements hx value_slots.1 y (List.mem_of_getElem? hm)
  | list hm => exact elems_elements hx value_slots.2.1 y (List.mem_of_getElem? hm)

theorem fieldsOk_names {sc : Schema Cls EnumCls SfvCls Fld} {fs : List AField} {attrs : List (Fld × AVal)} (h : FieldsOk sc fs attrs) :
    attrs.map (·.1) = fs.map (·.name) := by
  induction h with
  | nil => rfl
  | cons hok _ ih => simp [ih, hok.1]

theorem lookup_none_of {f : Fld} : ∀ {attrs : List (Fld × AVal)}, f ∉ attrs.map (·.1) → lookup f attrs = none
  | [], _ => rfl
  | (g, v) :: rest, h => by
    simp only [List.map_cons, List.mem_cons, not_or] at h
    rw [lookup, if_neg (Ne.symm h.1), lookup_none_of h.2]

theorem elementsA_eq : ∀ attrs : List (Fld × AVal), (attrs.map (·.1)).Nodup →
    elementsA attrs = elementsL (Model.items ((lookup .value attrs).getD .none))
  | [], _ => by simp [elementsA, lookup, Model.items, elementsL]
  | (g, v) :: rest, hn => by
    simp only [List.map_cons, List.nodup_cons] at hn
    rw [elementsA.eq_def]
    split
    · contradiction
    · rename_i heq
      simp only [List.cons.injEq, Prod.mk.injEq] at heq
      obtain ⟨⟨rfl, rfl⟩, rfl⟩ := heq
      simp [lookup, Model.items]
    · rename_i rest' hne heq
      simp only [List.cons.injEq] at heq
      obtain ⟨rfl, rfl⟩ := heq
      rw [elementsA_eq rest hn.2, lookup]
      split
      · rename_i hg
        subst hg
        rw [lookup_none_of hn.1]
        cases v <;> simp [Model.items, elementsL]
        exact (hne _ rfl).elim
      · rfl

/-- the children of collections and lists -/
theorem child_iff {c : Cls} {attrs : List (Fld × AVal)} (hc : c = .submodelElementCollection ∨ c = .submodelElementList) {i : Nat} {y : AVal} :
    (∃ t, Child (.obj c attrs) i t y) ↔ (elems (.obj c attrs) .value)[i]? = some y := by
  constructor
  · rintro ⟨t, h⟩
    cases h with
    | submodel hm => simp at hc
    | collection hm => exact hm
    | list hm => exact hm
  · intro h
    rcases hc with rfl | rfl
    · exact ⟨_, .collection h⟩
    · exact ⟨_, .list h⟩

theorem no_child {c : Cls} {attrs : List (Fld × AVal)} (hc : ¬ (c = .submodelElementCollection ∨ c = .submodelElementList))
    (hs : c ∈ subclassesOf .submodelElement) {i : Nat} {t : Tok} {y : AVal} : ¬ Child (.obj c attrs) i t y := by
  intro h
  cases h with
  | submodel hm => exact absurd hs (by decide)
  | collection hm => simp at hc
  | list hm => simp at hc

/-- an enumeration of what is below the elements of a list -/
def EnumL (l : List AVal) (k : Nat) (es : List AVal) : Prop :=
  ∃ poss : List (List Nat), poss.length = es.length ∧ poss.Pairwise (· < ·) ∧ (∀ q ∈ poss, ∃ i is, q = i :: is ∧ k ≤ i) ∧
    ∀ q x, (q, x) ∈ poss.zip es ↔ ∃ i y is ts, q = (k + i) :: is ∧ l[i]? = some y ∧ Under y is ts x

def EnumV (v : AVal) (es : List AVal) : Prop :=
  ∃ poss : List (List Nat), poss.length = es.length ∧ poss.Pairwise (· < ·) ∧ ∀ q x, (q, x) ∈ poss.zip es ↔ ∃ ts, Under v q ts x

theorem enumV_node {v : AVal} {l es : List AVal} (hv : ∀ i y, (∃ t, Child v i t y) ↔ l[i]? = some y) (h : EnumL l 0 es) : EnumV v (v :: es) := by
  obtain ⟨poss, h1, h2, h3, h4⟩ := h
  refine ⟨[] :: poss, by simp [h1], List.pairwise_cons.mpr ⟨?_, h2⟩, ?_⟩
  · intro q hq
    obtain ⟨i, is, rfl, -⟩ := h3 q hq
    exact List.nil_lt_cons ..
  · intro q x
    rw [List.zip_cons_cons, List.mem_cons, h4]
    constructor
    · rintro (h | ⟨i, y, is, ts, rfl, hi, hu⟩)
      · injection h with e1 e2; subst e1 e2; exact ⟨_, .here⟩
      · obtain ⟨t, hc⟩ := (hv i y).mpr hi
        rw [Nat.zero_add]
        exact ⟨_, .step hc hu⟩
    · rintro ⟨ts, hu⟩
      cases hu with
      | here => exact .inl rfl
      | @step _ y _ i t is ts hc hu => exact .inr ⟨i, y, is, ts, by rw [Nat.zero_add], (hv i y).mp ⟨t, hc⟩, hu⟩

theorem zip_append' {α β : Type} : ∀ (a : List α) (b : List β) (c : List α) (d : List β), a.length = b.length →
    (a ++ c).zip (b ++ d) = a.zip b ++ c.zip d
  | [], [], _, _, _ => rfl
  | x :: a, y :: b, c, d, h => by simp [zip_append' a b c d (by simpa using h)]

theorem zip_map_left' {α β γ : Type} (f : α → γ) : ∀ (a : List α) (b : List β), (a.map f).zip b = (a.zip b).map fun p => (f p.1, p.2)
  | [], _ => rfl
  | _ :: _, [] => rfl
  | _ :: a, _ :: b => by simp [zip_map_left' f a b]

theorem enumL_cons {v : AVal} {vs es es' : List AVal} {k : Nat} (h : EnumV v es) (h' : EnumL vs (k + 1) es') : EnumL (v :: vs) k (es ++ es') := by
  obtain ⟨p, a1, a2, a3⟩ := h
  obtain ⟨p', b1, b2, b3, b4⟩ := h'
  refine ⟨p.map (k :: ·) ++ p', by simp [a1, b1], ?_, ?_, ?_⟩
  · rw [List.pairwise_append, List.pairwise_map]
    refine ⟨a2.imp ?_, b2, ?_⟩
    · intro a b hab; exact List.cons_lt_cons_iff.mpr (.inr ⟨rfl, hab⟩)
    · intro a ha b hb
      obtain ⟨is, -, rfl⟩ := List.mem_map.mp ha
      obtain ⟨i, js, rfl, hi⟩ := b3 b hb
      exact List.cons_lt_cons_iff.mpr (.inl (by omega))
  · intro q hq
    rcases List.mem_append.mp hq with hq | hq
    · obtain ⟨is, -, rfl⟩ := List.mem_map.mp hq
      exact ⟨k, is, rfl, Nat.le_refl _⟩
    · obtain ⟨i, is, rfl, hi⟩ := b3 q hq
      exact ⟨i, is, rfl, by omega⟩
  · intro q x
    rw [zip_append' _ _ _ _ (by simp [a1]), zip_map_left', List.mem_append, b4]
    constructor
    · rintro (h | ⟨i, y, is, ts, rfl, hi, hu⟩)
      · obtain ⟨⟨is, y⟩, hm, he⟩ := List.mem_map.mp h
        injection he with e1 e2
        subst e1 e2
        obtain ⟨ts, hu⟩ := (a3 _ _).mp hm
        exact ⟨0, v, is, ts, rfl, rfl, hu⟩
      · exact ⟨i + 1, y, is, ts, by rw [show k + 1 + i = k + (i + 1) by omega], by simpa using hi, hu⟩
    · rintro ⟨i, y, is, ts, rfl, hi, hu⟩
      cases i with
      | zero =>
        simp only [List.getElem?_cons_zero, Option.some.injEq] at hi
        subst hi
        exact .inl (List.mem_map.mpr ⟨(is, x), (a3 _ _).mpr ⟨ts, hu⟩, rfl⟩)
      | succ i => exact .inr ⟨i, y, is, ts, by rw [show k + 1 + i = k + (i + 1) by omega], by simpa using hi, hu⟩

theorem enumL_nil (k : Nat) : EnumL [] k [] := ⟨[], rfl, .nil, by simp, by simp⟩

theorem sizeOf_lookup {f : Fld} {v : AVal} : ∀ {attrs : List (Fld × AVal)}, lookup f attrs = some v → sizeOf v < sizeOf attrs
  | [], h => by cases h
  | (g, w) :: rest, h => by
    rw [lookup] at h
    split at h
    · injection h with h; subst h; simp; omega
    · have := sizeOf_lookup h; simp; omega

theorem sizeOf_elems (c : Cls) (attrs : List (Fld × AVal)) (f : Fld) : sizeOf (elems (.obj c attrs) f) < sizeOf (Val.obj c attrs : AVal) := by
  rw [elems, get_obj]
  cases h : lookup f attrs with
  | none =>
    have : 0 < sizeOf attrs := by cases attrs <;> simp <;> omega
    simp [Model.items]; omega
  | some w =>
    have := sizeOf_lookup h
    cases w <;> simp_all [Model.items] <;> omega

mutual
theorem elements_enum (v : AVal) (h : IsElement lim v) : EnumV v (elements v) := by
  obtain ⟨c, hc, ho⟩ := h
  obtain ⟨attrs, e, hf⟩ := ho.fields
  have hlt : sizeOf (elems (.obj c attrs) .value) < sizeOf v := by rw [e]; exact sizeOf_elems c attrs .value
  rw [e] at ho ⊢
  rw [elements]
  by_cases hcl : c = .submodelElementCollection ∨ c = .submodelElementList
  · rw [if_pos hcl, elementsA_eq attrs (by rw [fieldsOk_names hf]; exact names_nodup c), ← get_obj c]
    refine enumV_node (l := elems (.obj c attrs) .value) (fun i y => child_iff hcl) ?_
    have hs : ∀ x ∈ elems (.obj c attrs) .value, IsElement lim x := by
      rcases hcl with rfl | rfl
      · exact elems_elements ho value_slots.1
      · exact elems_elements ho value_slots.2.1
    exact elementsL_enum (elems (.obj c attrs) .value) 0 hs
  · rw [if_neg hcl]
    refine enumV_node (l := []) (fun i y => ?_) (enumL_nil 0)
    simp only [List.getElem?_nil, reduceCtorEq, iff_false, not_exists]
    exact fun t => no_child hcl hc
termination_by sizeOf v
decreasing_by
  exact hlt
theorem elementsL_enum (l : List AVal) (k : Nat) (h : ∀ v ∈ l, IsElement lim v) : EnumL l k (elementsL l) := by
  match l, h with
  | [], _ => rw [elementsL]; exact enumL_nil k
  | v :: vs, h =>
    rw [elementsL]
    exact enumL_cons (elements_enum v (h v List.mem_cons_self)) (elementsL_enum vs (k + 1) fun x hx => h x (List.mem_cons_of_mem _ hx))
termination_by sizeOf l
end

/-- `Submodel.elements` -/
theorem submodelElements_enum (v : AVal) (h : Obj lim .submodel v) : Enumerates v (submodelElements v) := by
  obtain ⟨attrs, rfl, hf⟩ := h.fields
  have he : submodelElements (.obj .submodel attrs) = elementsL (elems (.obj .submodel attrs) .submodelElements) := by
    rw [submodelElements, elems, get_obj]
    cases lookup Fld.submodelElements attrs with
    | none => simp [Model.items, elementsL]
    | some w => cases w <;> simp [Model.items, elementsL]
  rw [he]
  have hv : ∀ i y, (∃ t, Child (.obj .submodel attrs) i t y) ↔ (elems (.obj .submodel attrs) .submodelElements)[i]? = some y := by
    intro i y
    constructor
    · rintro ⟨t, h⟩; cases h with | submodel hm => exact hm
    · intro h; exact ⟨_, .submodel h⟩
  obtain ⟨poss, h1, h2, h3, h4⟩ := elementsL_enum (elems (.obj .submodel attrs) .submodelElements) 0 (elems_elements h value_slots.2.2)
  refine ⟨poss, h1, h2, fun q x => ?_⟩
  rw [h4]
  constructor
  · rintro ⟨i, y, is, ts, rfl, hi, hu⟩
    obtain ⟨t, hc⟩ := (hv i y).mpr hi
    rw [Nat.zero_add]
    exact ⟨by simp, _, .step hc hu⟩
  · rintro ⟨hq, ts, hu⟩
    cases hu with
    | here => exact absurd rfl hq
    | @step _ y _ i t is ts hc hu => exact ⟨i, y, is, ts, by rw [Nat.zero_add], (hv i y).mp ⟨t, hc⟩, hu⟩

end Verif.Aas
