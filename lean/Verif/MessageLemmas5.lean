import Verif.MessageLemmas4

/-! # What the texts say: lists of elements and concept descriptions -/

namespace Verif.Aas
open Verif Verif.Parse Verif.Spec.Parse Verif.Spec.Model Verif.DataTypes Verif.Spec Verif.Props

variable {lim : Option Nat} {c : Cls} {v : AVal} {t : Str} {l : Level} {Number : Str → Prop}

theorem means_116 (h : Obj lim .assetInformation v) (ht : tellMethod lim .assetInformation_aasd_116 v = .error (.violated t l)) :
    Means lim Number v t l := by
  rcases h.list? (f := .specificAssetIds) rfl with ⟨b1, b2, b3⟩ | ⟨b1, b2, b3, b4⟩
  · simp only [tellMethod, b1, ok_bind, isNone, if_true] at ht; cases ht
  · simp only [tellMethod, b1, ok_bind, isNone, Bool.false_eq_true, if_false, iter] at ht
    obtain ⟨i, x, hx, hb⟩ := forI_tells ht
    have ho : Obj lim .specificAssetId x := obj_of_concrete rfl (b4 x (List.mem_of_getElem? hx))
    rw [ho.sfv (f := .name) rfl] at hb
    simp only [ok_bind, rawValue] at hb
    invert hb
    obtain ⟨hn, rfl, rfl⟩ := hb
    rw [Nat.zero_add]
    exact .aasd116 i x hx hn

/-! ## idShorts -/

theorem have_text {path : AVal} {xs : List AVal} (hx : ∀ x ∈ xs, Named x) (ht : tellHaveIdShorts (.list xs) path = .error (.violated t l)) :
    ∃ i x, xs[i]? = some x ∧ idShort? x = none ∧ l = .error ∧
      t = py!"Constraint AASd-117 violated: element " ++ Py.natStr i ++ py!" has no idShort" ++ pathNote path := by
  simp only [tellHaveIdShorts, isNone, Bool.false_eq_true, if_false, iter, ok_bind] at ht
  obtain ⟨i, x, hi, hb⟩ := forI_tells ht
  rcases hx x (List.mem_of_getElem? hi) with ⟨h1, h2⟩ | ⟨s, h1, h2⟩
  · rw [h1] at hb
    simp only [ok_bind, if_true, violated_tells] at hb
    exact ⟨i, x, hi, h2, hb.2, by rw [hb.1, Nat.zero_add]⟩
  · rw [h1] at hb
    cases hb

theorem have_means (h : Obj lim c v) {f : Fld} {key : Str} {d : Cls} (hd : d ∈ [Cls.submodelElement, .dataElement])
    (hm : slotOf c f = some (.attr key (.list (.cls d) false) false)) (hc : namedChildren v = elems v f) {path : AVal}
    (hp : Placed v (pathNote path)) (ht : (do tellHaveIdShorts (← attr v f) path) = .error (.violated t l)) : Means lim Number v t l := by
  rcases h.list? hm with ⟨b1, b2, b3⟩ | ⟨b1, b2, b3, b4⟩ <;> simp only [b1, ok_bind] at ht
  · simp only [tellHaveIdShorts, isNone, if_true] at ht; cases ht
  · obtain ⟨i, x, hi, hn, rfl, rfl⟩ := have_text (elements_named hd b4) ht
    exact .aasd117 i x _ (by rw [hc]; exact hi) hn hp

theorem means_117_annotations (h : Obj lim .annotatedRelationshipElement v)
    (ht : tellMethod lim .annotatedRelationshipElement_aasd_117 v = .error (.violated t l)) : Means lim Number v t l := by
  obtain ⟨w, hw⟩ := h.path (mem_of_slotOf rfl)
  simp only [tellMethod, hw, ok_bind] at ht
  exact have_means h (d := .dataElement) (by simp) rfl (by rw [namedChildren, h.className]; rfl) (by rw [← attr_ok hw]; exact note_placed h) ht

theorem means_117_entity (h : Obj lim .entity v) (ht : tellMethod lim .entity_aad_117 v = .error (.violated t l)) : Means lim Number v t l := by
  obtain ⟨w, hw⟩ := h.path (mem_of_slotOf rfl)
  simp only [tellMethod, hw, ok_bind] at ht
  exact have_means h (d := .submodelElement) (by simp) rfl (by rw [namedChildren, h.className]; rfl) (by rw [← attr_ok hw]; exact note_placed h) ht

theorem means_117_collection (h : Obj lim .submodelElementCollection v)
    (ht : tellMethod lim .submodelElementCollection_aasd_117 v = .error (.violated t l)) : Means lim Number v t l := by
  obtain ⟨w, hw⟩ := h.path (mem_of_slotOf rfl)
  simp only [tellMethod, hw, ok_bind] at ht
  exact have_means h (d := .submodelElement) (by simp) rfl (by rw [namedChildren, h.className]; rfl) (by rw [← attr_ok hw]; exact note_placed h) ht

theorem means_117_submodel (h : Obj lim .submodel v) (ht : tellMethod lim .submodel_aasd_117 v = .error (.violated t l)) :
    Means lim Number v t l :=
  have_means h (d := .submodelElement) (by simp) rfl (by rw [namedChildren, h.className]; rfl) (pathless h (by decide)) ht

/-- an idShort of the list that was seen already, or is there twice -/
def SaysTwice (t : Str) (l : Level) (seen : List Str) (xs : List AVal) : Prop :=
  ∃ (j : Nat) (x : AVal) (s : Str), xs[j]? = some x ∧ idShort? x = some s ∧ (s ∈ seen ∨ ∃ (i : Nat) (y : AVal), i < j ∧ xs[i]? = some y ∧ idShort? y = some s) ∧ l = .error ∧
    t = py!"AASd-022 violated: Duplicate idShort '" ++ s ++ py!"'"

theorem unique_text : ∀ (xs : List AVal) (seen : List Str), (∀ x ∈ xs, Named x) → tellUnique xs seen = .error (.violated t l) →
    SaysTwice t l seen xs
  | [], _, _, ht => by simp [tellUnique] at ht
  | x :: xs, seen, hx, ht => by
    rw [tellUnique] at ht
    rcases hx x List.mem_cons_self with ⟨h1, h2⟩ | ⟨s, h1, h2⟩
    · simp only [h1, ok_bind, isNone, if_true] at ht
      obtain ⟨j, y, s, a1, a2, a3, a4⟩ := unique_text xs seen (fun y hy => hx y (List.mem_cons_of_mem _ hy)) ht
      refine ⟨j + 1, y, s, a1, a2, a3.imp id ?_, a4⟩
      rintro ⟨i, z, b1, b2, b3⟩
      exact ⟨i + 1, z, by omega, b2, b3⟩
    · simp only [h1, ok_bind, isNone, rawValue, Bool.false_eq_true, if_false] at ht
      rw [ite_tells] at ht
      rcases ht with ⟨hs, ht⟩ | ⟨-, ht⟩
      · rw [violated_tells] at ht
        exact ⟨0, x, s, rfl, h2, .inl (List.contains_iff_mem.mp hs), ht.2, ht.1⟩
      · obtain ⟨j, y, u, a1, a2, a3, a4⟩ := unique_text xs _ (fun y hy => hx y (List.mem_cons_of_mem _ hy)) ht
        refine ⟨j + 1, y, u, a1, a2, ?_, a4⟩
        rcases a3 with a3 | ⟨i, z, b1, b2, b3⟩
        · rcases List.mem_cons.mp a3 with rfl | a3
          · exact .inr ⟨0, x, by omega, rfl, h2⟩
          · exact .inl a3
        · exact .inr ⟨i + 1, z, by omega, b2, b3⟩

theorem unique_means (h : Obj lim c v) {f : Fld} {key : Str} {d : Cls} (hd : d ∈ [Cls.submodelElement, .dataElement])
    (hm : slotOf c f = some (.attr key (.list (.cls d) false) false)) (hc : children v = elems v f)
    (ht : (do tellUniqueIdShorts (← attr v f)) = .error (.violated t l)) : Means lim Number v t l := by
  rcases h.list? hm with ⟨b1, b2, b3⟩ | ⟨b1, b2, b3, b4⟩ <;> simp only [b1, ok_bind] at ht
  · simp only [tellUniqueIdShorts, isNone, if_true] at ht; cases ht
  · simp only [tellUniqueIdShorts, isNone, Bool.false_eq_true, if_false, iter, ok_bind] at ht
    obtain ⟨j, x, s, a1, a2, a3, rfl, rfl⟩ := unique_text _ _ (elements_named hd b4) ht
    rcases a3 with a3 | ⟨i, y, c1, c2, c3⟩
    · simp at a3
    · exact .aasd022 i j y x s (by omega) (by rw [hc]; exact c2) (by rw [hc]; exact a1) c3 a2

theorem means_022_collection (h : Obj lim .submodelElementCollection v)
    (ht : tellMethod lim .submodelElementCollection_aasd_022 v = .error (.violated t l)) : Means lim Number v t l := by
  obtain ⟨w, hw⟩ := h.path (mem_of_slotOf rfl)
  simp only [tellMethod, hw, ok_bind] at ht
  exact unique_means h (d := .submodelElement) (by simp) rfl (by rw [children, h.className]; rfl) ht

theorem means_022_submodel (h : Obj lim .submodel v) (ht : tellMethod lim .submodel_aasd_022 v = .error (.violated t l)) :
    Means lim Number v t l :=
  unique_means h (d := .submodelElement) (by simp) rfl (by rw [children, h.className]; rfl) ht

/-! ## submodel element lists -/

theorem means_107 (h : Obj lim .submodelElementList v) (ht : tellMethod lim .submodelElementList_aasd_107 v = .error (.violated t l)) :
    Means lim Number v t l := by
  rcases list_values h with ⟨b1, b2⟩ | ⟨b1, b2, b3⟩ <;> rcases h.obj? (f := .semanticIdListElement) rfl rfl with ⟨a1, a2⟩ | ⟨a1, a2, a3⟩ <;>
    simp only [tellMethod, a1, b1, ok_bind] at ht
  · cases ht
  · cases ht
  · simp only [truthy, Bool.not_false, Bool.or_true, if_true] at ht; cases ht
  · simp only [b2, a3.exists.2.2, iter, ok_bind, Bool.not_true, Bool.or_self, Bool.false_eq_true, if_false] at ht
    obtain ⟨i, x, hx, hb⟩ := forI_tells ht
    obtain ⟨d, hd, ho⟩ := b3 x (List.mem_of_getElem? hx)
    rcases element_semantic hd ho with ⟨c1, c2⟩ | ⟨c1, c2, c3⟩ <;> simp only [c1, ok_bind] at hb
    · cases hb
    · simp only [c3.exists.2.1, refEq_iff c3 a3, ok_bind, Bool.false_eq_true, if_false, decide_eq_true_eq, Nat.zero_add] at hb
      rw [ite_tells] at hb
      rcases hb with ⟨-, hb⟩ | ⟨hs, hb⟩
      · cases hb
      · obtain ⟨rfl, rfl⟩ := tellAt_place h hb
        rw [refStr_eq c3, refStr_eq a3]
        exact .aasd107 i x hx c2 a2 hs

/-- an element whose semantic id is not the expected one -/
def Says114 (v : AVal) (r : AVal) (t : Str) (l : Level) (i : Nat) (xs : List AVal) : Prop :=
  ∃ j x, xs[j]? = some x ∧ Set x .semanticId ∧ ¬ SameRef (get x .semanticId) r ∧ l = .error ∧
    t = py!"Constraint AASd-114 violated: Element " ++ Py.natStr (i + j) ++ py!" must have semanticId " ++ shownRef r ++ py!" @ " ++ place v

theorem tell114_some (h : Obj lim .submodelElementList v) {r : AVal} (hr : Obj lim .reference r) : ∀ (xs : List AVal) (i : Nat),
    (∀ x ∈ xs, ∃ d, d ∈ subclassesOf .submodelElement ∧ Obj lim d x) → tell114 v i (some r) xs = .error (.violated t l) →
    Says114 v r t l i xs
  | [], _, _, ht => by simp [tell114] at ht
  | x :: xs, i, hx, ht => by
    have next : tell114 v (i + 1) (some r) xs = .error (.violated t l) → Says114 v r t l i (x :: xs) := fun ht => by
      obtain ⟨j, y, a1, a2, a3, a4, a5⟩ := tell114_some h hr xs (i + 1) (fun y hy => hx y (List.mem_cons_of_mem _ hy)) ht
      exact ⟨j + 1, y, a1, a2, a3, a4, by rw [a5, show i + 1 + j = i + (j + 1) by omega]⟩
    obtain ⟨d, hd, ho⟩ := hx x List.mem_cons_self
    rw [tell114] at ht
    rcases element_semantic hd ho with ⟨c1, c2⟩ | ⟨c1, c2, c3⟩ <;> simp only [c1, ok_bind] at ht
    · exact next ht
    · simp only [c3.exists.2.2, if_true, refEq_iff c3 hr, ok_bind, decide_eq_true_eq] at ht
      rw [ite_tells] at ht
      rcases ht with ⟨-, ht⟩ | ⟨hs, ht⟩
      · exact next ht
      · obtain ⟨rfl, rfl⟩ := tellAt_place h ht
        rw [refStr_eq hr]
        exact ⟨0, x, rfl, c2, hs, rfl, rfl⟩

/-- the first semantic id is not that of a later element -/
def SaysFirst (v : AVal) (t : Str) (l : Level) (i : Nat) (xs : List AVal) : Prop :=
  ∃ j k x y, k < j ∧ xs[j]? = some x ∧ xs[k]? = some y ∧ Set x .semanticId ∧ Set y .semanticId ∧
    (∀ n z, n < k → xs[n]? = some z → ¬ Set z .semanticId) ∧ ¬ SameRef (get x .semanticId) (get y .semanticId) ∧ l = .error ∧
    t = py!"Constraint AASd-114 violated: Element " ++ Py.natStr (i + j) ++ py!" must have semanticId " ++ shownRef (get y .semanticId) ++
      py!" @ " ++ place v

theorem tell114_none (h : Obj lim .submodelElementList v) : ∀ (xs : List AVal) (i : Nat),
    (∀ x ∈ xs, ∃ d, d ∈ subclassesOf .submodelElement ∧ Obj lim d x) → tell114 v i none xs = .error (.violated t l) →
    SaysFirst v t l i xs
  | [], _, _, ht => by simp [tell114] at ht
  | x :: xs, i, hx, ht => by
    obtain ⟨d, hd, ho⟩ := hx x List.mem_cons_self
    have hx' : ∀ y ∈ xs, ∃ d, d ∈ subclassesOf .submodelElement ∧ Obj lim d y := fun y hy => hx y (List.mem_cons_of_mem _ hy)
    rw [tell114] at ht
    rcases element_semantic hd ho with ⟨c1, c2⟩ | ⟨c1, c2, c3⟩ <;> simp only [c1, ok_bind] at ht
    · obtain ⟨j, k, y, z, a1, a2, a3, a4, a5, a6, a7, a8, a9⟩ := tell114_none h xs (i + 1) hx' ht
      refine ⟨j + 1, k + 1, y, z, by omega, a2, a3, a4, a5, ?_, a7, a8, by rw [a9, show i + 1 + j = i + (j + 1) by omega]⟩
      intro n w hn hw
      cases n with
      | zero => cases hw; exact c2
      | succ n => exact a6 n w (by omega) hw
    · simp only [c3.exists.2.2, if_true] at ht
      obtain ⟨j, y, a1, a2, a3, a4, a5⟩ := tell114_some h c3 xs (i + 1) hx' ht
      exact ⟨j + 1, 0, y, x, by omega, a1, rfl, a2, c2, fun n z hn => absurd hn (Nat.not_lt_zero n), a3, a4,
        by rw [a5, show i + 1 + j = i + (j + 1) by omega]⟩

theorem means_114 (h : Obj lim .submodelElementList v) (ht : tellMethod lim .submodelElementList_aasd_114 v = .error (.violated t l)) :
    Means lim Number v t l := by
  rcases list_values h with ⟨b1, b2⟩ | ⟨b1, b2, b3⟩ <;> simp only [tellMethod, b1, ok_bind] at ht
  · cases ht
  · simp only [b2, iter, ok_bind, Bool.not_true, Bool.false_eq_true, if_false] at ht
    obtain ⟨j, k, x, y, a1, a2, a3, a4, a5, a6, a7, rfl, rfl⟩ := tell114_none h _ 0 b3 ht
    rw [Nat.zero_add]
    exact .aasd114 j k x y a1 a2 a3 a4 a5 a6 a7

/-- the text of AASd-108 -/
theorem tell_108 (h : Obj lim .submodelElementList v) (ht : tellMethod lim .submodelElementList_aasd_108 v = .error (.violated t l)) :
    ∃ i x, (elems v .value)[i]? = some x ∧ className x ≠ txt v .typeValueListElement ∧ l = .error ∧
      t = py!"Constraint AASd-108 violated: Element " ++ Py.natStr i ++ py!" must be " ++ txt v .typeValueListElement ++ py!" @ " ++
        place v := by
  rcases list_values h with ⟨b1, b2⟩ | ⟨b1, b2, b3⟩ <;> simp only [tellMethod, b1, ok_bind] at ht
  · cases ht
  · simp only [b2, (h.enum (f := .typeValueListElement) rfl).1, iter, ok_bind, Bool.not_true, Bool.false_eq_true, if_false] at ht
    rw [if_neg (by simp [truthy])] at ht
    obtain ⟨i, x, hx, hb⟩ := forI_tells ht
    obtain ⟨d, hd, ho⟩ := b3 x (List.mem_of_getElem? hx)
    rw [ho.cls, ite_tells] at hb
    rcases hb with ⟨-, hb⟩ | ⟨hn, hb⟩
    · cases hb
    · obtain ⟨rfl, rfl⟩ := tellAt_place h hb
      rw [Nat.zero_add]
      exact ⟨i, x, hx, by rw [ho.className]; simpa using hn, rfl, rfl⟩

theorem means_109 (h : Obj lim .submodelElementList v) (ht : tellMethod lim .submodelElementList_aasd_109 v = .error (.violated t l)) :
    Means lim Number v t l := by
  rcases list_values h with ⟨b1, b2⟩ | ⟨b1, b2, b3⟩ <;> simp only [tellMethod, b1, ok_bind] at ht
  · cases ht
  · simp only [b2, iter, ok_bind, Bool.not_true, Bool.false_eq_true, if_false] at ht
    obtain ⟨i, x, hx, hb⟩ := forI_tells ht
    obtain ⟨d, hd, ho⟩ := b3 x (List.mem_of_getElem? hx)
    rw [ho.cls, ite_tells] at hb
    rcases hb with ⟨hp, hb⟩ | ⟨-, hb⟩
    · have hp : d = .property ∨ d = .range := by simpa using hp
      have hn : className x ∈ [py!"Property", py!"Range"] := by
        rw [ho.className]; rcases hp with rfl | rfl <;> simp [Cls.pyName]
      have hv : attr x .valueType = .ok (.enum .dataTypeDefXsd (txt x .valueType)) := by
        rcases hp with rfl | rfl
        · exact (ho.enum rfl).1
        · exact (ho.enum rfl).1
      rcases h.enum? (f := .valueTypeListElement) rfl with ⟨a1, a2, a3⟩ | ⟨a1, a2, a3⟩ <;> simp only [a1, hv, ok_bind] at hb
      · simp only [isNone, if_true] at hb
        obtain ⟨rfl, rfl⟩ := tellAt_place h hb
        exact .noValueType x (List.mem_of_getElem? hx) hn a2
      · simp only [isNone, enumEq, true_and, Bool.false_eq_true, if_false, decide_eq_true_eq] at hb
        rw [ite_tells] at hb
        rcases hb with ⟨-, hb⟩ | ⟨hne, hb⟩
        · cases hb
        · obtain ⟨rfl, rfl⟩ := tellAt_place h hb
          rw [Nat.zero_add]
          simpa using Means.valueType (lim := lim) (Number := Number) i x hx hn hne
    · cases hb

theorem means_120 (h : Obj lim .submodelElementList v) (ht : tellMethod lim .submodelElementList_aasd_120 v = .error (.violated t l)) :
    Means lim Number v t l := by
  rcases list_values h with ⟨b1, b2⟩ | ⟨b1, b2, b3⟩ <;> simp only [tellMethod, b1, ok_bind] at ht
  · cases ht
  · simp only [b2, iter, ok_bind, Bool.not_true, Bool.false_eq_true, if_false] at ht
    obtain ⟨i, x, hx, hb⟩ := forI_tells ht
    obtain ⟨d, hd, ho⟩ := b3 x (List.mem_of_getElem? hx)
    rcases idShort_facts ho (element_named .submodelElement (by simp) d hd).1 with ⟨h1, h2⟩ | ⟨s, h1, h2⟩
    · rw [h1] at hb; cases hb
    · rw [h1] at hb
      simp only [ok_bind, isNone, Bool.false_eq_true, if_false] at hb
      obtain ⟨rfl, rfl⟩ := tellAt_place h hb
      rw [Nat.zero_add]
      simpa using Means.aasd120 (lim := lim) (Number := Number) i x hx (by rw [h2]; simp)

/-! ## concept descriptions -/

/-- the text of AASc-3a-004 to 006 -/
theorem tell_iec (h : Obj lim .conceptDescription v) {categories : List Str} {name : Str}
    (ht : tellIec61360 v categories name = .error (.violated t l)) : txt v .category ∈ categories ∧ l = .error ∧
    ∃ x, ContentAt v 0 x ∧ t = py!"Constraint " ++ name ++ py!" violated: embeddedDataSpecifications[0].dataType is invalid" := by
  rw [tellIec61360] at ht
  rcases h.sfv? (f := .category) rfl with ⟨a1, a2⟩ | ⟨a1, a2⟩ <;> simp only [a1, ok_bind, isNone, if_true] at ht
  · cases ht
  · simp only [Bool.false_eq_true, if_false, rawValue, ok_bind] at ht
    by_cases hc : txt v .category ∈ categories
    · rw [if_neg (by simpa using hc)] at ht
      rcases specs_facts h with ⟨b1, b2⟩ | ⟨b1, b2, b3, b4⟩ <;> simp only [b1, ok_bind] at ht
      · cases ht
      · simp only [Bool.false_eq_true, if_false, iter, ok_bind] at ht
        cases hl : elems v .embeddedDataSpecifications with
        | nil => exact absurd hl b2
        | cons ds rest =>
          obtain ⟨c1, c2, c3, c4⟩ := content_facts (b3 ds (by rw [hl]; simp))
          rw [hl, forI] at ht
          simp only [c1, ok_bind, c2, if_true, (c3.field (f := .dataType) rfl).1] at ht
          rcases bind_fails ht with ht | ⟨_, ht, -⟩
          · have ht := violated_tells.mp ht
            refine ⟨hc, ht.2, _, ⟨ds, by rw [hl]; rfl, rfl, c4⟩, ?_⟩
            rw [ht.1]
            simp [show Py.natStr 0 = [48] from by decide]
          · cases ht
    · rw [if_pos (by simpa using hc)] at ht; cases ht

theorem means_3a_007 (h : Obj lim .conceptDescription v) (ht : tellMethod lim .conceptDescription_aasc_3a_007 v = .error (.violated t l)) :
    Means lim Number v t l := by
  rcases h.sfv? (f := .category) rfl with ⟨a1, a2⟩ | ⟨a1, a2⟩ <;> simp only [tellMethod, a1, ok_bind, isNone, if_true] at ht
  · cases ht
  · simp only [Bool.false_eq_true, if_false, rawValue, ok_bind] at ht
    rw [ite_tells] at ht
    rcases ht with ⟨-, ht⟩ | ⟨hc, ht⟩
    · cases ht
    · rcases specs_facts h with ⟨b1, b2⟩ | ⟨b1, b2, b3, b4⟩ <;> simp only [b1, ok_bind] at ht
      · cases ht
      · simp only [Bool.false_eq_true, if_false, iter, ok_bind] at ht
        obtain ⟨i, ds, hi, hb⟩ := forI_tells ht
        obtain ⟨c1, c2, c3, c4⟩ := content_facts (b3 ds (List.mem_of_getElem? hi))
        simp only [c1, ok_bind, c2, if_true, Nat.zero_add] at hb
        rcases c3.enum? (f := .dataType) rfl with ⟨d1, d2, d3⟩ | ⟨d1, d2, d3⟩ <;> simp only [d1, ok_bind, if_true] at hb
        · rw [violated_tells] at hb
          obtain ⟨rfl, rfl⟩ := hb
          exact .aasc007 i _ (Classical.not_not.mp hc) ⟨ds, hi, rfl, c4⟩ d2
        · cases hb

theorem means_3a_008 (h : Obj lim .conceptDescription v) (ht : tellMethod lim .conceptDescription_aasc_3a_008 v = .error (.violated t l)) :
    Means lim Number v t l := by
  rcases specs_facts h with ⟨b1, b2⟩ | ⟨b1, b2, b3, b4⟩ <;> simp only [tellMethod, b1, ok_bind] at ht
  · cases ht
  · simp only [isNone, Bool.false_eq_true, if_false, iter, ok_bind] at ht
    obtain ⟨i, ds, hi, hb⟩ := forI_tells ht
    obtain ⟨c1, c2, c3, c4⟩ := content_facts (b3 ds (List.mem_of_getElem? hi))
    simp only [c1, ok_bind, c2, if_true, Nat.zero_add] at hb
    rcases c3.sfv? (f := .value) rfl with ⟨d1, d2⟩ | ⟨d1, d2⟩ <;> simp only [d1, ok_bind] at hb
    · rcases c3.list? (f := .definition) rfl with ⟨e1, e2, e3⟩ | ⟨e1, e2, e3, e4⟩ <;> simp only [e1, ok_bind] at hb
      · simp only [Bool.not_true, Bool.false_eq_true, if_false, if_true] at hb
        rw [violated_tells] at hb
        obtain ⟨rfl, rfl⟩ := hb
        exact .noDefinition i _ ⟨ds, hi, rfl, c4⟩ d2 e2
      · obtain ⟨b, hb', hi'⟩ := anyEnglish_spec (d := .definitionTypeIec61360) rfl rfl _ e4
        simp only [hb', ok_bind, Bool.not_true, Bool.false_eq_true, if_false] at hb
        rw [ite_tells] at hb
        rcases hb with ⟨-, hb⟩ | ⟨he, hb⟩
        · cases hb
        · rw [violated_tells] at hb
          obtain ⟨rfl, rfl⟩ := hb
          exact .noEnglish i _ ⟨ds, hi, rfl, c4⟩ d2 e2 (fun hh => he (hi'.mpr hh))
    · cases hb

end Verif.Aas
