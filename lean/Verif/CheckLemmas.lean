import Verif.Spec.Model
import Verif.ModelLemmas

/-! # Typed access to attributes, and the checks of references and idShorts -/

namespace Verif.Aas
open Verif Verif.Parse Verif.Spec.Parse Verif.Spec.Model Verif.DataTypes Verif.Spec

/-! ## access -/

theorem find_lookup (f : Fld) (attrs : List (Fld × AVal)) :
    (attrs.find? (fun a => decide (a.1 = f))).map (·.2) = lookup f attrs := by
  induction attrs with
  | nil => rfl
  | cons a attrs ih =>
    obtain ⟨g, v⟩ := a
    by_cases h : g = f
    · simp [lookup, h]
    · simp [lookup, h, ih]

theorem attr_ok {v w : AVal} {f : Fld} (h : attr v f = .ok w) : get v f = w := by
  unfold attr at h
  split at h
  · rename_i c attrs
    rw [Model.get, find_lookup]
    split at h
    · rename_i w' hw; rw [hw]; injection h
    · cases h
  · cases h

variable {lim : Option Nat} {c : Cls} {v : AVal}

/-- the slot of a field -/
def slotOf (c : Cls) (f : Fld) : Option (Slot Cls EnumCls SfvCls) := ((fieldsOf c).find? (fun g => decide (g.name = f))).map (·.slot)

theorem mem_of_slotOf {f : Fld} {slot} (h : slotOf c f = some slot) : ⟨f, slot⟩ ∈ fieldsOf c := by
  unfold slotOf at h
  cases hf : (fieldsOf c).find? (fun g => decide (g.name = f)) with
  | none => rw [hf] at h; cases h
  | some g =>
    rw [hf] at h
    obtain ⟨n, s⟩ := g
    have h1 := List.find?_some hf
    have h2 := List.mem_of_find?_eq_some hf
    simp only [decide_eq_true_eq] at h1
    simp only [Option.map_some, Option.some.injEq] at h
    rw [← h1, ← h]; exact h2

/-- attributes of typed objects -/
theorem Obj.field (h : Obj lim c v) {f : Fld} {key : Str} {ty : ATy} {req : Bool} (hm : slotOf c f = some (.attr key ty req)) :
    attr v f = .ok (get v f) ∧ ((get v f = .none ∧ req = false) ∨ HasType (schema lim) ty (get v f)) := by
  obtain ⟨attrs, rfl, hf⟩ := h.fields
  obtain ⟨w, hw, -, hok⟩ := lookup_typed hf (names_nodup c) (mem_of_slotOf hm)
  have ha : attr (.obj c attrs) f = .ok w := by rw [attr, hw]
  rw [attr_ok ha]
  exact ⟨ha, hok⟩

theorem Obj.path (h : Obj lim c v) (hm : ⟨.idShortPath, .excluded⟩ ∈ fieldsOf c) : ∃ w, attr v .idShortPath = .ok w := by
  obtain ⟨attrs, rfl, hf⟩ := h.fields
  obtain ⟨w, hw, -⟩ := lookup_typed hf (names_nodup c) hm
  exact ⟨w, by rw [attr, hw]⟩

theorem Obj.className (h : Obj lim c v) : className v = c.pyName := by
  obtain ⟨attrs, rfl, -⟩ := h.fields; rfl

theorem Obj.cls (h : Obj lim c v) : clsOf v = some c := by
  obtain ⟨attrs, rfl, -⟩ := h.fields; rfl

theorem Obj.exists (h : Obj lim c v) : v ≠ .none ∧ isNone v = false ∧ truthy v = true := by
  obtain ⟨attrs, rfl, -⟩ := h.fields; exact ⟨by simp, rfl, rfl⟩

/-! shapes -/

theorem enum_shape {e : EnumCls} {w : AVal} (h : HasType (schema lim) (.enum e) w) : w = .enum e (text w) ∧ text w ∈ enumValuesOf e := by
  cases h with
  | enum h => exact ⟨rfl, h⟩

theorem sfv_shape {s : SfvCls} {w : AVal} (h : HasType (schema lim) (.sfv s) w) : w = .sfv s (text w) := by
  cases h with
  | sfv h => rfl

theorem str_shape {w : AVal} (h : HasType (schema lim) .str w) : w = .str (text w) := by
  cases h; rfl

theorem list_shape {ty : ATy} {w : AVal} (h : HasType (schema lim) (.list ty false) w) :
    w = .list (items w) ∧ items w ≠ [] ∧ ∀ x ∈ items w, HasType (schema lim) ty x := by
  cases h with
  | list h h' => exact ⟨rfl, by simpa [Model.items] using h, h'⟩

/-- required attributes -/
theorem Obj.enum (h : Obj lim c v) {f key e} (hm : slotOf c f = some (.attr key (.enum e) true)) :
    attr v f = .ok (.enum e (txt v f)) ∧ txt v f ∈ enumValuesOf e := by
  obtain ⟨h1, ⟨_, h⟩ | h2⟩ := h.field hm
  · cases h
  · have := enum_shape h2
    exact ⟨by rw [h1, txt, ← this.1], this.2⟩

theorem Obj.sfv (h : Obj lim c v) {f key s} (hm : slotOf c f = some (.attr key (.sfv s) true)) :
    attr v f = .ok (.sfv s (txt v f)) := by
  obtain ⟨h1, ⟨_, h⟩ | h2⟩ := h.field hm
  · cases h
  · rw [h1, txt, ← sfv_shape h2]

theorem Obj.str (h : Obj lim c v) {f key} (hm : slotOf c f = some (.attr key .str true)) :
    attr v f = .ok (.str (txt v f)) := by
  obtain ⟨h1, ⟨_, h⟩ | h2⟩ := h.field hm
  · cases h
  · rw [h1, txt, ← str_shape h2]

theorem Obj.list (h : Obj lim c v) {f key ty} (hm : slotOf c f = some (.attr key (.list ty false) true)) :
    attr v f = .ok (.list (elems v f)) ∧ elems v f ≠ [] ∧ ∀ x ∈ elems v f, HasType (schema lim) ty x := by
  obtain ⟨h1, ⟨_, h⟩ | h2⟩ := h.field hm
  · cases h
  · obtain ⟨h3, h4⟩ := list_shape h2
    exact ⟨by rw [h1, elems, ← h3], h4⟩

theorem Obj.obj (h : Obj lim c v) {f key d} (hd : isAbstract d = false) (hm : slotOf c f = some (.attr key (.cls d) true)) :
    attr v f = .ok (get v f) ∧ Obj lim d (get v f) := by
  obtain ⟨h1, ⟨_, h⟩ | h2⟩ := h.field hm
  · cases h
  · exact ⟨h1, obj_of_concrete hd h2⟩

/-- optional attributes -/
theorem Obj.enum? (h : Obj lim c v) {f key e} (hm : slotOf c f = some (.attr key (.enum e) false)) :
    (attr v f = .ok .none ∧ ¬ Set v f ∧ txt v f = []) ∨ (attr v f = .ok (.enum e (txt v f)) ∧ Set v f ∧ txt v f ∈ enumValuesOf e) := by
  obtain ⟨h1, ⟨h2, -⟩ | h2⟩ := h.field hm
  · exact .inl ⟨by rw [h1, h2], by simp [Set, h2], by rw [txt, h2]; rfl⟩
  · have := enum_shape h2
    exact .inr ⟨by rw [h1, txt, ← this.1], by rw [Set, this.1]; simp, this.2⟩

theorem Obj.sfv? (h : Obj lim c v) {f key s} (hm : slotOf c f = some (.attr key (.sfv s) false)) :
    (attr v f = .ok .none ∧ ¬ Set v f) ∨ (attr v f = .ok (.sfv s (txt v f)) ∧ Set v f) := by
  obtain ⟨h1, ⟨h2, -⟩ | h2⟩ := h.field hm
  · exact .inl ⟨by rw [h1, h2], by simp [Set, h2]⟩
  · have := sfv_shape h2
    exact .inr ⟨by rw [h1, txt, ← this], by rw [Set, this]; simp⟩

theorem Obj.list? (h : Obj lim c v) {f key ty} (hm : slotOf c f = some (.attr key (.list ty false) false)) :
    (attr v f = .ok .none ∧ ¬ Set v f ∧ elems v f = []) ∨
    (attr v f = .ok (.list (elems v f)) ∧ Set v f ∧ elems v f ≠ [] ∧ ∀ x ∈ elems v f, HasType (schema lim) ty x) := by
  obtain ⟨h1, ⟨h2, -⟩ | h2⟩ := h.field hm
  · exact .inl ⟨by rw [h1, h2], by simp [Set, h2], by rw [elems, h2]; rfl⟩
  · obtain ⟨h3, h4⟩ := list_shape h2
    exact .inr ⟨by rw [h1, elems, ← h3], by rw [Set, h3]; simp, h4⟩

theorem Obj.obj? (h : Obj lim c v) {f key d} (hd : isAbstract d = false) (hm : slotOf c f = some (.attr key (.cls d) false)) :
    (attr v f = .ok .none ∧ ¬ Set v f) ∨ (attr v f = .ok (get v f) ∧ Set v f ∧ Obj lim d (get v f)) := by
  obtain ⟨h1, ⟨h2, -⟩ | h2⟩ := h.field hm
  · exact .inl ⟨by rw [h1, h2], by simp [Set, h2]⟩
  · have := obj_of_concrete hd h2
    exact .inr ⟨h1, this.exists.1, this⟩

/-! ## outcomes -/

theorem ok_bind {α β : Type} (a : α) (f : α → Chk β) : ((Except.ok a : Chk α) >>= f) = f a := rfl
theorem error_bind {α β : Type} (e : Fail) (f : α → Chk β) : ((Except.error e : Chk α) >>= f) = .error e := rfl

theorem _root_.Verif.Spec.Model.Decides.iff {name : Str} {x : Chk Unit} {P Q : Prop} (h : Decides name x P) (hpq : P ↔ Q) : Decides name x Q :=
  ⟨fun hq => h.accepts (hpq.mpr hq), fun hq => h.reports (fun hp => hq (hpq.mp hp))⟩

theorem decides_ok {name : Str} {P : Prop} (h : P) : Decides name (.ok ()) P := ⟨fun _ => rfl, fun h' => absurd h h'⟩
theorem decides_violated {name : Str} {P : Prop} (h : ¬ P) : Decides name (violated name) P := ⟨fun h' => absurd h' h, fun _ => rfl⟩

theorem decides_ite {name : Str} {b : Bool} : Decides name (if b = true then .ok () else violated name) (b = true) := by
  cases b
  · exact decides_violated (by simp)
  · exact decides_ok rfl

/-- two checks after each other -/
theorem _root_.Verif.Spec.Model.Decides.seq {name : Str} {x y : Chk Unit} {P Q : Prop} (h1 : Decides name x P) (h2 : Decides name y Q) :
    Decides name (x >>= fun _ => y) (P ∧ Q) := by
  by_cases hp : P
  · rw [h1.accepts hp]
    exact ⟨fun h => h2.accepts h.2, fun h => h2.reports (fun hq => h ⟨hp, hq⟩)⟩
  · rw [h1.reports hp]
    exact ⟨fun h => absurd h.1 hp, fun _ => rfl⟩

theorem decides_for {name : Str} {α : Type} {body : α → Chk Unit} {P : α → Prop} : ∀ {l : List α}, (∀ x ∈ l, Decides name (body x) (P x)) →
    Decides name (forM body l) (∀ x ∈ l, P x)
  | [], _ => decides_ok (by simp)
  | x :: xs, h => by
    rw [forM]
    refine ((h x List.mem_cons_self).seq (decides_for (l := xs) (fun y hy => h y (List.mem_cons_of_mem _ hy)))).iff ?_
    simp

theorem anyM_ok {α : Type} {p : α → Chk Bool} {q : α → Bool} : ∀ {l : List α}, (∀ x ∈ l, p x = .ok (q x)) → anyM p l = .ok (l.any q)
  | [], _ => rfl
  | x :: xs, h => by
    rw [anyM, h x List.mem_cons_self, ok_bind, anyM_ok (fun y hy => h y (List.mem_cons_of_mem _ hy))]
    cases hq : q x <;> simp [hq]

/-! ## references -/

theorem key_facts {k : AVal} (h : Obj lim .key k) : keyType k = .ok (.enum .keyType (txt k .type_)) ∧
    attr k .value = .ok (.sfv .identifierString (txt k .value)) :=
  ⟨(h.enum (f := .type_) rfl).1, h.sfv rfl⟩

theorem ref_facts {r : AVal} (h : Obj lim .reference r) : attr r .type_ = .ok (.enum .referenceType (txt r .type_)) ∧
    attr r .keys = .ok (.list (elems r .keys)) ∧ elems r .keys ≠ [] ∧ ∀ k ∈ elems r .keys, Obj lim .key k := by
  have h1 := h.enum (f := .type_) rfl
  have h2 := h.list (f := .keys) rfl
  exact ⟨h1.1, h2.1, h2.2.1, fun k hk => obj_of_concrete rfl (h2.2.2 k hk)⟩

theorem isExternal_iff (s : Str) : isExternalReference (.enum .referenceType s) = true ↔ s = py!"ExternalReference" := by
  simp [isExternalReference, enumIs]
theorem isModel_iff (s : Str) : isModelReference (.enum .referenceType s) = true ↔ s = py!"ModelReference" := by
  simp [isModelReference, enumIs]

theorem decides_guard {name : Str} {b : Bool} {x : Chk Unit} {P Q : Prop} (hb : b = true ↔ Q) (h : Q → Decides name x P) :
    Decides name (if (!b || false) = true then .ok () else x) (Q → P) := by
  cases hbv : b with
  | false => exact decides_ok (fun hq => absurd (hb.mpr hq) (by simp [hbv]))
  | true => exact (h (hb.mp hbv)).iff ⟨fun h _ => h, fun h => h (hb.mp hbv)⟩

theorem keyAt_zero {r k : AVal} {ks : List AVal} (h : elems r .keys = k :: ks) (P : Str → Prop) : (∀ t, KeyAt r 0 t → P t) ↔ P (txt k .type_) := by
  constructor
  · exact fun hh => hh _ ⟨k, by rw [h]; rfl, rfl⟩
  · rintro hp t ⟨k', hk, rfl⟩
    rw [h] at hk; cases hk; exact hp

theorem decides_121 {r : AVal} (h : Obj lim .reference r) : Decides py!"AASd-121" (runMethod lim .reference_aasd_121 r) (AASd121 r) := by
  obtain ⟨-, h2, h3, h4⟩ := ref_facts h
  obtain ⟨k, ks, hk⟩ : ∃ k ks, elems r .keys = k :: ks := by
    cases hl : elems r .keys with
    | nil => exact absurd hl h3
    | cons k ks => exact ⟨k, ks, rfl⟩
  have hkey := key_facts (h4 k (by rw [hk]; simp))
  simp only [runMethod, h2, ok_bind, hk, truthy, List.isEmpty_cons, Bool.not_false, Bool.not_true, Bool.false_eq_true, if_false, iter, head, hkey.1]
  refine decides_ite.iff ?_
  rw [AASd121, keyAt_zero hk (fun t => t ∈ identifiableTypes ∨ t = py!"GlobalReference")]
  simp [enumIn, globallyIdentifiables, aasIdentifiables, genericGloballyIdentifiables, identifiableTypes]
  grind

theorem keys_cons {r : AVal} (h : Obj lim .reference r) : ∃ k ks, elems r .keys = k :: ks ∧ Obj lim .key k := by
  obtain ⟨-, -, h3, h4⟩ := ref_facts h
  cases hl : elems r .keys with
  | nil => exact absurd hl h3
  | cons k ks => exact ⟨k, ks, rfl, h4 k (by rw [hl]; simp)⟩

theorem decides_122 {r : AVal} (h : Obj lim .reference r) : Decides py!"AASd-122" (runMethod lim .reference_aasd_122 r) (AASd122 r) := by
  obtain ⟨h1, h2, h3, h4⟩ := ref_facts h
  obtain ⟨k, ks, hk, hko⟩ := keys_cons h
  have hkey := key_facts hko
  simp only [runMethod, h1, h2, ok_bind, hk, isNone, iter, head, hkey.1]
  refine decides_guard (isExternal_iff _) fun _ => decides_ite.iff ?_
  rw [keyAt_zero hk (fun t => t = py!"GlobalReference")]
  simp [enumIn, genericGloballyIdentifiables]

theorem decides_123 {r : AVal} (h : Obj lim .reference r) : Decides py!"AASd-123" (runMethod lim .reference_aasd_123 r) (AASd123 r) := by
  obtain ⟨h1, h2, h3, h4⟩ := ref_facts h
  obtain ⟨k, ks, hk, hko⟩ := keys_cons h
  have hkey := key_facts hko
  simp only [runMethod, h1, h2, ok_bind, hk, isNone, iter, head, hkey.1]
  refine decides_guard (isModel_iff _) fun _ => decides_ite.iff ?_
  rw [keyAt_zero hk (fun t => t ∈ identifiableTypes)]
  simp [enumIn, aasIdentifiables, identifiableTypes]
  grind

theorem decides_124 {r : AVal} (h : Obj lim .reference r) : Decides py!"AASd-124" (runMethod lim .reference_aasd_124 r) (AASd124 r) := by
  obtain ⟨h1, h2, h3, h4⟩ := ref_facts h
  obtain ⟨k, hk⟩ : ∃ k, (elems r .keys).getLast? = some k := by
    cases hl : (elems r .keys).getLast? with
    | none => rw [List.getLast?_eq_none_iff] at hl; exact absurd hl h3
    | some k => exact ⟨k, rfl⟩
  have hkey := key_facts (h4 k (List.mem_of_getLast? hk))
  simp only [runMethod, h1, h2, ok_bind, hk, isNone, iter, last, hkey.1]
  refine decides_guard (isExternal_iff _) fun _ => decides_ite.iff ?_
  have hl : (elems r .keys)[(elems r .keys).length - 1]? = some k := by rw [← hk, List.getLast?_eq_getElem?]
  have hpos : 0 < (elems r .keys).length := List.length_pos_iff.mpr h3
  constructor
  · rintro hh i t hi ⟨k', hk', rfl⟩
    have : i = (elems r .keys).length - 1 := by omega
    rw [this, hl] at hk'
    cases hk'
    simpa [enumIn, genericGloballyIdentifiables, genericFragmentKeys] using hh
  · intro hh
    have := hh _ _ (by omega) ⟨k, hl, rfl⟩
    simpa [enumIn, genericGloballyIdentifiables, genericFragmentKeys] using this

theorem decides_125 {r : AVal} (h : Obj lim .reference r) : Decides py!"AASd-125" (runMethod lim .reference_aasd_125 r) (AASd125 r) := by
  obtain ⟨h1, h2, h3, h4⟩ := ref_facts h
  simp only [runMethod, h1, h2, ok_bind, isNone, iter]
  refine decides_guard (isModel_iff _) fun _ => ?_
  refine (decides_for (P := fun k => txt k .type_ ∈ fragmentKeys) ?_).iff ?_
  · intro k hk
    rw [(key_facts (h4 k (List.mem_of_mem_tail hk))).1, ok_bind]
    exact decides_ite.iff (by simp [enumIn])
  · have hset : ∀ t, t ∈ fragmentKeys ↔ t ∈ submodelElementTypes ∨ t = py!"FragmentReference" := by
      intro t
      simp [fragmentKeys, genericFragmentKeys, aasSubmodelElements, submodelElementTypes]
      grind
    constructor
    · rintro hh i t ⟨k, hk, rfl⟩
      exact (hset _).mp (hh k (List.mem_of_getElem? (i := i) (by rw [List.getElem?_tail]; exact hk)))
    · intro hh k hk
      obtain ⟨i, hi⟩ := List.getElem?_of_mem hk
      rw [List.getElem?_tail] at hi
      exact (hset _).mpr (hh i _ ⟨k, hi, rfl⟩)

theorem decides_126 {r : AVal} (h : Obj lim .reference r) : Decides py!"AASd-126" (runMethod lim .reference_aasd_126 r) (AASd126 r) := by
  obtain ⟨h1, h2, h3, h4⟩ := ref_facts h
  simp only [runMethod, h1, h2, ok_bind, isNone, iter]
  refine decides_guard (isModel_iff _) fun _ => ?_
  split
  · exact decides_ok (fun i t hi => by omega)
  · refine (decides_for (P := fun k => txt k .type_ ≠ py!"FragmentReference") ?_).iff ?_
    · intro k hk
      rw [(key_facts (h4 k ((List.dropLast_subset _) hk))).1, ok_bind]
      by_cases ht : txt k .type_ = py!"FragmentReference"
      · rw [if_pos (by simp [enumIn, genericFragmentKeys, ht])]; exact decides_violated (by simp [ht])
      · rw [if_neg (by simpa [enumIn, genericFragmentKeys] using ht)]; exact decides_ok ht
    · constructor
      · rintro hh i t hi ⟨k, hk, rfl⟩
        exact hh k (List.mem_of_getElem? (i := i) (by rw [List.getElem?_dropLast, if_pos (by omega)]; exact hk))
      · intro hh k hk
        obtain ⟨i, hi⟩ := List.getElem?_of_mem hk
        rw [List.getElem?_dropLast] at hi
        split at hi
        · exact hh i _ (by omega) ⟨k, hi, rfl⟩
        · cases hi

/-- the rule of AASd-127 for a list of keys -/
def Rule127 (ks : List AVal) : Prop :=
  ∀ (i : Nat) (a b : AVal), ks[i]? = some a → ks[i + 1]? = some b → txt b .type_ = py!"FragmentReference" → txt a .type_ = py!"File" ∨ txt a .type_ = py!"Blob"

theorem rule127_cons (p k : AVal) (ks : List AVal) : Rule127 (p :: k :: ks) ↔
    (txt k .type_ = py!"FragmentReference" → txt p .type_ = py!"File" ∨ txt p .type_ = py!"Blob") ∧ Rule127 (k :: ks) := by
  constructor
  · intro h
    exact ⟨h 0 p k rfl rfl, fun i a b ha hb => h (i + 1) a b ha hb⟩
  · rintro ⟨h1, h2⟩ i a b ha hb
    cases i with
    | zero => cases ha; cases hb; exact h1
    | succ i => exact h2 i a b ha hb

theorem check127_some : ∀ (ks : List AVal) (p : AVal), Obj lim .key p → (∀ k ∈ ks, Obj lim .key k) →
    Decides py!"AASd-127" (check127 (some p) ks) (Rule127 (p :: ks))
  | [], p, _, _ => decides_ok (fun i a b ha hb => by simp at hb)
  | k :: ks, p, hp, hk => by
    have hkey := key_facts (hk k List.mem_cons_self)
    have ih := check127_some ks k (hk k List.mem_cons_self) (fun x hx => hk x (List.mem_cons_of_mem _ hx))
    rw [check127]
    simp only [hkey.1, ok_bind, (key_facts hp).1]
    by_cases ht : txt k .type_ = py!"FragmentReference"
    · rw [if_pos (by simp [enumIs, ht])]
      by_cases hf : txt p .type_ = py!"File" ∨ txt p .type_ = py!"Blob"
      · rw [if_pos (by simpa [enumIn] using hf)]
        refine ih.iff ?_
        rw [rule127_cons]
        exact ⟨fun h => ⟨fun _ => hf, h⟩, fun h => h.2⟩
      · rw [if_neg (by simpa [enumIn] using hf)]
        refine decides_violated ?_
        rw [rule127_cons]
        exact fun h => hf (h.1 ht)
    · rw [if_neg (by simpa [enumIs] using ht)]
      refine ih.iff ?_
      rw [rule127_cons]
      exact ⟨fun h => ⟨fun h' => absurd h' ht, h⟩, fun h => h.2⟩

theorem rule127_iff (r : AVal) : Rule127 (elems r .keys) ↔ ∀ i t, KeyAt r (i + 1) py!"FragmentReference" → KeyAt r i t → t = py!"File" ∨ t = py!"Blob" := by
  constructor
  · rintro h i t ⟨b, hb, hbt⟩ ⟨a, ha, rfl⟩
    exact h i a b ha hb hbt
  · intro h i a b ha hb hbt
    exact h i _ ⟨b, hb, hbt⟩ ⟨a, ha, rfl⟩

theorem decides_127 {r : AVal} (h : Obj lim .reference r) : Decides py!"AASd-127" (runMethod lim .reference_aasd_127 r) (AASd127 r) := by
  obtain ⟨h1, h2, h3, h4⟩ := ref_facts h
  simp only [runMethod, h1, h2, ok_bind, isNone, iter]
  refine decides_guard (isModel_iff _) fun _ => ?_
  split
  · rename_i hl
    refine decides_ok ?_
    rintro i t ⟨b, hb, -⟩
    have := (List.getElem?_eq_some_iff.mp hb).1
    omega
  · obtain ⟨k, ks, hk, hko⟩ := keys_cons h
    rw [← rule127_iff, hk, check127]
    rw [hk] at h4
    simp only [(key_facts hko).1, ok_bind]
    exact check127_some ks k hko (fun x hx => h4 x (List.mem_cons_of_mem _ hx))

/-- the rule of AASd-128 for a list of keys -/
def Rule128 (N : Str → Prop) (ks : List AVal) : Prop :=
  ∀ (i : Nat) (a b : AVal), ks[i]? = some a → ks[i + 1]? = some b → txt a .type_ = py!"SubmodelElementList" → N (txt b .value)

theorem rule128_cons (N : Str → Prop) (p k : AVal) (ks : List AVal) : Rule128 N (p :: k :: ks) ↔
    (txt p .type_ = py!"SubmodelElementList" → N (txt k .value)) ∧ Rule128 N (k :: ks) := by
  constructor
  · intro h
    exact ⟨h 0 p k rfl rfl, fun i a b ha hb => h (i + 1) a b ha hb⟩
  · rintro ⟨h1, h2⟩ i a b ha hb
    cases i with
    | zero => cases ha; cases hb; exact h1
    | succ i => exact h2 i a b ha hb

/-- what `is_bounded_integer(value, 0, inf)` accepts -/
def Num128 (lim : Option Nat) (s : Str) : Prop := isBoundedInteger lim s (some 0) none = true

theorem check128_rule : ∀ (ks : List AVal), (∀ k ∈ ks, Obj lim .key k) → Decides py!"AASd-128" (check128 lim ks) (Rule128 (Num128 lim) ks)
  | [], _ => decides_ok (fun i a b ha => by simp at ha)
  | [k], hk => by
    rw [check128]
    simp only [(key_facts (hk k List.mem_cons_self)).1, ok_bind]
    exact decides_ok (fun i a b ha hb => by simp at hb)
  | k :: n :: ks, hk => by
    have ih := check128_rule (n :: ks) (fun x hx => hk x (List.mem_cons_of_mem _ hx))
    rw [check128]
    simp only [(key_facts (hk k List.mem_cons_self)).1, (key_facts (hk n (by simp))).2, ok_bind, rawValue]
    by_cases ht : txt k .type_ = py!"SubmodelElementList"
    · rw [if_pos (by simp [enumIs, ht])]
      by_cases hf : Num128 lim (txt n .value)
      · rw [if_pos (show isBoundedInteger _ _ _ _ = true from hf)]
        refine ih.iff ?_
        rw [rule128_cons]
        exact ⟨fun h => ⟨fun _ => hf, h⟩, fun h => h.2⟩
      · rw [if_neg (show ¬ isBoundedInteger _ _ _ _ = true from hf)]
        refine decides_violated ?_
        rw [rule128_cons]
        exact fun h => hf (h.1 ht)
    · rw [if_neg (by simpa [enumIs] using ht)]
      refine ih.iff ?_
      rw [rule128_cons]
      exact ⟨fun h => ⟨fun h' => absurd h' ht, h⟩, fun h => h.2⟩

theorem decides_128 {r : AVal} (h : Obj lim .reference r) :
    Decides py!"AASd-128" (runMethod lim .reference_aasd_128 r) (AASd128 (Num128 lim) r) := by
  obtain ⟨h1, h2, h3, h4⟩ := ref_facts h
  simp only [runMethod, h1, h2, ok_bind, isNone, iter]
  refine decides_guard (isModel_iff _) fun _ => (check128_rule _ h4).iff ?_
  constructor
  · rintro h i b ⟨a, ha, hat⟩ hb
    exact h i a b ha hb hat
  · intro h i a b ha hb hat
    exact h i b ⟨a, ha, hat⟩ hb

/-! ## equality of references -/

theorem keyEq_iff {a b : AVal} (ha : Obj lim .key a) (hb : Obj lim .key b) :
    keyEq a b = .ok (decide ((txt a .type_, txt a .value) = (txt b .type_, txt b .value))) := by
  have h1 := key_facts ha
  have h2 := key_facts hb
  simp only [keyType] at h1 h2
  simp only [keyEq, h1.1, h1.2, h2.1, h2.2, ok_bind, rawValue, enumEq, Prod.mk.injEq]
  by_cases h : txt a .type_ = txt b .type_ <;> simp [h]

theorem keysEq_iff : ∀ (as bs : List AVal), (∀ k ∈ as, Obj lim .key k) → (∀ k ∈ bs, Obj lim .key k) → as.length = bs.length →
    keysEq as bs = .ok (decide (as.map (fun k => (txt k .type_, txt k .value)) = bs.map (fun k => (txt k .type_, txt k .value))))
  | [], [], _, _, _ => rfl
  | [], _ :: _, _, _, h => by simp at h
  | _ :: _, [], _, _, h => by simp at h
  | a :: as, b :: bs, ha, hb, hl => by
    rw [keysEq, keyEq_iff (ha a List.mem_cons_self) (hb b List.mem_cons_self), ok_bind,
      keysEq_iff as bs (fun k hk => ha k (List.mem_cons_of_mem _ hk)) (fun k hk => hb k (List.mem_cons_of_mem _ hk)) (by simpa using hl)]
    by_cases h : (txt a .type_, txt a .value) = (txt b .type_, txt b .value)
    · simp [h]
    · simp [h]

instance (a b : AVal) : Decidable (SameRef a b) := inferInstanceAs (Decidable (refContent a = refContent b))

theorem refEq_iff {a b : AVal} (ha : Obj lim .reference a) (hb : Obj lim .reference b) : refEq a b = .ok (decide (SameRef a b)) := by
  obtain ⟨a1, a2, -, a4⟩ := ref_facts ha
  obtain ⟨b1, b2, -, b4⟩ := ref_facts hb
  simp only [refEq, a1, a2, b1, b2, ok_bind, iter, enumEq, SameRef, refContent, Prod.mk.injEq]
  by_cases h : txt a .type_ = txt b .type_
  · simp only [h, true_and, decide_true, if_true]
    by_cases hl : (elems a .keys).length = (elems b .keys).length
    · rw [if_neg (by simpa using hl), keysEq_iff _ _ a4 b4 hl]
    · rw [if_pos hl]
      congr 1
      symm
      rw [decide_eq_false_iff_not]
      intro h
      have := congrArg List.length h
      simp at this
      exact hl this
  · simp [h]

/-! ## idShorts -/

theorem idShort_facts (h : Obj lim c v) (hc : slotOf c .idShort = some (.attr py!"idShort" (.sfv .nameTypeString) false)) :
    (attr v .idShort = .ok .none ∧ idShort? v = none) ∨ ∃ s, attr v .idShort = .ok (.sfv .nameTypeString s) ∧ idShort? v = some s := by
  rcases h.sfv? hc with ⟨h1, -⟩ | ⟨h1, -⟩
  · exact .inl ⟨h1, by rw [idShort?, attr_ok h1]⟩
  · exact .inr ⟨_, h1, by rw [idShort?, attr_ok h1]⟩

/-- has an attribute idShort -/
def Named (x : AVal) : Prop :=
  (attr x .idShort = .ok .none ∧ idShort? x = none) ∨ ∃ s, attr x .idShort = .ok (.sfv .nameTypeString s) ∧ idShort? x = some s

theorem element_named : ∀ d ∈ [Cls.submodelElement, .dataElement], ∀ c ∈ subclassesOf d,
    slotOf c .idShort = some (.attr py!"idShort" (.sfv .nameTypeString) false) ∧
    slotOf c .semanticId = some (.attr py!"semanticId" (.cls .reference) false) ∧
    slotOf c .qualifiers = some (.attr py!"qualifiers" (.list (.cls .qualifier) false) false) := by decide +kernel

theorem named_of_element {d : Cls} (hd : d ∈ [Cls.submodelElement, .dataElement]) {x : AVal} (h : HasType (schema lim) (.cls d) x) : Named x := by
  obtain ⟨c, hc, ho⟩ := obj_of_abstract (by clear h; revert hd; revert d; decide) h
  exact idShort_facts ho (element_named d hd c hc).1

theorem decides_have (l : List AVal) (h : ∀ x ∈ l, Named x) : Decides py!"AASd-117" (ensureHaveIdShorts (.list l)) (HaveIdShorts l) := by
  rw [ensureHaveIdShorts]
  simp only [isNone, Bool.false_eq_true, if_false, iter, ok_bind]
  refine (decides_for (P := fun x => (idShort? x).isSome = true) ?_).iff Iff.rfl
  intro x hx
  rcases h x hx with ⟨h1, h2⟩ | ⟨s, h1, h2⟩
  · rw [h1, h2]; exact decides_violated (by simp)
  · rw [h1, h2]; exact decides_ok (by simp)

theorem decides_unique_loop : ∀ (l : List AVal) (seen : List Str), (∀ x ∈ l, Named x) →
    Decides py!"AASd-022" (uniqueIdShorts l seen) ((l.filterMap idShort?).Nodup ∧ ∀ s ∈ l.filterMap idShort?, s ∉ seen)
  | [], seen, _ => decides_ok (by simp)
  | x :: l, seen, h => by
    have ih := fun seen => decides_unique_loop l seen (fun y hy => h y (List.mem_cons_of_mem _ hy))
    rw [uniqueIdShorts]
    rcases h x List.mem_cons_self with ⟨h1, h2⟩ | ⟨s, h1, h2⟩
    · simp only [h1, ok_bind, isNone, if_true, List.filterMap_cons, h2]
      exact ih seen
    · simp only [h1, ok_bind, isNone, rawValue, Bool.false_eq_true, if_false, List.filterMap_cons, h2, List.nodup_cons, List.forall_mem_cons]
      by_cases hs : s ∈ seen
      · rw [if_pos (by simpa using hs)]
        exact decides_violated (fun hh => hh.2.1 hs)
      · rw [if_neg (by simpa using hs)]
        refine (ih (s :: seen)).iff ?_
        simp only [List.mem_cons, not_or]
        constructor
        · rintro ⟨a, b⟩
          exact ⟨⟨fun hm => (b s hm).1 rfl, a⟩, hs, fun t ht => (b t ht).2⟩
        · rintro ⟨⟨a, b⟩, -, c⟩
          exact ⟨b, fun t ht => ⟨fun e => a (e ▸ ht), c t ht⟩⟩

theorem decides_unique (l : List AVal) (h : ∀ x ∈ l, Named x) : Decides py!"AASd-022" (ensureUniqueIdShorts (.list l)) (UniqueIdShorts l) := by
  rw [ensureUniqueIdShorts]
  simp only [isNone, Bool.false_eq_true, if_false, iter, ok_bind]
  exact (decides_unique_loop l [] h).iff (by simp [UniqueIdShorts])

end Verif.Aas
