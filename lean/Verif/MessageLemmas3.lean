import Verif.MessageLemmas2

/-! # What the texts say: rule by rule -/

namespace Verif.Aas
open Verif Verif.Parse Verif.Spec.Parse Verif.Spec.Model Verif.DataTypes Verif.Spec

variable {lim : Option Nat} {c : Cls} {v : AVal} {t : Str} {l : Level}

theorem path_slots : ∀ c, slotOf c .idShortPath = none ∨ slotOf c .idShortPath = some .excluded := by
  intro c; cases c <;> first | exact .inl rfl | exact .inr rfl

theorem slot_none_names {f : Fld} (h : slotOf c f = none) : ∀ g ∈ fieldsOf c, g.name ≠ f := by
  intro g hg he
  unfold slotOf at h
  cases hf : (fieldsOf c).find? (fun g => decide (g.name = f)) with
  | none => have := List.find?_eq_none.mp hf g hg; simp [he] at this
  | some g => rw [hf] at h; cases h

theorem path_shape (h : Obj lim c v) : get v .idShortPath = .none ∨ ∃ a b ts, get v .idShortPath = .path a b ts := by
  obtain ⟨attrs, rfl, hf⟩ := h.fields
  rcases path_slots c with hs | hs
  · left
    have hl : lookup .idShortPath attrs = none := by
      apply lookup_none
      intro a ha
      have hn := hf.names
      have : a.1 ∈ (fieldsOf c).map (·.name) := by rw [← hn]; exact List.mem_map.mpr ⟨a, ha, rfl⟩
      obtain ⟨g, hg, he⟩ := List.mem_map.mp this
      rw [← he]; exact slot_none_names hs g hg
    rw [Model.get, find_lookup, hl]; rfl
  · obtain ⟨w, hw, -, hok⟩ := lookup_typed hf (names_nodup c) (mem_of_slotOf hs)
    rw [Model.get, find_lookup, hw]
    exact hok

theorem shown_place (h : Obj lim c v) : pathShown (get v .idShortPath) = place v := by
  rw [place]
  rcases path_shape h with hp | ⟨a, b, ts, hp⟩ <;> rw [hp] <;> rfl

theorem note_placed (h : Obj lim c v) : Placed v (pathNote (get v .idShortPath)) := by
  rw [pathNote]
  rcases path_shape h with hp | ⟨a, b, ts, hp⟩
  · rw [hp]; exact .nowhere hp
  · have := shown_place h
    rw [this, hp, if_neg (by simp [isNone])]
    exact .there (by rw [hp]; simp)

/-- an object of a class without paths -/
theorem pathless (h : Obj lim c v) (hc : ∀ x ∈ fieldsOf c, x.name ≠ .idShortPath) : Placed v (pathNote .none) := by
  refine .nowhere ?_
  obtain ⟨attrs, rfl, hf⟩ := h.fields
  have : attrs.find? (fun a => decide (a.1 = Fld.idShortPath)) = none := by
    rw [List.find?_eq_none]
    intro a ha he
    have he : a.1 = .idShortPath := by simpa using he
    have hm : Fld.idShortPath ∈ attrs.map (·.1) := List.mem_map.mpr ⟨a, ha, he⟩
    rw [hf.names] at hm
    obtain ⟨x, hx, hn⟩ := List.mem_map.mp hm
    exact hc x hx hn
  simp [Spec.Model.get, this]

theorem tellAt_place (h : Obj lim c v) {s : Str} (ht : tellAt v s = .error (.violated t l)) : t = s ++ py!" @ " ++ place v ∧ l = .error := by
  have := at_tells ht
  rw [shown_place h] at this
  exact this

theorem value_text (w : AVal) : valueStr w = text w := by cases w <;> rfl

theorem orNone_attr {f : Fld} (h : ∃ w, attr v f = .ok w) : orNone (attr v f) = get v f := by
  obtain ⟨w, hw⟩ := h
  rw [attr_ok hw, hw]; rfl

theorem keyStr_eq {k : AVal} (h : Obj lim .key k) : keyStr k = txt k .value := by
  rw [keyStr, orNone_attr ⟨_, (key_facts h).2⟩, value_text]; rfl

theorem refStr_eq {r : AVal} (h : Obj lim .reference r) : refStr r = shownRef r := by
  obtain ⟨h1, h2, h3, h4⟩ := ref_facts h
  rw [refStr, shownRef, orNone_attr ⟨_, h1⟩, orNone_attr ⟨_, h2⟩, value_text, attr_ok h2, txt]
  cases hl : elems r .keys with
  | nil => exact absurd hl h3
  | cons k ks =>
    have : (k :: ks).map keyStr = (k :: ks).map (txt · .value) :=
      List.map_congr_left fun x hx => keyStr_eq (h4 x (by rw [hl]; exact hx))
    simp only [this]

/-- turns a text into the conditions under which it is raised -/
macro "invert" h:ident : tactic => `(tactic| simp only [bind_tells, quiet_attr, quiet_raw, quiet_asStr, quiet_iter, quiet_head, quiet_last,
  quiet_keyType, quiet_english, quiet_template, quiet_refEq, ite_tells, ok_tells, py_tells, violated_tells, and_false, false_and, or_false,
  false_or, exists_const, exists_false] at $h:ident)

variable {Number : Str → Prop}

theorem means_121 (hb : ¬ AASd121 v) (ht : tellMethod lim .reference_aasd_121 v = .error (.violated t l)) : Means lim Number v t l := by
  simp only [tellMethod] at ht
  invert ht
  obtain ⟨_, _, _, _, _, _, _, _, _, _, rfl, rfl⟩ := ht
  exact .aasd121 hb

theorem means_122 (hb : ¬ AASd122 v) (ht : tellMethod lim .reference_aasd_122 v = .error (.violated t l)) : Means lim Number v t l := by
  simp only [tellMethod] at ht
  invert ht
  obtain ⟨_, _, _, _, _, _, _, _, _, _, _, _, rfl, rfl⟩ := ht
  exact .aasd122 hb

theorem means_123 (hb : ¬ AASd123 v) (ht : tellMethod lim .reference_aasd_123 v = .error (.violated t l)) : Means lim Number v t l := by
  simp only [tellMethod] at ht
  invert ht
  obtain ⟨_, _, _, _, _, _, _, _, _, _, _, _, rfl, rfl⟩ := ht
  exact .aasd123 hb

theorem means_124 (hb : ¬ AASd124 v) (ht : tellMethod lim .reference_aasd_124 v = .error (.violated t l)) : Means lim Number v t l := by
  simp only [tellMethod] at ht
  invert ht
  obtain ⟨_, _, _, _, _, _, _, _, _, _, _, _, rfl, rfl⟩ := ht
  exact .aasd124 hb

theorem fragment_iff (t : Str) : t ∈ fragmentKeys ↔ t ∈ submodelElementTypes ∨ t = py!"FragmentReference" := by
  simp [fragmentKeys, genericFragmentKeys, aasSubmodelElements, submodelElementTypes]
  grind

/-- a guard of the methods of model references -/
theorem model_guard (h : Obj lim .reference v) {x : List AVal → Chk Unit}
    (ht : (do
      let t ← attr v .type_
      let keys ← attr v .keys
      if !isModelReference t || isNone keys then .ok () else x (← iter keys)) = .error (.violated t l)) :
    ModelRef v ∧ x (elems v .keys) = .error (.violated t l) := by
  obtain ⟨h1, h2, -, -⟩ := ref_facts h
  simp only [h1, h2, ok_bind, isNone, iter, Bool.or_false] at ht
  rw [ite_tells] at ht
  rcases ht with ⟨-, ht⟩ | ⟨hm, ht⟩
  · cases ht
  · exact ⟨(isModel_iff _).mp (by simpa using hm), ht⟩

/-- the text of AASd-125 has the number of the key before the wrong one -/
theorem tell_125 (h : Obj lim .reference v) (ht : tellMethod lim .reference_aasd_125 v = .error (.violated t l)) :
    ∃ i s, ModelRef v ∧ KeyAt v (i + 1) s ∧ s ∉ submodelElementTypes ∧ s ≠ py!"FragmentReference" ∧ l = .error ∧
      t = py!"Constraint AASd-125 violated: key " ++ Py.natStr i ++ py!" must be a FragmentKey" := by
  obtain ⟨-, -, -, h4⟩ := ref_facts h
  obtain ⟨hm, ht⟩ := model_guard (x := fun l => forI _ 0 l.tail) h ht
  obtain ⟨i, k, hk, hb⟩ := forI_tells ht
  rw [List.getElem?_tail] at hk
  rw [(key_facts (h4 k (List.mem_of_getElem? hk))).1, ok_bind] at hb
  invert hb
  obtain ⟨hn, rfl, rfl⟩ := hb
  have hn : txt k .type_ ∉ fragmentKeys := by simpa [enumIn] using hn
  rw [fragment_iff, not_or] at hn
  exact ⟨i, _, hm, ⟨k, hk, rfl⟩, hn.1, hn.2, rfl, by rw [Nat.zero_add]⟩

theorem means_126 (h : Obj lim .reference v) (ht : tellMethod lim .reference_aasd_126 v = .error (.violated t l)) : Means lim Number v t l := by
  obtain ⟨-, -, -, h4⟩ := ref_facts h
  obtain ⟨hm, ht⟩ := model_guard (x := fun l => if l.length ≤ 1 then .ok () else forI _ 0 l.dropLast) h ht
  rw [ite_tells] at ht
  rcases ht with ⟨-, ht⟩ | ⟨hl, ht⟩
  · cases ht
  · obtain ⟨i, k, hk, hb⟩ := forI_tells ht
    rw [List.getElem?_dropLast] at hk
    split at hk
    · rename_i hi
      rw [(key_facts (h4 k (List.mem_of_getElem? hk))).1, ok_bind] at hb
      invert hb
      obtain ⟨hn, rfl, rfl⟩ := hb
      rw [Nat.zero_add]
      exact .aasd126 i hm (by omega) ⟨k, hk, by simpa [enumIn, genericFragmentKeys] using hn⟩
    · cases hk

/-- a pair of keys that AASd-127 forbids -/
def Says127 (t : Str) (l : Level) (i : Nat) (ks : List AVal) : Prop :=
  ∃ j a b, ks[j]? = some a ∧ ks[j + 1]? = some b ∧ txt b .type_ = py!"FragmentReference" ∧ txt a .type_ ≠ py!"File" ∧
      txt a .type_ ≠ py!"Blob" ∧ l = .error ∧
      t = py!"Constraint AASd-127 violated: key " ++ Py.natStr (i + j) ++ py!" must be preceded by File or Blob"

/-- a pair of keys that AASd-128 forbids -/
def Says128 (lim : Option Nat) (t : Str) (l : Level) (i : Nat) (ks : List AVal) : Prop :=
  ∃ j a b, ks[j]? = some a ∧ ks[j + 1]? = some b ∧ txt a .type_ = py!"SubmodelElementList" ∧ ¬ Num128 lim (txt b .value) ∧ l = .error ∧
      t = py!"Constraint AASd-128 violated: key " ++ Py.natStr (i + j) ++ py!" must be followed by an integer"

theorem tell127_some : ∀ (ks : List AVal) (p : AVal) (i : Nat), Obj lim .key p → (∀ k ∈ ks, Obj lim .key k) →
    tell127 i (some p) ks = .error (.violated t l) →
    Says127 t l i (p :: ks)
  | [], _, _, _, _, ht => by simp [tell127] at ht
  | k :: ks, p, i, hp, hk, ht => by
    have hkey := key_facts (hk k List.mem_cons_self)
    have ih := tell127_some ks k (i + 1) (hk k List.mem_cons_self) (fun x hx => hk x (List.mem_cons_of_mem _ hx))
    have next : tell127 (i + 1) (some k) ks = .error (.violated t l) → Says127 t l i (p :: k :: ks) := fun ht => by
      obtain ⟨j, a, b, h1, h2, h3, h4, h5, h6, h7⟩ := ih ht
      exact ⟨j + 1, a, b, h1, h2, h3, h4, h5, h6, by rw [h7, show i + 1 + j = i + (j + 1) by omega]⟩
    rw [tell127] at ht
    simp only [hkey.1, ok_bind, (key_facts hp).1] at ht
    rw [ite_tells] at ht
    rcases ht with ⟨hf, ht⟩ | ⟨-, ht⟩
    · rw [ite_tells] at ht
      rcases ht with ⟨-, ht⟩ | ⟨hn, ht⟩
      · exact next ht
      · rw [violated_tells] at ht
        have hn : ¬ txt p .type_ = py!"File" ∧ ¬ txt p .type_ = py!"Blob" := by simpa [enumIn] using hn
        exact ⟨0, p, k, rfl, rfl, by simpa [enumIs] using hf, hn.1, hn.2, ht.2, ht.1⟩
    · exact next ht

theorem means_127 (h : Obj lim .reference v) (ht : tellMethod lim .reference_aasd_127 v = .error (.violated t l)) : Means lim Number v t l := by
  obtain ⟨-, -, -, h4⟩ := ref_facts h
  obtain ⟨k, ks, hk, hko⟩ := keys_cons h
  obtain ⟨hm, ht⟩ := model_guard (x := fun l => if l.length ≤ 1 then .ok () else tell127 0 none l) h ht
  rw [ite_tells] at ht
  rcases ht with ⟨-, ht⟩ | ⟨hl, ht⟩
  · cases ht
  · rw [hk, tell127, (key_facts hko).1, ok_bind] at ht
    obtain ⟨j, a, b, h1, h2, h3, h4, h5, rfl, rfl⟩ := tell127_some ks k 1 hko (fun x hx => h4 x (by rw [hk]; exact List.mem_cons_of_mem _ hx)) ht
    rw [show 0 + 1 + j = j + 1 by omega]
    exact .aasd127 j _ hm ⟨b, by rw [hk]; exact h2, h3⟩ ⟨a, by rw [hk]; exact h1, rfl⟩ h4 h5

theorem tell128_loop : ∀ (ks : List AVal) (i : Nat), (∀ k ∈ ks, Obj lim .key k) → tell128 lim i ks = .error (.violated t l) →
    Says128 lim t l i ks
  | [], _, _, ht => by simp [tell128] at ht
  | k :: ks, i, hk, ht => by
    have hkey := key_facts (hk k List.mem_cons_self)
    have ih := tell128_loop ks (i + 1) (fun x hx => hk x (List.mem_cons_of_mem _ hx))
    have next : tell128 lim (i + 1) ks = .error (.violated t l) → Says128 lim t l i (k :: ks) := fun ht => by
      obtain ⟨j, a, b, h1, h2, h3, h4, h5, h6⟩ := ih ht
      exact ⟨j + 1, a, b, h1, h2, h3, h4, h5, by rw [h6, show i + 1 + j = i + (j + 1) by omega]⟩
    rw [tell128] at ht
    simp only [hkey.1, ok_bind] at ht
    cases ks with
    | nil => cases ht
    | cons n ns =>
      simp only [(key_facts (hk n (by simp))).2, ok_bind, rawValue] at ht
      rw [ite_tells] at ht
      rcases ht with ⟨hf, ht⟩ | ⟨-, ht⟩
      · rw [ite_tells] at ht
        rcases ht with ⟨-, ht⟩ | ⟨hn, ht⟩
        · exact next ht
        · rw [violated_tells] at ht
          exact ⟨0, k, n, rfl, rfl, by simpa [enumIs] using hf, hn, ht.2, ht.1⟩
      · exact next ht

theorem means_128 (h : Obj lim .reference v) (ht : tellMethod lim .reference_aasd_128 v = .error (.violated t l)) :
    Means lim (Num128 lim) v t l := by
  obtain ⟨-, -, -, h4⟩ := ref_facts h
  obtain ⟨hm, ht⟩ := model_guard (x := tell128 lim 0) h ht
  obtain ⟨j, a, b, h1, h2, h3, h4, rfl, rfl⟩ := tell128_loop _ 0 h4 ht
  rw [Nat.zero_add]
  exact .aasd128 j b hm ⟨a, h1, h3⟩ h2 h4

end Verif.Aas
