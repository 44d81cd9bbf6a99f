import Verif.SuiteFacts6
import Verif.CheckTable

/-! # Contents of responses, as the positive tests read them -/

namespace Verif.Api.Suites
open Verif Verif.Parse Verif.Aas Verif.Spec Verif.Spec.Parse Verif.Spec.Api Verif.Spec.Suites Verif.Spec.Routes Verif.Spec.Generate Verif.Generate Verif.Http Verif.Props
open Verif.Api hiding sane supported

/-! ## attributes -/

theorem rlookup_find {f : RFld} {w : RVal} : ∀ {attrs : List (RFld × RVal)}, rlookup f attrs = some w ↔ (attrs.find? fun a => decide (a.1 = f)) = some (f, w)
  | [] => by simp [rlookup]
  | (g, v) :: rest => by
    rw [rlookup, List.find?_cons]
    by_cases h : g = f
    · subst h; simp
    · simp only [h, if_false, decide_false]
      exact rlookup_find

theorem hasAttr_iff {v : RVal} {f : RFld} {w : RVal} : HasAttr v f w ↔ rattr v f = .ok w := by
  constructor
  · rintro ⟨c, attrs, rfl, h⟩
    rw [rattr, rlookup_find.mpr h]
  · intro h
    unfold rattr at h
    split at h
    · rename_i c attrs
      split at h
      · rename_i w' hw
        cases h
        exact ⟨c, attrs, rfl, rlookup_find.mp hw⟩
      · cases h
    · cases h

theorem hasAttr_obj {c : RCls} {attrs : List (RFld × RVal)} {f : RFld} {w : RVal} : HasAttr (.obj c attrs) f w ↔ rlookup f attrs = some w := by
  rw [rlookup_find]
  exact ⟨fun ⟨_, _, h, h'⟩ => by cases h; exact h', fun h => ⟨_, _, rfl, h⟩⟩

theorem rraw_iff {v : RVal} {s : Str} : rraw v = .ok s ↔ ∃ c, v = .sfv c s := by
  unfold rraw
  split
  · rename_i c t
    constructor
    · intro h; cases h; exact ⟨c, rfl⟩
    · rintro ⟨c', h⟩; cases h; rfl
  · rename_i h
    exact ⟨fun h => (by cases h), fun ⟨c, hc⟩ => absurd hc (h c s)⟩

theorem rfirst_iff {v x : RVal} : rfirst v = .ok x ↔ ∃ l, v = .list (x :: l) := by
  unfold rfirst
  split
  · rename_i y l
    constructor
    · intro h; cases h; exact ⟨l, rfl⟩
    · rintro ⟨l', h⟩; cases h; rfl
  · exact ⟨fun h => (by cases h), fun ⟨_, h⟩ => (by cases h)⟩
  · rename_i h _
    exact ⟨fun h => (by cases h), fun ⟨l, hl⟩ => absurd hl (h x l)⟩

theorem bind_ok {α β : Type} {x : Except PyExc α} {f : α → Except PyExc β} {b : β} : (x >>= f) = .ok b ↔ ∃ a, x = .ok a ∧ f a = .ok b := by
  cases x with
  | error e => exact ⟨fun h => (by cases h), fun ⟨_, h, _⟩ => (by cases h)⟩
  | ok a => exact ⟨fun h => ⟨a, rfl, h⟩, fun ⟨_, h, h'⟩ => (by cases h; exact h')⟩

theorem idOf_iff {v : RVal} {i : Str} : idOf v = .ok i ↔ HasId v i := by
  unfold idOf HasId
  rw [bind_ok]
  constructor
  · rintro ⟨w, h1, h2⟩
    obtain ⟨c, rfl⟩ := rraw_iff.mp h2
    exact ⟨c, hasAttr_iff.mpr h1⟩
  · rintro ⟨c, h⟩
    exact ⟨_, hasAttr_iff.mp h, rfl⟩

theorem firstKey_iff {v : RVal} {i : Str} : firstKey v = .ok i ↔ RefersTo v i := by
  unfold firstKey RefersTo
  simp only [bind_ok]
  constructor
  · rintro ⟨keys, h1, k, h2, w, h3, h4⟩
    obtain ⟨l, rfl⟩ := rfirst_iff.mp h2
    obtain ⟨c, rfl⟩ := rraw_iff.mp h4
    exact ⟨k, l, c, hasAttr_iff.mpr h1, hasAttr_iff.mpr h3⟩
  · rintro ⟨k, ks, c, h1, h2⟩
    exact ⟨_, hasAttr_iff.mp h1, k, rfl, _, hasAttr_iff.mp h2, rfl⟩

theorem firstResult_iff {v x : RVal} : firstResult v = .ok x ↔ ∃ l, Entries v (x :: l) := by
  unfold firstResult Entries
  rw [bind_ok]
  constructor
  · rintro ⟨w, h1, h2⟩
    obtain ⟨l, rfl⟩ := rfirst_iff.mp h2
    exact ⟨l, hasAttr_iff.mpr h1⟩
  · rintro ⟨l, h⟩
    exact ⟨_, hasAttr_iff.mp h, rfl⟩

theorem pageCursor_iff {v c : RVal} : pageCursor v = .ok c ↔ ∃ m, HasAttr v .pagingMetadata m ∧ HasAttr m .cursor c := by
  unfold pageCursor
  rw [bind_ok]
  exact ⟨fun ⟨m, h1, h2⟩ => ⟨m, hasAttr_iff.mpr h1, hasAttr_iff.mpr h2⟩, fun ⟨m, h1, h2⟩ => ⟨m, hasAttr_iff.mp h1, hasAttr_iff.mp h2⟩⟩

theorem firstSubmodel_iff {v : RVal} {i : Str} : firstSubmodel v = .ok i ↔ ∃ r rs, HasAttr v (.model .submodels) (.list (r :: rs)) ∧ RefersTo r i := by
  unfold firstSubmodel
  simp only [bind_ok, firstKey_iff]
  constructor
  · rintro ⟨l, h1, r, h2, h3⟩
    obtain ⟨rs, rfl⟩ := rfirst_iff.mp h2
    exact ⟨r, rs, hasAttr_iff.mpr h1, h3⟩
  · rintro ⟨r, rs, h1, h2⟩
    exact ⟨_, hasAttr_iff.mp h1, r, rfl, h2⟩

theorem firstId_iff {v : RVal} {i : Str} : firstId v = .ok i ↔ ∃ x l, Entries v (x :: l) ∧ HasId x i := by
  unfold firstId
  simp only [bind_ok, idOf_iff, firstResult_iff]
  exact ⟨fun ⟨x, ⟨l, h1⟩, h2⟩ => ⟨x, l, h1, h2⟩, fun ⟨x, l, h1, h2⟩ => ⟨x, ⟨l, h1⟩, h2⟩⟩

theorem hasId_unique {v : RVal} {i j : Str} (h : HasId v i) (h' : HasId v j) : i = j := by
  have := idOf_iff.mpr h
  rw [idOf_iff.mpr h'] at this
  cases this; rfl

theorem refersTo_unique {v : RVal} {i j : Str} (h : RefersTo v i) (h' : RefersTo v j) : i = j := by
  have := firstKey_iff.mpr h
  rw [firstKey_iff.mpr h'] at this
  cases this; rfl

theorem entries_unique {v : RVal} {l l' : List RVal} (h : Entries v l) (h' : Entries v l') : l = l' := by
  have := hasAttr_iff.mp h
  rw [hasAttr_iff.mp h'] at this
  cases this; rfl

theorem page_entries {lim : Option Nat} {p : Page} {v : RVal} (h : HasType (respSchema lim) (pageTy p) v) :
    ∃ l, Entries v l ∧ ∀ x ∈ l, HasType (respSchema lim) p.item x := by
  obtain ⟨cur, l, rfl, -, hl⟩ := page_shape h
  exact ⟨l, hasAttr_iff.mpr rfl, hl⟩

/-! ## the first shell -/

theorem shellState_found {lim : Option Nat} {v : RVal} (h : HasType (respSchema lim) (pageTy .shells) v) {st : ShellState} (hst : shellState v = .ok st) :
    ∃ x l info c g m, Entries v (x :: l) ∧ HasIdShort x st.idShort ∧ HasAttr x (.model .assetInformation) info ∧
      HasAttr info (.model .globalAssetId) (.sfv c g) ∧ st.assetId = .assetId py!"globalAssetId" g ∧ Re.fullmatch xmlRe g = true ∧
      HasAttr v .pagingMetadata m ∧ HasAttr m .cursor st.cursor := by
  have hne : ∀ x l info c g, Entries v (x :: l) → HasAttr x (.model .assetInformation) info → HasAttr info (.model .globalAssetId) (.sfv c g) →
      g ≠ [] ∧ Re.fullmatch xmlRe g = true := by
    intro x l info c g h1 h2 h3
    obtain ⟨l', hl', ht⟩ := page_entries h
    rw [entries_unique hl' h1] at ht
    obtain ⟨a, rfl, ha⟩ := model_obj (c := .assetAdministrationShell) rfl (ht x List.mem_cons_self)
    obtain ⟨h4, h5⟩ := ha.obj (f := .assetInformation) (key := py!"assetInformation") (d := .assetInformation) rfl rfl
    have := hasAttr_iff.mp h2
    rw [rattr_emb h4] at this
    cases this
    obtain ⟨h6, h7⟩ := h5.field (f := .globalAssetId) (key := py!"globalAssetId") (ty := .sfv .identifierString) (req := false) rfl
    have := hasAttr_iff.mp h3
    rw [rattr_emb h6] at this
    injection this with this
    rcases h7 with ⟨h7, -⟩ | h7
    · rw [h7] at this; cases this
    · obtain ⟨c', g', hg, hx⟩ := identifier_raw h7
      rw [this] at hg
      cases hg
      exact ⟨by simp, hx⟩
  unfold shellState at hst
  simp only [bind_ok] at hst
  obtain ⟨x, h1, i, h2, idShort, h3, info, h4, g, h5, gs, h6, h7⟩ := hst
  obtain ⟨l, h1⟩ := firstResult_iff.mp h1
  obtain ⟨ci, rfl⟩ := rraw_iff.mp h3
  obtain ⟨cg, rfl⟩ := rraw_iff.mp h6
  obtain ⟨hne, hx⟩ := hne x l info cg gs h1 (hasAttr_iff.mpr h4) (hasAttr_iff.mpr h5)
  cases gs with
  | nil => exact absurd rfl hne
  | cons ch gs =>
    simp only [List.isEmpty_cons, Bool.not_false, if_true, bind_ok] at h7
    obtain ⟨a, h7, cur, h8, h9⟩ := h7
    obtain ⟨m, hm1, hm2⟩ := pageCursor_iff.mp h8
    cases h7
    cases h9
    exact ⟨x, l, info, cg, ch :: gs, m, h1, ⟨ci, hasAttr_iff.mpr h2⟩, hasAttr_iff.mpr h4, hasAttr_iff.mpr h5, rfl, hx, hm1, hm2⟩

/-! ## JSON -/

theorem hex4_value (n : Nat) (h : n < 65536) : Hex4 (hex4 n) n := by
  have hd : ∀ k, k < 16 → hexVal (if k < 10 then 48 + k else 97 + (k - 10)) = some k := by decide
  refine ⟨_, _, _, _, n / 4096 % 16, n / 256 % 16, n / 16 % 16, n % 16, rfl, hd _ ?_, hd _ ?_, hd _ ?_, hd _ ?_, ?_⟩ <;> omega

theorem json_char {c : Nat} (h : c < 0x110000) (hs : ¬ (0xd800 ≤ c ∧ c < 0xe000)) {t v : Str} (ht : JsonChars t v) : JsonChars (dumpsChar c ++ t) (c :: v) := by
  unfold dumpsChar
  split
  · rename_i hc; subst hc; exact .escape (by decide) ht
  split
  · rename_i hc; subst hc; exact .escape (by decide) ht
  split
  · rename_i hc; subst hc; exact .escape (by decide) ht
  split
  · rename_i hc; subst hc; exact .escape (by decide) ht
  split
  · rename_i hc; subst hc; exact .escape (by decide) ht
  split
  · rename_i hc; subst hc; exact .escape (by decide) ht
  split
  · rename_i hc; subst hc; exact .escape (by decide) ht
  split
  · rename_i hc
    simp only [Bool.and_eq_true, decide_eq_true_eq] at hc
    exact .plain hc.1 (by assumption) (by assumption) ht
  split
  · exact .unicode (hex4_value c (by omega)) hs ht
  · have := JsonChars.pair (hex4_value (0xd800 + (c - 0x10000) / 1024) (by omega)) (hex4_value (0xdc00 + (c - 0x10000) % 1024) (by omega))
      (by omega) (by omega) (by omega) (by omega) ht
    rw [show 0x10000 + (0xd800 + (c - 0x10000) / 1024 - 0xd800) * 1024 + (0xdc00 + (c - 0x10000) % 1024 - 0xdc00) = c by omega] at this
    simpa using this

theorem json_chars : ∀ {s : Str}, CodePoints s → NoSurrogates s → JsonChars (s.map dumpsChar).flatten s
  | [], _, _ => .nil
  | c :: s, h, hs => by
    have h1 := h c List.mem_cons_self
    have h2 := hs c List.mem_cons_self
    exact json_char h1 (by omega) (json_chars (fun x hx => h x (List.mem_cons_of_mem _ hx)) fun x hx => hs x (List.mem_cons_of_mem _ hx))

theorem xml_codePoints {s : Str} (h : Re.fullmatch xmlRe s = true) : CodePoints s := fun c hc => by
  have := (xml_iff s).mp h c hc
  unfold XmlChar at this
  omega

theorem encodes_of {s t : Str} (hc : CodePoints s) (ht : base64Urlsafe s = .ok t) : Encodes s t := by
  obtain ⟨-, bs, h1, h2, h3, -⟩ := C12_round_trip s t hc ht
  exact ⟨bs, h1, h2, h3⟩

/-- the text of an asset id -/
theorem asset_text {g t : Str} (hx : Re.fullmatch xmlRe g = true) (ht : (ArgVal.assetId py!"globalAssetId" g).pyStr = .ok t) :
    ∃ s, AssetText py!"globalAssetId" g s ∧ Encodes s t := by
  refine ⟨py!"{\"name\": " ++ (dumpsStr py!"globalAssetId" ++ (py!", \"value\": " ++ (dumpsStr g ++ py!"}"))), ⟨_, _, json_chars ?_ ?_, json_chars (xml_codePoints hx) (xml_noSurrogates hx), ?_⟩, encodes_of ?_ ht⟩
  · exact ascii_codePoints (by decide)
  · exact ascii_ok (by decide)
  · simp [dumpsStr]
  · refine ascii_codePoints fun c hc => ?_
    have lit : ∀ s : Str, (s.all fun c => decide (c < 128)) = true → ∀ c ∈ s, c < 128 := fun s h => by simpa using h
    rcases List.mem_append.mp hc with h | h
    · exact lit py!"{\"name\": " rfl c h
    rcases List.mem_append.mp h with h | h
    · exact dumps_ascii _ c h
    rcases List.mem_append.mp h with h | h
    · exact lit py!", \"value\": " rfl c h
    rcases List.mem_append.mp h with h | h
    · exact dumps_ascii _ c h
    · exact lit py!"}" rfl c h

/-! ## paths of elements -/

/-- this path is among those of the class -/
def Has (paths : Paths) (k p : Str) : Prop := ∃ e ∈ paths, e.1 = k ∧ p ∈ e.2

theorem has_addPath {k path k' p : Str} : ∀ {paths : Paths}, Has (addPath k path paths) k' p ↔ Has paths k' p ∨ (k' = k ∧ p = path)
  | [] => by
    simp only [addPath, Has, List.mem_singleton, exists_eq_left, List.not_mem_nil, false_and, exists_false, false_or]
    exact ⟨fun ⟨a, b⟩ => ⟨a.symm, b⟩, fun ⟨a, b⟩ => ⟨a.symm, b⟩⟩
  | (k0, l) :: rest => by
    rw [addPath]
    split
    · rename_i h
      subst h
      simp only [Has, List.mem_cons, exists_eq_or_imp, List.mem_append, List.not_mem_nil, or_false]
      constructor
      · rintro (⟨rfl, h | h⟩ | h)
        · exact .inl (.inl ⟨rfl, h⟩)
        · exact .inr ⟨rfl, h⟩
        · exact .inl (.inr h)
      · rintro ((⟨rfl, h⟩ | h) | ⟨rfl, h⟩)
        · exact .inl ⟨rfl, .inl h⟩
        · exact .inr h
        · exact .inl ⟨rfl, .inr h⟩
    · have ih := @has_addPath k path k' p rest
      simp only [Has, List.mem_cons, exists_eq_or_imp] at ih ⊢
      rw [ih, or_assoc]

theorem pathFor_has {paths : Paths} (hg : GoodPaths paths) {k : Str} : (∀ p, pathFor paths k = some p → Has paths k p) ∧ (pathFor paths k = none → ∀ p, ¬ Has paths k p) := by
  unfold pathFor
  split
  · rename_i k' p ps hf
    have hk := List.find?_some hf
    simp only [beq_iff_eq] at hk
    subst hk
    exact ⟨fun q h => (by cases h; exact ⟨_, List.mem_of_find?_eq_some hf, rfl, List.mem_cons_self⟩), fun h => (by cases h)⟩
  · rename_i hf
    refine ⟨fun _ h => (by cases h), fun _ p ⟨e, he, hk, hp⟩ => ?_⟩
    cases hx : paths.find? fun p => p.1 == k with
    | none =>
      have := List.find?_eq_none.mp hx e he
      simp [hk] at this
    | some y =>
      obtain ⟨k', l⟩ := y
      cases l with
      | nil => exact (hg _ (List.mem_of_find?_eq_some hx)).1 rfl
      | cons q l => exact hf _ _ _ hx

/-- an element of this class (by name) below this one -/
def Reaches (pre : Str) (i : Nat) (x : RVal) (k p : Str) : Prop := ∃ c attrs, k = modelType c ∧ Below pre i x (.obj c attrs) p

theorem reaches_iff {pre : Str} {i : Nat} {c : RCls} {attrs : List (RFld × RVal)} {s : Str} (hs : HasIdShort (.obj c attrs) s) {k p : Str} :
    Reaches pre i (.obj c attrs) k p ↔ (k = modelType c ∧ p = pre ++ s) ∨
      (c = .model .submodelElementCollection ∧ ∃ l j z, rlookup (.model .value) attrs = some (.list l) ∧ l[j]? = some z ∧ Reaches (pre ++ s ++ py!".") j z k p) ∨
      (c = .model .submodelElementList ∧ ∃ l j z, rlookup (.model .value) attrs = some (.list l) ∧ l[j]? = some z ∧ Reaches (Py.natStr i ++ py!".") j z k p) := by
  have hu : ∀ t, HasIdShort (.obj c attrs) t → t = s := by
    rintro t ⟨ct, ht⟩
    obtain ⟨cs, hs⟩ := hs
    rw [hasAttr_obj] at hs ht
    rw [hs] at ht
    cases ht; rfl
  constructor
  · rintro ⟨d, as, rfl, hb⟩
    cases hb with
    | self h => rw [hu _ h]; exact .inl ⟨rfl, rfl⟩
    | collection h hl hj hb => rw [hu _ h] at hb; exact .inr (.inl ⟨rfl, _, _, _, hasAttr_obj.mp hl, hj, d, as, rfl, hb⟩)
    | list h hl hj hb => exact .inr (.inr ⟨rfl, _, _, _, hasAttr_obj.mp hl, hj, d, as, rfl, hb⟩)
  · rintro (⟨rfl, rfl⟩ | ⟨rfl, l, j, z, hl, hj, d, as, rfl, hb⟩ | ⟨rfl, l, j, z, hl, hj, d, as, rfl, hb⟩)
    · exact ⟨c, attrs, rfl, .self hs⟩
    · exact ⟨d, as, rfl, .collection hs (hasAttr_obj.mpr hl) hj hb⟩
    · exact ⟨d, as, rfl, .list hs (hasAttr_obj.mpr hl) hj hb⟩

theorem not_reaches {pre : Str} {i : Nat} {c : RCls} {attrs : List (RFld × RVal)} (hs : ∀ s, ¬ HasIdShort (.obj c attrs) s) {k p : Str} :
    ¬ Reaches pre i (.obj c attrs) k p := by
  rintro ⟨d, as, rfl, hb⟩
  cases hb with
  | self h => exact hs _ h
  | collection h hl hj hb => exact hs _ h
  | list h hl hj hb => exact hs _ h

mutual
theorem collect_has : ∀ (v : RVal) (pre : Str) (idx : Nat) (paths paths' : Paths), collect pre idx paths v = .ok paths' →
    ∀ k p, Has paths' k p ↔ Has paths k p ∨ Reaches pre idx v k p
  | .obj c attrs, pre, idx, paths, paths', h, k, p => by
    rw [collect] at h
    cases hi : rlookup (.model .idShort) attrs with
    | none => rw [hi] at h; cases h
    | some w =>
      rw [hi] at h
      cases w with
      | sfv cs s =>
        dsimp only at h
        have hs : HasIdShort (.obj c attrs) s := ⟨cs, hasAttr_obj.mpr hi⟩
        rw [reaches_iff hs]
        by_cases h1 : c = .model .submodelElementCollection
        · rw [if_pos h1] at h
          obtain ⟨l, hl, hh⟩ := collectA_has attrs _ _ _ h
          rw [hh, has_addPath]
          subst h1
          simp only [true_and, reduceCtorEq, RCls.model.injEq, false_and, or_false, hl, Option.some.injEq, Val.list.injEq, or_assoc]
          refine or_congr_right (or_congr_right ⟨fun ⟨j, z, h⟩ => ⟨l, j, z, rfl, h⟩, fun ⟨l', j, z, h, h'⟩ => ?_⟩)
          subst h; exact ⟨j, z, h'⟩
        · rw [if_neg h1] at h
          by_cases h2 : c = .model .submodelElementList
          · rw [if_pos h2] at h
            obtain ⟨l, hl, hh⟩ := collectA_has attrs _ _ _ h
            rw [hh, has_addPath]
            subst h2
            simp only [true_and, reduceCtorEq, RCls.model.injEq, false_and, false_or, hl, Option.some.injEq, Val.list.injEq, or_assoc]
            refine or_congr_right (or_congr_right ⟨fun ⟨j, z, h⟩ => ⟨l, j, z, rfl, h⟩, fun ⟨l', j, z, h, h'⟩ => ?_⟩)
            subst h; exact ⟨j, z, h'⟩
          · rw [if_neg h2] at h
            cases h
            rw [has_addPath]
            simp only [h1, h2, false_and, or_false]
      | none =>
        cases h
        have : ¬ Reaches pre idx (.obj c attrs) k p := not_reaches fun s ⟨cs, hs⟩ => by
          rw [hasAttr_obj, hi] at hs; cases hs
        simp only [this, or_false]
      | _ => cases h
  | .none, _, _, _, _, h, _, _ => by cases h
  | .invalid, _, _, _, _, h, _, _ => by cases h
  | .foreign, _, _, _, _, h, _, _ => by cases h
  | .str _, _, _, _, _, h, _, _ => by cases h
  | .bool _, _, _, _, _, h, _, _ => by cases h
  | .enum _ _, _, _, _, _, h, _, _ => by cases h
  | .sfv _ _, _, _, _, _, h, _, _ => by cases h
  | .list _, _, _, _, _, h, _, _ => by cases h
  | .path _ _ _, _, _, _, _, h, _, _ => by cases h
theorem collectA_has : ∀ (attrs : List (RFld × RVal)) (pre : Str) (paths paths' : Paths), collectA pre paths attrs = .ok paths' →
    ∃ l, rlookup (.model .value) attrs = some (.list l) ∧ ∀ k p, Has paths' k p ↔ Has paths k p ∨ ∃ j z, l[j]? = some z ∧ Reaches pre j z k p
  | [], _, _, _, h => by cases h
  | (f, v) :: rest, pre, paths, paths', h => by
    by_cases hf : f = .model .value
    · subst hf
      cases v with
      | list l =>
        have h' : collectL pre 0 paths l = .ok paths' := by simpa [collectA] using h
        have := collectL_has l pre 0 paths paths' h'
        exact ⟨l, by simp [rlookup], by simpa using this⟩
      | _ => simp [collectA] at h
    · have h' : collectA pre paths rest = .ok paths' := by cases v <;> simpa [collectA, hf] using h
      obtain ⟨l, hl, hh⟩ := collectA_has rest pre paths paths' h'
      exact ⟨l, by simp [rlookup, hf, hl], hh⟩
theorem collectL_has : ∀ (l : List RVal) (pre : Str) (idx : Nat) (paths paths' : Paths), collectL pre idx paths l = .ok paths' →
    ∀ k p, Has paths' k p ↔ Has paths k p ∨ ∃ j z, l[j]? = some z ∧ Reaches pre (idx + j) z k p
  | [], _, _, _, _, h, _, _ => by cases h; simp
  | v :: vs, pre, idx, paths, paths', h, k, p => by
    rw [collectL] at h
    cases hc : collect pre idx paths v with
    | error e => rw [hc] at h; cases h
    | ok p1 =>
      rw [hc] at h
      rw [collectL_has vs pre (idx + 1) p1 paths' h k p, collect_has v pre idx paths p1 hc k p, or_assoc]
      refine or_congr_right ⟨?_, ?_⟩
      · rintro (h | ⟨j, z, hj, hr⟩)
        · exact ⟨0, v, rfl, h⟩
        · exact ⟨j + 1, z, hj, by rw [show idx + (j + 1) = idx + 1 + j by omega]; exact hr⟩
      · rintro ⟨j, z, hj, hr⟩
        cases j with
        | zero => cases hj; exact .inl hr
        | succ j => exact .inr ⟨j, z, hj, by rw [show idx + 1 + j = idx + (j + 1) by omega]; exact hr⟩
end

theorem pyName_ne (c : Cls) : c.pyName ≠ [] := by cases c <;> decide

theorem modelType_eq {d : RCls} {c : Cls} (h : c.pyName = modelType d) : d = .model c := by
  cases d with
  | model e => rw [pyName_inj h]
  | _ => exact absurd h (pyName_ne c)

theorem located_iff {l : List RVal} {paths : Paths} (h : collectL [] 0 [] l = .ok paths) (c : Cls) (p : Str) : Has paths c.pyName p ↔ Located l c p := by
  rw [collectL_has l [] 0 [] paths h]
  constructor
  · rintro (⟨e, he, -⟩ | ⟨j, z, hj, d, attrs, hd, hb⟩)
    · cases he
    · obtain rfl := modelType_eq hd
      exact ⟨j, z, attrs, hj, by simpa using hb⟩
  · rintro ⟨j, z, attrs, hj, hb⟩
    exact .inr ⟨j, z, hj, .model c, attrs, rfl, by simpa using hb⟩

theorem elementState_found {v : RVal} {st : Paths × Str} (h : elementState v = .ok st) : ∃ l, Entries v l ∧ collectL [] 0 [] l = .ok st.1 := by
  unfold elementState at h
  simp only [bind_ok] at h
  obtain ⟨w, h1, h2⟩ := h
  cases w with
  | list l =>
    refine ⟨l, hasAttr_iff.mpr h1, ?_⟩
    simp only [bind_ok] at h2
    obtain ⟨paths, h2, h3⟩ := h2
    rw [h2]
    match paths, h3 with
    | (_, p :: _) :: _, h3 => cases h3; rfl
  | _ => cases h2

end Verif.Api.Suites
