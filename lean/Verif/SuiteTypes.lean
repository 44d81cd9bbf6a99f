import Verif.SuiteLemmas

/-! # The data of responses that tests and setups use -/

namespace Verif.Api.Suites
open Verif Verif.Parse Verif.Aas Verif.Spec Verif.Spec.Parse Verif.Spec.Api Verif.Spec.Suites Verif.Generate Verif.Http Verif.Props
open Verif.Api hiding sane supported

variable {lim : Option Nat}

theorem isA_self {c c' : RCls} (h : IsA (respSchema lim) c c') (hc : (respSchema lim).abstract c = false) : c' = c := by
  rcases h with ⟨-, rfl⟩ | ⟨ha, -⟩
  · rfl
  · rw [hc] at ha; cases ha

/-- the shape of a page -/
theorem page_shape {p : Page} {v : RVal} (h : HasType (respSchema lim) (pageTy p) v) :
    ∃ c l, v = .obj (.page p) [(.pagingMetadata, .obj .pagingMetadata [(.cursor, c)]), (.result, .list l)] ∧
      (c = .none ∨ ∃ s, c = .str s) ∧ ∀ x ∈ l, HasType (respSchema lim) p.item x := by
  obtain ⟨c', attrs, rfl, hi, hf⟩ := hasType_cls h
  obtain rfl := isA_self hi rfl
  cases hf with
  | cons h1 hf =>
    cases hf with
    | cons h2 hf =>
      cases hf
      rename_i a b
      obtain ⟨f1, m⟩ := a
      obtain ⟨f2, r⟩ := b
      obtain ⟨rfl, ⟨-, hx⟩ | h1⟩ := h1
      · cases hx
      obtain ⟨rfl, ⟨-, hx⟩ | h2⟩ := h2
      · cases hx
      obtain ⟨c', attrs, rfl, hi, hf⟩ := hasType_cls h1
      obtain rfl := isA_self hi rfl
      cases hf with
      | cons h3 hf =>
        cases hf
        rename_i a
        obtain ⟨f3, c⟩ := a
        obtain ⟨rfl, hc⟩ := h3
        cases h2 with
        | list _ hl =>
          refine ⟨c, _, rfl, ?_, hl⟩
          rcases hc with ⟨rfl, -⟩ | hc
          · exact .inl rfl
          · cases hc; exact .inr ⟨_, rfl⟩

theorem page_cursor {c : RVal} {l : List RVal} {p : Page} :
    pageCursor (.obj (.page p) [(.pagingMetadata, .obj .pagingMetadata [(.cursor, c)]), (.result, .list l)]) = .ok c := rfl

theorem page_len {c : RVal} {l : List RVal} {p : Page} :
    resultLen (.obj (.page p) [(.pagingMetadata, .obj .pagingMetadata [(.cursor, c)]), (.result, .list l)]) = .ok l.length := rfl

theorem page_first {c : RVal} {l : List RVal} {p : Page} :
    firstResult (.obj (.page p) [(.pagingMetadata, .obj .pagingMetadata [(.cursor, c)]), (.result, .list l)]) = rfirst (.list l) := rfl

theorem rlookup_emb {f : Fld} : ∀ {attrs : List (Fld × AVal)} {w : AVal}, Aas.lookup f attrs = some w → rlookup (.model f) (embAttrs attrs) = some (embVal w)
  | [], _, h => by cases h
  | (g, v) :: rest, w, h => by
    rw [Aas.lookup] at h
    rw [embAttrs, rlookup]
    split at h
    · rename_i hg
      cases h
      rw [if_pos (by rw [hg])]
    · rename_i hg
      rw [if_neg (fun h => hg (by injection h))]
      exact rlookup_emb h

theorem rattr_emb {a w : AVal} {f : Fld} (h : attr a f = .ok w) : rattr (embVal a) (.model f) = .ok (embVal w) := by
  unfold attr at h
  split at h
  · rename_i c attrs
    cases hl : Aas.lookup f attrs with
    | none => rw [hl] at h; cases h
    | some x =>
      rw [hl] at h
      cases h
      rw [embVal, rattr, rlookup_emb hl]
  · cases h

/-- objects of concrete classes of the meta-model -/
theorem model_obj {c : Cls} (hc : isAbstract c = false) {v : RVal} (h : HasType (respSchema lim) (modelTy c) v) : ∃ a, v = embVal a ∧ Obj lim c a := by
  obtain ⟨a, rfl, ha⟩ := typed_proj (lim := lim) v (.cls c) h
  exact ⟨a, rfl, obj_of_concrete hc ha⟩

theorem sfv_xml {s : SfvCls} {t : Str} (h : construct lim s t = .ok ()) : Re.fullmatch xmlRe t = true := by
  unfold construct at h
  cases hb : constructBase s t with
  | error e => rw [hb] at h; cases h
  | ok =>
    unfold constructBase at hb
    split at hb
    · cases hb
    split at hb
    · cases hb
    split at hb
    · cases hb
    · rename_i hx
      simpa using hx

/-- the text of a formatted string can be encoded -/
theorem xml_noSurrogates {t : Str} (h : Re.fullmatch xmlRe t = true) : NoSurrogates t := by
  intro c hc hs
  have := (xml_iff t).mp h c hc
  unfold XmlChar at this
  omega

theorem sfv_raw {s : SfvCls} {w : AVal} (h : HasType (schema lim) (.sfv s) w) : ∃ t, rraw (embVal w) = .ok t ∧ Re.fullmatch xmlRe t = true := by
  cases h with
  | sfv h => exact ⟨_, rfl, sfv_xml h⟩

theorem sfv_ne {t : Str} (h : construct lim .identifierString t = .ok ()) : t ≠ [] := by
  rintro rfl
  unfold construct at h
  have : constructBase .identifierString [] = .error .valueError := rfl
  rw [this] at h
  cases h

theorem identifier_raw {w : AVal} (h : HasType (schema lim) (.sfv .identifierString) w) :
    ∃ c t, rraw (embVal w) = .ok (c :: t) ∧ Re.fullmatch xmlRe (c :: t) = true := by
  cases h with
  | @sfv _ s h =>
    cases s with
    | nil => exact absurd rfl (sfv_ne (lim := lim) h)
    | cons c t => exact ⟨c, t, rfl, sfv_xml (lim := lim) h⟩

/-- an identifier that can be put into a path: it can be encoded and is not empty -/
def IdOk (s : Str) : Prop := Re.fullmatch xmlRe s = true ∧ s ≠ []

/-- `id` of identifiables -/
theorem id_ok {c : Cls} (hm : slotOf c .id = some (.attr py!"id" (.sfv .identifierString) true)) {a : AVal} (h : Obj lim c a) :
    ∃ t, idOf (embVal a) = .ok t ∧ IdOk t := by
  obtain ⟨h1, ⟨-, hx⟩ | h2⟩ := h.field hm
  · cases hx
  · obtain ⟨c, t, ht, hx⟩ := identifier_raw h2
    exact ⟨c :: t, by rw [idOf, rattr_emb h1]; exact ht, hx, by simp⟩

/-- the first key of a reference -/
theorem key_ok {a : AVal} (h : Obj lim .reference a) : ∃ t, firstKey (embVal a) = .ok t ∧ IdOk t := by
  obtain ⟨h1, h2, h3⟩ := h.list (f := .keys) (key := py!"keys") (ty := .cls .key) rfl
  cases hl : Model.elems a .keys with
  | nil => exact absurd hl h2
  | cons k rest =>
    rw [hl] at h1 h3
    have hk := obj_of_concrete (c := .key) rfl (h3 k List.mem_cons_self)
    obtain ⟨h4, ⟨-, hx⟩ | h5⟩ := hk.field (f := .value) (key := py!"value") (ty := .sfv .identifierString) (req := true) rfl
    · cases hx
    · obtain ⟨c, t, ht, hx⟩ := identifier_raw h5
      refine ⟨c :: t, ?_, hx, by simp⟩
      rw [firstKey, rattr_emb h1]
      simp only [embVal, embVals, bind, Except.bind, rfirst]
      rw [rattr_emb h4]
      exact ht

end Verif.Api.Suites
