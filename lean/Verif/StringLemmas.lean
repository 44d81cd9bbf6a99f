import Verif.Strings
import Verif.RegexLemmas
import Verif.DurationLemmas
import Verif.Spec.Strings

/-! # The patterns of the string types -/

namespace Verif.Aas
open Verif Verif.Spec Verif.DataTypes Re

theorem xmlRe_eq : xmlRe =
    .star (.cls false [(9, 9), (10, 10), (13, 13), (32, 0xd7ff), (0xe000, 0xfffd), (0x10000, 0x10ffff)]) := by decide +kernel

theorem xml_iff (s : Str) : Re.fullmatch xmlRe s = true ↔ ∀ c ∈ s, XmlChar c := by
  rw [fullmatch_iff, xmlRe_eq, matches_star_cls]
  refine forall₂_congr fun c _ => ?_
  simp [inCls, XmlChar]
  omega

/-- the characters of tokens -/
def tokCls : Re := .cls false [(33, 33), (35, 35), (36, 36), (37, 37), (38, 38), (39, 39), (42, 42), (43, 43), (45, 45), (46, 46),
  (94, 94), (95, 95), (96, 96), (124, 124), (126, 126), (48, 57), (97, 122), (65, 90)]

theorem m_token (s : Str) : Matches (plus tokCls) s ↔ Token s := by
  rw [tokCls, matches_plus_cls, Token]
  refine and_congr Iff.rfl (forall₂_congr fun c _ => ?_)
  simp [inCls, TokenChar, IsAlnum, IsAlpha, IsLower, IsUpper, IsNum]
  omega

def quotedItem : Re :=
  .alt (.alt (.cls false [(9, 9), (32, 32), (32, 32), (32, 32), (32, 32), (32, 32), (32, 32), (32, 32), (32, 32), (33, 33), (35, 91), (93, 126)])
      (.cls false [(128, 255)]))
    (.seq (lit 92) (.alt (.cls false [(9, 9), (32, 32), (33, 126)]) (.cls false [(128, 255)])))

theorem m_quotedItem (s : Str) : Matches quotedItem s ↔
    (∃ c, s = [c] ∧ QdText c) ∨ ∃ c, s = [92, c] ∧ (c = 9 ∨ (32 ≤ c ∧ c ≤ 126) ∨ ObsText c) := by
  simp only [quotedItem, matches_alt, matches_cls, matches_seq, matches_lit]
  refine or_congr ?_ ?_
  · rw [← exists_or]
    refine exists_congr fun c => ?_
    rw [← and_or_left]
    refine and_congr Iff.rfl ?_
    simp [inCls, QdText, ObsText]
    omega
  · constructor
    · rintro ⟨u, v, rfl, rfl, ⟨c, rfl, h⟩ | ⟨c, rfl, h⟩⟩
      · refine ⟨c, rfl, ?_⟩; simp [inCls] at h; unfold ObsText; omega
      · refine ⟨c, rfl, ?_⟩; simp [inCls] at h; unfold ObsText; omega
    · rintro ⟨c, rfl, h⟩
      refine ⟨[92], [c], rfl, rfl, ?_⟩
      by_cases hc : c ≤ 126
      · refine .inl ⟨c, rfl, ?_⟩; simp [inCls]; unfold ObsText at h; omega
      · refine .inr ⟨c, rfl, ?_⟩; simp [inCls]; unfold ObsText at h; omega

def quotedRe : Re := seqs [lit 34, .star quotedItem, lit 34]

theorem m_quoted (s : Str) : Matches quotedRe s ↔ Quoted s := by
  simp only [quotedRe, seqs, matches_seq, matches_lit, matches_star, m_quotedItem, Quoted]
  constructor
  · rintro ⟨u, v, rfl, rfl, w, x, rfl, ⟨ps, rfl, h⟩, rfl⟩
    exact ⟨ps, rfl, h⟩
  · rintro ⟨ps, rfl, h⟩
    exact ⟨[34], ps.flatten ++ [34], rfl, rfl, ps.flatten, [34], rfl, ⟨ps, rfl, h⟩, rfl⟩

def paramRe : Re := seqs [.star (.cls false [(32, 32), (32, 32), (32, 32), (32, 32), (32, 32), (32, 32), (32, 32), (32, 32), (9, 9)]), lit 59,
  .star (.cls false [(32, 32), (9, 9)]), plus tokCls, lit 61, .alt (plus tokCls) quotedRe]

theorem m_param (s : Str) : Matches paramRe s ↔ Parameter s := by
  have h1 : ∀ u, Matches (.star (.cls false [(32, 32), (32, 32), (32, 32), (32, 32), (32, 32), (32, 32), (32, 32), (32, 32), (9, 9)])) u ↔ Blanks u := by
    intro u; rw [matches_star_cls]
    refine forall₂_congr fun c _ => ?_
    simp [inCls]; omega
  have h2 : ∀ u, Matches (.star (.cls false [(32, 32), (9, 9)])) u ↔ Blanks u := by
    intro u; rw [matches_star_cls]
    refine forall₂_congr fun c _ => ?_
    simp [inCls]; omega
  simp only [paramRe, seqs, matches_seq, matches_lit, matches_alt, h1, h2, m_token, m_quoted, Parameter]
  constructor
  · rintro ⟨w1, _, rfl, hw1, _, _, rfl, rfl, w2, _, rfl, hw2, n, _, rfl, hn, _, v, rfl, rfl, hv⟩
    exact ⟨w1, w2, n, v, by simp, hw1, hw2, hn, hv⟩
  · rintro ⟨w1, w2, n, v, rfl, hw1, hw2, hn, hv⟩
    exact ⟨w1, 59 :: w2 ++ n ++ 61 :: v, by simp, hw1, [59], w2 ++ n ++ 61 :: v, by simp, rfl, w2, n ++ 61 :: v, by simp, hw2,
      n, 61 :: v, rfl, hn, [61], v, rfl, rfl, hv⟩

def mediaRe : Re := seqs [plus tokCls, lit 47, plus tokCls, .star paramRe]

theorem m_media (s : Str) : Matches mediaRe s ↔ MediaType s := by
  simp only [mediaRe, seqs, matches_seq, matches_lit, m_token, matches_star, m_param, MediaType]
  constructor
  · rintro ⟨t, _, rfl, ht, _, _, rfl, rfl, u, _, rfl, hu, ps, rfl, h⟩
    exact ⟨t, u, ps, by simp, ht, hu, h⟩
  · rintro ⟨t, u, ps, rfl, ht, hu, h⟩
    exact ⟨t, 47 :: u ++ ps.flatten, by simp, ht, [47], u ++ ps.flatten, rfl, rfl, u, ps.flatten, rfl, hu, ps, rfl, h⟩

theorem mediaRe_eq : (patternOf .contentType).bind (fun p => (Re.unanchor p).map compile) = some mediaRe := by decide +kernel

theorem content_iff (p : Str) (hp : patternOf .contentType = some p) (s : Str) : patternMatches p s = true ↔ MediaType s := by
  have h := mediaRe_eq
  rw [hp] at h
  simp only [Option.bind_some, Option.map_eq_some_iff] at h
  obtain ⟨b, hb, hc⟩ := h
  rw [patternMatches, hb]
  simp only
  rw [hc, fullmatch_iff, m_media]

def numeralRe : Re := .alt (lit 48) (.seq (.cls false [(49, 57)]) (.star (.cls false [(48, 57)])))

theorem m_numeral (s : Str) : Matches numeralRe s ↔ PlainNumeral s := by
  simp only [numeralRe, matches_alt, matches_lit, matches_seq, matches_cls, matches_star_cls, PlainNumeral]
  refine or_congr Iff.rfl ?_
  constructor
  · rintro ⟨_, t, rfl, ⟨c, rfl, h⟩, h'⟩
    refine ⟨c, t, rfl, ?_, ?_, ?_⟩
    · simp [inCls] at h; unfold IsNum; omega
    · simp [inCls] at h; omega
    · intro x hx; have := h' x hx; simp [inCls] at this; exact this
  · rintro ⟨c, t, rfl, h1, h2, h3⟩
    refine ⟨[c], t, rfl, ⟨c, rfl, ?_⟩, ?_⟩
    · simp [inCls]; unfold IsNum at h1; omega
    · intro x hx; have := h3 x hx; simp [inCls]; exact this

theorem numeralRe_eq : compile py!"(0|[1-9][0-9]*)" = numeralRe ∧ Re.unanchor py!"(0|[1-9][0-9]*)" = none := by decide +kernel

theorem numeral_iff (s : Str) : patternMatches py!"(0|[1-9][0-9]*)" s = true ↔ PlainNumeral s := by
  rw [patternMatches, numeralRe_eq.2]
  simp only
  rw [numeralRe_eq.1, fullmatch_iff, m_numeral]

theorem duration_eq : patternOf .duration = some durationPattern ∧ Re.unanchor durationPattern = none := by decide +kernel

theorem duration_iff (s : Str) : patternMatches durationPattern s = true ↔ DurationText s := by
  rw [patternMatches, duration_eq.2]
  simp only
  rw [← m_durationRe, ← fullmatch_iff, durationRe]

theorem lengths_eq : ∀ c, lengths c = ((minLengthOf c).getD 0, maxLengthOf c) := by intro c; cases c <;> rfl

theorem pattern_iff (c : SfvCls) (s : Str) : (∀ p, patternOf c = some p → patternMatches p s = true) ↔
    (match c with
      | .contentType => MediaType s
      | .versionString => PlainNumeral s
      | .revisionString => PlainNumeral s
      | .duration => DurationText s
      | _ => True) := by
  cases c
  case contentType =>
    simp only
    obtain ⟨p, hp⟩ : ∃ p, patternOf .contentType = some p := ⟨_, rfl⟩
    rw [← content_iff p hp]
    constructor
    · intro h; exact h p hp
    · intro h q hq; rw [hp] at hq; cases hq; exact h
  case versionString =>
    simp only
    rw [← numeral_iff]
    exact ⟨fun h => h _ rfl, fun h p hp => by cases hp; exact h⟩
  case revisionString =>
    simp only
    rw [← numeral_iff]
    exact ⟨fun h => h _ rfl, fun h p hp => by cases hp; exact h⟩
  case duration =>
    simp only
    rw [← duration_iff]
    exact ⟨fun h => h _ duration_eq.1, fun h p hp => by rw [duration_eq.1] at hp; cases hp; exact h⟩
  all_goals simp [patternOf]

theorem constructBase_iff (c : SfvCls) (s : Str) : constructBase c s = .ok () ↔
    LengthOk c s ∧ (∀ x ∈ s, XmlChar x) ∧ ∀ p, patternOf c = some p → patternMatches p s = true := by
  have hmin : (minLengthOf c).any (fun m => decide (s.length < m)) = true ↔ ¬ (lengths c).1 ≤ s.length := by
    rw [lengths_eq]; cases minLengthOf c <;> simp
  have hmax : (maxLengthOf c).any (fun m => decide (m < s.length)) = true ↔ ¬ ∀ m, (lengths c).2 = some m → s.length ≤ m := by
    rw [lengths_eq]; cases maxLengthOf c <;> simp
  rw [constructBase, LengthOk]
  by_cases h1 : (lengths c).1 ≤ s.length
  · rw [if_neg (by rw [hmin]; simpa using h1)]
    by_cases h2 : ∀ m, (lengths c).2 = some m → s.length ≤ m
    · rw [if_neg (by rw [hmax]; simpa using h2)]
      by_cases h3 : ∀ x ∈ s, XmlChar x
      · rw [if_neg (by rw [(xml_iff s).mpr h3]; simp)]
        cases hp : patternOf c with
        | none => simpa using ⟨⟨h1, h2⟩, h3⟩
        | some p =>
          simp only [Option.some.injEq, forall_eq']
          by_cases h4 : patternMatches p s = true
          · simpa [h4] using ⟨⟨h1, h2⟩, h3⟩
          · simp [h4]
      · rw [if_pos (by simpa using fun h => h3 ((xml_iff s).mp h))]
        simp [h3]
    · rw [if_pos (hmax.mpr h2)]
      simp [h2]
  · rw [if_pos (hmin.mpr h1)]
    simp [h1]

theorem constructBase_error (c : SfvCls) (s : Str) (e : PyExc) (h : constructBase c s = .error e) : e = .valueError := by
  unfold constructBase at h
  split at h
  · cases h; rfl
  · split at h
    · cases h; rfl
    · split at h
      · cases h; rfl
      · split at h
        · cases h
        · split at h
          · cases h
          · cases h; rfl

end Verif.Aas
