import Verif.StringLemmas
import Verif.Props.Dates
import Verif.Props.Text

/-! # C27: string types of the meta-model -/

namespace Verif.Props
open Verif Re Spec DataTypes Aas

/-! ## exceptions of the checks of dates -/

theorem isXsDate_raises (lim : Option Nat) (s : Str) (e : PyExc) (h : isXsDate lim s = .error e) : e = .valueError := by
  rcases isXsDate_cases lim s with ⟨h1, _⟩ | ⟨h1, _⟩ | ⟨_, _, _, _, _, _, _, h1⟩
  · rw [h1] at h; cases h
  · rw [h1] at h; cases h
  · rw [h1] at h; cases h; rfl

theorem dateTimeWith_raises (re : Re) (lim : Option Nat) (s : Str) (e : PyExc) (h : dateTimeWith re lim s = .error e) :
    e = .valueError := by
  unfold dateTimeWith at h
  split at h
  · cases h
  · split at h
    · exact isXsDate_raises _ _ _ h
    · cases h; rfl

theorem orValueError_iff (x : Except PyExc Bool) : orValueError x = .ok () ↔ x = .ok true := by
  unfold orValueError; split <;> simp

theorem orValueError_raises (x : Except PyExc Bool) (hx : ∀ e, x = .error e → e = .valueError) (e : PyExc)
    (h : orValueError x = .error e) : e = .valueError := by
  unfold orValueError at h
  split at h
  · cases h; exact hx _ rfl
  · cases h
  · cases h; rfl

/-- C27: whatever the string, a string type accepts it or raises `ValueError`, which the parser turns into a message. -/
theorem C27_rejects (lim : Option Nat) (c : SfvCls) (s : Str) :
    construct lim c s = .ok () ∨ construct lim c s = .error .valueError := by
  have key : ∀ e, construct lim c s = .error e → e = .valueError := by
    intro e h
    unfold construct at h
    split at h
    · rename_i hb; cases h; exact constructBase_error _ _ _ hb
    · split at h
      · exact orValueError_raises _ (by simp) _ h
      · exact orValueError_raises _ (dateTimeWith_raises _ _ _) _ h
      · exact orValueError_raises _ (dateTimeWith_raises _ _ _) _ h
      · cases h
  cases h : construct lim c s with
  | ok u => exact .inl rfl
  | error e => rw [key e h]; exact .inr rfl

theorem construct_iff (lim : Option Nat) (c : SfvCls) (s : Str) : construct lim c s = .ok () ↔
    constructBase c s = .ok () ∧ (c = .pathString → isAnyUri s = true) ∧ (c = .dateTime → isXsDateTime lim s = .ok true) ∧
      (c = .dateTimeUtc → isXsDateTimeUtc lim s = .ok true) := by
  unfold construct
  cases hb : constructBase c s with
  | error e => simp
  | ok u =>
    cases c <;> simp [orValueError_iff]

/-- C27: For each string type but paths and points in time: a string is accepted iff its length is within the limits, its characters
can be written in XML, and it has the format of the type. -/
theorem C27_plain (lim : Option Nat) (c : SfvCls) (s : Str) (h1 : c ≠ .pathString) (h2 : c ≠ .dateTime) (h3 : c ≠ .dateTimeUtc) :
    construct lim c s = .ok () ↔ LengthOk c s ∧ (∀ x ∈ s, XmlChar x) ∧ Format c s := by
  rw [construct_iff, constructBase_iff, pattern_iff]
  simp only [h1, h2, h3, false_implies, and_true]
  cases c <;> first | rfl | contradiction

example : MediaType py!"text/plain ; charset=\"a\\\"\"" ∧ ¬ MediaType py!"text" := by
  constructor
  · rw [← m_media, ← test_iff]; decide +kernel
  · rw [← m_media, ← test_iff]; decide +kernel

example : construct none .versionString py!"10" = .ok () ∧ construct none .versionString py!"01" = .error .valueError := by
  decide +kernel

/-- C27 for paths. Partial: a final line feed is accepted, and some IPv6 addresses are rejected (see C25). -/
theorem C27_path_partial (lim : Option Nat) (s : Str) : construct lim .pathString s = .ok () ↔
    LengthOk .pathString s ∧ (∀ x ∈ s, XmlChar x) ∧ OrLineFeed (IriReference CodeGroups) s := by
  rw [construct_iff, constructBase_iff, pattern_iff, ← C25_any_uri_partial]
  simp [and_assoc]

/-- C27 for xs:dateTime. Partial: a final line feed is accepted, and the string must fit into the interpreter's limit for integers. -/
theorem C27_date_time_partial (lim : Option Nat) (s : Str) (h : Fits lim s) : construct lim .dateTime s = .ok () ↔
    LengthOk .dateTime s ∧ (∀ x ∈ s, XmlChar x) ∧ OrLineFeed DateTimeText s := by
  obtain ⟨b, hb, hiff⟩ := C20_date_time_partial lim s h
  rw [construct_iff, constructBase_iff, pattern_iff, ← hiff, hb]
  simp [and_assoc]

/-- C27 for UTC points in time; partial as for xs:dateTime. -/
theorem C27_date_time_utc_partial (lim : Option Nat) (s : Str) (h : Fits lim s) : construct lim .dateTimeUtc s = .ok () ↔
    LengthOk .dateTimeUtc s ∧ (∀ x ∈ s, XmlChar x) ∧ OrLineFeed DateTimeUtcText s := by
  obtain ⟨b, hb, hiff⟩ := C20_date_time_utc_partial lim s h
  rw [construct_iff, constructBase_iff, pattern_iff, ← hiff, hb]
  simp [and_assoc]

/-- C27: for strings without a final line feed, also points in time are accepted exactly if they have the right format. -/
theorem C27_date_times (lim : Option Nat) (s : Str) (h : Fits lim s) (hn : s.getLast? ≠ some 10) :
    (construct lim .dateTime s = .ok () ↔ LengthOk .dateTime s ∧ (∀ x ∈ s, XmlChar x) ∧ Format .dateTime s) ∧
    (construct lim .dateTimeUtc s = .ok () ↔ LengthOk .dateTimeUtc s ∧ (∀ x ∈ s, XmlChar x) ∧ Format .dateTimeUtc s) := by
  have key : ∀ P : Str → Prop, OrLineFeed P s ↔ P s := by
    intro P
    constructor
    · rintro (h | ⟨t, rfl, _⟩)
      · exact h
      · simp at hn
    · exact .inl
  rw [C27_date_time_partial lim s h, C27_date_time_utc_partial lim s h, key, key]
  exact ⟨Iff.rfl, Iff.rfl⟩

example : Fits (some 4300) py!"2024-02-29T00:00:00Z" ∧ py!"2024-02-29T00:00:00Z".getLast? ≠ some 10 :=
  ⟨by intro l h; injection h with h; subst h; decide, by decide⟩

/-- C27 fails for a final line feed: it is no part of a point in time or a path, but accepted. -/
theorem C27_line_feed_violated :
    (construct none .dateTimeUtc py!"2024-02-29T00:00:00Z\n" = .ok () ∧ ¬ Format .dateTimeUtc py!"2024-02-29T00:00:00Z\n") ∧
    construct none .pathString py!"a\n" = .ok () := by
  refine ⟨⟨by decide +kernel, ?_⟩, ?_⟩
  · intro h
    exact dateTime_no_line_feed (s := py!"2024-02-29T00:00:00Z") (C20_utc_is_date_time _ h)
  · rw [construct_iff, constructBase_iff, pattern_iff]
    refine ⟨⟨⟨by decide, ?_⟩, by decide, trivial⟩, fun _ => C25_line_feed_violated.1, by simp, by simp⟩
    intro m hm; cases hm; decide

/-- C27: version strings (data_types.py 307-316); a final line feed is tolerated. -/
theorem C27_version_string_partial (s : Str) : isVersionString s = true ↔ OrLineFeed PlainNumeral s := by
  have : versionRe = numeralRe := by decide +kernel
  rw [isVersionString, anchoredMatch_iff, this, OrLineFeed]
  simp only [m_numeral]

end Verif.Props
