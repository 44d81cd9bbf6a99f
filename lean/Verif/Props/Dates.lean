import Verif.DateLemmas2
import Verif.DurationLemmas
import Verif.ConfigLemmas

/-! # C18-C22: dates, times and durations -/

namespace Verif.Props
open Verif Re Spec DataTypes

/-- the text is not longer than the limit for integer conversions (4300 in a default interpreter) -/
def Fits (lim : Option Nat) (s : Str) : Prop := ∀ l, lim = some l → s.length ≤ l

theorem fits_tooLong {lim : Option Nat} {s : Str} (h : Fits lim s) {n : Nat} (hn : n ≤ s.length) :
    tooLong lim n = false := by
  cases lim with
  | none => rfl
  | some l => have := h l rfl; simp [tooLong]; omega

theorem yearDigits_le (ys : Str) : yearDigits ys ≤ ys.length := by
  cases ys with
  | nil => simp [yearDigits]
  | cons c s => rw [yearDigits]; split <;> simp

theorem plainDate_shape {t : Str} (h : PlainDate t) : ∃ ys y ms m ds d, t = ys ++ 45 :: ms ++ 45 :: ds ∧
    SignedYear ys y ∧ TwoDigit ms m ∧ TwoDigit ds d ∧ DateExists y m d ∧ (1 ≤ m ∧ m ≤ 12) ∧ 1 ≤ d ∧ d ≤ 31 := by
  obtain ⟨ys, y, ms, m, ds, d, e, h1, h2, h3, h4⟩ := h
  refine ⟨ys, y, ms, m, ds, d, e, h1, h2, h3, h4, ⟨h4.2.1, h4.2.2.1⟩, h4.2.2.2.1, ?_⟩
  have := h4.2.2.2.2
  unfold monthLength at this
  split at this
  · split at this <;> omega
  · split at this <;> omega

theorem dateText_match {t tz : Str} (h : PlainDate t) (htz : OptTimeZone tz) : Matches dateRe (t ++ tz) := by
  obtain ⟨ys, y, ms, m, ds, d, e, h1, h2, h3, _, h5, h6⟩ := plainDate_shape h
  exact (m_dateRe _).mpr ⟨t, tz, y, m, d, rfl, ⟨ys, ms, ds, e, h1, h2, h3, h5, h6⟩, htz⟩

/-- for any text: the verdict of `is_xs_date`, or the exception for years with too many digits -/
theorem isXsDate_cases (lim : Option Nat) (s : Str) :
    (isXsDate lim s = .ok false ∧ ¬ OrLineFeed DateText s) ∨
    (isXsDate lim s = .ok true ∧ OrLineFeed DateText s) ∨
    (∃ ys y rest, s = ys ++ rest ∧ SignedYear ys y ∧ tooLong lim (yearDigits ys) = true ∧
      anchoredMatch dateRe s = true ∧ isXsDate lim s = .error .valueError) := by
  have hconv : ∀ t tz nl, s = t ++ tz ++ nl → (nl = [] ∨ nl = [10]) → PlainDate t → OptTimeZone tz →
      anchoredMatch dateRe s = true → (isXsDate lim s = .ok true ∧ OrLineFeed DateText s) ∨
      (∃ ys y rest, s = ys ++ rest ∧ SignedYear ys y ∧ tooLong lim (yearDigits ys) = true ∧
        anchoredMatch dateRe s = true ∧ isXsDate lim s = .error .valueError) := by
    intro t tz nl e hnl h htz hm
    obtain ⟨ys, y, ms, m, ds, d, rfl, h1, h2, h3, h4, h5, h6⟩ := plainDate_shape h
    have e' : s = ys ++ 45 :: ms ++ 45 :: ds ++ (tz ++ nl) := by rw [e]; simp
    have := isXsDate_shape lim h1 h2 h3 h5 h6 (tz ++ nl) (e' ▸ hm)
    rw [← e'] at this
    by_cases hl : tooLong lim (yearDigits ys) = true
    · rw [if_pos hl] at this
      exact Or.inr ⟨ys, y, 45 :: ms ++ 45 :: ds ++ (tz ++ nl), by rw [e']; simp, h1, hl, hm, this⟩
    · rw [if_neg hl] at this
      refine Or.inl ⟨by rw [this]; simp [h4], ?_⟩
      rcases hnl with rfl | rfl
      · exact Or.inl ⟨_, tz, by rw [e]; simp, h, htz⟩
      · exact Or.inr ⟨_, e, _, tz, rfl, h, htz⟩
  by_cases hm : anchoredMatch dateRe s = true
  · have hm' := (anchoredMatch_iff _ _).mp hm
    obtain ⟨t, tz, nl, y, m, d, e, hnl, hs, htz⟩ : ∃ t tz nl y m d, s = t ++ tz ++ nl ∧ (nl = [] ∨ nl = [10]) ∧
        DateShape t y m d ∧ OptTimeZone tz := by
      rcases hm' with h | ⟨u, e, h⟩
      · obtain ⟨t, tz, y, m, d, e, hs, htz⟩ := (m_dateRe _).mp h
        exact ⟨t, tz, [], y, m, d, by rw [e]; simp, Or.inl rfl, hs, htz⟩
      · obtain ⟨t, tz, y, m, d, e', hs, htz⟩ := (m_dateRe _).mp h
        exact ⟨t, tz, [10], y, m, d, by rw [e, e'], Or.inr rfl, hs, htz⟩
    obtain ⟨ys, ms, ds, rfl, h1, h2, h3, h5, h6⟩ := hs
    have e' : s = ys ++ 45 :: ms ++ 45 :: ds ++ (tz ++ nl) := by rw [e]; simp
    have hv := isXsDate_shape lim h1 h2 h3 h5 h6 (tz ++ nl) (e' ▸ hm)
    rw [← e'] at hv
    by_cases hl : tooLong lim (yearDigits ys) = true
    · rw [if_pos hl] at hv
      exact Or.inr (Or.inr ⟨ys, y, 45 :: ms ++ 45 :: ds ++ (tz ++ nl), by rw [e']; simp, h1, hl, hm, hv⟩)
    · rw [if_neg hl] at hv
      by_cases hex : DateExists y m d
      · rw [decide_eq_true hex] at hv
        refine Or.inr (Or.inl ⟨hv, ?_⟩)
        have hp : PlainDate (ys ++ 45 :: ms ++ 45 :: ds) := ⟨ys, y, ms, m, ds, d, rfl, h1, h2, h3, hex⟩
        rcases hnl with rfl | rfl
        · exact Or.inl ⟨_, tz, by rw [e]; simp, hp, htz⟩
        · exact Or.inr ⟨_, e, _, tz, rfl, hp, htz⟩
      · rw [decide_eq_false hex] at hv
        refine Or.inl ⟨hv, ?_⟩
        intro hd
        have := hd.elim
          (fun ⟨t, tz, e, hp, htz⟩ => hconv t tz [] (by rw [e]; simp) (Or.inl rfl) hp htz hm)
          (fun ⟨u, e, t, tz, e2, hp, htz⟩ => hconv t tz [10] (by rw [e, e2]) (Or.inr rfl) hp htz hm)
        rcases this with ⟨h, _⟩ | ⟨_, _, _, _, _, _, _, h⟩
        · rw [hv] at h; cases h
        · rw [hv] at h; cases h
  · left
    refine ⟨isXsDate_noMatch lim (by simpa using hm), ?_⟩
    intro hd
    apply hm
    rw [anchoredMatch_iff]
    rcases hd with ⟨t, tz, rfl, hp, htz⟩ | ⟨u, rfl, t, tz, rfl, hp, htz⟩
    · exact Or.inl (dateText_match hp htz)
    · exact Or.inr ⟨_, rfl, dateText_match hp htz⟩

/-- C18: `is_xs_date` accepts exactly the dates that exist. Partial: one final line feed is accepted as
well (`C18_line_feed_violated`), and the text must not exceed the interpreter's limit for integer
conversions (see C28). -/
theorem C18_date_partial (lim : Option Nat) (s : Str) (h : Fits lim s) :
    ∃ b, isXsDate lim s = .ok b ∧ (b = true ↔ OrLineFeed DateText s) := by
  rcases isXsDate_cases lim s with ⟨h1, h2⟩ | ⟨h1, h2⟩ | ⟨ys, y, rest, e, hy, hl, _, _⟩
  · exact ⟨false, h1, by simp [h2]⟩
  · exact ⟨true, h1, by simp [h2]⟩
  · have := fits_tooLong h (n := yearDigits ys) (by
      have := yearDigits_le ys; rw [e]; simp; omega)
    rw [this] at hl; cases hl

/-- C18 for text that does not end with a line feed -/
theorem C18_date (lim : Option Nat) (s : Str) (h : Fits lim s) (hnl : s.getLast? ≠ some 10) :
    isXsDate lim s = .ok true ↔ DateText s := by
  obtain ⟨b, hb, hiff⟩ := C18_date_partial lim s h
  rw [hb]
  have : OrLineFeed DateText s ↔ DateText s := by
    constructor
    · rintro (h | ⟨t, rfl, _⟩)
      · exact h
      · simp at hnl
    · exact Or.inl
  rw [this] at hiff
  rw [← hiff]
  cases b <;> simp

/-! characters that occur in no date or time -/

/-- neither a digit nor one of the marks of dates and times -/
def Foreign (x : Nat) : Prop := (x < 48 ∨ 57 < x) ∧ x ≠ 45 ∧ x ≠ 43 ∧ x ≠ 58 ∧ x ≠ 46 ∧ x ≠ 90

theorem numeral_ne {t : Str} (h : Numeral t) {x : Nat} (hx : Foreign x) : x ∉ t := by
  intro hc
  have := h.2 x hc
  unfold IsDigit at this; have := hx.1; omega

theorem two_ne {t : Str} {n : Nat} (h : TwoDigit t n) {x : Nat} (hx : Foreign x) : x ∉ t := numeral_ne h.1 hx

theorem year_ne {ys : Str} {y : Int} (h : SignedYear ys y) {x : Nat} (hx : Foreign x) : x ∉ ys := by
  rcases h with ⟨n, hn, _⟩ | ⟨u, n, rfl, hn, _⟩
  · exact numeral_ne hn.1 hx
  · have := numeral_ne hn.1 hx
    simp [this, hx.2.1]

theorem time_ne {t : Str} (h : TimeOfDay t) {x : Nat} (hx : Foreign x) : x ∉ t := by
  obtain ⟨hh, h, mm, m, ss, sec, fr, rfl, h1, h2, h3, h4, _⟩ := h
  have hf : x ∉ fr := by
    rcases h4 with rfl | ⟨f, rfl, hf⟩
    · simp
    · have := numeral_ne hf hx; simp [this, hx.2.2.2.2.1]
  simp [two_ne h1 hx, two_ne h2 hx, two_ne h3 hx, hf, hx.2.2.2.1]

theorem tz_ne {t : Str} (h : OptTimeZone t) {x : Nat} (hx : Foreign x) : x ∉ t := by
  rcases h with rfl | rfl | ⟨sign, h, hh, m, mm, rfl, hs, h1, h2, _⟩
  · simp
  · simp [hx.2.2.2.2.2]
  · have : x ≠ sign := by have := hx.2.1; have := hx.2.2.1; omega
    simp [two_ne h1 hx, two_ne h2 hx, this, hx.2.2.2.1]

theorem plain_ne {d : Str} (h : PlainDate d) {x : Nat} (hx : Foreign x) : x ∉ d := by
  obtain ⟨ys, y, ms, m, ds, n, rfl, h1, h2, h3, _⟩ := h
  simp [year_ne h1 hx, two_ne h2 hx, two_ne h3 hx, hx.2.1]

theorem foreign_10 : Foreign 10 := by unfold Foreign; omega
theorem foreign_84 : Foreign 84 := by unfold Foreign; omega

theorem dateText_no_line_feed {s : Str} (h : DateText (s ++ [10])) : False := by
  obtain ⟨t, tz, e, h1, h2⟩ := h
  have : 10 ∉ s ++ [10] := by rw [e]; simp [plain_ne h1 foreign_10, tz_ne h2 foreign_10]
  simp at this

theorem dateTime_no_line_feed {s : Str} (h : DateTimeText (s ++ [10])) : False := by
  obtain ⟨d, t, tz, e, h1, h2, h3⟩ := h
  have : 10 ∉ s ++ [10] := by
    rw [e]; simp [plain_ne h1 foreign_10, time_ne h2 foreign_10, tz_ne h3 foreign_10]
  simp at this

/-- The text "2024-02-29\n" is no xs:date but is accepted. -/
theorem C18_line_feed_violated : ∃ s, isXsDate none s = .ok true ∧ ¬ DateText s :=
  ⟨py!"2024-02-29" ++ [10], by decide +kernel, dateText_no_line_feed⟩

/-- C19: leap years follow the Gregorian rule, also before year 1. -/
theorem C19_leap_year (y : Int) : isLeapYear y = true ↔
    (4 ∣ astronomical y ∧ ¬ 100 ∣ astronomical y) ∨ 400 ∣ astronomical y := by
  rw [isLeapYear_iff, Leap]
  constructor
  · rintro ⟨h1, h2 | h2⟩
    · exact Or.inl ⟨h1, h2⟩
    · exact Or.inr h2
  · rintro (⟨h1, h2⟩ | h2)
    · exact ⟨h1, Or.inl h2⟩
    · exact ⟨by omega, Or.inr h2⟩

/-- C19: hence the pattern of leap years repeats every 400 years. -/
theorem C19_period (y : Int) (h : 0 < y) : isLeapYear (y + 400) = isLeapYear y := by
  rw [Bool.eq_iff_iff, isLeapYear_iff, isLeapYear_iff]
  unfold Leap astronomical
  rw [if_neg (by omega), if_neg (by omega)]
  omega

/-! ## dateTime -/

theorem utc_tz {t : Str} (h : UtcZone t) : OptTimeZone t := by
  have e : TwoDigit py!"00" 0 := (twoDigit_0 _).mpr rfl
  rcases h with rfl | rfl | rfl
  · exact Or.inr (Or.inl rfl)
  · exact Or.inr (Or.inr ⟨_, 0, _, 0, _, rfl, Or.inl rfl, e, e, by omega, by omega⟩)
  · exact Or.inr (Or.inr ⟨_, 0, _, 0, _, rfl, Or.inr rfl, e, e, by omega, by omega⟩)

theorem plain_of_noZone {s : Str} (h : DateText s) (y : Int) (ys : Str) (hy : SignedYear ys y) (ms ds : Str) (m d : Nat)
    (hm : TwoDigit ms m) (hd : TwoDigit ds d) (e : s = ys ++ 45 :: ms ++ 45 :: ds) (hex : ¬ DateExists y m d) : False := by
  have h1 : Matches dateRe s := by
    obtain ⟨t, tz, rfl, hp, htz⟩ := h
    exact dateText_match hp htz
  obtain ⟨t, tz, e2, hp, htz⟩ := h
  obtain ⟨ys', y', ms', m', ds', d', rfl, hy', hm', hd', hex', _, _⟩ := plainDate_shape hp
  have p1 := datePrefix_eq hy hm hd []
  have p2 := datePrefix_eq hy' hm' hd' tz
  rw [List.append_nil, ← e] at p1
  rw [← e2] at p2
  rw [p1] at p2
  simp only [Option.some.injEq, Prod.mk.injEq] at p2
  obtain ⟨rfl, rfl, rfl⟩ := p2
  have : y = y' := by
    have a := intE_signedYear none hy
    have b := intE_signedYear none hy'
    rw [a] at b
    simpa [tooLong] using b
  subst this
  have hm2 := hm.2.2.symm.trans hm'.2.2
  have hd2 := hd.2.2.symm.trans hd'.2.2
  subst hm2 hd2
  exact hex hex'

/-- the date in front of the `T` -/
theorem isXsDate_plain (lim : Option Nat) {d : Str} {y : Int} {m n : Nat} (h : DateShape d y m n) (hf : Fits lim d) :
    ∃ b, isXsDate lim d = .ok b ∧ (b = true ↔ PlainDate d) := by
  obtain ⟨ys, ms, ds, rfl, h1, h2, h3, h5, h6⟩ := h
  have hm : anchoredMatch dateRe (ys ++ 45 :: ms ++ 45 :: ds ++ []) = true := by
    rw [anchoredMatch_iff]
    refine Or.inl ((m_dateRe _).mpr ⟨_, [], y, m, n, rfl, ⟨ys, ms, ds, rfl, h1, h2, h3, h5, h6⟩, Or.inl rfl⟩)
  have := isXsDate_shape lim h1 h2 h3 h5 h6 [] hm
  rw [List.append_nil] at this
  rw [fits_tooLong hf (n := yearDigits ys) (by have := yearDigits_le ys; simp; omega)] at this
  refine ⟨_, by simpa using this, ?_⟩
  rw [decide_eq_true_iff]
  constructor
  · intro hex; exact ⟨ys, y, ms, m, ds, n, rfl, h1, h2, h3, hex⟩
  · intro hp
    by_cases hex : DateExists y m n
    · exact hex
    · exact absurd (plain_of_noZone ⟨_, [], by simp, hp, Or.inl rfl⟩ y ys h1 ms ds m n h2 h3 rfl hex) id

theorem dateTimeWith_spec (re : Re) (Z : Str → Prop) (hZ : ∀ tz, Z tz → 84 ∉ tz)
    (hre : ∀ s, Matches re s ↔ ∃ d t tz y m n, s = d ++ 84 :: t ++ tz ∧ DateShape d y m n ∧ TimeOfDay t ∧ Z tz)
    (lim : Option Nat) (s : Str) (hf : Fits lim s) :
    ∃ b, dateTimeWith re lim s = .ok b ∧
      (b = true ↔ OrLineFeed (fun s => ∃ d t tz, s = d ++ 84 :: t ++ tz ∧ PlainDate d ∧ TimeOfDay t ∧ Z tz) s) := by
  -- the text in front of the first T is determined
  have first : ∀ (d x d' x' : Str), 84 ∉ d → 84 ∉ d' → d ++ 84 :: x = d' ++ 84 :: x' → d = d' := by
    intro d
    induction d with
    | nil =>
      intro x d' x' _ h2 e
      cases d' with
      | nil => rfl
      | cons c d' => simp at e; exact absurd (by simp [e.1]) h2
    | cons c d ih =>
      intro x d' x' h1 h2 e
      cases d' with
      | nil => simp at e; exact absurd (by simp [e.1]) h1
      | cons c' d' =>
        simp at e
        rw [e.1, ih x d' x' (fun h => h1 (List.mem_cons_of_mem _ h)) (fun h => h2 (List.mem_cons_of_mem _ h)) e.2]
  have plain_T : ∀ d, PlainDate d → 84 ∉ d := by
    intro d h
    exact plain_ne h foreign_84
  rw [dateTimeWith]
  by_cases hm : anchoredMatch re s = true
  · rw [hm]
    simp only [Bool.not_true, Bool.false_eq_true, if_false]
    obtain ⟨d, t, tz, nl, y, m, n, e, hnl, hd, ht, htz⟩ : ∃ d t tz nl y m n, s = d ++ 84 :: t ++ tz ++ nl ∧
        (nl = [] ∨ nl = [10]) ∧ DateShape d y m n ∧ TimeOfDay t ∧ Z tz := by
      rcases (anchoredMatch_iff _ _).mp hm with h | ⟨u, rfl, h⟩
      · obtain ⟨d, t, tz, y, m, n, e, h⟩ := (hre _).mp h
        exact ⟨d, t, tz, [], y, m, n, by simpa using e, Or.inl rfl, h⟩
      · obtain ⟨d, t, tz, y, m, n, e, h⟩ := (hre _).mp h
        exact ⟨d, t, tz, [10], y, m, n, by rw [e], Or.inr rfl, h⟩
    have hdT : 84 ∉ d := by
      obtain ⟨ys, ms, ds, rfl, h1, h2, h3, _⟩ := hd
      simp [year_ne h1 foreign_84, two_ne h2 foreign_84, two_ne h3 foreign_84]
    have hrest : 84 ∉ t ++ tz ++ nl := by
      have : 84 ∉ nl := by rcases hnl with rfl | rfl <;> simp
      simp [time_ne ht foreign_84, hZ tz htz, this]
    have hparts : Parts 84 s [d, t ++ tz ++ nl] := by
      refine ⟨by simp, ?_, ?_⟩
      · intro x hx
        simp only [List.mem_cons, List.not_mem_nil, or_false] at hx
        rcases hx with rfl | rfl
        · exact hdT
        · exact hrest
      · rw [e]; simp [Py.join]
    rw [Verif.Config.parts_unique _ _ _ _ (Verif.Config.splitOn_parts 84 s) hparts]
    simp only
    obtain ⟨b, hb, hiff⟩ := isXsDate_plain lim hd (by
      intro l hl; have := hf l hl; rw [e] at this; simp at this; omega)
    refine ⟨b, hb, ?_⟩
    rw [hiff]
    constructor
    · intro hp
      rcases hnl with rfl | rfl
      · exact Or.inl ⟨d, t, tz, by simpa using e, hp, ht, htz⟩
      · exact Or.inr ⟨_, e, d, t, tz, rfl, hp, ht, htz⟩
    · rintro (⟨d', t', tz', e', hp, _⟩ | ⟨u, e', d', t', tz', rfl, hp, _⟩)
      · have : d = d' := first d (t ++ tz ++ nl) d' (t' ++ tz') hdT (plain_T _ hp) (by
          rw [e] at e'; simpa using e')
        rw [this]; exact hp
      · have : d = d' := first d (t ++ tz ++ nl) d' (t' ++ tz' ++ [10]) hdT (plain_T _ hp) (by
          rw [e] at e'; simpa using e')
        rw [this]; exact hp
  · have hm' : anchoredMatch re s = false := by simpa using hm
    rw [hm']
    refine ⟨false, rfl, ?_⟩
    simp only [Bool.false_eq_true, false_iff]
    intro hd
    apply hm
    rw [anchoredMatch_iff]
    have key : ∀ d t tz, PlainDate d → TimeOfDay t → Z tz → Matches re (d ++ 84 :: t ++ tz) := by
      intro d t tz hp ht htz
      obtain ⟨ys, y, ms, m, ds, n, e, h1, h2, h3, _, h5, h6⟩ := plainDate_shape hp
      exact (hre _).mpr ⟨d, t, tz, y, m, n, rfl, ⟨ys, ms, ds, e, h1, h2, h3, h5, h6⟩, ht, htz⟩
    rcases hd with ⟨d, t, tz, rfl, hp, ht, htz⟩ | ⟨u, rfl, d, t, tz, rfl, hp, ht, htz⟩
    · exact Or.inl (key d t tz hp ht htz)
    · exact Or.inr ⟨_, rfl, key d t tz hp ht htz⟩

/-- C20: `is_xs_date_time` accepts exactly the valid dateTimes (and tolerates one final line feed). -/
theorem C20_date_time_partial (lim : Option Nat) (s : Str) (h : Fits lim s) :
    ∃ b, isXsDateTime lim s = .ok b ∧ (b = true ↔ OrLineFeed DateTimeText s) :=
  dateTimeWith_spec dateTimeRe OptTimeZone (fun _ h => tz_ne h foreign_84) m_dateTimeRe lim s h

/-- C20: `is_xs_date_time_utc` accepts exactly the valid UTC dateTimes (and tolerates one final line
feed). -/
theorem C20_date_time_utc_partial (lim : Option Nat) (s : Str) (h : Fits lim s) :
    ∃ b, isXsDateTimeUtc lim s = .ok b ∧ (b = true ↔ OrLineFeed DateTimeUtcText s) :=
  dateTimeWith_spec dateTimeUtcRe UtcZone (fun _ h => tz_ne (utc_tz h) foreign_84) m_dateTimeUtcRe lim s h

/-- C20: every UTC dateTime is a dateTime. -/
theorem C20_utc_is_date_time (s : Str) (h : DateTimeUtcText s) : DateTimeText s := by
  obtain ⟨d, t, tz, e, h1, h2, h3⟩ := h
  exact ⟨d, t, tz, e, h1, h2, utc_tz h3⟩

/-- "2024-02-29T00:00:00Z\n" is no dateTime but is accepted. -/
theorem C20_line_feed_violated : ∃ s, isXsDateTime none s = .ok true ∧ ¬ DateTimeText s :=
  ⟨py!"2024-02-29T00:00:00Z" ++ [10], by decide +kernel, dateTime_no_line_feed⟩

/-! ## partial dates, times, durations -/

/-- C21: gYear -/
theorem C21_gYear (lim : Option Nat) (s : Str) : validate lim .gYear s = .ok true ↔ GYearText s := by
  rw [← m_gYearRe, ← fullmatch_iff]; simp [validate]
/-- C21: gYearMonth -/
theorem C21_gYearMonth (lim : Option Nat) (s : Str) : validate lim .gYearMonth s = .ok true ↔ GYearMonthText s := by
  rw [← m_gYearMonthRe, ← fullmatch_iff]; simp [validate]
/-- C21: gMonth -/
theorem C21_gMonth (lim : Option Nat) (s : Str) : validate lim .gMonth s = .ok true ↔ GMonthText s := by
  rw [← m_gMonthRe, ← fullmatch_iff]; simp [validate]
/-- C21: gDay -/
theorem C21_gDay (lim : Option Nat) (s : Str) : validate lim .gDay s = .ok true ↔ GDayText s := by
  rw [← m_gDayRe, ← fullmatch_iff]; simp [validate]
/-- C21: time -/
theorem C21_time (lim : Option Nat) (s : Str) : validate lim .time s = .ok true ↔ TimeText s := by
  rw [← m_timeRe, ← fullmatch_iff]; simp [validate]

/-- C21: gMonthDay (tolerates one final line feed); `lim` is at least 2 in every interpreter. -/
theorem C21_gMonthDay_partial (lim : Option Nat) (s : Str) (hl : ∀ l, lim = some l → 2 ≤ l) :
    ∃ b, validate lim .gMonthDay s = .ok b ∧ (b = true ↔ OrLineFeed GMonthDayText s) := by
  have h2 : tooLong lim 2 = false := by
    cases lim with
    | none => rfl
    | some l => have := hl l rfl; simp [tooLong]; omega
  have days : ∀ m : Nat, 1 ≤ m → m ≤ 12 → daysInMonth m = some (monthLength 2000 m : Int) := by
    intro m h1 h2
    by_cases e : m = 2
    · subst e; decide
    · exact monthLength_days 2000 m h1 h2 e
  show ∃ b, isXsGMonthDay lim s = .ok b ∧ _
  rw [isXsGMonthDay]
  by_cases hm : anchoredMatch gMonthDayRe s = true
  · rw [hm]
    simp only [Bool.not_true, Bool.false_eq_true, if_false]
    obtain ⟨ms, m, ds, d, tz, nl, e, hnl, h1, h2', h3, h4, h5⟩ : ∃ ms m ds d tz nl,
        s = py!"--" ++ ms ++ 45 :: ds ++ tz ++ nl ∧ (nl = [] ∨ nl = [10]) ∧ TwoDigit ms m ∧ TwoDigit ds d ∧
        (1 ≤ m ∧ m ≤ 12) ∧ (1 ≤ d ∧ d ≤ 31) ∧ OptTimeZone tz := by
      rcases (anchoredMatch_iff _ _).mp hm with h | ⟨u, rfl, h⟩
      · obtain ⟨ms, m, ds, d, tz, e, h⟩ := (m_gMonthDayRe _).mp h
        exact ⟨ms, m, ds, d, tz, [], by simpa using e, Or.inl rfl, h⟩
      · obtain ⟨ms, m, ds, d, tz, e, h⟩ := (m_gMonthDayRe _).mp h
        exact ⟨ms, m, ds, d, tz, [10], by rw [e], Or.inr rfl, h⟩
    obtain ⟨a, b, rfl, ha, hb, hab⟩ := (twoDigit_iff _ _).mp h1
    obtain ⟨a', b', rfl, ha', hb', hab'⟩ := (twoDigit_iff _ _).mp h2'
    have e1 : (s.drop 2).take 2 = [a, b] := by rw [e]; simp
    have e2 : (s.drop 5).take 2 = [a', b'] := by rw [e]; simp
    rw [e1, e2, intE_two lim h1 h2, intE_two lim h2' h2]
    simp only [bind, Except.bind, days m h3.1 h3.2, pure, Except.pure]
    refine ⟨_, rfl, ?_⟩
    rw [decide_eq_true_iff]
    constructor
    · intro hle
      have hex : DateExists 2000 m d := ⟨by decide, h3.1, h3.2, h4.1, by omega⟩
      rcases hnl with rfl | rfl
      · exact Or.inl ⟨_, m, _, d, tz, by simpa using e, h1, h2', hex, h5⟩
      · exact Or.inr ⟨_, e, _, m, _, d, tz, rfl, h1, h2', hex, h5⟩
    · have fin : ∀ ms' m' ds' d' x, s = py!"--" ++ ms' ++ 45 :: ds' ++ x → TwoDigit ms' m' → TwoDigit ds' d' →
          DateExists 2000 m' d' → (d : Int) ≤ monthLength 2000 m := by
        intro ms' m' ds' d' x e' g1 g2 hex
        obtain ⟨c, c', rfl, _, _, hcc⟩ := (twoDigit_iff _ _).mp g1
        obtain ⟨f, f', rfl, _, _, hff⟩ := (twoDigit_iff _ _).mp g2
        rw [e] at e'
        simp at e'
        obtain ⟨rfl, rfl, rfl, rfl, _⟩ := e'
        obtain rfl : m = m' := by rw [hab, hcc]
        obtain rfl : d = d' := by rw [hab', hff]
        have := hex.2.2.2.2
        omega
      rintro (⟨ms', m', ds', d', tz', e', g1, g2, hex, _⟩ | ⟨u, e', ms', m', ds', d', tz', rfl, g1, g2, hex, _⟩)
      · exact fin _ _ _ _ tz' e' g1 g2 hex
      · exact fin _ _ _ _ (tz' ++ [10]) (by rw [e']; simp) g1 g2 hex
  · have hm' : anchoredMatch gMonthDayRe s = false := by simpa using hm
    rw [hm']
    refine ⟨false, rfl, ?_⟩
    simp only [Bool.false_eq_true, false_iff]
    intro hd
    apply hm
    rw [anchoredMatch_iff]
    have le31 : ∀ m, monthLength 2000 m ≤ 31 := by
      intro m; unfold monthLength; split
      · split <;> omega
      · split <;> omega
    rcases hd with ⟨ms, m, ds, d, tz, rfl, h1, h2, hex, h5⟩ | ⟨u, rfl, ms, m, ds, d, tz, rfl, h1, h2, hex, h5⟩
    · exact Or.inl ((m_gMonthDayRe _).mpr ⟨ms, m, ds, d, tz, rfl, h1, h2, ⟨hex.2.1, hex.2.2.1⟩,
        ⟨hex.2.2.2.1, Nat.le_trans hex.2.2.2.2 (le31 m)⟩, h5⟩)
    · exact Or.inr ⟨_, rfl, (m_gMonthDayRe _).mpr ⟨ms, m, ds, d, tz, rfl, h1, h2, ⟨hex.2.1, hex.2.2.1⟩,
        ⟨hex.2.2.2.1, Nat.le_trans hex.2.2.2.2 (le31 m)⟩, h5⟩⟩

/-- "--02-29\n" is accepted as gMonthDay although it is none. -/
theorem C21_line_feed_violated : ∃ s, validate none .gMonthDay s = .ok true ∧ ¬ GMonthDayText s := by
  refine ⟨py!"--02-29" ++ [10], by decide +kernel, ?_⟩
  rintro ⟨ms, m, ds, d, tz, e, h1, h2, _, htz⟩
  obtain ⟨a, b, rfl, _, _, _⟩ := (twoDigit_iff _ _).mp h1
  obtain ⟨a', b', rfl, _, _, _⟩ := (twoDigit_iff _ _).mp h2
  simp at e
  obtain ⟨_, _, _, _, rfl⟩ := e
  rcases htz with h | h | ⟨sign, hh, h', mm, m', e, hs, _⟩
  · cases h
  · cases h
  · simp at e

/-- C22: xs:duration accepts exactly the XSD lexical form. -/
theorem C22_duration (lim : Option Nat) (s : Str) : validate lim .duration s = .ok true ↔ DurationText s := by
  rw [← m_durationRe, ← fullmatch_iff]; simp [validate]

/-! ## concrete cases -/

example : isXsDate none py!"-0001-02-29+14:00" = .ok true := by decide +kernel
example : isXsDate (some 4300) py!"1900-02-29" = .ok false := by decide +kernel
example : isXsDate (some 4300) py!"12345-12-31Z" = .ok true := by decide +kernel
example : Fits (some 4300) py!"12345-12-31Z" := by intro l h; injection h with h; subst h; decide
example : DateText py!"2024-02-29" := by
  refine ⟨_, [], (List.append_nil _).symm, ⟨py!"2024", 2024, py!"02", 2, py!"29", 29, rfl, Or.inl ⟨2024, ?_, rfl⟩, ?_, ?_, ?_⟩, Or.inl rfl⟩
  · exact ⟨⟨by simp, by simp [IsDigit]⟩, by decide, by decide, by decide⟩
  · exact ⟨⟨by simp, by simp [IsDigit]⟩, by decide, by decide⟩
  · exact ⟨⟨by simp, by simp [IsDigit]⟩, by decide, by decide⟩
  · decide
example : isLeapYear (-1) = true ∧ isLeapYear 1900 = false ∧ isLeapYear 2000 = true ∧ isLeapYear (-5) = true := by decide
example : isXsDateTime none py!"2024-02-29T24:00:00.000-13:59" = .ok true := by decide +kernel
example : isXsDateTimeUtc none py!"2024-02-29T23:59:59.5+00:00" = .ok true := by decide +kernel
example : isXsDateTimeUtc none py!"2024-02-29T23:59:59.5+01:00" = .ok false := by decide +kernel
example : validate none .gMonthDay py!"--04-31" = .ok false := by decide +kernel
example : validate none .gYear py!"-0000" = .ok true := by decide +kernel
example : validate none .duration py!"-P1Y2M3DT4H5M6.7S" = .ok true := by decide +kernel
example : validate none .duration py!"P1YT" = .ok false := by decide +kernel

end Verif.Props
