import Verif.Spec.Unicode
import Verif.ValueLemmas
import Verif.Props.Numbers
import Verif.Props.Text
import Verif.Props.Strings

/-! # C82: exactly which texts the value types accept, and which raise -/

namespace Verif.Props
open Verif Re Spec DataTypes

theorem tooLong_iff (lim : Option Nat) (k : Nat) : tooLong lim k = true ↔ TooLong lim k := by
  cases lim with
  | none => simp [tooLong, TooLong]
  | some l => simp [tooLong, TooLong]

theorem tooLong_none (k : Nat) : ¬ TooLong none k := by rintro ⟨l, h, _⟩; cases h

theorem yearLength_eq {ys : Str} {y : Int} (h : SignedYear ys y) : yearLength ys = yearDigits ys := by
  have key : ∀ {u : Str}, Numeral u → u.filter (· ≠ 45) = u := by
    intro u hu
    rw [List.filter_eq_self]
    intro c hc
    have := hu.2 c hc
    unfold IsDigit at this
    simp; omega
  rcases h with ⟨n, hn, _⟩ | ⟨u, n, rfl, hn, _⟩
  · rw [yearLength, key hn.1]
    cases ys with
    | nil => rfl
    | cons c ys =>
      have := hn.1.2 c (by simp)
      unfold IsDigit at this
      rw [yearDigits, if_neg (by omega)]; rfl
  · rw [yearLength, yearDigits, if_pos rfl, List.filter_cons, if_neg (by simp), key hn.1]

/-- the shape of a date, with its year -/
theorem dateForm_shape {t : Str} {k : Nat} (h : DateForm t k) : ∃ ys y ms m ds d, t = ys ++ 45 :: ms ++ 45 :: ds ∧
    SignedYear ys y ∧ TwoDigit ms m ∧ TwoDigit ds d ∧ (1 ≤ m ∧ m ≤ 12) ∧ (1 ≤ d ∧ d ≤ 31) ∧ k = yearDigits ys := by
  obtain ⟨ys, y, ms, m, ds, d, rfl, h1, h2, h3, h4, h5, h6, h7, rfl⟩ := h
  exact ⟨ys, y, ms, m, ds, d, rfl, h1, h2, h3, ⟨h4, h5⟩, ⟨h6, h7⟩, yearLength_eq h1⟩

theorem isXsDate_long {lim : Option Nat} {s : Str} (h : LongDate lim s) : isXsDate lim s = .error .valueError := by
  obtain ⟨t, tz, nl, k, e, hnl, hf, htz, hl⟩ : ∃ t tz nl k, s = t ++ tz ++ nl ∧ (nl = [] ∨ nl = [10]) ∧ DateForm t k ∧
      OptTimeZone tz ∧ TooLong lim k := by
    rcases h with ⟨t, tz, k, rfl, h⟩ | ⟨u, rfl, t, tz, k, rfl, h⟩
    · exact ⟨t, tz, [], k, by simp, Or.inl rfl, h⟩
    · exact ⟨t, tz, [10], k, rfl, Or.inr rfl, h⟩
  obtain ⟨ys, y, ms, m, ds, d, rfl, h1, h2, h3, h4, h5, rfl⟩ := dateForm_shape hf
  have hm : anchoredMatch dateRe s = true := by
    have : Matches dateRe ((ys ++ 45 :: ms ++ 45 :: ds) ++ tz) :=
      (m_dateRe _).mpr ⟨_, tz, y, m, d, rfl, ⟨ys, ms, ds, rfl, h1, h2, h3, h4, h5⟩, htz⟩
    rw [anchoredMatch_iff, e]
    rcases hnl with rfl | rfl
    · left; rw [List.append_nil]; exact this
    · right; exact ⟨_, rfl, this⟩
  have e' : s = ys ++ 45 :: ms ++ 45 :: ds ++ (tz ++ nl) := by rw [e]; simp
  have := isXsDate_shape lim h1 h2 h3 h4 h5 (tz ++ nl) (e' ▸ hm)
  rw [← e', if_pos ((tooLong_iff _ _).mpr hl)] at this
  exact this

theorem isXsDate_short {lim : Option Nat} {s : Str} (h : ¬ LongDate lim s) : isXsDate lim s = isXsDate none s := by
  by_cases hm : anchoredMatch dateRe s = true
  · obtain ⟨t, tz, nl, y, m, d, e, hnl, hs, htz⟩ : ∃ t tz nl y m d, s = t ++ tz ++ nl ∧ (nl = [] ∨ nl = [10]) ∧
        DateShape t y m d ∧ OptTimeZone tz := by
      rcases (anchoredMatch_iff _ _).mp hm with h | ⟨u, e, h⟩
      · obtain ⟨t, tz, y, m, d, e, hs, htz⟩ := (m_dateRe _).mp h
        exact ⟨t, tz, [], y, m, d, by rw [e]; simp, Or.inl rfl, hs, htz⟩
      · obtain ⟨t, tz, y, m, d, e', hs, htz⟩ := (m_dateRe _).mp h
        exact ⟨t, tz, [10], y, m, d, by rw [e, e'], Or.inr rfl, hs, htz⟩
    obtain ⟨ys, ms, ds, rfl, h1, h2, h3, h5, h6⟩ := hs
    have e' : s = ys ++ 45 :: ms ++ 45 :: ds ++ (tz ++ nl) := by rw [e]; simp
    have hl : ¬ tooLong lim (yearDigits ys) = true := by
      intro hl
      apply h
      have hlong : ∃ t' tz' k, (ys ++ 45 :: ms ++ 45 :: ds) ++ tz = t' ++ tz' ∧ DateForm t' k ∧ OptTimeZone tz' ∧ TooLong lim k :=
        ⟨_, tz, _, rfl, ⟨ys, y, ms, m, ds, d, rfl, h1, h2, h3, h5.1, h5.2, h6.1, h6.2, rfl⟩, htz,
          by rw [yearLength_eq h1]; exact (tooLong_iff _ _).mp hl⟩
      rcases hnl with rfl | rfl
      · left; rw [e, List.append_nil]; exact hlong
      · right; exact ⟨_, e, hlong⟩
    have v1 := isXsDate_shape lim h1 h2 h3 h5 h6 (tz ++ nl) (e' ▸ hm)
    have v2 := isXsDate_shape none h1 h2 h3 h5 h6 (tz ++ nl) (e' ▸ hm)
    rw [if_neg hl] at v1
    rw [if_neg (by simp [tooLong])] at v2
    rw [e', v1, v2]
  · have hm' : anchoredMatch dateRe s = false := by simpa using hm
    rw [isXsDate_noMatch lim hm', isXsDate_noMatch none hm']

/-- the part in front of the `T` decides -/
theorem dateTimeWith_date {re : Re} {Z : Str → Prop} (hZ : ∀ tz, Z tz → 84 ∉ tz)
    (hre : ∀ s, Matches re s ↔ ∃ d t tz y m n, s = d ++ 84 :: t ++ tz ∧ DateShape d y m n ∧ TimeOfDay t ∧ Z tz)
    {d t tz nl : Str} {y : Int} {m n : Nat} (hnl : nl = [] ∨ nl = [10]) (hd : DateShape d y m n) (ht : TimeOfDay t) (htz : Z tz)
    (lim : Option Nat) : dateTimeWith re lim (d ++ 84 :: t ++ tz ++ nl) = isXsDate lim d := by
  have hm : anchoredMatch re (d ++ 84 :: t ++ tz ++ nl) = true := by
    have : Matches re (d ++ 84 :: t ++ tz) := (hre _).mpr ⟨d, t, tz, y, m, n, rfl, hd, ht, htz⟩
    rw [anchoredMatch_iff]
    rcases hnl with rfl | rfl
    · left; rw [List.append_nil]; exact this
    · right; exact ⟨_, rfl, this⟩
  have hdT : 84 ∉ d := by
    obtain ⟨ys, ms, ds, rfl, h1, h2, h3, _⟩ := hd
    simp [year_ne h1 foreign_84, two_ne h2 foreign_84, two_ne h3 foreign_84]
  have hrest : 84 ∉ t ++ tz ++ nl := by
    have : 84 ∉ nl := by rcases hnl with rfl | rfl <;> simp
    simp [time_ne ht foreign_84, hZ tz htz, this]
  have hparts : Parts 84 (d ++ 84 :: t ++ tz ++ nl) [d, t ++ tz ++ nl] := by
    refine ⟨by simp, ?_, ?_⟩
    · intro x hx
      simp only [List.mem_cons, List.not_mem_nil, or_false] at hx
      rcases hx with rfl | rfl
      · exact hdT
      · exact hrest
    · simp [Py.join]
  rw [dateTimeWith, hm]
  simp only [Bool.not_true, Bool.false_eq_true, if_false]
  rw [Verif.Config.parts_unique _ _ _ _ (Verif.Config.splitOn_parts 84 _) hparts]

theorem dateTimeWith_long {re : Re} {Z : Str → Prop} (hZ : ∀ tz, Z tz → 84 ∉ tz)
    (hre : ∀ s, Matches re s ↔ ∃ d t tz y m n, s = d ++ 84 :: t ++ tz ∧ DateShape d y m n ∧ TimeOfDay t ∧ Z tz)
    {lim : Option Nat} {s : Str} (h : LongDateTime Z lim s) : dateTimeWith re lim s = .error .valueError := by
  obtain ⟨d, t, tz, nl, k, e, hnl, hf, ht, htz, hl⟩ : ∃ d t tz nl k, s = d ++ 84 :: t ++ tz ++ nl ∧ (nl = [] ∨ nl = [10]) ∧
      DateForm d k ∧ TimeOfDay t ∧ Z tz ∧ TooLong lim k := by
    rcases h with ⟨d, t, tz, k, rfl, h⟩ | ⟨u, rfl, d, t, tz, k, rfl, h⟩
    · exact ⟨d, t, tz, [], k, by simp, Or.inl rfl, h⟩
    · exact ⟨d, t, tz, [10], k, rfl, Or.inr rfl, h⟩
  have hf' := hf
  obtain ⟨ys, y, ms, m, ds, n, rfl, h1, h2, h3, h4, h5, rfl⟩ := dateForm_shape hf'
  rw [e, dateTimeWith_date hZ hre hnl ⟨ys, ms, ds, rfl, h1, h2, h3, h4, h5⟩ ht htz]
  exact isXsDate_long (Or.inl ⟨_, [], _, by simp, hf, Or.inl rfl, hl⟩)

theorem dateTimeWith_short {re : Re} {Z : Str → Prop} (hZ : ∀ tz, Z tz → 84 ∉ tz)
    (hre : ∀ s, Matches re s ↔ ∃ d t tz y m n, s = d ++ 84 :: t ++ tz ∧ DateShape d y m n ∧ TimeOfDay t ∧ Z tz)
    {lim : Option Nat} {s : Str} (h : ¬ LongDateTime Z lim s) : dateTimeWith re lim s = dateTimeWith re none s := by
  by_cases hm : anchoredMatch re s = true
  · obtain ⟨d, t, tz, nl, y, m, n, e, hnl, hd, ht, htz⟩ : ∃ d t tz nl y m n, s = d ++ 84 :: t ++ tz ++ nl ∧
        (nl = [] ∨ nl = [10]) ∧ DateShape d y m n ∧ TimeOfDay t ∧ Z tz := by
      rcases (anchoredMatch_iff _ _).mp hm with hr | ⟨u, rfl, hr⟩
      · obtain ⟨d, t, tz, y, m, n, e, hx⟩ := (hre _).mp hr
        exact ⟨d, t, tz, [], y, m, n, by simpa using e, Or.inl rfl, hx⟩
      · obtain ⟨d, t, tz, y, m, n, e, hx⟩ := (hre _).mp hr
        exact ⟨d, t, tz, [10], y, m, n, by rw [e], Or.inr rfl, hx⟩
    rw [e, dateTimeWith_date hZ hre hnl hd ht htz, dateTimeWith_date hZ hre hnl hd ht htz]
    obtain ⟨ys, ms, ds, rfl, h1, h2, h3, h5, h6⟩ := hd
    have hl : ¬ tooLong lim (yearDigits ys) = true := by
      intro hl
      apply h
      have hlong : ∃ d' t' tz' k, (ys ++ 45 :: ms ++ 45 :: ds) ++ 84 :: t ++ tz = d' ++ 84 :: t' ++ tz' ∧ DateForm d' k ∧
          TimeOfDay t' ∧ Z tz' ∧ TooLong lim k :=
        ⟨_, t, tz, _, rfl, ⟨ys, y, ms, m, ds, n, rfl, h1, h2, h3, h5.1, h5.2, h6.1, h6.2, rfl⟩, ht, htz,
          by rw [yearLength_eq h1]; exact (tooLong_iff _ _).mp hl⟩
      rcases hnl with rfl | rfl
      · left; rw [e, List.append_nil]; exact hlong
      · right; exact ⟨_, e, hlong⟩
    have hmd : anchoredMatch dateRe (ys ++ 45 :: ms ++ 45 :: ds ++ []) = true := by
      rw [anchoredMatch_iff]
      exact Or.inl ((m_dateRe _).mpr ⟨_, [], y, m, n, rfl, ⟨ys, ms, ds, rfl, h1, h2, h3, h5, h6⟩, Or.inl rfl⟩)
    have v1 := isXsDate_shape lim h1 h2 h3 h5 h6 [] hmd
    have v2 := isXsDate_shape none h1 h2 h3 h5 h6 [] hmd
    rw [if_neg hl, List.append_nil] at v1
    rw [if_neg (by simp [tooLong]), List.append_nil] at v2
    rw [v1, v2]
  · have hm' : anchoredMatch re s = false := by simpa using hm
    rw [dateTimeWith, dateTimeWith, hm']; rfl

theorem gMonthDay_long {lim : Option Nat} {s : Str} (h : LongMonthDay lim s) :
    isXsGMonthDay lim s = .error .valueError := by
  obtain ⟨ms, m, ds, d, tz, nl, e, hnl, h1, h2, h3, h4, h5, hl⟩ : ∃ ms m ds d tz nl,
      s = py!"--" ++ ms ++ 45 :: ds ++ tz ++ nl ∧ (nl = [] ∨ nl = [10]) ∧ TwoDigit ms m ∧ TwoDigit ds d ∧
      (1 ≤ m ∧ m ≤ 12) ∧ (1 ≤ d ∧ d ≤ 31) ∧ OptTimeZone tz ∧ TooLong lim 2 := by
    rcases h with ⟨ms, m, ds, d, tz, rfl, h⟩ | ⟨u, rfl, ms, m, ds, d, tz, rfl, h⟩
    · exact ⟨ms, m, ds, d, tz, [], by simp, Or.inl rfl, h⟩
    · exact ⟨ms, m, ds, d, tz, [10], rfl, Or.inr rfl, h⟩
  have hm : anchoredMatch gMonthDayRe s = true := by
    have : Matches gMonthDayRe (py!"--" ++ ms ++ 45 :: ds ++ tz) :=
      (m_gMonthDayRe _).mpr ⟨ms, m, ds, d, tz, rfl, h1, h2, h3, h4, h5⟩
    rw [anchoredMatch_iff, e]
    rcases hnl with rfl | rfl
    · left; rw [List.append_nil]; exact this
    · right; exact ⟨_, rfl, this⟩
  obtain ⟨a, b, rfl, -⟩ := (twoDigit_iff _ _).mp h1
  have e1 : (s.drop 2).take 2 = [a, b] := by rw [e]; simp
  rw [isXsGMonthDay, hm]
  simp only [Bool.not_true, Bool.false_eq_true, if_false]
  rw [e1, intE, pyInt_numeral lim h1.1, h1.2.1, (tooLong_iff _ _).mpr hl]
  rfl

theorem gMonthDay_short {lim : Option Nat} {s : Str} (h : ¬ LongMonthDay lim s) :
    ∃ b, isXsGMonthDay lim s = .ok b ∧ (b = true ↔ OrLineFeed GMonthDayText s) := by
  by_cases hl : TooLong lim 2
  · have hm : anchoredMatch gMonthDayRe s = false := by
      rw [Bool.eq_false_iff]
      intro hm
      apply h
      rcases (anchoredMatch_iff _ _).mp hm with hr | ⟨u, rfl, hr⟩
      · obtain ⟨ms, m, ds, d, tz, e, h1, h2, h3, h4, h5⟩ := (m_gMonthDayRe _).mp hr
        exact Or.inl ⟨ms, m, ds, d, tz, e, h1, h2, h3, h4, h5, hl⟩
      · obtain ⟨ms, m, ds, d, tz, e, h1, h2, h3, h4, h5⟩ := (m_gMonthDayRe _).mp hr
        exact Or.inr ⟨_, rfl, ms, m, ds, d, tz, e, h1, h2, h3, h4, h5, hl⟩
    obtain ⟨b, hb, hi⟩ := C21_gMonthDay_partial none s (by simp)
    have hb' : isXsGMonthDay none s = .ok b := hb
    rw [isXsGMonthDay, hm] at hb' ⊢
    exact ⟨b, hb', hi⟩
  · exact C21_gMonthDay_partial lim s (fun l h => by
      apply Classical.byContradiction
      intro h2
      exact hl ⟨l, h, by omega⟩)

theorem ok_true_iff {x : Except PyExc Bool} {P : Prop} (h : ∃ b, x = .ok b ∧ (b = true ↔ P)) : x = .ok true ↔ P := by
  obtain ⟨b, rfl, h⟩ := h
  rw [← h]
  simp

theorem int_accepted {lim : Option Nat} {t : Xsd} {r : Option Int × Option Int} (ht : integerRange t.name = some r) (s : Str) :
    validate lim t s = .ok true ↔ IntegerIn digitVal numSpace lim r s := by
  rw [C17_accepted_partial lim t r ht]
  unfold IntegerIn TooLong
  constructor
  · rintro ⟨n, k, h1, h2, h3⟩
    exact ⟨n, k, h1, (by rintro ⟨l, hl, hk⟩; have := h2 l hl; omega), h3⟩
  · rintro ⟨n, k, h1, h2, h3⟩
    refine ⟨n, k, h1, ?_, h3⟩
    intro l hl
    apply Classical.byContradiction
    intro hk
    exact h2 ⟨l, hl, by omega⟩

/-- C82: for each of the 30 value types and any text: the check accepts exactly the texts of the specification. -/
theorem C82_accepted (lim : Option Nat) (t : Xsd) (s : Str) : validate lim t s = .ok true ↔ Accepted lim t s := by
  cases t
  case string => exact ⟨fun _ => trivial, fun _ => rfl⟩
  case boolean => exact C24_boolean lim s
  case decimal =>
    show Except.ok (isDecimal s) = _ ↔ _
    rw [Except.ok.injEq]; exact isDecimal_iff s
  case float =>
    show Except.ok (isFloat s) = _ ↔ _
    rw [Except.ok.injEq, isFloat, floatBound_units, isBoundedDouble_iff]
    refine or_congr Iff.rfl (exists_congr fun D => exists_congr fun e => and_congr_right fun _ => ?_)
    exact rounds_float (fraction_pos D e) (toDouble_rounds _ _ (fraction_pos D e))
  case double =>
    show Except.ok (isDouble s) = _ ↔ _
    rw [Except.ok.injEq, isDouble, doubleBound_units, isBoundedDouble_iff]
    refine or_congr Iff.rfl (exists_congr fun D => exists_congr fun e => and_congr_right fun _ => ?_)
    exact rounds_double (fraction_pos D e) (toDouble_rounds _ _ (fraction_pos D e))
  case date =>
    show isXsDate lim s = _ ↔ OrLineFeed DateText s ∧ ¬ LongDate lim s
    by_cases h : LongDate lim s
    · rw [isXsDate_long h]; simp [h]
    · rw [isXsDate_short h, ok_true_iff (C18_date_partial none s (by intro l hl; cases hl))]; simp [h]
  case dateTime =>
    show isXsDateTime lim s = _ ↔ OrLineFeed DateTimeText s ∧ ¬ LongDateTime OptTimeZone lim s
    by_cases h : LongDateTime OptTimeZone lim s
    · rw [isXsDateTime, dateTimeWith_long (fun _ h => tz_ne h foreign_84) m_dateTimeRe h]; simp [h]
    · rw [isXsDateTime, dateTimeWith_short (fun _ h => tz_ne h foreign_84) m_dateTimeRe h]
      have := ok_true_iff (C20_date_time_partial none s (by intro l hl; cases hl))
      rw [isXsDateTime] at this
      rw [this]; simp [h]
  case gMonthDay =>
    show isXsGMonthDay lim s = _ ↔ OrLineFeed GMonthDayText s ∧ ¬ LongMonthDay lim s
    by_cases h : LongMonthDay lim s
    · rw [gMonthDay_long h]; simp [h]
    · rw [ok_true_iff (gMonthDay_short h)]; simp [h]
  case gYearMonth => exact C21_gYearMonth lim s
  case gDay => exact C21_gDay lim s
  case gMonth => exact C21_gMonth lim s
  case gYear => exact C21_gYear lim s
  case time => exact C21_time lim s
  case duration => exact C22_duration lim s
  case anyURI =>
    show Except.ok (isAnyUri s) = _ ↔ _
    rw [Except.ok.injEq]; exact C25_any_uri_partial s
  case base64Binary => exact C23_base64 lim s
  case hexBinary => exact C23_hex lim s
  all_goals exact int_accepted (by decide) s

/-- C82: for each of the 30 value types and any text: the check raises exactly for dates whose years have more digits than the
interpreter converts to an integer. -/
theorem C82_fails (lim : Option Nat) (t : Xsd) (s : Str) (e : PyExc) :
    validate lim t s = .error e ↔ e = .valueError ∧ ValueFails lim t s := by
  have key : (∃ b, validate lim t s = .ok b) ∧ ¬ ValueFails lim t s ∨ validate lim t s = .error .valueError ∧ ValueFails lim t s := by
    cases t
    case date =>
      by_cases h : LongDate lim s
      · exact Or.inr ⟨isXsDate_long h, h⟩
      · refine Or.inl ⟨?_, h⟩
        show ∃ b, isXsDate lim s = _
        rw [isXsDate_short h]
        obtain ⟨b, hb, _⟩ := C18_date_partial none s (by intro l hl; cases hl)
        exact ⟨b, hb⟩
    case dateTime =>
      by_cases h : LongDateTime OptTimeZone lim s
      · exact Or.inr ⟨dateTimeWith_long (fun _ h => tz_ne h foreign_84) m_dateTimeRe h, h⟩
      · refine Or.inl ⟨?_, h⟩
        show ∃ b, dateTimeWith dateTimeRe lim s = _
        rw [dateTimeWith_short (fun _ h => tz_ne h foreign_84) m_dateTimeRe h]
        obtain ⟨b, hb, _⟩ := C20_date_time_partial none s (by intro l hl; cases hl)
        exact ⟨b, hb⟩
    case gMonthDay =>
      by_cases h : LongMonthDay lim s
      · exact Or.inr ⟨gMonthDay_long h, h⟩
      · obtain ⟨b, hb, _⟩ := gMonthDay_short h
        exact Or.inl ⟨⟨b, hb⟩, h⟩
    all_goals exact Or.inl ⟨⟨_, rfl⟩, fun h => h⟩
  rcases key with ⟨⟨b, hb⟩, hn⟩ | ⟨he, hf⟩
  · rw [hb]; simp [hn]
  · rw [he]
    constructor
    · intro h; cases h; exact ⟨rfl, hf⟩
    · rintro ⟨rfl, _⟩; rfl

/-- C82: for each string type of the meta-model and any text: it is accepted iff its length is within the limits, its characters can
be written in XML, and its format is accepted. -/
theorem C82_strings (lim : Option Nat) (c : Aas.SfvCls) (s : Str) :
    Aas.construct lim c s = .ok () ↔ LengthOk c s ∧ (∀ x ∈ s, XmlChar x) ∧ FormatAccepted lim c s := by
  by_cases h1 : c = .pathString
  · subst h1; exact C27_path_partial lim s
  · by_cases h2 : c = .dateTime
    · subst h2
      rw [construct_iff, Aas.constructBase_iff, Aas.pattern_iff]
      have := C82_accepted lim .dateTime s
      have hd : isXsDateTime lim s = .ok true ↔ OrLineFeed DateTimeText s ∧ ¬ LongDateTime OptTimeZone lim s := this
      simp [and_assoc, hd, FormatAccepted]
    · by_cases h3 : c = .dateTimeUtc
      · subst h3
        rw [construct_iff, Aas.constructBase_iff, Aas.pattern_iff]
        have hd : isXsDateTimeUtc lim s = .ok true ↔ OrLineFeed DateTimeUtcText s ∧ ¬ LongDateTime UtcZone lim s := by
          have hZ : ∀ tz, UtcZone tz → 84 ∉ tz := fun _ h => tz_ne (utc_tz h) foreign_84
          by_cases h : LongDateTime UtcZone lim s
          · rw [isXsDateTimeUtc, dateTimeWith_long hZ m_dateTimeUtcRe h]; simp [h]
          · rw [isXsDateTimeUtc, dateTimeWith_short hZ m_dateTimeUtcRe h]
            have := ok_true_iff (C20_date_time_utc_partial none s (by intro l hl; cases hl))
            rw [isXsDateTimeUtc] at this
            rw [this]; simp [h]
        simp [and_assoc, hd, FormatAccepted]
      · rw [C27_plain lim c s h1 h2 h3]
        cases c <;> first | rfl | contradiction

/-! concrete values -/

example : Accepted (some 4300) .double py!" -1_0.5e-0_3\n" ∧ ¬ Accepted (some 4300) .double py!"1_.5" ∧
    ¬ Accepted (some 4300) .double py!"inf" := by
  refine ⟨(C82_accepted _ _ _).mp (by decide +kernel), fun h => ?_, fun h => ?_⟩
  · have := (C82_accepted _ _ _).mpr h; revert this; decide +kernel
  · have := (C82_accepted _ _ _).mpr h; revert this; decide +kernel

example : Accepted none .decimal py!"_1__2.5" ∧ Accepted none .decimal py!"-sNaN12" ∧
    ¬ Accepted none .decimal py!"1e1000000000000000000" := by
  refine ⟨(C82_accepted _ _ _).mp (by decide +kernel), (C82_accepted _ _ _).mp (by decide +kernel), fun h => ?_⟩
  have := (C82_accepted _ _ _).mpr h; revert this; decide +kernel

/-- a year of five digits in an interpreter that converts four -/
example : ValueFails (some 4) .dateTime py!"12024-02-30T24:00:00Z\n" ∧ ¬ ValueFails (some 5) .dateTime py!"12024-02-30T24:00:00Z\n" ∧
    ¬ Accepted (some 5) .dateTime py!"12024-02-30T24:00:00Z\n" ∧ Accepted (some 5) .dateTime py!"12024-02-29T24:00:00Z\n" := by
  refine ⟨((C82_fails _ _ _ .valueError).mp (by decide +kernel)).2, fun h => ?_, fun h => ?_, (C82_accepted _ _ _).mp (by decide +kernel)⟩
  · have := (C82_fails _ _ _ .valueError).mpr ⟨rfl, h⟩; revert this; decide +kernel
  · have := (C82_accepted _ _ _).mpr h; revert this; decide +kernel

example : Aas.construct none .pathString py!"file://a/b" = .ok () ∧ Aas.construct none .pathString py!"a b" = .error .valueError := by
  decide +kernel

theorem zeros_ranges : DataTypes.digitZeros = digitRanges.flatMap fun r => (List.range ((r.2 + 1 - r.1) / 10)).map fun i => r.1 + 10 * i := by
  decide +kernel

theorem ranges_tens : ∀ r ∈ digitRanges, r.1 ≤ r.2 ∧ (r.2 + 1 - r.1) % 10 = 0 := by decide +kernel

theorem zeros_apart : DataTypes.digitZeros.Pairwise fun a b => a + 9 < b := by decide +kernel

theorem find_block {c z : Nat} : ∀ {l : List Nat}, l.Pairwise (fun a b => a + 9 < b) →
    (l.find? (fun z => z ≤ c && c ≤ z + 9) = some z ↔ z ∈ l ∧ z ≤ c ∧ c ≤ z + 9)
  | [], _ => by simp
  | a :: l, h => by
    rw [List.pairwise_cons] at h
    rw [List.find?_cons]
    by_cases hc : (decide (a ≤ c) && decide (c ≤ a + 9)) = true
    · rw [hc]
      simp only [Bool.and_eq_true, decide_eq_true_eq] at hc
      constructor
      · intro h'; cases h'; exact ⟨.head _, hc⟩
      · rintro ⟨h1, h2, h3⟩
        rcases List.mem_cons.mp h1 with rfl | h1
        · rfl
        · have := h.1 z h1
          omega
    · rw [Bool.not_eq_true] at hc
      rw [hc]
      simp only [Bool.and_eq_false_iff, decide_eq_false_iff_not] at hc
      refine (find_block h.2).trans ⟨fun h' => ⟨.tail _ h'.1, h'.2⟩, fun ⟨h1, h2, h3⟩ => ?_⟩
      rcases List.mem_cons.mp h1 with rfl | h1
      · omega
      · exact ⟨h1, h2, h3⟩

/-- The digits in `Accepted` are the decimal digits of Unicode 14, with their values. -/
theorem C82_digits (c v : Nat) : DataTypes.digitVal c = some v ↔ UnicodeDigit c v := by
  have key : (∃ z, z ∈ DataTypes.digitZeros ∧ (z ≤ c ∧ c ≤ z + 9) ∧ v = c - z) ↔ UnicodeDigit c v := by
    rw [zeros_ranges]
    simp only [List.mem_flatMap, List.mem_map, List.mem_range]
    constructor
    · rintro ⟨z, ⟨r, hr, i, hi, rfl⟩, ⟨h1, h2⟩, rfl⟩
      have := ranges_tens r hr
      exact ⟨r, hr, by omega, by omega, by omega⟩
    · rintro ⟨r, hr, h1, h2, rfl⟩
      have := ranges_tens r hr
      exact ⟨r.1 + 10 * ((c - r.1) / 10), ⟨r, hr, (c - r.1) / 10, by omega, rfl⟩, ⟨by omega, by omega⟩, by omega⟩
  rw [← key, DataTypes.digitVal]
  cases hf : DataTypes.digitZeros.find? fun z => z ≤ c && c ≤ z + 9 with
  | none =>
    constructor
    · intro h; cases h
    · rintro ⟨z, h1, h2, -⟩
      rw [(find_block zeros_apart).mpr ⟨h1, h2⟩] at hf
      cases hf
  | some z =>
    obtain ⟨h1, h2⟩ := (find_block zeros_apart).mp hf
    constructor
    · intro h; cases h; exact ⟨z, h1, h2, rfl⟩
    · rintro ⟨z', g1, g2, rfl⟩
      rw [(find_block zeros_apart).mpr ⟨g1, g2⟩] at hf
      cases hf
      rfl

/-- The white space in `Accepted`: `int` and `float` do not strip the separators, `Decimal` does. -/
theorem C82_spaces (c : Nat) : (DataTypes.numSpace c = true ↔ c ∈ asciiSpaces ∨ c ∈ wideSpaces) ∧
    (Py.isSpace c = true ↔ c ∈ asciiSpaces ∨ c ∈ separators ∨ c ∈ wideSpaces) := by
  constructor
  · simp only [DataTypes.numSpace, DataTypes.asciiSpace, Py.isSpace, asciiSpaces, wideSpaces, Bool.or_eq_true, Bool.and_eq_true, decide_eq_true_eq,
      beq_iff_eq, List.mem_cons, List.not_mem_nil, or_false]
    omega
  · simp only [Py.isSpace, asciiSpaces, wideSpaces, separators, Bool.or_eq_true, Bool.and_eq_true, decide_eq_true_eq, beq_iff_eq, List.mem_cons,
      List.not_mem_nil, or_false]
    omega

/-- the fullwidth digit seven, and a mathematical one -/
example : UnicodeDigit 0xff17 7 ∧ UnicodeDigit 0x1d7df 7 :=
  ⟨⟨(0xff10, 0xff19), by decide, by decide, by decide, rfl⟩, ⟨(0x1d7ce, 0x1d7ff), by decide, by decide, by decide, rfl⟩⟩

end Verif.Props
