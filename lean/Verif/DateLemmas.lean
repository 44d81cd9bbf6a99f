import Verif.DataTypes
import Verif.RegexLemmas
import Verif.Spec.DataTypes

namespace Verif.DataTypes
open Verif Re Spec

def rDigit : Re := .cls false [(48, 57)]
def rYear : Re := .alt (.seq (.cls false [(49, 57)]) (.seq rDigit (.seq rDigit (plus rDigit))))
  (.seq (lit 48) (.seq rDigit (.seq rDigit rDigit)))
def rMonth : Re := .alt (.seq (lit 48) (.cls false [(49, 57)])) (.seq (lit 49) (.cls false [(48, 50)]))
def rDay : Re := .alt (.seq (lit 48) (.cls false [(49, 57)])) (.alt (.seq (.cls false [(49, 49), (50, 50)]) rDigit)
  (.seq (lit 51) (.cls false [(48, 48), (49, 49)])))
def rMinute : Re := .seq (.cls false [(48, 53)]) rDigit
def rTzHour : Re := .alt (.seq (lit 48) rDigit) (.seq (lit 49) (.cls false [(48, 51)]))
def rTz : Re := .alt (lit 90) (.seq (.alt (lit 43) (lit 45))
  (.alt (.seq rTzHour (.seq (lit 58) rMinute))
    (text py!"14:00")))
def rHour : Re := .alt (.seq (.cls false [(48, 48), (49, 49)]) rDigit) (.seq (lit 50) (.cls false [(48, 51)]))
def rFrac : Re := opt (.seq (lit 46) (plus rDigit))
def rFrac0 : Re := opt (.seq (lit 46) (plus (lit 48)))

theorem dateRe_eq : dateRe = seqs [opt (lit 45), rYear, lit 45, rMonth, lit 45, rDay, opt rTz] := by decide +kernel

theorem inDigit (c : Nat) : inCls false [(48, 57)] c = true ↔ IsDigit c := by
  simp [inCls, IsDigit]

theorem m_digit (s : Str) : Matches rDigit s ↔ ∃ c, s = [c] ∧ IsDigit c := by
  simp only [rDigit, matches_cls, inDigit]

/-- two digits -/
theorem twoDigit_iff (t : Str) (n : Nat) : TwoDigit t n ↔
    ∃ a b, t = [a, b] ∧ IsDigit a ∧ IsDigit b ∧ n = (a - 48) * 10 + (b - 48) := by
  constructor
  · rintro ⟨⟨_, hd⟩, hl, hv⟩
    match t, hl with
    | [a, b], _ =>
      exact ⟨a, b, rfl, hd a (by simp), hd b (by simp), by rw [← hv]; simp [decimalValue]⟩
  · rintro ⟨a, b, rfl, ha, hb, rfl⟩
    refine ⟨⟨by simp, ?_⟩, rfl, by simp [decimalValue]⟩
    intro c hc
    simp at hc
    rcases hc with rfl | rfl <;> assumption

theorem m_cls2 (n1 n2 : Bool) (r1 r2 : List (Nat × Nat)) (s : Str) :
    Matches (.seq (.cls n1 r1) (.cls n2 r2)) s ↔ ∃ a b, s = [a, b] ∧ inCls n1 r1 a = true ∧ inCls n2 r2 b = true := by
  rw [matches_seq]
  simp only [matches_cls]
  constructor
  · rintro ⟨u, v, rfl, ⟨a, rfl, ha⟩, ⟨b, rfl, hb⟩⟩
    exact ⟨a, b, rfl, ha, hb⟩
  · rintro ⟨a, b, rfl, ha, hb⟩
    exact ⟨[a], [b], rfl, ⟨a, rfl, ha⟩, ⟨b, rfl, hb⟩⟩

theorem ex_or {s : Str} {P Q : Nat → Nat → Prop} :
    ((∃ a b, s = [a, b] ∧ P a b) ∨ (∃ a b, s = [a, b] ∧ Q a b)) ↔ ∃ a b, s = [a, b] ∧ (P a b ∨ Q a b) := by
  constructor
  · rintro (⟨a, b, e, h⟩ | ⟨a, b, e, h⟩)
    · exact ⟨a, b, e, Or.inl h⟩
    · exact ⟨a, b, e, Or.inr h⟩
  · rintro ⟨a, b, e, h | h⟩
    · exact Or.inl ⟨a, b, e, h⟩
    · exact Or.inr ⟨a, b, e, h⟩

theorem two_of {r : Re} {Q : Nat → Nat → Prop} {P : Nat → Prop} {s : Str}
    (h : Matches r s ↔ ∃ a b, s = [a, b] ∧ Q a b)
    (hq : ∀ a b, Q a b ↔ IsDigit a ∧ IsDigit b ∧ P ((a - 48) * 10 + (b - 48))) :
    Matches r s ↔ ∃ n, TwoDigit s n ∧ P n := by
  rw [h]
  simp only [twoDigit_iff]
  constructor
  · rintro ⟨a, b, rfl, hab⟩
    obtain ⟨h1, h2, h3⟩ := (hq a b).mp hab
    exact ⟨_, ⟨a, b, rfl, h1, h2, rfl⟩, h3⟩
  · rintro ⟨n, ⟨a, b, rfl, h1, h2, rfl⟩, h3⟩
    exact ⟨a, b, rfl, (hq a b).mpr ⟨h1, h2, h3⟩⟩

/-- shows that a pattern for two characters describes a range of two-digit numbers -/
macro "two_digits" : tactic => `(tactic| (
  simp only [lit, rDigit]
  refine two_of (by simp only [matches_alt, m_cls2, ex_or]; exact Iff.rfl) ?_
  intro a b
  simp only [inCls, List.any_cons, List.any_nil, Bool.or_false, bne_iff_ne, ne_eq,
      Bool.and_eq_true, Bool.or_eq_true, decide_eq_true_eq, Bool.not_eq_false, IsDigit]
  omega))

theorem m_month (s : Str) : Matches rMonth s ↔ ∃ n, TwoDigit s n ∧ (1 ≤ n ∧ n ≤ 12) := by
  unfold rMonth; two_digits
theorem m_day (s : Str) : Matches rDay s ↔ ∃ n, TwoDigit s n ∧ (1 ≤ n ∧ n ≤ 31) := by
  unfold rDay; two_digits
theorem m_minute (s : Str) : Matches rMinute s ↔ ∃ n, TwoDigit s n ∧ n < 60 := by
  unfold rMinute; two_digits
theorem m_hour (s : Str) : Matches rHour s ↔ ∃ n, TwoDigit s n ∧ n < 24 := by
  unfold rHour; two_digits
theorem m_tzHour (s : Str) : Matches rTzHour s ↔ ∃ n, TwoDigit s n ∧ n < 14 := by
  unfold rTzHour; two_digits

theorem m_digits (s : Str) : Matches (plus rDigit) s ↔ Numeral s := by
  simp only [rDigit, matches_plus_cls, inDigit, Numeral]

theorem m_year (s : Str) : Matches rYear s ↔ ∃ n, YearNumeral s n := by
  simp only [rYear, matches_alt, matches_seq, matches_lit, m_digit, m_digits, matches_cls, YearNumeral]
  constructor
  · rintro (⟨_, _, rfl, ⟨a, rfl, ha⟩, _, _, rfl, ⟨b, rfl, hb⟩, _, d, rfl, ⟨c, rfl, hc⟩, hd1, hd2⟩ |
        ⟨_, _, rfl, rfl, _, _, rfl, ⟨b, rfl, hb⟩, _, _, rfl, ⟨c, rfl, hc⟩, ⟨d, rfl, hd⟩⟩)
    · simp [inCls] at ha
      refine ⟨_, ⟨by simp, ?_⟩, ?_, ?_, rfl⟩
      · intro x hx
        simp only [List.cons_append, List.nil_append, List.mem_cons] at hx
        rcases hx with rfl | rfl | rfl | hx
        · unfold IsDigit; omega
        · exact hb
        · exact hc
        · exact hd2 x hx
      · cases d with
        | nil => exact absurd rfl hd1
        | cons => simp
      · intro _; simp; omega
    · refine ⟨_, ⟨by simp, ?_⟩, by simp, by simp, rfl⟩
      intro x hx
      simp only [List.cons_append, List.nil_append, List.mem_cons, List.not_mem_nil, or_false] at hx
      rcases hx with rfl | rfl | rfl | rfl
      · unfold IsDigit; omega
      · exact hb
      · exact hc
      · exact hd
  · rintro ⟨n, ⟨_, hd⟩, hl, hz, _⟩
    match s, hl with
    | a :: b :: c :: d :: e, _ =>
      have ha := hd a (by simp)
      have hb := hd b (by simp)
      have hc := hd c (by simp)
      have hdd := hd d (by simp)
      by_cases h0 : a = 48
      · right
        cases e with
        | nil =>
          exact ⟨[a], [b, c, d], rfl, by rw [h0], [b], [c, d], rfl, ⟨b, rfl, hb⟩, [c], [d], rfl, ⟨c, rfl, hc⟩, ⟨d, rfl, hdd⟩⟩
        | cons x e => exact absurd (by simp [h0]) (hz (by simp))
      · left
        refine ⟨[a], b :: c :: d :: e, rfl, ⟨a, rfl, ?_⟩, [b], c :: d :: e, rfl, ⟨b, rfl, hb⟩, [c], d :: e, rfl, ⟨c, rfl, hc⟩,
          by simp, ?_⟩
        · unfold IsDigit at ha; simp [inCls]; omega
        · intro x hx; exact hd x (by simp at hx ⊢; grind)

/-- the two ways of writing an offset are one: less than 14 hours, or exactly 14 hours -/
theorem m_tz (s : Str) : Matches rTz s ↔ TimeZone s := by
  simp only [rTz, matches_alt, matches_seq, matches_lit, matches_text, TimeZone]
  simp only [m_tzHour, m_minute]
  apply or_congr Iff.rfl
  constructor
  · rintro ⟨_, _, rfl, hs, ⟨hh, _, rfl, ⟨h, h2, h3⟩, _, mm, rfl, rfl, m, h4, h5⟩ | rfl⟩
    · rcases hs with rfl | rfl
      · exact ⟨_, h, hh, m, mm, by simp, Or.inl rfl, h2, h4, h5, by omega⟩
      · exact ⟨_, h, hh, m, mm, by simp, Or.inr rfl, h2, h4, h5, by omega⟩
    · have e1 : TwoDigit py!"14" 14 := (twoDigit_iff _ _).mpr ⟨49, 52, rfl, by simp [IsDigit], by simp [IsDigit], rfl⟩
      have e2 : TwoDigit py!"00" 0 := (twoDigit_iff _ _).mpr ⟨48, 48, rfl, by simp [IsDigit], by simp [IsDigit], rfl⟩
      rcases hs with rfl | rfl
      · exact ⟨_, 14, py!"14", 0, py!"00", by simp, Or.inl rfl, e1, e2, by omega, by omega⟩
      · exact ⟨_, 14, py!"14", 0, py!"00", by simp, Or.inr rfl, e1, e2, by omega, by omega⟩
  · rintro ⟨sign, h, hh, m, mm, rfl, hs, h1, h2, h3, h4⟩
    refine ⟨[sign], hh ++ 58 :: mm, rfl, by rcases hs with rfl | rfl <;> simp, ?_⟩
    by_cases h5 : h < 14
    · exact Or.inl ⟨hh, 58 :: mm, rfl, ⟨h, h1, h5⟩, [58], mm, rfl, rfl, m, h2, h3⟩
    · right
      have e1 : h = 14 := by omega
      have e2 : m = 0 := by omega
      subst e1 e2
      obtain ⟨a, b, rfl, ha, hb, e⟩ := (twoDigit_iff _ _).mp h1
      obtain ⟨c, d, rfl, hc, hd, e'⟩ := (twoDigit_iff _ _).mp h2
      unfold IsDigit at *
      have : a = 49 ∧ b = 52 ∧ c = 48 ∧ d = 48 := by omega
      obtain ⟨rfl, rfl, rfl, rfl⟩ := this
      rfl

theorem m_optTz (s : Str) : Matches (opt rTz) s ↔ OptTimeZone s := by
  rw [matches_opt, m_tz, OptTimeZone]

theorem m_signedYear (s : Str) : Matches (.seq (opt (lit 45)) rYear) s ↔ ∃ y, SignedYear s y := by
  simp only [matches_seq, matches_opt, matches_lit, m_year, SignedYear]
  constructor
  · rintro ⟨_, t, rfl, rfl | rfl, n, h⟩
    · exact ⟨n, Or.inl ⟨n, h, rfl⟩⟩
    · exact ⟨-n, Or.inr ⟨t, n, rfl, h, rfl⟩⟩
  · rintro ⟨y, ⟨n, h, _⟩ | ⟨u, n, rfl, h, _⟩⟩
    · exact ⟨[], s, rfl, Or.inl rfl, n, h⟩
    · exact ⟨[45], u, rfl, Or.inr rfl, n, h⟩

theorem m_frac (s : Str) : Matches rFrac s ↔ Fraction s := by
  simp only [rFrac, matches_opt, matches_seq, matches_lit, m_digits, Fraction]
  apply or_congr Iff.rfl
  constructor
  · rintro ⟨_, f, rfl, rfl, h⟩; exact ⟨f, rfl, h⟩
  · rintro ⟨f, rfl, h⟩; exact ⟨[46], f, rfl, rfl, h⟩

theorem m_frac0 (s : Str) : Matches rFrac0 s ↔ Fraction s ∧ ∀ c ∈ s, c ≠ 46 → c = 48 := by
  simp only [rFrac0, matches_opt, matches_seq, matches_lit, Fraction]
  have e : ∀ s, Matches (plus (lit 48)) s ↔ s ≠ [] ∧ ∀ c ∈ s, c = 48 := by
    intro s
    rw [lit, matches_plus_cls]
    have : ∀ c, inCls false [(48, 48)] c = true ↔ c = 48 := by
      intro c; simp [inCls]; omega
    simp only [this]
  simp only [e]
  constructor
  · rintro (rfl | ⟨_, f, rfl, rfl, h1, h2⟩)
    · exact ⟨Or.inl rfl, by simp⟩
    · refine ⟨Or.inr ⟨f, rfl, h1, ?_⟩, ?_⟩
      · intro c hc; rw [h2 c hc]; simp [IsDigit]
      · intro c hc hne
        rcases List.mem_cons.mp hc with h | h
        · exact absurd h hne
        · exact h2 c h
  · rintro ⟨rfl | ⟨f, rfl, h1, h2⟩, h3⟩
    · exact Or.inl rfl
    · refine Or.inr ⟨[46], f, rfl, rfl, h1, ?_⟩
      intro c hc
      exact h3 c (List.mem_cons_of_mem _ hc) (by have := h2 c hc; unfold IsDigit at this; omega)

theorem twoDigit_24 (s : Str) : TwoDigit s 24 ↔ s = py!"24" := by
  rw [twoDigit_iff]
  constructor
  · rintro ⟨a, b, rfl, ha, hb, e⟩
    unfold IsDigit at ha hb
    have : a = 50 ∧ b = 52 := by omega
    rw [this.1, this.2]
  · rintro rfl; exact ⟨50, 52, rfl, by simp [IsDigit], by simp [IsDigit], rfl⟩

theorem twoDigit_0 (s : Str) : TwoDigit s 0 ↔ s = py!"00" := by
  rw [twoDigit_iff]
  constructor
  · rintro ⟨a, b, rfl, ha, hb, e⟩
    unfold IsDigit at ha hb
    have : a = 48 ∧ b = 48 := by omega
    rw [this.1, this.2]
  · rintro rfl; exact ⟨48, 48, rfl, by simp [IsDigit], by simp [IsDigit], rfl⟩

theorem seqs_two (a b : Re) : seqs [a, b] = .seq a b := rfl
theorem seqs_one (a : Re) : seqs [a] = a := rfl

def rClock : Re := seqs ([rHour] ++ [lit 58] ++ [.cls false [(48, 53)], rDigit] ++ [lit 58] ++ [rMinute] ++ [rFrac])
def rEnd : Re := seqs ((py!"24:00:00".map lit) ++ [rFrac0])

theorem m_clock (s : Str) : Matches rClock s ↔ ∃ hh h mm m ss sec fr, s = hh ++ 58 :: mm ++ 58 :: ss ++ fr ∧
    TwoDigit hh h ∧ TwoDigit mm m ∧ TwoDigit ss sec ∧ Fraction fr ∧ h < 24 ∧ m < 60 ∧ sec < 60 := by
  have e : seqs [Re.cls false [(48, 53)], rDigit] = rMinute := rfl
  simp only [rClock, matches_seqs_append, seqs_one, e, matches_lit, m_hour, m_minute, m_frac]
  constructor
  · rintro ⟨_, fr, rfl, ⟨_, ss, rfl, ⟨_, _, rfl, ⟨_, mm, rfl, ⟨hh, _, rfl, ⟨h, h1, h2⟩, rfl⟩, ⟨m, h3, h4⟩⟩, rfl⟩, ⟨sec, h5, h6⟩⟩, h7⟩
    exact ⟨hh, h, mm, m, ss, sec, fr, by simp, h1, h3, h5, h7, h2, h4, h6⟩
  · rintro ⟨hh, h, mm, m, ss, sec, fr, rfl, h1, h3, h5, h7, h2, h4, h6⟩
    exact ⟨hh ++ [58] ++ mm ++ [58] ++ ss, fr, by simp, ⟨_, ss, rfl, ⟨_, _, rfl, ⟨_, mm, rfl, ⟨hh, _, rfl, ⟨h, h1, h2⟩, rfl⟩, ⟨m, h3, h4⟩⟩, rfl⟩, ⟨sec, h5, h6⟩⟩, h7⟩

theorem m_end (s : Str) : Matches rEnd s ↔ ∃ hh mm ss fr, s = hh ++ 58 :: mm ++ 58 :: ss ++ fr ∧
    TwoDigit hh 24 ∧ TwoDigit mm 0 ∧ TwoDigit ss 0 ∧ Fraction fr ∧ ∀ c ∈ fr, c ≠ 46 → c = 48 := by
  have e : seqs (py!"24:00:00".map lit) = text py!"24:00:00" := rfl
  simp only [rEnd, matches_seqs_append, seqs_one, e, matches_text, m_frac0, twoDigit_24, twoDigit_0]
  constructor
  · rintro ⟨_, fr, rfl, rfl, h⟩
    exact ⟨_, _, _, fr, rfl, rfl, rfl, rfl, h⟩
  · rintro ⟨_, _, _, fr, rfl, rfl, rfl, rfl, h⟩
    exact ⟨_, fr, rfl, rfl, h⟩

/-- time of day, however the two alternatives are written -/
theorem m_timeOfDay (s : Str) : Matches rClock s ∨ Matches rEnd s ↔ TimeOfDay s := by
  rw [m_clock, m_end]
  constructor
  · rintro (⟨hh, h, mm, m, ss, sec, fr, rfl, h1, h2, h3, h4, h5⟩ | ⟨hh, mm, ss, fr, rfl, h1, h2, h3, h4, h5⟩)
    · exact ⟨hh, h, mm, m, ss, sec, fr, rfl, h1, h2, h3, h4, Or.inl h5⟩
    · exact ⟨hh, _, mm, _, ss, _, fr, rfl, h1, h2, h3, h4, Or.inr ⟨rfl, rfl, rfl, h5⟩⟩
  · rintro ⟨hh, h, mm, m, ss, sec, fr, rfl, h1, h2, h3, h4, h5 | ⟨rfl, rfl, rfl, h5⟩⟩
    · exact Or.inl ⟨hh, h, mm, m, ss, sec, fr, rfl, h1, h2, h3, h4, h5⟩
    · exact Or.inr ⟨hh, mm, ss, fr, rfl, h1, h2, h3, h4, h5⟩

theorem timeRe_eq : timeRe = .seq (.alt (seqs ([rHour] ++ [lit 58] ++ [.cls false [(48, 53)], rDigit] ++ [lit 58] ++
    [.cls false [(48, 53)], rDigit] ++ [rFrac])) rEnd) (opt rTz) := by decide +kernel

theorem m_clock' (s : Str) : Matches (seqs ([rHour] ++ [lit 58] ++ [.cls false [(48, 53)], rDigit] ++ [lit 58] ++
    [.cls false [(48, 53)], rDigit] ++ [rFrac])) s ↔ Matches rClock s := by
  have e : seqs [Re.cls false [(48, 53)], rDigit] = rMinute := rfl
  simp only [rClock, matches_seqs_append, seqs_one, e]

theorem m_timeRe (s : Str) : Matches timeRe s ↔ TimeText s := by
  rw [timeRe_eq, matches_seq]
  simp only [matches_alt, m_clock', m_timeOfDay, m_optTz, TimeText]

/-! ## dates -/

/-- the shape of a date without the calendar -/
def DateShape (s : Str) (y : Int) (m d : Nat) : Prop :=
  ∃ ys ms ds, s = ys ++ 45 :: ms ++ 45 :: ds ∧ SignedYear ys y ∧ TwoDigit ms m ∧ TwoDigit ds d ∧
    (1 ≤ m ∧ m ≤ 12) ∧ 1 ≤ d ∧ d ≤ 31

def rDate : List Re := [opt (lit 45), rYear] ++ [lit 45] ++ [rMonth] ++ [lit 45] ++ [rDay]

theorem m_dateShape (s : Str) : Matches (seqs rDate) s ↔ ∃ y m d, DateShape s y m d := by
  simp only [rDate, matches_seqs_append, seqs_one, seqs_two, matches_lit, m_month, m_day, m_signedYear, DateShape]
  constructor
  · rintro ⟨_, ds, rfl, ⟨_, _, rfl, ⟨_, ms, rfl, ⟨ys, _, rfl, ⟨y, hy⟩, rfl⟩, m, hm, hm'⟩, rfl⟩, d, hd, hd'⟩
    exact ⟨y, m, d, ys, ms, ds, by simp, hy, hm, hd, hm', hd'⟩
  · rintro ⟨y, m, d, ys, ms, ds, rfl, hy, hm, hd, hm', hd'⟩
    exact ⟨_, ds, by simp, ⟨_, _, rfl, ⟨_, ms, rfl, ⟨ys, _, rfl, ⟨y, hy⟩, rfl⟩, m, hm, hm'⟩, rfl⟩, d, hd, hd'⟩

theorem dateRe_eq' : dateRe = seqs (rDate ++ [opt rTz]) := dateRe_eq

theorem m_dateRe (s : Str) : Matches dateRe s ↔ ∃ t tz y m d, s = t ++ tz ∧ DateShape t y m d ∧ OptTimeZone tz := by
  rw [dateRe_eq', matches_seqs_append]
  simp only [m_dateShape, seqs_one, m_optTz]
  constructor
  · rintro ⟨t, tz, rfl, ⟨y, m, d, h⟩, h'⟩; exact ⟨t, tz, y, m, d, rfl, h, h'⟩
  · rintro ⟨t, tz, y, m, d, rfl, h, h'⟩; exact ⟨t, tz, rfl, ⟨y, m, d, h⟩, h'⟩

theorem dateTimeRe_eq : dateTimeRe = seqs (rDate ++ [lit 84] ++ [.alt rClock rEnd] ++ [opt rTz]) := by decide +kernel

def rUtc : Re := alts [lit 90, text py!"+00:00", text py!"-00:00"]
theorem dateTimeUtcRe_eq : dateTimeUtcRe = seqs (rDate ++ [lit 84] ++ [.alt rClock rEnd] ++ [rUtc]) := by decide +kernel

theorem m_utc (s : Str) : Matches rUtc s ↔ UtcZone s := by
  simp only [rUtc, matches_alts, UtcZone, List.mem_cons, List.not_mem_nil, or_false, exists_eq_or_imp, exists_eq_left,
    matches_lit, matches_text]

theorem m_dateTimeRe (s : Str) : Matches dateTimeRe s ↔
    ∃ d t tz y m n, s = d ++ 84 :: t ++ tz ∧ DateShape d y m n ∧ TimeOfDay t ∧ OptTimeZone tz := by
  rw [dateTimeRe_eq]
  simp only [matches_seqs_append, m_dateShape, seqs_one, m_optTz, matches_lit, matches_alt, m_timeOfDay]
  constructor
  · rintro ⟨_, tz, rfl, ⟨_, t, rfl, ⟨d, _, rfl, ⟨y, m, n, h⟩, rfl⟩, h'⟩, h''⟩
    exact ⟨d, t, tz, y, m, n, by simp, h, h', h''⟩
  · rintro ⟨d, t, tz, y, m, n, rfl, h, h', h''⟩
    exact ⟨_, tz, by simp, ⟨_, t, rfl, ⟨d, _, rfl, ⟨y, m, n, h⟩, rfl⟩, h'⟩, h''⟩

theorem m_dateTimeUtcRe (s : Str) : Matches dateTimeUtcRe s ↔
    ∃ d t tz y m n, s = d ++ 84 :: t ++ tz ∧ DateShape d y m n ∧ TimeOfDay t ∧ UtcZone tz := by
  rw [dateTimeUtcRe_eq]
  simp only [matches_seqs_append, m_dateShape, seqs_one, m_utc, matches_lit, matches_alt, m_timeOfDay]
  constructor
  · rintro ⟨_, tz, rfl, ⟨_, t, rfl, ⟨d, _, rfl, ⟨y, m, n, h⟩, rfl⟩, h'⟩, h''⟩
    exact ⟨d, t, tz, y, m, n, by simp, h, h', h''⟩
  · rintro ⟨d, t, tz, y, m, n, rfl, h, h', h''⟩
    exact ⟨_, tz, by simp, ⟨_, t, rfl, ⟨d, _, rfl, ⟨y, m, n, h⟩, rfl⟩, h'⟩, h''⟩

/-! ## partial dates -/

def rYear' : Re := .alt (.seq (.cls false [(49, 57)]) (.seq (pow rDigit 3) (.star rDigit))) (.seq (lit 48) (pow rDigit 3))

theorem m_year' (s : Str) : Matches rYear' s ↔ Matches rYear s := by
  rw [m_year]
  simp only [rYear', matches_alt]
  rw [matches_seq, matches_seq]
  simp only [rDigit, matches_atLeast_cls, matches_pow_cls, matches_lit, matches_cls, inDigit, YearNumeral, Numeral]
  constructor
  · rintro (⟨_, v, rfl, ⟨a, rfl, ha⟩, hl, hv⟩ | ⟨_, v, rfl, rfl, hl, hv⟩)
    · simp [inCls] at ha
      refine ⟨_, ⟨by simp, ?_⟩, by simp; omega, by simp; omega, rfl⟩
      intro c hc
      simp at hc
      rcases hc with rfl | hc
      · unfold IsDigit; omega
      · exact hv c hc
    · refine ⟨_, ⟨by simp, ?_⟩, by simp; omega, by simp; omega, rfl⟩
      intro c hc
      simp at hc
      rcases hc with rfl | hc
      · unfold IsDigit; omega
      · exact hv c hc
  · rintro ⟨n, ⟨_, hd⟩, hl, hz, _⟩
    cases s with
    | nil => simp at hl
    | cons a v =>
      have ha := hd a (by simp)
      simp at hl hz
      have hv : ∀ c ∈ v, IsDigit c := fun c hc => hd c (List.mem_cons_of_mem _ hc)
      by_cases h0 : a = 48
      · right
        refine ⟨[a], v, rfl, by rw [h0], ?_, hv⟩
        by_cases h : 4 < v.length + 1
        · exact absurd h0 (hz (by omega))
        · omega
      · left
        refine ⟨[a], v, rfl, ⟨a, rfl, ?_⟩, by omega, hv⟩
        unfold IsDigit at ha; simp [inCls]; omega

theorem m_signedYear' (s : Str) : Matches (seqs [opt (lit 45), rYear']) s ↔ ∃ y, SignedYear s y := by
  rw [← m_signedYear, seqs_two, matches_seq, matches_seq]
  simp only [m_year']

theorem gYearRe_eq : gYearRe = seqs ([opt (lit 45), rYear'] ++ [opt rTz]) := by decide +kernel
theorem gYearMonthRe_eq : gYearMonthRe = seqs ([opt (lit 45), rYear'] ++ [lit 45] ++ [rMonth] ++ [opt rTz]) := by
  decide +kernel
theorem gMonthRe_eq : gMonthRe = seqs ((py!"--".map lit) ++ [rMonth] ++ [opt rTz]) := by decide +kernel
theorem gDayRe_eq : gDayRe = seqs ((py!"---".map lit) ++ [rDay] ++ [opt rTz]) := by decide +kernel
theorem gMonthDayRe_eq : gMonthDayRe = seqs ((py!"--".map lit) ++ [rMonth] ++ [lit 45] ++ [rDay] ++ [opt rTz]) := by
  decide +kernel

theorem m_seqs_text (t s : Str) : Matches (seqs (t.map lit)) s ↔ s = t := matches_text t s

theorem m_gYearRe (s : Str) : Matches gYearRe s ↔ GYearText s := by
  rw [gYearRe_eq]
  simp only [matches_seqs_append, m_signedYear', seqs_one, m_optTz, GYearText]
  constructor
  · rintro ⟨ys, tz, rfl, ⟨y, h⟩, h'⟩; exact ⟨ys, y, tz, rfl, h, h'⟩
  · rintro ⟨ys, y, tz, rfl, h, h'⟩; exact ⟨ys, tz, rfl, ⟨y, h⟩, h'⟩

theorem m_gYearMonthRe (s : Str) : Matches gYearMonthRe s ↔ GYearMonthText s := by
  rw [gYearMonthRe_eq]
  simp only [matches_seqs_append, m_signedYear', seqs_one, m_optTz, GYearMonthText, matches_lit, m_month]
  constructor
  · rintro ⟨_, tz, rfl, ⟨_, ms, rfl, ⟨ys, _, rfl, ⟨y, h⟩, rfl⟩, m, hm, hm1, hm2⟩, h'⟩
    exact ⟨ys, y, ms, m, tz, by simp, h, hm, hm1, hm2, h'⟩
  · rintro ⟨ys, y, ms, m, tz, rfl, h, hm, hm1, hm2, h'⟩
    exact ⟨_, tz, by simp, ⟨_, ms, rfl, ⟨ys, _, rfl, ⟨y, h⟩, rfl⟩, m, hm, hm1, hm2⟩, h'⟩

theorem m_gMonthRe (s : Str) : Matches gMonthRe s ↔ GMonthText s := by
  rw [gMonthRe_eq]
  simp only [matches_seqs_append, m_seqs_text, seqs_one, m_optTz, GMonthText, m_month]
  constructor
  · rintro ⟨_, tz, rfl, ⟨_, ms, rfl, rfl, m, hm, hm1, hm2⟩, h'⟩
    exact ⟨ms, m, tz, rfl, hm, hm1, hm2, h'⟩
  · rintro ⟨ms, m, tz, rfl, hm, hm1, hm2, h'⟩
    exact ⟨_, tz, rfl, ⟨_, ms, rfl, rfl, m, hm, hm1, hm2⟩, h'⟩

theorem m_gDayRe (s : Str) : Matches gDayRe s ↔ GDayText s := by
  rw [gDayRe_eq]
  simp only [matches_seqs_append, m_seqs_text, seqs_one, m_optTz, GDayText, m_day]
  constructor
  · rintro ⟨_, tz, rfl, ⟨_, ms, rfl, rfl, m, hm, hm1, hm2⟩, h'⟩
    exact ⟨ms, m, tz, rfl, hm, hm1, hm2, h'⟩
  · rintro ⟨ms, m, tz, rfl, hm, hm1, hm2, h'⟩
    exact ⟨_, tz, rfl, ⟨_, ms, rfl, rfl, m, hm, hm1, hm2⟩, h'⟩

theorem m_gMonthDayRe (s : Str) : Matches gMonthDayRe s ↔ ∃ ms m ds d tz, s = py!"--" ++ ms ++ 45 :: ds ++ tz ∧
    TwoDigit ms m ∧ TwoDigit ds d ∧ (1 ≤ m ∧ m ≤ 12) ∧ (1 ≤ d ∧ d ≤ 31) ∧ OptTimeZone tz := by
  rw [gMonthDayRe_eq]
  simp only [matches_seqs_append, m_seqs_text, seqs_one, m_optTz, m_day, m_month, matches_lit]
  constructor
  · rintro ⟨_, tz, rfl, ⟨_, ds, rfl, ⟨_, _, rfl, ⟨_, ms, rfl, rfl, m, hm, hm'⟩, rfl⟩, d, hd, hd'⟩, h'⟩
    exact ⟨ms, m, ds, d, tz, by simp, hm, hd, hm', hd', h'⟩
  · rintro ⟨ms, m, ds, d, tz, rfl, hm, hd, hm', hd', h'⟩
    exact ⟨_, tz, by simp, ⟨_, ds, rfl, ⟨_, _, rfl, ⟨_, ms, rfl, rfl, m, hm, hm'⟩, rfl⟩, d, hd, hd'⟩, h'⟩

end Verif.DataTypes
