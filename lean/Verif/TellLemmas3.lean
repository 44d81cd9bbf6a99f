import Verif.TellLemmas2
import Verif.Props.Values

/-! # The texts for strings of the meta-model -/

namespace Verif.Aas
open Verif Verif.Parse Verif.Spec Verif.DataTypes Verif.Props Verif.Re

theorem tellBase_same (c : SfvCls) (s : Str) : (tellBase c s).mapError CErr.mute = constructBase c s := by
  unfold tellBase constructBase
  split
  · rfl
  · split
    · rfl
    · split
      · rfl
      · cases patternOf c with
        | none => rfl
        | some p => dsimp only; split <;> rfl

theorem tellUnless_same (t l : Str) (x : Except PyExc Bool) : (tellUnless t l x).mapError CErr.mute = orValueError x := by
  rcases x with e | b
  · cases e <;> rfl
  · cases b <;> rfl

theorem tellConstruct_same (lim : Option Nat) (c : SfvCls) (s : Str) : (tellConstruct lim c s).mapError CErr.mute = construct lim c s := by
  unfold tellConstruct construct
  cases h : tellBase c s with
  | error e => rw [of_error (tellBase_same c s) h]; rfl
  | ok u =>
    rw [of_ok (tellBase_same c s) h]
    cases c <;> first | rfl | exact tellUnless_same _ _ _

theorem tellUnless_py {t l : Str} {x : Except PyExc Bool} (hx : ∀ e, x = .error e → e = .valueError) (e : PyExc) : tellUnless t l x ≠ .error (.py e) := by
  rcases x with e' | b
  · rw [hx e' rfl]; intro h; cases h
  · cases b <;> intro h <;> cases h

theorem tellConstruct_py (lim : Option Nat) (c : SfvCls) (s : Str) (e : PyExc) : tellConstruct lim c s ≠ .error (.py e) := by
  unfold tellConstruct
  cases h : tellBase c s with
  | error e' =>
    unfold tellBase at h
    split at h
    · cases h; simp
    · split at h
      · cases h; simp
      · split at h
        · cases h; simp
        · split at h
          · cases h
          · split at h <;> cases h
            simp
  | ok u =>
    cases c <;> first | exact tellUnless_py (by simp) e | exact tellUnless_py (dateTimeWith_raises _ _ _) e | (intro h; cases h)

theorem same_texts (lim : Option Nat) : SameTexts (texts lim) (schema lim) :=
  fun c s => ⟨tellConstruct_same lim c s, tellConstruct_py lim c s⟩

theorem tellBase_text {lim : Option Nat} {c : SfvCls} {s t : Str} (h : tellBase c s = .error (.value t)) : FormatText lim c s t := by
  have hl := lengths_eq c
  unfold tellBase at h
  split at h
  · rename_i h1
    cases h
    cases hm : minLengthOf c with
    | none => rw [hm] at h1; cases h1
    | some m =>
      rw [hm] at h1
      have := FormatText.short (lim := lim) (c := c) (s := s) (by rw [hl, hm]; simpa using h1)
      rw [hl, hm] at this
      exact this
  · split at h
    · rename_i h1
      cases h
      cases hm : maxLengthOf c with
      | none => rw [hm] at h1; cases h1
      | some m =>
        rw [hm] at h1
        exact .long (by rw [hl, hm]; rfl) (by simpa using h1)
    · split at h
      · rename_i h1
        cases h
        have : ¬ ∀ x ∈ s, XmlChar x := fun hx => by rw [(xml_iff s).mpr hx] at h1; cases h1
        simp only [Classical.not_forall] at this
        obtain ⟨x, hx, hx'⟩ := this
        exact .chars hx hx'
      · split at h
        · cases h
        · rename_i p hp
          split at h <;> cases h
          rename_i hm
          refine .pattern hp fun hf => hm ?_
          refine (pattern_iff c s).mpr ?_ p hp
          cases c <;> first | exact hf | trivial

theorem digits_year {ys : Str} {y : Int} (h : SignedYear ys y) (r : Str) : digitsOfYear (ys ++ pc! '-' :: r) = yearLength ys := by
  have key : ∀ {u : Str} {n : Nat}, YearNumeral u n → (∀ c ∈ u, 48 ≤ c ∧ c ≤ 57) := by
    intro u n h c hc
    exact h.1.2 c hc
  have main : ∀ {u : Str}, (∀ c ∈ u, 48 ≤ c ∧ c ≤ 57) → ((u ++ pc! '-' :: r).takeWhile fun c => decide (48 ≤ c ∧ c ≤ 57)).length = u.length := by
    intro u hu
    rw [List.takeWhile_append_of_pos (by simpa using hu)]
    simp
  have filt : ∀ {u : Str}, (∀ c ∈ u, 48 ≤ c ∧ c ≤ 57) → u.filter (· ≠ pc! '-') = u := by
    intro u hu
    rw [List.filter_eq_self]
    intro c hc
    have := hu c hc
    simp; omega
  rcases h with ⟨n, h, -⟩ | ⟨u, n, rfl, h, -⟩
  · have hu := key h
    unfold digitsOfYear yearLength
    rw [filt hu]
    cases ys with
    | nil => exact absurd h.2.1 (by simp)
    | cons c cs =>
      have hc := hu c (.head _)
      have : c ≠ 45 := by omega
      simp only [List.cons_append, List.head?_cons, Option.some.injEq, this, if_false]
      exact main hu
  · have hu := key h
    unfold digitsOfYear yearLength
    simp only [List.cons_append, List.head?_cons, if_true, List.drop_one, List.tail_cons]
    rw [main hu, List.filter_cons_of_neg (by decide), filt hu]

theorem long_digits {Z : Str → Prop} {lim : Option Nat} {s : Str} (h : LongDateTime Z lim s) :
    ∃ n, lim = some n ∧ n < digitsOfYear s ∧ YearDigits Z (digitsOfYear s) s := by
  have key : ∀ {d t tz nl : Str} {k : Nat}, DateForm d k → digitsOfYear (d ++ pc! 'T' :: t ++ tz ++ nl) = k := by
    rintro d t tz nl k ⟨ys, y, ms, m, ds, dd, rfl, h1, -, -, -, -, -, -, rfl⟩
    have := digits_year h1 (ms ++ pc! '-' :: ds ++ pc! 'T' :: t ++ tz ++ nl)
    simpa using this
  rcases h with ⟨d, t, tz, k, rfl, h1, h2, h3, n, h4, h5⟩ | ⟨u, rfl, d, t, tz, k, rfl, h1, h2, h3, n, h4, h5⟩
  · have e := key (t := t) (tz := tz) (nl := []) h1
    rw [List.append_nil] at e
    rw [e]
    exact ⟨n, h4, h5, .inl ⟨d, t, tz, rfl, h1, h2, h3⟩⟩
  · have e := key (t := t) (tz := tz) (nl := [10]) h1
    rw [e]
    exact ⟨n, h4, h5, .inr ⟨_, rfl, d, t, tz, rfl, h1, h2, h3⟩⟩

theorem limitText_eq {n : Nat} {lim : Option Nat} (h : lim = some n) (s : Str) : limitText lim s = limitWords n (digitsOfYear s) := by
  subst h; rfl

theorem tellConstruct_text {lim : Option Nat} {c : SfvCls} {s t : Str} (h : tellConstruct lim c s = .error (.value t)) : FormatText lim c s t := by
  unfold tellConstruct at h
  cases hb : tellBase c s with
  | error e => rw [hb] at h; cases h; exact tellBase_text hb
  | ok u =>
    rw [hb] at h
    cases c
    case pathString =>
      dsimp only at h
      cases hu : isAnyUri s with
      | true => rw [hu] at h; cases h
      | false =>
        rw [hu] at h
        cases h
        exact .path fun h => by rw [(C25_any_uri_partial s).mpr h] at hu; cases hu
    case dateTime =>
      dsimp only at h
      by_cases hl : LongDateTime OptTimeZone lim s
      · rw [isXsDateTime, dateTimeWith_long (fun _ h => tz_ne h foreign_84) m_dateTimeRe hl] at h
        cases h
        obtain ⟨n, h1, h2, h3⟩ := long_digits hl
        rw [limitText_eq h1]
        exact .longYear h1 h2 h3
      · rw [isXsDateTime, dateTimeWith_short (fun _ h => tz_ne h foreign_84) m_dateTimeRe hl] at h
        obtain ⟨b, hb, hiff⟩ := C20_date_time_partial none s (by intro l hl; cases hl)
        rw [isXsDateTime] at hb
        rw [hb] at h
        cases b with
        | true => cases h
        | false => cases h; exact .dateTime fun h => by have := hiff.mpr (.inl h); cases this
    case dateTimeUtc =>
      dsimp only at h
      have hZ : ∀ tz, UtcZone tz → 84 ∉ tz := fun _ h => tz_ne (utc_tz h) foreign_84
      by_cases hl : LongDateTime UtcZone lim s
      · rw [isXsDateTimeUtc, dateTimeWith_long hZ m_dateTimeUtcRe hl] at h
        cases h
        obtain ⟨n, h1, h2, h3⟩ := long_digits hl
        rw [limitText_eq h1]
        exact .longYearUtc h1 h2 h3
      · rw [isXsDateTimeUtc, dateTimeWith_short hZ m_dateTimeUtcRe hl] at h
        obtain ⟨b, hb, hiff⟩ := C20_date_time_utc_partial none s (by intro l hl; cases hl)
        rw [isXsDateTimeUtc] at hb
        rw [hb] at h
        cases b with
        | true => cases h
        | false => cases h; exact .dateTimeUtc fun h => by have := hiff.mpr (.inl h); cases this
    all_goals cases h

end Verif.Aas
