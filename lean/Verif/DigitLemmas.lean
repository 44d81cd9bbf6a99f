import Verif.Spec.Digits
import Verif.Props.Values
import Verif.TemplateTelling

/-! # Limits on digits that are not reached -/

namespace Verif.DataTypes
open Verif Verif.Spec.Digits

theorem intDigits_length : ∀ (s : Str) (first : Bool) (ds : List Nat), intDigits first s = some ds → ds.length ≤ s.length
  | [], first, ds, h => by
    cases first <;> simp [intDigits] at h
    subst h
    exact Nat.le_refl _
  | c :: s, first, ds, h => by
    rw [intDigits] at h
    split at h
    · split at h
      · cases h
      · exact Nat.le_succ_of_le (intDigits_length s _ _ h)
    · split at h
      · cases h
      · split at h
        · cases h
        · rename_i ds' h'
          cases h
          exact Nat.succ_le_succ (intDigits_length s _ _ h')

theorem takeSign_length (s : Str) : (takeSign s).2.length ≤ s.length := by
  cases s with
  | nil => exact Nat.le_refl _
  | cons c s =>
    rw [takeSign]
    split
    · exact Nat.le_succ _
    · split
      · exact Nat.le_succ _
      · exact Nat.le_refl _

theorem stripBy_length (p : Nat → Bool) (s : Str) : (stripBy p s).length ≤ s.length := by
  obtain ⟨a, b, e, -⟩ := stripBy_split p s
  have := congrArg List.length e
  simp only [List.length_append] at this
  omega

theorem pyInt_none {lim : Option Nat} {s : Str} (h : Converts lim s.length) : pyInt lim s = pyInt none s := by
  rw [pyInt, pyInt]
  have h1 := takeSign_length (stripBy numSpace s)
  have h2 := stripBy_length numSpace s
  generalize takeSign (stripBy numSpace s) = x at h1
  obtain ⟨neg, body⟩ := x
  dsimp only at h1 ⊢
  cases hd : intDigits true body with
  | none => rfl
  | some ds =>
    have h3 := intDigits_length _ _ _ hd
    have : lim.any (fun l => l < ds.length) = false := by
      cases lim with
      | none => rfl
      | some l =>
        have := h l rfl
        simp only [Option.any_some, decide_eq_false_iff_not]
        omega
    simp [this]

theorem converts_mono {lim : Option Nat} {m n : Nat} (h : Converts lim n) (hm : m ≤ n) : Converts lim m := fun l hl => Nat.le_trans hm (h l hl)

theorem bounded_none {lim : Option Nat} {s : Str} (h : Converts lim s.length) (a b : Option Int) : isBoundedInteger lim s a b = isBoundedInteger none s a b := by
  rw [isBoundedInteger, isBoundedInteger, pyInt_none h]

theorem intE_none {lim : Option Nat} {s : Str} (h : Converts lim s.length) : intE lim s = intE none s := by
  rw [intE, intE, pyInt_none h]

theorem spanDigits_length : ∀ s : Str, (spanDigits s).1.length + (spanDigits s).2.length = s.length
  | [] => rfl
  | c :: s => by
    have := spanDigits_length s
    rw [spanDigits]
    split
    · simp only [List.length_cons]; omega
    · simp

theorem datePrefix_length {s y m d : Str} (h : datePrefix s = some (y, m, d)) : y.length ≤ s.length ∧ m.length ≤ s.length ∧ d.length ≤ s.length := by
  have key : ∀ (sign s1 : Str), sign.length + s1.length = s.length →
      (match spanDigits s1 with
        | ([], _) => none
        | (y, d1 :: m1 :: m2 :: d2 :: e1 :: e2 :: _) =>
          if d1 = pc! '-' ∧ Re.isDigit m1 ∧ Re.isDigit m2 ∧ d2 = pc! '-' ∧ Re.isDigit e1 ∧ Re.isDigit e2 then some (sign ++ y, [m1, m2], [e1, e2])
          else none
        | _ => none) = some (y, m, d) → y.length ≤ s.length ∧ m.length ≤ s.length ∧ d.length ≤ s.length := by
    intro sign s1 hl h
    have h2 := spanDigits_length s1
    split at h
    · cases h
    · rename_i e
      rw [e] at h2
      simp only [List.length_cons] at h2
      split at h
      · simp only [Option.some.injEq, Prod.mk.injEq] at h
        obtain ⟨rfl, rfl, rfl⟩ := h
        simp only [List.length_append, List.length_cons, List.length_nil]
        omega
      · cases h
    · cases h
  cases s with
  | nil => exact key [] [] rfl h
  | cons c r =>
    by_cases hc : c = pc! '-'
    · exact key [c] r (by simp only [List.length_cons, List.length_nil]; omega) (by rw [← h]; unfold datePrefix; simp only [hc, if_true]; rfl)
    · exact key [] (c :: r) (by simp) (by rw [← h]; unfold datePrefix; simp only [hc, if_false]; rfl)

theorem date_none {lim : Option Nat} {s : Str} (h : Converts lim s.length) : isXsDate lim s = isXsDate none s := by
  rw [isXsDate, isXsDate]
  split
  · rfl
  · cases hp : datePrefix s with
    | none => rfl
    | some p =>
      obtain ⟨y, m, d⟩ := p
      obtain ⟨h1, h2, h3⟩ := datePrefix_length hp
      dsimp only
      rw [intE_none (converts_mono h h1), intE_none (converts_mono h h2), intE_none (converts_mono h h3)]

theorem splitOn_length (sep : Nat) : ∀ (s : Str) (t : Str), t ∈ Py.splitOn sep s → t.length ≤ s.length
  | [], t, h => by
    rw [Py.splitOn, List.mem_singleton] at h
    subst h
    exact Nat.le_refl _
  | c :: s, t, h => by
    have ih := splitOn_length sep s
    rw [Py.splitOn] at h
    split at h
    · rcases List.mem_cons.mp h with rfl | h
      · exact Nat.zero_le _
      · exact Nat.le_succ_of_le (ih t h)
    · split at h
      · rw [List.mem_singleton] at h
        subst h
        simp
      · rename_i u us e
        rw [e] at ih
        rcases List.mem_cons.mp h with rfl | h
        · exact Nat.succ_le_succ (ih u (List.mem_cons_self ..))
        · exact Nat.le_succ_of_le (ih t (List.mem_cons_of_mem _ h))

theorem dateTime_none {re : Re} {lim : Option Nat} {s : Str} (h : Converts lim s.length) : dateTimeWith re lim s = dateTimeWith re none s := by
  rw [dateTimeWith, dateTimeWith]
  split
  · rfl
  · have hl := splitOn_length (pc! 'T') s
    split
    · rename_i d _ e
      rw [e] at hl
      exact date_none (converts_mono h (hl d (List.mem_cons_self ..)))
    · rfl

theorem gMonthDay_none {lim : Option Nat} {s : Str} (h : Converts lim s.length) : isXsGMonthDay lim s = isXsGMonthDay none s := by
  rw [isXsGMonthDay, isXsGMonthDay, intE_none (converts_mono h (m := ((s.drop 2).take 2).length) (by rw [List.length_take, List.length_drop]; omega)),
    intE_none (converts_mono h (m := ((s.drop 5).take 2).length) (by rw [List.length_take, List.length_drop]; omega))]

theorem validate_none {lim : Option Nat} {s : Str} (h : Converts lim s.length) (t : Xsd) : validate lim t s = validate none t s := by
  cases t
  case date => exact date_none h
  case dateTime =>
    change isXsDateTime lim s = isXsDateTime none s
    rw [isXsDateTime, isXsDateTime, dateTime_none h]
  case gMonthDay => exact gMonthDay_none h
  all_goals simp only [validate, bounded_none h]

end Verif.DataTypes
