import Verif.HtmlLemmas
import Verif.PathLemmas3
import Verif.Spec.TemplateTelling

/-! # Numbers in digits -/

namespace Verif.Templates
open Verif Verif.Spec Verif.Spec.Templates

theorem natStrF_fuel : ∀ (f g n : Nat), n < f → n < g → Py.natStrF f n = Py.natStrF g n
  | 0, _, _, h, _ => by omega
  | _, 0, _, _, h => by omega
  | f + 1, g + 1, n, hf, hg => by
    rw [Py.natStrF, Py.natStrF]
    split
    · rfl
    · rw [natStrF_fuel f g (n / 10) (by omega) (by omega)]

theorem natStr_step {n : Nat} (h : 10 ≤ n) : Py.natStr n = Py.natStr (n / 10) ++ [48 + n % 10] := by
  rw [Py.natStr, Py.natStrF, if_neg (by omega), Py.natStr, natStrF_fuel n (n / 10 + 1) (n / 10) (by omega) (by omega)]

theorem natStr_small {n : Nat} (h : n < 10) : Py.natStr n = [48 + n] := by
  rw [Py.natStr, Py.natStrF, if_pos h]

theorem decimal_read : ∀ (k : Nat) (t : Str), t.length = k → t ≠ [] → (∀ c ∈ t, IsDigit c) → t.head? ≠ some 48 →
    0 < decimalValue t ∧ t = Py.natStr (decimalValue t)
  | k, t, hk, hne, hd, hh => by
    rcases List.eq_nil_or_concat t with rfl | ⟨t', c, ht⟩
    · exact absurd rfl hne
    · rw [List.concat_eq_append] at ht
      subst ht
      have hc : 48 ≤ c ∧ c ≤ 57 := by
        have := hd c (by simp)
        simpa [IsDigit] using this
      have hv : decimalValue (t' ++ [c]) = decimalValue t' * 10 + (c - 48) := by
        rw [decimalValue, List.foldl_append]; rfl
      by_cases hn : t' = []
      · subst hn
        have hz : c ≠ 48 := by rintro rfl; exact hh rfl
        rw [hv, show decimalValue [] = 0 from rfl, Nat.zero_mul, Nat.zero_add]
        refine ⟨by omega, ?_⟩
        rw [natStr_small (by omega), show 48 + (c - 48) = c by omega]
        rfl
      · have hh' : t'.head? ≠ some 48 := by
          cases t' with
          | nil => exact absurd rfl hn
          | cons a t' => exact hh
        obtain ⟨h1, h2⟩ := decimal_read t'.length t' rfl hn (fun c hc => hd c (by simp [hc])) hh'
        rw [hv]
        refine ⟨by omega, ?_⟩
        rw [natStr_step (by omega), show (decimalValue t' * 10 + (c - 48)) / 10 = decimalValue t' by omega,
          show 48 + (decimalValue t' * 10 + (c - 48)) % 10 = c by omega, ← h2]
  termination_by k => k
  decreasing_by
    subst hk
    simp

theorem natStr_head {n : Nat} (h : 0 < n) : (Py.natStr n).head? ≠ some 48 := by
  induction n using Nat.strongRecOn with
  | _ n ih =>
    by_cases hn : n < 10
    · rw [natStr_small hn]
      simp only [List.head?_cons, ne_eq, Option.some.injEq]
      omega
    · rw [natStr_step (by omega)]
      have := ih (n / 10) (by omega) (by omega)
      cases hs : Py.natStr (n / 10) with
      | nil => exact absurd hs (Aas.natStr_ne_nil _)
      | cons a s => rw [hs] at this; exact this

/-- the digits of a number -/
theorem decimal_iff {n : Nat} {t : Str} : Decimal n t ↔ t = Py.natStr n := by
  constructor
  · rintro ⟨⟨h1, h2⟩, h3, h4⟩
    by_cases hh : t.head? = some 48
    · rw [h4 hh] at h3 ⊢
      subst h3
      decide
    · rw [← h3]
      exact (decimal_read _ t rfl h1 h2 hh).2
  · rintro rfl
    refine ⟨⟨Aas.natStr_ne_nil n, fun c hc => ?_⟩, Aas.natStr_val n, fun h => ?_⟩
    · have := Res.natStr_digits n c hc
      simpa [IsDigit] using this
    · by_cases hn : n = 0
      · subst hn; decide
      · exact absurd h (natStr_head (by omega))

end Verif.Templates
