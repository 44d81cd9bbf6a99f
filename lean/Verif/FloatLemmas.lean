import Verif.NumLemmas2

/-! # Rounding to doubles and scanning of decimal literals -/

namespace Verif.DataTypes
open Verif Re Spec

/-! ## rounding -/

theorem roundHalfEven_spec (a b : Nat) (hb : 0 < b) :
    2 * distance a (roundHalfEven a b * b) ≤ b ∧
    (2 * distance a (roundHalfEven a b * b) = b → roundHalfEven a b % 2 = 0) := by
  have h1 := Nat.div_add_mod a b
  have h2 := Nat.mod_lt a hb
  rw [roundHalfEven]
  rw [Nat.mul_comm] at h1
  have e : (a / b + 1) * b = a / b * b + b := by rw [Nat.add_mul, Nat.one_mul]
  generalize a / b = q at *
  generalize a % b = r at *
  generalize hm : q * b = x at *
  unfold distance
  split
  · rw [hm]; omega
  · split
    · rw [e]; omega
    · split
      · rw [hm]; omega
      · rw [e]; omega

/-- the rounded value is at least as near as any other integer; ties only with half the unit -/
theorem roundHalfEven_nearest (a b : Nat) (hb : 0 < b) (j : Nat) :
    distance a (roundHalfEven a b * b) ≤ distance a (j * b) ∧
    (j ≠ roundHalfEven a b → distance a (roundHalfEven a b * b) = distance a (j * b) → roundHalfEven a b % 2 = 0) := by
  obtain ⟨h1, h2⟩ := roundHalfEven_spec a b hb
  generalize roundHalfEven a b = m at *
  rcases Nat.lt_trichotomy j m with h | h | h
  · have : (j + 1) * b ≤ m * b := Nat.mul_le_mul_right b h
    rw [Nat.add_mul, Nat.one_mul] at this
    generalize j * b = x at *
    generalize m * b = y at *
    unfold distance at *
    constructor
    · omega
    · intro _ he; apply h2; omega
  · subst h; simp
  · have : (m + 1) * b ≤ j * b := Nat.mul_le_mul_right b h
    rw [Nat.add_mul, Nat.one_mul] at this
    generalize j * b = x at *
    generalize m * b = y at *
    unfold distance at *
    constructor
    · omega
    · intro _ he; apply h2; omega

theorem toDouble_rounds (a b : Nat) (hb : 0 < b) : RoundsTo a b (toDouble a b) := by
  rw [toDouble]
  unfold RoundsTo
  generalize a * 2 ^ 1074 = A
  generalize hk : (A / b).log2 - 52 = k
  have hB : 0 < b * 2 ^ k := Nat.mul_pos hb (Nat.pow_pos (by omega))
  -- size of A
  have hup : A < 2 ^ 53 * (b * 2 ^ k) := by
    have h1 : A / b < 2 ^ (53 + k) := by
      by_cases h0 : A / b = 0
      · rw [h0]; exact Nat.pow_pos (by omega)
      · have := Nat.lt_log2_self (n := A / b)
        exact Nat.lt_of_lt_of_le this (Nat.pow_le_pow_right (by omega) (by omega))
    have h2 : A < 2 ^ (53 + k) * b := (Nat.div_lt_iff_lt_mul hb).mp h1
    rw [Nat.pow_add] at h2
    calc A < 2 ^ 53 * 2 ^ k * b := h2
      _ = _ := by rw [Nat.mul_assoc, Nat.mul_comm (2 ^ k) b]
  have hlow : 0 < k → 2 ^ 52 * (b * 2 ^ k) ≤ A := by
    intro hk0
    have h0 : A / b ≠ 0 := by
      intro h0; rw [h0] at hk
      have : Nat.log2 0 = 0 := by decide
      omega
    have h1 : 2 ^ (52 + k) ≤ A / b := by
      have := Nat.log2_self_le h0
      rwa [show (A / b).log2 = 52 + k by omega] at this
    have h2 := (Nat.le_div_iff_mul_le hb).mp h1
    rw [Nat.pow_add] at h2
    calc 2 ^ 52 * (b * 2 ^ k) = 2 ^ 52 * 2 ^ k * b := by rw [Nat.mul_assoc, Nat.mul_comm (2 ^ k) b]
      _ ≤ A := h2
  obtain ⟨hs1, hs2⟩ := roundHalfEven_spec A (b * 2 ^ k) hB
  have hn := roundHalfEven_nearest A (b * 2 ^ k) hB
  generalize hm : roundHalfEven A (b * 2 ^ k) = m at *
  -- size of m
  have hmup : m ≤ 2 ^ 53 := by
    have := (hn (2 ^ 53)).1
    by_cases hc : m ≤ 2 ^ 53
    · exact hc
    · exfalso
      have : (2 ^ 53 + 1) * (b * 2 ^ k) ≤ m * (b * 2 ^ k) := Nat.mul_le_mul_right _ (by omega)
      rw [Nat.add_mul, Nat.one_mul] at this
      unfold distance at *
      generalize b * 2 ^ k = B at *
      generalize m * B = y at *
      omega
  have hmlow : 0 < k → 2 ^ 52 ≤ m := by
    intro hk0
    have hl := hlow hk0
    by_cases hc : 2 ^ 52 ≤ m
    · exact hc
    · exfalso
      have : (m + 1) * (b * 2 ^ k) ≤ 2 ^ 52 * (b * 2 ^ k) := Nat.mul_le_mul_right _ (by omega)
      rw [Nat.add_mul, Nat.one_mul] at this
      unfold distance at *
      generalize b * 2 ^ k = B at *
      generalize m * B = y at *
      omega
  have ed : m * 2 ^ k * b = m * (b * 2 ^ k) := by rw [Nat.mul_assoc, Nat.mul_comm (2 ^ k) b]
  rw [ed]
  have carry : (2 : Nat) ^ 53 * 2 ^ k = 2 ^ 52 * 2 ^ (k + 1) := by
    rw [Nat.pow_succ 2 k, Nat.mul_comm (2 ^ k) 2, ← Nat.mul_assoc]
  -- any double that is not a multiple of 2^k is farther away
  have other : ∀ d', Double d' → distance A (m * (b * 2 ^ k)) ≤ distance A (d' * b) ∧
      (d' ≠ m * 2 ^ k → distance A (m * (b * 2 ^ k)) = distance A (d' * b) → m % 2 = 0) := by
    rintro d' ⟨m', k', hm', rfl⟩
    by_cases hkk : k ≤ k'
    · have e : m' * 2 ^ k' * b = (m' * 2 ^ (k' - k)) * (b * 2 ^ k) := by
        have : (2 : Nat) ^ k' = 2 ^ (k' - k) * 2 ^ k := by rw [← Nat.pow_add]; congr 1; omega
        rw [this, Nat.mul_comm b, ← Nat.mul_assoc, ← Nat.mul_assoc]
      have hne : m' * 2 ^ k' ≠ m * 2 ^ k → m' * 2 ^ (k' - k) ≠ m := by
        intro h h'
        apply h
        rw [← h', Nat.mul_assoc, ← Nat.pow_add]
        congr 2; omega
      rw [e]
      exact ⟨(hn _).1, fun h1 h2 => (hn _).2 (hne h1) h2⟩
    · have hk0 : 0 < k := by omega
      have hl := hlow hk0
      have h1 : m' * 2 ^ k' * b < 2 ^ 52 * (b * 2 ^ k) := by
        have e1 : m' * 2 ^ k' < 2 ^ 53 * 2 ^ k' := Nat.mul_lt_mul_of_pos_right hm' (Nat.pow_pos (by omega))
        have e2 : (2 : Nat) ^ 53 * 2 ^ k' ≤ 2 ^ 52 * 2 ^ k := by
          rw [← Nat.pow_add, ← Nat.pow_add]
          exact Nat.pow_le_pow_right (by omega) (by omega)
        have e3 : m' * 2 ^ k' * b < 2 ^ 52 * 2 ^ k * b := Nat.mul_lt_mul_of_pos_right (Nat.lt_of_lt_of_le e1 e2) hb
        calc m' * 2 ^ k' * b < 2 ^ 52 * 2 ^ k * b := e3
          _ = _ := by rw [Nat.mul_assoc, Nat.mul_comm (2 ^ k) b]
      have h2 := (hn (2 ^ 52)).1
      generalize m' * 2 ^ k' * b = x at *
      generalize 2 ^ 52 * (b * 2 ^ k) = y at *
      generalize m * (b * 2 ^ k) = z at *
      unfold distance at *
      constructor
      · omega
      · intro _ he; omega
  refine ⟨?_, fun d' hd => (other d' hd).1, ?_⟩
  · by_cases hc : m < 2 ^ 53
    · exact ⟨m, k, hc, rfl⟩
    · have : m = 2 ^ 53 := by omega
      exact ⟨2 ^ 52, k + 1, by decide, by rw [this, carry]⟩
  · intro d' hd hne he
    have hev := (other d' hd).2 hne he
    by_cases hc : m < 2 ^ 53
    · refine ⟨m, k, hc, ?_, hev, rfl⟩
      by_cases hk0 : 0 < k
      · exact Or.inl (hmlow hk0)
      · exact Or.inr (by omega)
    · have : m = 2 ^ 53 := by omega
      exact ⟨2 ^ 52, k + 1, by decide, Or.inl (by decide), by decide, by rw [this, carry]⟩

theorem normal_unique {m k M K : Nat} (h1 : m < 2 ^ 53) (h2 : 2 ^ 52 ≤ m ∨ k = 0) (h3 : M < 2 ^ 53) (h4 : 2 ^ 52 ≤ M)
    (e : m * 2 ^ k = M * 2 ^ K) : m = M := by
  have step : ∀ {a i b j : Nat}, i < j → a * 2 ^ i = b * 2 ^ j → 2 * b ≤ a := by
    intro a i b j hij h
    have : (2 : Nat) ^ j = 2 ^ (j - i) * 2 ^ i := by rw [← Nat.pow_add]; congr 1; omega
    rw [this, ← Nat.mul_assoc] at h
    have h' := Nat.eq_of_mul_eq_mul_right (Nat.pow_pos (by omega)) h
    have : (2 : Nat) ^ 1 ≤ 2 ^ (j - i) := Nat.pow_le_pow_right (by omega) (by omega)
    rw [h', Nat.mul_comm]
    exact Nat.mul_le_mul_left b this
  rcases Nat.lt_trichotomy k K with h | h | h
  · have := step h e; omega
  · subst h; exact Nat.eq_of_mul_eq_mul_right (Nat.pow_pos (by omega)) e
  · have := step h e.symm
    rcases h2 with h2 | h2 <;> omega

/-- comparing a rounded number with a double `M * 2^K`, whose predecessor is `(M - 1) * 2^K` -/
theorem rounds_lt {a b d M K : Nat} (hb : 0 < b) (hM1 : 2 ^ 52 < M) (hM2 : M < 2 ^ 53) (h : RoundsTo a b d) :
    d < M * 2 ^ K ↔
      (2 * (a * 2 ^ 1074) < (2 * M - 1) * 2 ^ K * b ∨ (2 * (a * 2 ^ 1074) = (2 * M - 1) * 2 ^ K * b ∧ M % 2 = 1)) := by
  obtain ⟨hd, hnear, htie⟩ := h
  have hC : Double (M * 2 ^ K) := ⟨M, K, hM2, rfl⟩
  have hP : Double ((M - 1) * 2 ^ K) := ⟨M - 1, K, by omega, rfl⟩
  have eP : M * 2 ^ K = (M - 1) * 2 ^ K + 2 ^ K := by
    rw [← Nat.succ_mul]; congr 1; omega
  have hpow : 0 < (2 : Nat) ^ K := Nat.pow_pos (by omega)
  -- nothing between predecessor and the number
  have gap : d < M * 2 ^ K → d ≤ (M - 1) * 2 ^ K := by
    intro hlt
    obtain ⟨m, k, hm, rfl⟩ := hd
    by_cases hkK : K ≤ k
    · have : (2 : Nat) ^ k = 2 ^ (k - K) * 2 ^ K := by rw [← Nat.pow_add]; congr 1; omega
      rw [this, ← Nat.mul_assoc] at hlt ⊢
      have := Nat.lt_of_mul_lt_mul_right hlt
      exact Nat.mul_le_mul_right _ (by omega)
    · have e1 : m * 2 ^ k ≤ 2 ^ 53 * 2 ^ k := Nat.mul_le_mul_right _ (by omega)
      have e2 : (2 : Nat) ^ 53 * 2 ^ k ≤ 2 ^ 52 * 2 ^ K := by
        rw [← Nat.pow_add, ← Nat.pow_add]; exact Nat.pow_le_pow_right (by omega) (by omega)
      have e3 : 2 ^ 52 * 2 ^ K ≤ (M - 1) * 2 ^ K := Nat.mul_le_mul_right _ (by omega)
      omega
  have sumEq : (2 * M - 1) * 2 ^ K * b = M * 2 ^ K * b + (M - 1) * 2 ^ K * b := by
    rw [← Nat.add_mul, ← Nat.add_mul]; congr 2; omega
  have hPC : (M - 1) * 2 ^ K * b < M * 2 ^ K * b := Nat.mul_lt_mul_of_pos_right (by omega) hb
  have nC := hnear _ hC
  have nP := hnear _ hP
  rw [sumEq]
  constructor
  · intro hlt
    have hle := gap hlt
    have hle' : d * b ≤ (M - 1) * 2 ^ K * b := Nat.mul_le_mul_right b hle
    rcases Nat.lt_trichotomy (2 * (a * 2 ^ 1074)) (M * 2 ^ K * b + (M - 1) * 2 ^ K * b) with h | h | h
    · exact Or.inl h
    · right
      refine ⟨h, ?_⟩
      have htie' : distance (a * 2 ^ 1074) (d * b) = distance (a * 2 ^ 1074) (M * 2 ^ K * b) := by
        unfold distance at *; omega
      have hdP : d = (M - 1) * 2 ^ K := by
        have : d * b = (M - 1) * 2 ^ K * b := by unfold distance at *; omega
        exact Nat.eq_of_mul_eq_mul_right hb this
      obtain ⟨m, k, hm1, hm2, hm3, e⟩ := htie _ hC (by omega) htie'
      have := normal_unique hm1 hm2 (M := M - 1) (K := K) (by omega) (by omega) (by rw [← e, hdP])
      omega
    · exfalso; unfold distance at *; omega
  · intro h
    by_cases hlt : d < M * 2 ^ K
    · exact hlt
    · exfalso
      have hge : M * 2 ^ K * b ≤ d * b := Nat.mul_le_mul_right b (by omega)
      rcases h with h | ⟨h, hodd⟩
      · unfold distance at *; omega
      · have htie' : distance (a * 2 ^ 1074) (d * b) = distance (a * 2 ^ 1074) ((M - 1) * 2 ^ K * b) := by
          unfold distance at *; omega
        have hdC : d = M * 2 ^ K := by
          have : d * b = M * 2 ^ K * b := by unfold distance at *; omega
          exact Nat.eq_of_mul_eq_mul_right hb this
        obtain ⟨m, k, hm1, hm2, hm3, e⟩ := htie _ hP (by omega) htie'
        have := normal_unique hm1 hm2 (M := M) (K := K) hM2 (by omega) (by rw [← e, hdC])
        omega

theorem floatBound_eq : toDouble (34028234663852886 * 10 ^ 22) 1 = ((2 ^ 24 - 1) * 2 ^ 29) * 2 ^ (75 + 1074) := by
  decide +kernel

theorem doubleBound_eq : toDouble (17976931348623158 * 10 ^ 292) 1 = (2 ^ 53 - 1) * 2 ^ (971 + 1074) := by
  decide +kernel

end Verif.DataTypes
