import Verif.FloatLemmas

/-! # Scanning of decimal and floating point literals -/

namespace Verif.DataTypes
open Verif Re Spec

theorem ofDigits_append_map (a b : Str) : ofDigits (a.map (· - 48) ++ b.map (· - 48)) = decimalValue (a ++ b) := by
  rw [← List.map_append, ofDigits_map]

/-- the ASCII characters that may follow digits -/
def NoDigitHead (s : Str) : Prop := ∀ c, s.head? = some c → digitVal c = none

theorem takeDigits_append : ∀ (is r : Str), (∀ c ∈ is, IsDigit c) → NoDigitHead r →
    takeDigits (is ++ r) = (is.map (· - 48), r) := by
  intro is
  induction is with
  | nil =>
    intro r _ hr
    cases r with
    | nil => rfl
    | cons c r => rw [List.nil_append, takeDigits, hr c rfl]; rfl
  | cons c is ih =>
    intro r h hr
    rw [List.cons_append, takeDigits, digitVal_digit (h c (by simp))]
    simp only
    rw [ih r (fun x hx => h x (List.mem_cons_of_mem _ hx)) hr]
    rfl

theorem takeDigits_inv : ∀ (s : Str), (∀ c ∈ s, c < 128) → ∃ is r, s = is ++ r ∧ (∀ c ∈ is, IsDigit c) ∧
    takeDigits s = (is.map (· - 48), r) := by
  intro s
  induction s with
  | nil => intro _; exact ⟨[], [], rfl, by simp, rfl⟩
  | cons c s ih =>
    intro h
    obtain ⟨is, r, e, hd, ht⟩ := ih (fun x hx => h x (List.mem_cons_of_mem _ hx))
    rw [takeDigits]
    cases hc : digitVal c with
    | none => exact ⟨[], c :: s, rfl, by simp, rfl⟩
    | some v =>
      obtain ⟨h1, rfl⟩ := digitVal_ascii hc (h c (by simp))
      refine ⟨c :: is, r, by rw [e]; rfl, ?_, ?_⟩
      · intro x hx
        rcases List.mem_cons.mp hx with rfl | hx
        · exact h1
        · exact hd x hx
      · simp only [ht]; rfl

theorem digitVal_none {c : Nat} (h : c < 48 ∨ 57 < c) (h2 : c < 128) : digitVal c = none := by
  cases hv : digitVal c with
  | none => rfl
  | some v =>
    have := (digitVal_ascii hv h2).1
    unfold IsDigit at this; omega

theorem lower_e (c : Nat) : lower c = 101 ↔ c = 101 ∨ c = 69 := by
  unfold lower
  simp only [Bool.and_eq_true, decide_eq_true_eq]
  split <;> omega

/-- exponent part as text -/
def ExpText (x : Str) (n : Int) : Prop :=
  (x = [] ∧ n = 0) ∨ ∃ E y, x = E :: y ∧ (E = 101 ∨ E = 69) ∧ IntegerText y n

theorem scanExp_of {x : Str} {n : Int} (h : ExpText x n) : scanExp x = some n := by
  rcases h with ⟨rfl, rfl⟩ | ⟨E, y, rfl, hE, t, ⟨hne, hd⟩, hy⟩
  · rfl
  · have key : takeDigits t = (t.map (· - 48), []) := by
      have := takeDigits_append t [] hd (by intro c hc; cases hc)
      rwa [List.append_nil] at this
    have hv : ofDigits (t.map (· - 48)) = decimalValue t := ofDigits_map t
    have ht : takeSign t = (false, t) := by
      cases t with
      | nil => rfl
      | cons c t =>
        have := hd c List.mem_cons_self
        unfold IsDigit at this
        rw [takeSign, if_neg (by omega), if_neg (by omega)]
    have hcons : ∃ a as, t.map (· - 48) = a :: as := by
      cases t with
      | nil => exact absurd rfl hne
      | cons c t => exact ⟨_, _, rfl⟩
    obtain ⟨a, as, ha⟩ := hcons
    rw [ha] at key hv
    rw [scanExp, if_pos ((lower_e E).mpr hE)]
    rcases hy with ⟨rfl, rfl⟩ | ⟨rfl, rfl⟩ | ⟨rfl, rfl⟩
    · simp only [ht, key, hv]; simp
    · have : takeSign (43 :: t) = (false, t) := rfl
      simp only [this, key, hv]; simp
    · have : takeSign (45 :: t) = (true, t) := rfl
      simp only [this, key, hv]; simp

theorem scanExp_inv {x : Str} {n : Int} (hx : ∀ c ∈ x, c < 128) (h : scanExp x = some n) : ExpText x n := by
  cases x with
  | nil => left; rw [scanExp] at h; injection h with h; exact ⟨rfl, h.symm⟩
  | cons E y =>
    right
    rw [scanExp] at h
    split at h
    · rename_i hE
      refine ⟨E, y, rfl, (lower_e E).mp hE, ?_⟩
      obtain ⟨sign, e, hs⟩ := takeSign_spec y
      generalize takeSign y = ts at h e hs
      obtain ⟨neg, body⟩ := ts
      simp only at h e hs
      obtain ⟨is, r, e2, hd, ht⟩ := takeDigits_inv body (by
        intro c hc; exact hx c (by rw [e]; simp [hc]))
      rw [ht] at h
      split at h
      · rename_i d ds heq
        injection heq with h1 h2
        subst h2
        rw [List.append_nil] at e2
        subst e2
        injection h with h
        rw [← h1, ofDigits_map] at h
        refine ⟨body, ⟨(by rintro rfl; cases h1), hd⟩, ?_⟩
        rcases hs with ⟨rfl, rfl | rfl⟩ | ⟨rfl, rfl⟩
        · exact Or.inl ⟨e, by simpa using h.symm⟩
        · exact Or.inr (Or.inl ⟨e, by simpa using h.symm⟩)
        · exact Or.inr (Or.inr ⟨e, by simpa using h.symm⟩)
      · cases h
    · cases h

theorem expText_head {x : Str} {n : Int} (h : ExpText x n) : NoDigitHead x ∧ x.head? ≠ some 46 := by
  rcases h with ⟨rfl, _⟩ | ⟨E, y, rfl, hE, _⟩
  · exact ⟨(by intro c hc; cases hc), by simp⟩
  · refine ⟨?_, ?_⟩
    · intro c hc
      simp at hc; subst hc
      exact digitVal_none (by omega) (by omega)
    · simp; omega

/-- digits, fraction digits and exponent found by the scanner -/
theorem scanFinite_of {t x : Str} {is fs : Str} {n : Int} (neg : Bool) (hd : ∀ c ∈ is ++ fs, IsDigit c) (hne : is ++ fs ≠ [])
    (ht : (t = is ∧ fs = []) ∨ t = is ++ 46 :: fs) (hx : ExpText x n) :
    scanFinite neg (t ++ x) = some ⟨neg, is.map (· - 48), fs.map (· - 48), n⟩ := by
  have h46 : digitVal 46 = none := digitVal_none (by omega) (by omega)
  have h1 : ∀ c ∈ is, IsDigit c := fun c hc => hd c (by simp [hc])
  have h2 : ∀ c ∈ fs, IsDigit c := fun c hc => hd c (by simp [hc])
  obtain ⟨hx1, hx2⟩ := expText_head hx
  have he : (List.map (fun x => x - 48) is).isEmpty = false ∨ (List.map (fun x => x - 48) fs).isEmpty = false := by
    cases is with
    | nil =>
      cases fs with
      | nil => exact absurd rfl hne
      | cons _ _ => right; rfl
    | cons _ _ => left; rfl
  rw [scanFinite]
  rcases ht with ⟨rfl, rfl⟩ | rfl
  · rw [takeDigits_append _ x h1 hx1]
    simp only
    have : scanFrac x = (([] : List Nat), x) := by
      cases x with
      | nil => rfl
      | cons c r => simp at hx2; simp [scanFrac, hx2]
    rw [this]
    simp only [scanExp_of hx, Option.map_some, List.map_nil, List.isEmpty_nil, Bool.and_true]
    rw [if_neg]
    rcases he with he | he
    · simp [he]
    · simp at he
  · rw [List.append_assoc, takeDigits_append is _ h1 (by intro c hc; simp at hc; subst hc; exact h46)]
    simp only [List.cons_append, scanFrac, if_true]
    rw [takeDigits_append fs x h2 hx1]
    simp only [scanExp_of hx, Option.map_some]
    rw [if_neg]
    rcases he with he | he <;> simp [he]

theorem scanFinite_inv {neg : Bool} {s : Str} {num : Num} (hs : ∀ c ∈ s, c < 128) (h : scanFinite neg s = some num) :
    ∃ t x is fs, s = t ++ x ∧ (∀ c ∈ is ++ fs, IsDigit c) ∧ is ++ fs ≠ [] ∧
      ((t = is ∧ fs = []) ∨ t = is ++ 46 :: fs) ∧ ExpText x num.exp ∧ num = ⟨neg, is.map (· - 48), fs.map (· - 48), num.exp⟩ := by
  rw [scanFinite] at h
  obtain ⟨is, s1, e1, hd1, ht1⟩ := takeDigits_inv s hs
  rw [ht1] at h
  simp only at h
  have hs1 : ∀ c ∈ s1, c < 128 := fun c hc => hs c (by rw [e1]; simp [hc])
  obtain ⟨fs, s2, hm, hs2, hd2, t, e2, ht⟩ : ∃ fs s2, scanFrac s1 = (fs.map (· - 48), s2) ∧ (∀ c ∈ s2, c < 128) ∧ (∀ c ∈ fs, IsDigit c) ∧
      ∃ t, s = t ++ s2 ∧ ((t = is ∧ fs = []) ∨ t = is ++ 46 :: fs) := by
    cases s1 with
    | nil => exact ⟨[], [], rfl, by simp, by simp, is, e1, Or.inl ⟨rfl, rfl⟩⟩
    | cons c r =>
      by_cases hc : c = 46
      · subst hc
        obtain ⟨fs, s2, e3, hd2, ht2⟩ := takeDigits_inv r (fun c hc => hs1 c (by simp [hc]))
        refine ⟨fs, s2, by simp [scanFrac, ht2], fun c hc => hs1 c (by rw [e3]; simp [hc]), hd2, is ++ 46 :: fs, by rw [e1, e3]; simp,
          Or.inr rfl⟩
      · exact ⟨[], c :: r, by simp [scanFrac, hc], hs1, by simp, is, e1, Or.inl ⟨rfl, rfl⟩⟩
  rw [hm] at h
  simp only at h
  split at h
  · cases h
  · rename_i hne
    cases hexp : scanExp s2 with
    | none => rw [hexp] at h; cases h
    | some n =>
      rw [hexp] at h
      injection h with h
      subst h
      refine ⟨t, s2, is, fs, e2, ?_, ?_, ht, scanExp_inv hs2 hexp, rfl⟩
      · intro c hc
        rcases List.mem_append.mp hc with hc | hc
        · exact hd1 c hc
        · exact hd2 c hc
      · intro hnil
        apply hne
        have := List.append_eq_nil_iff.mp hnil
        simp [this.1, this.2]

/-- visible ASCII without underscore -/
def Plain (s : Str) : Prop := ∀ c ∈ s, 33 ≤ c ∧ c < 128 ∧ c ≠ 95

theorem stripBy_numSpace_plain {s : Str} (h : Plain s) : stripBy numSpace s = s := by
  have nospace : ∀ c ∈ s, numSpace c = false := by
    intro c hc
    have := h c hc
    simp only [numSpace, asciiSpace, Bool.or_eq_false_iff, Bool.and_eq_false_iff, decide_eq_false_iff_not,
      beq_eq_false_iff_ne, ne_eq]
    omega
  exact stripBy_none (fun c hc => nospace c (List.mem_of_mem_head? hc)) (fun c hc => nospace c (List.mem_of_getLast? hc))

theorem stripBy_isSpace_plain {s : Str} (h : Plain s) : stripBy Py.isSpace s = s := by
  have nospace : ∀ c ∈ s, Py.isSpace c = false := by
    intro c hc
    have := h c hc
    simp only [Py.isSpace, Bool.or_eq_false_iff, Bool.and_eq_false_iff, decide_eq_false_iff_not,
      beq_eq_false_iff_ne, ne_eq]
    omega
  exact stripBy_none (fun c hc => nospace c (List.mem_of_mem_head? hc)) (fun c hc => nospace c (List.mem_of_getLast? hc))

theorem dropUnderscores_plain : ∀ (s : Str) (prev : Option Nat), (∀ c ∈ s, c ≠ 95) → prev ≠ some 95 →
    dropUnderscores prev s = some s := by
  intro s
  induction s with
  | nil => intro prev _ hp; rw [dropUnderscores, if_neg hp]
  | cons c s ih =>
    intro prev h hp
    rw [dropUnderscores, if_neg (h c (by simp)), ih _ (fun x hx => h x (List.mem_cons_of_mem _ hx)) (by
      simpa using h c (by simp))]
    simp [hp]

theorem isDigit_plain {c : Nat} (h : IsDigit c) : 33 ≤ c ∧ c < 128 ∧ c ≠ 95 := by unfold IsDigit at h; omega

theorem unsignedDecimal_plain {t : Str} {D k : Nat} (h : UnsignedDecimal t D k) : Plain t := by
  obtain ⟨is, fs, hd, _, _, _, ht⟩ := h
  intro c hc
  rcases ht with ⟨rfl, rfl⟩ | rfl
  · exact isDigit_plain (hd c (by simp [hc]))
  · simp only [List.mem_append, List.mem_cons] at hc
    rcases hc with hc | rfl | hc
    · exact isDigit_plain (hd c (by simp [hc]))
    · omega
    · exact isDigit_plain (hd c (by simp [hc]))

theorem decimalText_plain {s : Str} {D k : Nat} (h : DecimalText s D k) : Plain s := by
  obtain ⟨sign, t, rfl, hs, ht⟩ := h
  intro c hc
  rcases List.mem_append.mp hc with hc | hc
  · rcases hs with rfl | rfl | rfl
    · cases hc
    · simp at hc; omega
    · simp at hc; omega
  · exact unsignedDecimal_plain ht c hc

theorem integerText_plain {s : Str} {n : Int} (h : IntegerText s n) : Plain s := by
  obtain ⟨t, ht, h⟩ := h
  intro c hc
  rcases h with ⟨rfl, _⟩ | ⟨rfl, _⟩ | ⟨rfl, _⟩
  · exact isDigit_plain (ht.2 c hc)
  · rcases List.mem_cons.mp hc with rfl | hc
    · omega
    · exact isDigit_plain (ht.2 c hc)
  · rcases List.mem_cons.mp hc with rfl | hc
    · omega
    · exact isDigit_plain (ht.2 c hc)

theorem realText_plain {s : Str} {D : Nat} {e : Int} (h : RealText s D e) : Plain s := by
  obtain ⟨t, x, k, rfl, ht, hx⟩ := h
  intro c hc
  rcases List.mem_append.mp hc with hc | hc
  · exact decimalText_plain ht c hc
  · rcases hx with ⟨rfl, _⟩ | ⟨E, y, n, rfl, hE, hy, _⟩
    · cases hc
    · rcases List.mem_cons.mp hc with rfl | hc
      · omega
      · exact integerText_plain hy c hc

theorem takeSign_unsigned {sign t : Str} (hs : sign = [] ∨ sign = [43] ∨ sign = [45])
    (ht : ∀ c, t.head? = some c → c ≠ 43 ∧ c ≠ 45) : takeSign (sign ++ t) = (decide (sign = [45]), t) := by
  rcases hs with rfl | rfl | rfl
  · cases t with
    | nil => rfl
    | cons c t =>
      have := ht c rfl
      rw [List.nil_append, takeSign, if_neg this.2, if_neg this.1]; rfl
  · rfl
  · rfl

/-- an unsigned decimal begins with a digit or a point -/
theorem unsignedDecimal_head {t : Str} {D k : Nat} (h : UnsignedDecimal t D k) (x : Str) : ∀ c, (t ++ x).head? = some c →
    IsDigit c ∨ c = 46 := by
  obtain ⟨is, fs, hd, hne, _, _, ht⟩ := h
  intro c hc
  cases is with
  | nil =>
    rcases ht with ⟨rfl, rfl⟩ | rfl
    · exact absurd rfl hne
    · simp at hc; exact Or.inr hc.symm
  | cons i is =>
    left
    rcases ht with ⟨rfl, rfl⟩ | rfl
    · simp at hc; subst hc; exact hd _ (by simp)
    · simp at hc; subst hc; exact hd _ (by simp)

theorem low_not_word {body : Str} (h : ∀ c, body.head? = some c → IsDigit c ∨ c = 46) (w : Str) (x : Nat) (hx : 97 ≤ x ∧ x ≤ 122) :
    (x :: w).isPrefixOf (body.map lower) = false := by
  cases body with
  | nil => rfl
  | cons c body =>
    have := h c rfl
    have hl : lower c = c := by
      unfold lower
      simp only [Bool.and_eq_true, decide_eq_true_eq]
      rw [if_neg]
      unfold IsDigit at this; omega
    rw [List.map_cons, hl, List.isPrefixOf_cons_cons]
    have : (x == c) = false := by
      rw [beq_eq_false_iff_ne]; unfold IsDigit at this; omega
    rw [this]; rfl

theorem low_ne {body : Str} (h : ∀ c, body.head? = some c → IsDigit c ∨ c = 46) (w : Str) (x : Nat) (hx : 97 ≤ x ∧ x ≤ 122) :
    body.map lower ≠ x :: w := by
  intro e
  have := low_not_word h w x hx
  rw [e, List.isPrefixOf_iff_prefix.mpr (List.prefix_refl _)] at this
  cases this

/-- scanning a real literal -/
theorem scanFloat_real {s : Str} {D : Nat} {e : Int} (h : RealText s D e) :
    ∃ n : Num, scanFloat s = some (.num n) ∧ ofDigits (n.int ++ n.frac) = D ∧ n.exp - n.frac.length = e := by
  have hp := realText_plain h
  obtain ⟨t, x, k, rfl, ⟨sign, u, rfl, hs, is, fs, hd, hne, hD, hk, hu⟩, hx⟩ := h
  obtain ⟨m, hm, he⟩ : ∃ m, ExpText x m ∧ e = m - k := by
    rcases hx with ⟨rfl, rfl⟩ | ⟨E, y, n, rfl, hE, hy, rfl⟩
    · exact ⟨0, Or.inl ⟨rfl, rfl⟩, by simp⟩
    · exact ⟨n, Or.inr ⟨E, y, rfl, hE, hy⟩, rfl⟩
  have hhead := unsignedDecimal_head (t := u) (D := D) (k := k) ⟨is, fs, hd, hne, hD, hk, hu⟩ x
  have hts : takeSign (sign ++ u ++ x) = (decide (sign = [45]), u ++ x) := by
    rw [List.append_assoc]
    apply takeSign_unsigned hs
    intro c hc
    have := hhead c hc
    unfold IsDigit at this; omega
  refine ⟨⟨decide (sign = [45]), is.map (· - 48), fs.map (· - 48), m⟩, ?_, ?_, ?_⟩
  · rw [scanFloat, stripBy_numSpace_plain hp, dropUnderscores_plain _ none (fun c hc => (hp c hc).2.2) (by simp)]
    simp only [hts]
    rw [if_neg, if_neg, scanFinite_of _ hd hne hu hm]
    · rfl
    · exact low_ne hhead _ _ (by omega)
    · rintro (h | h)
      · exact low_ne hhead _ _ (by omega) h
      · exact low_ne hhead _ _ (by omega) h
  · simp only [ofDigits_append_map]; exact hD.symm
  · simp only [List.length_map]; omega

/-- what scans as a number is a real literal, if it is visible ASCII without underscore -/
theorem scanFloat_inv {s : Str} {n : Num} (hp : Plain s) (h : scanFloat s = some (.num n)) :
    RealText s (ofDigits (n.int ++ n.frac)) (n.exp - n.frac.length) := by
  rw [scanFloat, stripBy_numSpace_plain hp, dropUnderscores_plain _ none (fun c hc => (hp c hc).2.2) (by simp)] at h
  simp only at h
  obtain ⟨sign, e, hs⟩ := takeSign_spec s
  generalize takeSign s = ts at h e hs
  obtain ⟨neg, body⟩ := ts
  simp only at h e hs
  split at h
  · cases h
  · split at h
    · cases h
    · cases hsc : scanFinite neg body with
      | none => rw [hsc] at h; cases h
      | some num =>
        rw [hsc] at h
        injection h with h
        injection h with h
        subst h
        obtain ⟨t, x, is, fs, e2, hd, hne, ht, hx, hn⟩ := scanFinite_inv (fun c hc => (hp c (by rw [e]; simp [hc])).2.1) hsc
        rw [hn]
        simp only [ofDigits_append_map, List.length_map]
        refine ⟨sign ++ t, x, fs.length, by rw [e, e2]; simp, ⟨sign, t, rfl, ?_, is, fs, hd, hne, rfl, rfl, ht⟩, ?_⟩
        · rcases hs with ⟨_, rfl | rfl⟩ | ⟨_, rfl⟩ <;> simp
        · rcases hx with ⟨rfl, h0⟩ | ⟨E, y, rfl, hE, hy⟩
          · exact Or.inl ⟨rfl, by rw [h0]; omega⟩
          · exact Or.inr ⟨E, y, _, rfl, hE, hy, rfl⟩

theorem absDouble_rounds (n : Num) {D : Nat} {e : Int} (h1 : ofDigits (n.int ++ n.frac) = D) (h2 : n.exp - n.frac.length = e) :
    RoundsTo (fraction D e).1 (fraction D e).2 n.absDouble := by
  rw [Num.absDouble]
  simp only [h1, h2, fraction]
  split
  · rename_i h
    have : (-e).toNat = 0 := by omega
    rw [this, Nat.pow_zero]
    exact toDouble_rounds _ _ (by omega)
  · rename_i h
    have : e.toNat = 0 := by omega
    rw [this, Nat.pow_zero, Nat.mul_one]
    exact toDouble_rounds _ _ (Nat.pow_pos (by omega))

theorem fraction_pos (D : Nat) (e : Int) : 0 < (fraction D e).2 := Nat.pow_pos (by omega)

end Verif.DataTypes
