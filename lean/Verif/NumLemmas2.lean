import Verif.NumLemmas

/-! # Python integer literals, binary types -/

namespace Verif.DataTypes
open Verif Re Spec

/-! ## decimal digits of any script -/

theorem digitZeros_ok : ∀ z ∈ digitZeros, ∀ i < 10, numSpace (z + i) = false ∧ Py.isSpace (z + i) = false ∧ z + i ≠ 95 ∧
    z + i ≠ 43 ∧ z + i ≠ 45 ∧ z + i ≠ 46 := by
  decide +kernel

theorem digitVal_ok {c v : Nat} (h : digitVal c = some v) : numSpace c = false ∧ Py.isSpace c = false ∧ c ≠ 95 ∧
    c ≠ 43 ∧ c ≠ 45 ∧ c ≠ 46 := by
  rw [digitVal] at h
  split at h
  · rename_i z hz
    have h1 := List.find?_some hz
    have h2 := List.mem_of_find?_eq_some hz
    simp only [Bool.and_eq_true, decide_eq_true_eq] at h1
    have := digitZeros_ok z h2 (c - z) (by omega)
    rwa [show z + (c - z) = c by omega] at this
  · cases h

/-- ASCII digits are the only ASCII characters among the digits -/
theorem digitZeros_ascii : ∀ z ∈ digitZeros, z = 48 ∨ 128 ≤ z := by decide +kernel

theorem digitVal_ascii {c v : Nat} (h : digitVal c = some v) (hc : c < 128) : IsDigit c ∧ v = c - 48 := by
  rw [digitVal] at h
  split at h
  · rename_i z hz
    have h1 := List.find?_some hz
    have h2 := List.mem_of_find?_eq_some hz
    simp only [Bool.and_eq_true, decide_eq_true_eq] at h1
    rcases digitZeros_ascii z h2 with rfl | h3
    · injection h with h
      unfold IsDigit
      exact ⟨by omega, h.symm⟩
    · omega
  · cases h

theorem intDigits_iff : ∀ (t : Str) (vs : List Nat), intDigits true t = some vs ↔ PyDigits digitVal t vs := by
  have key : ∀ (t : Str), (∀ vs, intDigits true t = some vs ↔ PyDigits digitVal t vs) ∧
      (∀ vs, intDigits false t = some vs ↔ (t = [] ∧ vs = []) ∨ PyDigits digitVal t vs ∨
        ∃ u, t = 95 :: u ∧ PyDigits digitVal u vs) := by
    intro t
    induction t with
    | nil =>
      constructor
      · intro vs
        simp only [intDigits, if_true]
        constructor
        · intro h; cases h
        · intro h; cases h
      · intro vs
        simp only [intDigits, Bool.false_eq_true, if_false]
        constructor
        · intro h; injection h with h; exact Or.inl ⟨trivial, h.symm⟩
        · rintro (⟨_, rfl⟩ | h | ⟨u, h, _⟩)
          · rfl
          · cases h
          · cases h
    | cons c t ih =>
      obtain ⟨ih1, ih2⟩ := ih
      have step : ∀ vs, c ≠ 95 → ((∃ d ds, digitVal c = some d ∧ intDigits false t = some ds ∧ vs = d :: ds) ↔
          PyDigits digitVal (c :: t) vs) := by
        intro vs hc
        constructor
        · rintro ⟨d, ds, hd, hds, rfl⟩
          rcases (ih2 ds).mp hds with ⟨rfl, rfl⟩ | h | ⟨u, rfl, h⟩
          · exact .one hd
          · exact .more hd h
          · exact .under hd h
        · intro h
          cases h with
          | one hd => exact ⟨_, [], hd, (ih2 _).mpr (Or.inl ⟨rfl, rfl⟩), rfl⟩
          | more hd h => exact ⟨_, _, hd, by rw [ih2]; exact Or.inr (Or.inl h), rfl⟩
          | under hd h => exact ⟨_, _, hd, by rw [ih2]; exact Or.inr (Or.inr ⟨_, rfl, h⟩), rfl⟩
      have red : ∀ f vs, c ≠ 95 → (intDigits f (c :: t) = some vs ↔
          ∃ d ds, digitVal c = some d ∧ intDigits false t = some ds ∧ vs = d :: ds) := by
        intro f vs hc
        rw [intDigits, if_neg hc]
        cases digitVal c with
        | none => simp
        | some d =>
          cases intDigits false t with
          | none => simp
          | some ds => simp [eq_comm]
      constructor
      · intro vs
        by_cases hc : c = 95
        · subst hc
          rw [intDigits, if_pos rfl, if_pos rfl]
          constructor
          · intro h; cases h
          · intro h
            cases h with
            | one hd => exact absurd rfl (digitVal_ok hd).2.2.1
            | more hd h => exact absurd rfl (digitVal_ok hd).2.2.1
            | under hd h => exact absurd rfl (digitVal_ok hd).2.2.1
        · rw [red _ _ hc, step _ hc]
      · intro vs
        by_cases hc : c = 95
        · subst hc
          rw [intDigits, if_pos rfl, if_neg (by simp), ih1]
          constructor
          · intro h; exact Or.inr (Or.inr ⟨t, rfl, h⟩)
          · rintro (⟨h, _⟩ | h | ⟨u, e, h⟩)
            · cases h
            · cases h with
              | one hd => exact absurd rfl (digitVal_ok hd).2.2.1
              | more hd h => exact absurd rfl (digitVal_ok hd).2.2.1
              | under hd h => exact absurd rfl (digitVal_ok hd).2.2.1
            · injection e with _ e; subst e; exact h
        · rw [red _ _ hc, step _ hc]
          constructor
          · intro h; exact Or.inr (Or.inl h)
          · rintro (⟨h, _⟩ | h | ⟨u, e, h⟩)
            · cases h
            · exact h
            · injection e with e; exact absurd e hc
  exact fun t => (key t).1

theorem pyDigits_ne_nil {dv : Nat → Option Nat} {t : Str} {vs : List Nat} (h : PyDigits dv t vs) : t ≠ [] := by
  cases h <;> simp

theorem pyDigits_head {dv : Nat → Option Nat} {t : Str} {vs : List Nat} (h : PyDigits dv t vs) {c : Nat}
    (hc : t.head? = some c) : ∃ v, dv c = some v := by
  cases h with
  | one hd => simp at hc; subst hc; exact ⟨_, hd⟩
  | more hd h => simp at hc; subst hc; exact ⟨_, hd⟩
  | under hd h => simp at hc; subst hc; exact ⟨_, hd⟩

theorem pyDigits_last {dv : Nat → Option Nat} {t : Str} {vs : List Nat} (h : PyDigits dv t vs) :
    ∀ {c : Nat}, t.getLast? = some c → ∃ v, dv c = some v := by
  induction h with
  | one hd => intro c hc; simp at hc; subst hc; exact ⟨_, hd⟩
  | more hd h ih =>
    intro c hc
    rw [List.getLast?_cons_of_ne_nil (pyDigits_ne_nil h)] at hc
    exact ih hc
  | under hd h ih =>
    intro c hc
    rw [List.getLast?_cons_of_ne_nil (by simp), List.getLast?_cons_of_ne_nil (pyDigits_ne_nil h)] at hc
    exact ih hc

/-! ## stripping -/

theorem dropWhile_split (p : Nat → Bool) (s : Str) : ∃ a, s = a ++ s.dropWhile p ∧ (∀ c ∈ a, p c = true) := by
  refine ⟨s.takeWhile p, List.takeWhile_append_dropWhile.symm, ?_⟩
  intro c hc
  exact List.all_eq_true.mp List.all_takeWhile c hc

theorem stripBy_split (p : Nat → Bool) (s : Str) : ∃ a b, s = a ++ stripBy p s ++ b ∧ (∀ c ∈ a, p c = true) ∧
    (∀ c ∈ b, p c = true) := by
  obtain ⟨a, e1, ha⟩ := dropWhile_split p s
  obtain ⟨b, e2, hb⟩ := dropWhile_split p (s.dropWhile p).reverse
  refine ⟨a, b.reverse, ?_, ha, by simpa using hb⟩
  have : s.dropWhile p = stripBy p s ++ b.reverse := by
    rw [stripBy, ← List.reverse_append, ← e2, List.reverse_reverse]
  rw [List.append_assoc, ← this]
  exact e1

theorem dropWhile_all {p : Nat → Bool} : ∀ (a t : Str), (∀ c ∈ a, p c = true) → (∀ c, t.head? = some c → p c = false) →
    (a ++ t).dropWhile p = t := by
  intro a
  induction a with
  | nil =>
    intro t _ h
    cases t with
    | nil => rfl
    | cons c t => rw [List.nil_append, List.dropWhile_cons, h c rfl]; rfl
  | cons x a ih =>
    intro t h1 h2
    rw [List.cons_append, List.dropWhile_cons, h1 x List.mem_cons_self]
    exact ih t (fun c hc => h1 c (List.mem_cons_of_mem _ hc)) h2

theorem stripBy_eq {p : Nat → Bool} {a t b : Str} (ha : ∀ c ∈ a, p c = true) (hb : ∀ c ∈ b, p c = true)
    (hne : t ≠ []) (h1 : ∀ c, t.head? = some c → p c = false) (h2 : ∀ c, t.getLast? = some c → p c = false) :
    stripBy p (a ++ t ++ b) = t := by
  have e1 : (a ++ t ++ b).dropWhile p = t ++ b := by
    rw [List.append_assoc]
    apply dropWhile_all a _ ha
    intro c hc
    cases t with
    | nil => exact absurd rfl hne
    | cons x t => exact h1 c (by simpa using hc)
  rw [stripBy, e1, List.reverse_append, dropWhile_all b.reverse _ (by simpa using hb), List.reverse_reverse]
  intro c
  rw [List.head?_reverse]
  exact h2 c

/-! ## `int` -/

theorem takeSign_spec (s : Str) : ∃ sign, s = sign ++ (takeSign s).2 ∧
    (((takeSign s).1 = false ∧ (sign = [] ∨ sign = [43])) ∨ ((takeSign s).1 = true ∧ sign = [45])) := by
  cases s with
  | nil => exact ⟨[], rfl, Or.inl ⟨rfl, Or.inl rfl⟩⟩
  | cons c s =>
    rw [takeSign]
    by_cases h1 : c = 45
    · rw [if_pos h1]; exact ⟨[45], by simp [h1], Or.inr ⟨rfl, rfl⟩⟩
    · rw [if_neg h1]
      by_cases h2 : c = 43
      · rw [if_pos h2]; exact ⟨[43], by simp [h2], Or.inl ⟨rfl, Or.inr rfl⟩⟩
      · rw [if_neg h2]; exact ⟨[], rfl, Or.inl ⟨rfl, Or.inl rfl⟩⟩

/-- `int(s)` succeeds exactly on Python's integer literals within the digit limit -/
theorem pyInt_iff (lim : Option Nat) (s : Str) (n : Int) :
    pyInt lim s = some n ↔ ∃ k, PyIntText digitVal numSpace s n k ∧ tooLong lim k = false := by
  constructor
  · intro h
    obtain ⟨a, b, e, ha, hb⟩ := stripBy_split numSpace s
    rw [pyInt] at h
    obtain ⟨sign, e2, hs⟩ := takeSign_spec (stripBy numSpace s)
    generalize ht : takeSign (stripBy numSpace s) = ts at h e2 hs
    obtain ⟨neg, body⟩ := ts
    simp only at h e2 hs
    cases hds : intDigits true body with
    | none => rw [hds] at h; cases h
    | some ds =>
      rw [hds] at h
      simp only at h
      split at h
      · cases h
      · rename_i hl
        injection h with h
        refine ⟨ds.length, ⟨a, sign, body, b, ds, by rw [e, e2]; simp, ha, hb, (intDigits_iff _ _).mp hds, rfl, ?_⟩, by
          simpa [tooLong] using hl⟩
        rcases hs with ⟨rfl, hs⟩ | ⟨rfl, hs⟩
        · exact Or.inl ⟨hs, h.symm⟩
        · exact Or.inr ⟨hs, h.symm⟩
  · rintro ⟨k, ⟨a, sign, body, b, vs, rfl, ha, hb, hd, rfl, hs⟩, hl⟩
    have hsign : sign = [] ∨ sign = [43] ∨ sign = [45] := by
      rcases hs with ⟨h | h, _⟩ | ⟨h, _⟩ <;> simp [h]
    have hbne := pyDigits_ne_nil hd
    have hst : stripBy numSpace (a ++ sign ++ body ++ b) = sign ++ body := by
      rw [List.append_assoc a]
      apply stripBy_eq ha hb
      · simp [hbne]
      · intro c hc
        rcases hsign with rfl | rfl | rfl
        · obtain ⟨v, hv⟩ := pyDigits_head hd (by simpa using hc)
          exact (digitVal_ok hv).1
        · simp at hc; subst hc; decide
        · simp at hc; subst hc; decide
      · intro c hc
        have : (sign ++ body).getLast? = body.getLast? := by
          rw [List.getLast?_append]
          cases hb : body.getLast? with
          | none => rw [List.getLast?_eq_none_iff] at hb; exact absurd hb hbne
          | some x => rfl
        rw [this] at hc
        obtain ⟨v, hv⟩ := pyDigits_last hd hc
        exact (digitVal_ok hv).1
    have hts : takeSign (sign ++ body) = (decide (sign = [45]), body) := by
      rcases hsign with rfl | rfl | rfl
      · cases body with
        | nil => exact absurd rfl hbne
        | cons c body =>
          obtain ⟨v, hv⟩ := pyDigits_head hd (c := c) rfl
          have := digitVal_ok hv
          simp [takeSign, this.2.2.2.1, this.2.2.2.2.1]
      · simp [takeSign]
      · simp [takeSign]
    rw [pyInt, hst, hts]
    simp only [(intDigits_iff _ _).mpr hd]
    have hl' : (lim.any fun l => decide (l < vs.length)) = false := hl
    rw [hl']
    simp only [Bool.false_eq_true, if_false]
    rcases hs with ⟨h | h, rfl⟩ | ⟨h, rfl⟩
    · subst h; simp [ofDigits]
    · subst h; simp [ofDigits]
    · subst h; simp [ofDigits]

theorem integerText_py {s : Str} {n : Int} (h : IntegerText s n) : ∃ k, k ≤ s.length ∧
    ∀ lim, tooLong lim k = false → pyInt lim s = some n := by
  obtain ⟨t, ht, h⟩ := h
  refine ⟨t.length, ?_, ?_⟩
  · rcases h with ⟨rfl, _⟩ | ⟨rfl, _⟩ | ⟨rfl, _⟩ <;> simp
  · intro lim hl
    rcases h with ⟨rfl, rfl⟩ | ⟨rfl, rfl⟩ | ⟨rfl, rfl⟩
    · rw [pyInt_numeral lim ht, hl]; rfl
    · rw [pyInt_pos_numeral lim ht, hl]; rfl
    · rw [pyInt_neg_numeral lim ht, hl]; rfl

theorem pyDigits_plain {t : Str} {vs : List Nat} (h : PyDigits digitVal t vs) (hc : ∀ c ∈ t, c < 128 ∧ c ≠ 95) :
    (∀ c ∈ t, IsDigit c) ∧ vs = t.map (· - 48) := by
  induction h with
  | one hd =>
    have := digitVal_ascii hd (hc _ (by simp)).1
    simp [this]
  | more hd h ih =>
    have h1 := digitVal_ascii hd (hc _ (by simp)).1
    have h2 := ih (fun c hx => hc c (List.mem_cons_of_mem _ hx))
    refine ⟨?_, by simp [h1.2, h2.2]⟩
    intro c hx
    rcases List.mem_cons.mp hx with rfl | hx
    · exact h1.1
    · exact h2.1 c hx
  | under hd h ih => exact absurd rfl (hc 95 (by simp)).2

/-- text of visible ASCII characters without underscore that Python reads as integer is an XSD integer -/
theorem pyInt_plain {lim : Option Nat} {s : Str} {n : Int} (h : pyInt lim s = some n)
    (hc : ∀ c ∈ s, 33 ≤ c ∧ c < 128 ∧ c ≠ 95) : IntegerText s n := by
  obtain ⟨k, ⟨a, sign, body, b, vs, rfl, ha, hb, hd, rfl, hs⟩, _⟩ := (pyInt_iff _ _ _).mp h
  have nospace : ∀ c, 33 ≤ c → c < 128 → numSpace c = false := by
    intro c h1 h2
    simp only [numSpace, asciiSpace, Bool.or_eq_false_iff, Bool.and_eq_false_iff, decide_eq_false_iff_not,
      beq_eq_false_iff_ne, ne_eq]
    omega
  have ha' : a = [] := by
    cases a with
    | nil => rfl
    | cons x a =>
      have h1 := ha x (by simp); have h2 := hc x (by simp)
      rw [nospace x h2.1 h2.2.1] at h1; cases h1
  have hb' : b = [] := by
    cases b with
    | nil => rfl
    | cons x b =>
      have h1 := hb x (by simp); have h2 := hc x (by simp)
      rw [nospace x h2.1 h2.2.1] at h1; cases h1
  subst ha' hb'
  obtain ⟨h1, rfl⟩ := pyDigits_plain hd (fun c hx => (hc c (by simp [hx])).2)
  have hv : (body.map (· - 48)).foldl (fun n d => n * 10 + d) 0 = decimalValue body := ofDigits_map body
  refine ⟨body, ⟨pyDigits_ne_nil hd, h1⟩, ?_⟩
  rw [hv] at hs
  rcases hs with ⟨rfl | rfl, rfl⟩ | ⟨rfl, rfl⟩
  · exact Or.inl ⟨by simp, rfl⟩
  · exact Or.inr (Or.inl ⟨by simp, rfl⟩)
  · exact Or.inr (Or.inr ⟨by simp, rfl⟩)

/-! ## binary -/

theorem isHex_iff (c : Nat) : isHex c = true ↔ HexDigit c := by
  unfold isHex Re.hexVal HexDigit IsDigit
  simp only [Bool.and_eq_true, decide_eq_true_eq]
  split
  · simp; omega
  · split
    · simp; omega
    · split
      · simp; omega
      · simp; omega

theorem asciiSpace_iff (c : Nat) : asciiSpace c = true ↔ Blank1 c := by
  simp only [asciiSpace, Blank1, Bool.or_eq_true, Bool.and_eq_true, decide_eq_true_eq, beq_iff_eq]
  omega

theorem blank_not_hex {c : Nat} (h : Blank1 c) : ¬ HexDigit c := by
  unfold HexDigit IsDigit; unfold Blank1 at h; omega

theorem isHexBinary_iff (s : Str) : isHexBinary s = true ↔ HexText s := by
  fun_induction isHexBinary s with
  | case1 => simp [HexText.nil]
  | case2 c =>
    rw [asciiSpace_iff]
    constructor
    · intro h; exact .blank h .nil
    · intro h; cases h; assumption
  | case3 c d s h ih =>
    rw [ih]
    rw [asciiSpace_iff] at h
    constructor
    · intro h'; exact .blank h h'
    · intro h'
      cases h' with
      | blank _ h' => exact h'
      | pair ha _ _ => exact absurd ha (blank_not_hex h)
  | case4 c d s h ih =>
    rw [Bool.and_eq_true, Bool.and_eq_true, isHex_iff, isHex_iff, ih]
    constructor
    · rintro ⟨⟨h1, h2⟩, h3⟩; exact .pair h1 h2 h3
    · intro h'
      cases h' with
      | blank hb _ => exact absurd ((asciiSpace_iff c).mpr hb) h
      | pair ha hb h' => exact ⟨⟨ha, hb⟩, h'⟩

theorem isB64_iff (c : Nat) : isB64 c = true ↔ Base64Char c := by
  simp only [isB64, Base64Char, Re.isLetter, Re.isDigit, IsDigit, Bool.or_eq_true, Bool.and_eq_true,
    decide_eq_true_eq, beq_iff_eq]
  omega

theorem dataCount_cons (c : Nat) (s : Str) : dataCount (c :: s) = dataCount s + if Base64Char c then 1 else 0 := by
  rw [dataCount, List.countP_cons]
  simp [dataCount]

theorem dataCount_append (s t : Str) : dataCount (s ++ t) = dataCount s + dataCount t := by
  simp [dataCount]

theorem eq_not_b64 : ¬ Base64Char 61 := by unfold Base64Char IsDigit; omega

/-- what is left to do in state (`q` characters of the group, `p` padding characters seen) -/
def Groupable' (q p : Nat) (s : Str) : Prop :=
  (q + dataCount s) % 4 = 0 ∨
  (2 ≤ q ∧ ∃ w v, s = w ++ v ∧ (∀ c ∈ w, ¬ Base64Char c) ∧ 4 ≤ w.count 61 + q + p) ∨
  ∃ u w v, s = u ++ w ++ v ∧ 0 < dataCount u ∧ (∀ c ∈ w, ¬ Base64Char c) ∧ 2 ≤ (q + dataCount u) % 4 ∧
    4 ≤ w.count 61 + (q + dataCount u) % 4

theorem a2b_iff : ∀ (s : Str) (q p : Nat), q < 4 → (2 ≤ q → q + p < 4) → (a2b q p s = true ↔ Groupable' q p s) := by
  intro s
  induction s with
  | nil =>
    intro q p hq hp
    simp only [a2b, beq_iff_eq, Groupable']
    constructor
    · intro h; left; simp [h, dataCount]
    · rintro (h | ⟨h2, w, v, e, _, hc⟩ | ⟨u, w, v, e, h0, _⟩)
      · simp [dataCount] at h; omega
      · have : w = [] := by cases w with | nil => rfl | cons _ _ => cases e
        subst this; simp at hc; have := hp h2; omega
      · have : u = [] := by cases u with | nil => rfl | cons _ _ => cases e
        subst this; simp [dataCount] at h0
  | cons c s ih =>
    intro q p hq hp
    rw [a2b]
    -- a character that is neither data nor a counted padding
    have skip : ∀ p', ¬ Base64Char c → (2 ≤ q → (c = 61 → p' = p + 1) ∧ (c ≠ 61 → p' = p)) → (2 ≤ q → q + p' < 4) →
        (Groupable' q p (c :: s) ↔ Groupable' q p' s) := by
      intro p' hb hpp hlt
      unfold Groupable'
      rw [dataCount_cons, if_neg hb, Nat.add_zero]
      constructor
      · rintro (h | ⟨h2, w, v, e, hw, hc⟩ | ⟨u, w, v, e, h0, hw, h2, hc⟩)
        · exact Or.inl h
        · right; left
          refine ⟨h2, ?_⟩
          cases w with
          | nil => simp at hc; have := hp h2; omega
          | cons x w =>
            injection e with e1 e2
            subst e1
            refine ⟨w, v, e2, fun y hy => hw y (List.mem_cons_of_mem _ hy), ?_⟩
            rw [List.count_cons] at hc
            have := hpp h2
            by_cases hx : c = 61
            · have := this.1 hx; simp [hx] at hc; omega
            · have := this.2 hx; simp [hx] at hc; omega
        · right; right
          cases u with
          | nil => simp [dataCount] at h0
          | cons x u =>
            injection e with e1 e2
            subst e1
            rw [dataCount_cons, if_neg hb, Nat.add_zero] at h0 h2 hc
            exact ⟨u, w, v, e2, h0, hw, h2, hc⟩
      · rintro (h | ⟨h2, w, v, rfl, hw, hc⟩ | ⟨u, w, v, rfl, h0, hw, h2, hc⟩)
        · exact Or.inl h
        · right; left
          refine ⟨h2, c :: w, v, rfl, ?_, ?_⟩
          · intro y hy
            rcases List.mem_cons.mp hy with rfl | hy
            · exact hb
            · exact hw y hy
          · rw [List.count_cons]
            have := hpp h2
            by_cases hx : c = 61
            · have := this.1 hx; simp [hx]; omega
            · have := this.2 hx; simp [hx]; omega
        · right; right
          refine ⟨c :: u, w, v, rfl, ?_, hw, ?_, ?_⟩ <;> rw [dataCount_cons, if_neg hb, Nat.add_zero] <;> assumption
    by_cases hc : c = 61
    · subst hc
      rw [if_pos rfl]
      by_cases hq2 : 2 ≤ q
      · rw [if_pos hq2]
        by_cases hfull : 4 ≤ q + (p + 1)
        · rw [if_pos hfull]
          simp only [true_iff]
          right; left
          refine ⟨hq2, [61], s, rfl, by simpa using eq_not_b64, ?_⟩
          have := hp hq2
          simp; omega
        · rw [if_neg hfull, ih q (p + 1) hq (by omega), skip (p + 1) eq_not_b64 (by simp) (by omega)]
      · rw [if_neg hq2, ih q p hq hp, skip p eq_not_b64 (by omega) (by omega)]
    · rw [if_neg hc]
      by_cases hb : isB64 c = true
      · rw [if_pos hb, ih _ 0 (Nat.mod_lt _ (by omega)) (by omega)]
        rw [isB64_iff] at hb
        unfold Groupable'
        rw [dataCount_cons, if_pos hb]
        constructor
        · rintro (h | ⟨h2, w, v, rfl, hw, hcnt⟩ | ⟨u, w, v, rfl, h0, hw, h2, hcnt⟩)
          · left; omega
          · right; right
            refine ⟨[c], w, v, rfl, ?_, hw, ?_, ?_⟩
            · simp [dataCount, hb]
            · simp [dataCount, hb]; omega
            · simp [dataCount, hb]; omega
          · right; right
            refine ⟨c :: u, w, v, rfl, ?_, hw, ?_, ?_⟩
            · rw [dataCount_cons, if_pos hb]; omega
            · rw [dataCount_cons, if_pos hb]; omega
            · rw [dataCount_cons, if_pos hb]
              have : ((q + 1) % 4 + dataCount u) % 4 = (q + (dataCount u + 1)) % 4 := by omega
              omega
        · rintro (h | ⟨h2, w, v, e, hw, hcnt⟩ | ⟨u, w, v, e, h0, hw, h2, hcnt⟩)
          · left; omega
          · cases w with
            | nil => simp at hcnt; have := hp h2; omega
            | cons x w =>
              injection e with e1 e2
              subst e1
              exact absurd hb (hw c List.mem_cons_self)
          · cases u with
            | nil => simp [dataCount] at h0
            | cons x u =>
              injection e with e1 e2
              subst e1
              rw [dataCount_cons, if_pos hb] at h0 h2 hcnt
              have hmod : ((q + 1) % 4 + dataCount u) % 4 = (q + (dataCount u + 1)) % 4 := by omega
              by_cases hu : dataCount u = 0
              · right; left
                refine ⟨by omega, u ++ w, v, e2, ?_, ?_⟩
                · intro y hy
                  rcases List.mem_append.mp hy with hy | hy
                  · intro hyb
                    have : 0 < dataCount u := by
                      rw [dataCount, List.countP_pos_iff]
                      exact ⟨y, hy, by simpa using hyb⟩
                    omega
                  · exact hw y hy
                · rw [List.count_append]; omega
              · right; right
                exact ⟨u, w, v, e2, by omega, hw, by omega, by omega⟩
      · rw [if_neg hb, ih q p hq hp]
        rw [isB64_iff] at hb
        rw [skip p hb (by simp [hc]) hp]

end Verif.DataTypes
