import Verif.Spec.JsonText

/-! # Lemmas about `json.loads`: strings and numbers -/

namespace Verif.JsonText
open Verif Verif.Spec.JsonText

/-! ## strings -/

theorem hexDigit_eq (c : Nat) : hexDigit c = hexVal c := by
  unfold hexDigit hexVal
  simp only [Bool.and_eq_true, decide_eq_true_eq]
  split
  · rfl
  split
  · rw [show c - 97 + 10 = c - 87 by omega]
  split
  · rw [show c - 65 + 10 = c - 55 by omega]
  · rfl

theorem scanHex_iff (s : Str) (n : Nat) (r : Str) : scanHex s = some (n, r) ↔ ∃ ds, s = ds ++ r ∧ Hex4 ds n ∧ r ≠ [] := by
  constructor
  · intro h
    unfold scanHex at h
    split at h
    · rename_i a b c d e s
      simp only [hexDigit_eq] at h
      split at h
      · rename_i a' b' c' d' ha hb hc hd
        cases h
        exact ⟨[a, b, c, d], rfl, ⟨a, b, c, d, a', b', c', d', rfl, ha, hb, hc, hd, by omega⟩, by simp⟩
      · cases h
    · cases h
  · rintro ⟨ds, rfl, ⟨a, b, c, d, a', b', c', d', rfl, ha, hb, hc, hd, rfl⟩, hr⟩
    cases r with
    | nil => exact absurd rfl hr
    | cons e r =>
      simp only [scanHex, hexDigit_eq, List.cons_append, List.nil_append, ha, hb, hc, hd]
      rw [show ((a' * 16 + b') * 16 + c') * 16 + d' = a' * 4096 + b' * 256 + c' * 16 + d' by omega]

theorem _root_.Verif.Spec.JsonText.Hex4.length {ds : Str} {n : Nat} (h : Hex4 ds n) : ds.length = 4 := by
  obtain ⟨a, b, c, d, -, -, -, -, rfl, -⟩ := h
  rfl

theorem isHigh_iff (n : Nat) : isHigh n = true ↔ High n := by unfold isHigh High; simp; omega
theorem isLow_iff (n : Nat) : isLow n = true ↔ Low n := by unfold isLow Low; simp; omega

theorem startsWith_iff (s p : Str) : Py.startsWith s p = true ↔ ∃ r, s = p ++ r := by
  unfold Py.startsWith
  rw [List.isPrefixOf_iff_prefix]
  exact ⟨fun ⟨t, h⟩ => ⟨t, h.symm⟩, fun ⟨t, h⟩ => ⟨t, h.symm⟩⟩

/-- what is left begins with the escape of a low surrogate -/
theorem lowEscape_left {t : Str} (h : LowEscape t) (rest : Str) : ∃ m r, scanHex ((t ++ 34 :: rest).drop 2) = some (m, r) ∧ Low m ∧
    Py.startsWith (t ++ 34 :: rest) [92, pc! 'u'] = true := by
  obtain ⟨ds, n, t', rfl, hd, hl⟩ := h
  exact ⟨n, t' ++ 34 :: rest, (scanHex_iff _ _ _).mpr ⟨ds, by simp, hd, by simp⟩, hl, (startsWith_iff _ _).mpr ⟨ds ++ t' ++ 34 :: rest, by simp⟩⟩

theorem scanUnicode_sound {s : Str} {v : Nat} {r : Str} (h : scanUnicode (pc! 'u' :: s) = .ok (v, r)) :
    (∃ ds, s = ds ++ r ∧ Hex4 ds v ∧ ∀ t rest, r = t ++ 34 :: rest → ¬ (High v ∧ LowEscape t)) ∨
    (∃ ds es m n, s = ds ++ (92 :: pc! 'u' :: es ++ r) ∧ Hex4 ds m ∧ High m ∧ Hex4 es n ∧ Low n ∧ v = 0x10000 + (m - 0xd800) * 1024 + (n - 0xdc00)) := by
  unfold scanUnicode at h
  simp only [List.drop_succ_cons, List.drop_zero] at h
  split at h
  · cases h
  · rename_i c r1 h1
    obtain ⟨ds, rfl, hd, hr⟩ := (scanHex_iff _ _ _).mp h1
    split at h
    · rename_i hc
      simp only [Bool.and_eq_true, isHigh_iff] at hc
      obtain ⟨r2, rfl⟩ := (startsWith_iff _ _).mp hc.2
      split at h
      · cases h
      · rename_i c2 r3 h2
        split at h
        · rename_i hl
          simp only [Except.ok.injEq, Prod.mk.injEq] at h
          obtain ⟨rfl, rfl⟩ := h
          obtain ⟨es, he, h3, -⟩ := (scanHex_iff _ _ _).mp h2
          simp only [List.cons_append, List.nil_append, List.drop_succ_cons, List.drop_zero] at he
          exact .inr ⟨ds, es, c, c2, by rw [he]; rfl, hd, hc.1, h3, (isLow_iff _).mp hl, rfl⟩
        · rename_i hl
          cases h
          refine .inl ⟨ds, rfl, hd, fun t rest ht hh => ?_⟩
          obtain ⟨m, r4, h3, h4, -⟩ := lowEscape_left hh.2 rest
          rw [← ht, h2] at h3
          cases h3
          exact hl ((isLow_iff _).mpr h4)
    · rename_i hc
      cases h
      refine .inl ⟨ds, rfl, hd, fun t rest ht hh => ?_⟩
      obtain ⟨m, r4, h3, h4, h5⟩ := lowEscape_left hh.2 rest
      rw [← ht] at h5
      exact hc (by rw [h5, (isHigh_iff _).mpr hh.1]; rfl)

theorem escape_iff (e c : Nat) : simpleEscape e = some c ↔
    (e, c) ∈ [(34, 34), (92, 92), (47, 47), (pc! 'b', 8), (pc! 'f', 12), (pc! 'n', 10), (pc! 'r', 13), (pc! 't', 9)] := by
  simp only [List.mem_cons, Prod.mk.injEq, List.not_mem_nil, or_false]
  constructor
  · intro h
    unfold simpleEscape at h
    split at h
    · rename_i h1
      cases h
      rcases h1 with rfl | rfl | rfl <;> simp
    split at h
    · rename_i h1; subst h1; cases h; simp
    split at h
    · rename_i h1; subst h1; cases h; simp
    split at h
    · rename_i h1; subst h1; cases h; simp
    split at h
    · rename_i h1; subst h1; cases h; simp
    split at h
    · rename_i h1; subst h1; cases h; simp
    · cases h
  · rintro (⟨rfl, rfl⟩ | ⟨rfl, rfl⟩ | ⟨rfl, rfl⟩ | ⟨rfl, rfl⟩ | ⟨rfl, rfl⟩ | ⟨rfl, rfl⟩ | ⟨rfl, rfl⟩ | ⟨rfl, rfl⟩) <;> rfl

theorem bind_ok {ε α β : Type} {x : Except ε α} {f : α → Except ε β} {b : β} : (x >>= f) = .ok b ↔ ∃ a, x = .ok a ∧ f a = .ok b := by
  cases x <;> simp [bind, Except.bind]

theorem scanString_sound {start : Str} : ∀ {n : Nat} {s v r : Str}, scanString start n s = .ok (v, r) → ∃ t, s = t ++ 34 :: r ∧ Chars t v
  | 0, s, v, r, h => by cases h
  | n + 1, [], v, r, h => by cases h
  | n + 1, c :: s, v, r, h => by
    unfold scanString at h
    split at h
    · rename_i hc
      cases h; subst hc
      exact ⟨[], rfl, .nil⟩
    split at h
    · rename_i h34 hc
      subst hc
      split at h
      · cases h
      · rename_i e r1
        split at h
        · rename_i he
          subst he
          obtain ⟨⟨u, r2⟩, h1, h2⟩ := bind_ok.mp h
          obtain ⟨⟨t, r3⟩, h3, h4⟩ := bind_ok.mp h2
          simp only [Except.ok.injEq, Prod.mk.injEq] at h4
          obtain ⟨rfl, rfl⟩ := h4
          obtain ⟨t', rfl, hc⟩ := scanString_sound h3
          rcases scanUnicode_sound h1 with ⟨ds, rfl, hd, hn⟩ | ⟨ds, es, m, k, rfl, hd, hm, he, hk, hv⟩
          · exact ⟨_, by simp, Chars.unicode hd (hn _ _ rfl) hc⟩
          · rw [hv]
            exact ⟨_, by simp, Chars.pair hd hm he hk hc⟩
        · split at h
          · cases h
          · rename_i x hx
            obtain ⟨⟨t, r3⟩, h3, h4⟩ := bind_ok.mp h
            cases h4
            obtain ⟨t', rfl, hc⟩ := scanString_sound h3
            exact ⟨92 :: e :: t', rfl, .escape ((escape_iff _ _).mp hx) hc⟩
    · rename_i h34 h92
      split at h
      · cases h
      · rename_i hlt
        obtain ⟨⟨t, r3⟩, h3, h4⟩ := bind_ok.mp h
        cases h4
        obtain ⟨t', rfl, hc⟩ := scanString_sound h3
        exact ⟨c :: t', rfl, .plain (by omega) h34 h92 hc⟩

/-- texts that begin with an escape -/
theorem _root_.Verif.Spec.JsonText.Chars.escaped {t v : Str} (h : Chars t v) (rest : Str) (hs : Py.startsWith (t ++ 34 :: rest) [92, pc! 'u'] = true) :
    ∃ ds n t', t = 92 :: pc! 'u' :: ds ++ t' ∧ Hex4 ds n := by
  obtain ⟨r, hr⟩ := (startsWith_iff _ _).mp hs
  cases h with
  | nil => cases hr
  | plain h1 h2 h3 h4 =>
    simp only [List.cons_append, List.nil_append, List.cons.injEq] at hr
    exact absurd hr.1 h3
  | escape h1 h2 =>
    simp only [List.cons_append, List.nil_append, List.cons.injEq, true_and] at hr
    obtain ⟨rfl, -⟩ := hr
    exact absurd h1 (by simp)
  | @unicode ds n t v h1 h2 h3 => exact ⟨ds, n, t, rfl, h1⟩
  | @pair ds es m n t v h1 h2 h3 h4 h5 => exact ⟨ds, m, _, rfl, h1⟩

theorem scanUnicode_single {ds : Str} {n : Nat} {t v : Str} (hd : Hex4 ds n) (hn : ¬ (High n ∧ LowEscape t)) (hc : Chars t v) (rest : Str) :
    scanUnicode (pc! 'u' :: (ds ++ (t ++ 34 :: rest))) = .ok (n, t ++ 34 :: rest) := by
  unfold scanUnicode
  simp only [List.drop_succ_cons, List.drop_zero]
  rw [(scanHex_iff _ n (t ++ 34 :: rest)).mpr ⟨ds, rfl, hd, by simp⟩]
  dsimp only
  split
  · rename_i h
    simp only [Bool.and_eq_true, isHigh_iff] at h
    obtain ⟨es, m, t', rfl, he⟩ := hc.escaped rest h.2
    rw [(scanHex_iff _ m (t' ++ 34 :: rest)).mpr ⟨es, by simp, he, by simp⟩]
    dsimp only
    rw [if_neg]
    intro hl
    exact hn ⟨h.1, es, m, t', rfl, he, (isLow_iff _).mp hl⟩
  · rfl

theorem scanUnicode_pair {ds es : Str} {m n : Nat} (hd : Hex4 ds m) (hm : High m) (he : Hex4 es n) (hn : Low n) (t rest : Str) :
    scanUnicode (pc! 'u' :: (ds ++ (92 :: pc! 'u' :: (es ++ (t ++ 34 :: rest))))) = .ok (0x10000 + (m - 0xd800) * 1024 + (n - 0xdc00), t ++ 34 :: rest) := by
  unfold scanUnicode
  simp only [List.drop_succ_cons, List.drop_zero]
  rw [(scanHex_iff _ m (92 :: pc! 'u' :: (es ++ (t ++ 34 :: rest)))).mpr ⟨ds, rfl, hd, by simp⟩]
  dsimp only
  rw [if_pos (by rw [(isHigh_iff _).mpr hm, (startsWith_iff (92 :: pc! 'u' :: (es ++ (t ++ 34 :: rest))) _).mpr ⟨es ++ (t ++ 34 :: rest), rfl⟩]; rfl)]
  simp only [List.drop_succ_cons, List.drop_zero]
  rw [(scanHex_iff _ n (t ++ 34 :: rest)).mpr ⟨es, rfl, he, by simp⟩]
  dsimp only
  rw [if_pos ((isLow_iff _).mpr hn)]

theorem scanString_complete {start : Str} {t v : Str} (h : Chars t v) (rest : Str) :
    ∀ n, t.length + 1 ≤ n → scanString start n (t ++ 34 :: rest) = .ok (v, rest) := by
  induction h with
  | nil =>
    intro n hn
    obtain ⟨n, rfl⟩ : ∃ k, n = k + 1 := ⟨n - 1, by omega⟩
    simp [scanString]
  | @plain c t v h1 h2 h3 h4 ih =>
    intro n hn
    simp only [List.length_cons] at hn
    obtain ⟨n, rfl⟩ : ∃ k, n = k + 1 := ⟨n - 1, by omega⟩
    simp only [List.cons_append, scanString]
    rw [if_neg h2, if_neg h3, if_neg (by omega), ih n (by omega)]
    rfl
  | @escape e c t v h1 h2 ih =>
    intro n hn
    simp only [List.length_cons] at hn
    obtain ⟨n, rfl⟩ : ∃ k, n = k + 1 := ⟨n - 1, by omega⟩
    simp only [List.cons_append, scanString]
    rw [if_neg (by decide), if_pos trivial, if_neg, (escape_iff _ _).mpr h1]
    · dsimp only
      rw [ih n (by omega)]
      rfl
    · rintro rfl; simp at h1
  | @unicode ds k t v h1 h2 h3 ih =>
    intro n hn
    simp only [List.length_cons, List.length_append, h1.length] at hn
    obtain ⟨n, rfl⟩ : ∃ k, n = k + 1 := ⟨n - 1, by omega⟩
    simp only [List.cons_append, scanString, List.append_assoc]
    rw [if_neg (by decide), if_pos trivial, if_pos trivial, scanUnicode_single h1 h2 h3 rest]
    simp only [bind, Except.bind]
    rw [ih n (by omega)]
  | @pair ds es m k t v h1 h2 h3 h4 h5 ih =>
    intro n hn
    simp only [List.length_cons, List.length_append, h1.length, h3.length] at hn
    obtain ⟨n, rfl⟩ : ∃ k, n = k + 1 := ⟨n - 1, by omega⟩
    simp only [List.cons_append, scanString, List.append_assoc]
    rw [if_neg (by decide), if_pos trivial, if_pos trivial, scanUnicode_pair h1 h2 h3 h4 t rest]
    simp only [bind, Except.bind]
    rw [ih n (by omega)]

/-! ## numbers -/

theorem isDigit_iff (c : Nat) : isDigit c = true ↔ Digit c := by unfold isDigit Digit; simp

theorem takeWhile_mem {α : Type} {f : α → Bool} : ∀ {l : List α} {c : α}, c ∈ l.takeWhile f → f c = true
  | [], _, h => by cases h
  | a :: l, c, h => by
    rw [List.takeWhile_cons] at h
    split at h
    · rcases List.mem_cons.mp h with rfl | h
      · assumption
      · exact takeWhile_mem h
    · cases h

/-- the text does not begin with such a character -/
def NoHead (f : Nat → Bool) (s : Str) : Prop := ∀ c r, s = c :: r → f c = false

theorem span_append {f : Nat → Bool} : ∀ {t : Str} (_ : ∀ c ∈ t, f c = true) {r : Str} (_ : NoHead f r),
    (t ++ r).takeWhile f = t ∧ (t ++ r).dropWhile f = r
  | [], _, r, hr => by
    cases r with
    | nil => exact ⟨rfl, rfl⟩
    | cons c r => simp [hr c r rfl]
  | c :: t, ht, r, hr => by
    obtain ⟨h1, h2⟩ := span_append (t := t) (fun c hc => ht c (by simp [hc])) hr
    simp [ht c (by simp), h1, h2]

theorem decimal_iff (t : Str) (n : Nat) : Decimal t n ↔ (∀ c ∈ t, Digit c) ∧ digitsVal t = n := by
  constructor
  · intro h
    induction h with
    | nil => exact ⟨by simp, rfl⟩
    | @snoc t n d hd h ih =>
      refine ⟨fun c hc => ?_, ?_⟩
      · simp only [List.mem_append, List.mem_cons, List.not_mem_nil, or_false] at hc
        rcases hc with hc | rfl
        · exact ih.1 c hc
        · unfold Digit; omega
      · have := ih.2
        unfold digitsVal at this ⊢
        rw [List.foldl_append, this]
        simp only [List.foldl_cons, List.foldl_nil]
        omega
  · rintro ⟨h1, rfl⟩
    suffices ∀ k (t : Str), t.length = k → (∀ c ∈ t, Digit c) → Decimal t (digitsVal t) from this _ t rfl h1
    intro k
    induction k with
    | zero => intro t ht _; rw [List.eq_nil_of_length_eq_zero ht]; exact .nil
    | succ k ih =>
      intro t ht hd
      obtain ⟨u, c, rfl⟩ : ∃ u c, t = u ++ [c] := ⟨t.dropLast, t.getLast (by intro h; rw [h] at ht; cases ht), (List.dropLast_concat_getLast _).symm⟩
      have hc : Digit c := hd c (by simp)
      have := Decimal.snoc (d := c - 48) (by unfold Digit at hc; omega) (ih u (by simpa using ht) (fun x hx => hd x (by simp [hx])))
      unfold Digit at hc
      rw [show 48 + (c - 48) = c by omega] at this
      unfold digitsVal at this ⊢
      rw [List.foldl_append]
      simp only [List.foldl_cons, List.foldl_nil]
      rw [Nat.mul_comm]
      exact this

theorem _root_.Verif.Spec.JsonText.IntPart.digits {t : Str} (h : IntPart t) : ∀ c ∈ t, Digit c := by
  rcases h with rfl | ⟨d, r, rfl, h1, h2, h3⟩
  · intro c hc; simp at hc; subst hc; unfold Digit; omega
  · intro c hc
    rcases List.mem_cons.mp hc with rfl | hc
    · unfold Digit; omega
    · exact h3 c hc

theorem scanDigits_sound {s ds r : Str} (h : scanDigits s = some (ds, r)) : s = ds ++ r ∧ IntPart ds := by
  unfold scanDigits at h
  split at h
  · cases h
  · rename_i c s
    split at h
    · rename_i hc
      cases h
      exact ⟨rfl, .inl (by rw [hc])⟩
    split at h
    · rename_i h0 hc
      rw [isDigit_iff] at hc
      cases h
      refine ⟨by simp [List.takeWhile_append_dropWhile], .inr ⟨c, _, rfl, ?_, hc.2, fun x hx => (isDigit_iff _).mp (takeWhile_mem hx)⟩⟩
      have := hc.1
      omega
    · cases h

theorem scanDigits_complete {t rest : Str} (h : IntPart t) (hr : NoHead isDigit rest) : scanDigits (t ++ rest) = some (t, rest) := by
  rcases h with rfl | ⟨d, r, rfl, h1, h2, h3⟩
  · rfl
  · obtain ⟨e1, e2⟩ := span_append (f := isDigit) (t := r) (fun c hc => (isDigit_iff _).mpr (h3 c hc)) hr
    simp only [List.cons_append, scanDigits]
    rw [if_neg (by omega), if_pos ((isDigit_iff _).mpr ⟨by omega, h2⟩), e1, e2]

theorem scanFrac_sound (s : Str) : s = (scanFrac s).1 ++ (scanFrac s).2 ∧ FracPart (scanFrac s).1 := by
  unfold scanFrac
  split
  · rename_i c d s
    split
    · rename_i h
      simp only [Bool.and_eq_true, decide_eq_true_eq, isDigit_iff] at h
      refine ⟨by simp [List.takeWhile_append_dropWhile], .inr ⟨d, _, by rw [h.1], fun x hx => ?_⟩⟩
      rcases List.mem_cons.mp hx with rfl | hx
      · exact h.2
      · exact (isDigit_iff _).mp (takeWhile_mem hx)
    · exact ⟨rfl, .inl rfl⟩
  · exact ⟨rfl, .inl rfl⟩

theorem scanFrac_complete {f rest : Str} (h : FracPart f) (hr : NoHead (fun c => isDigit c || c == pc! '.') rest) : scanFrac (f ++ rest) = (f, rest) := by
  rcases h with rfl | ⟨d, r, rfl, h1⟩
  · simp only [List.nil_append]
    cases rest with
    | nil => rfl
    | cons c r =>
      have := hr c r rfl
      simp only [Bool.or_eq_false_iff, beq_eq_false_iff_ne] at this
      cases r with
      | nil => rfl
      | cons d r =>
        simp only [scanFrac]
        rw [if_neg]
        simp only [Bool.and_eq_true, decide_eq_true_eq]
        exact fun h => this.2 h.1
  · obtain ⟨e1, e2⟩ := span_append (f := isDigit) (t := r) (r := rest) (fun c hc => (isDigit_iff _).mpr (h1 c (by simp [hc])))
      (fun c r h => by have := hr c r h; simp only [Bool.or_eq_false_iff] at this; exact this.1)
    simp only [List.cons_append, scanFrac]
    rw [if_pos (by simp [(isDigit_iff _).mpr (h1 d (by simp))]), e1, e2]

theorem scanExp_sound (s : Str) : s = (scanExp s).1 ++ (scanExp s).2 ∧ ExpPart (scanExp s).1 := by
  unfold scanExp
  split
  · exact ⟨rfl, .inl rfl⟩
  · rename_i c s
    split
    · rename_i hc
      obtain ⟨sign, hsign, hs, u, rfl⟩ : ∃ sign, (if (Py.startsWith s [pc! '+'] || Py.startsWith s [pc! '-']) = true then s.take 1 else []) = sign ∧
          (sign = [] ∨ sign = py!"+" ∨ sign = py!"-") ∧ ∃ u, s = sign ++ u := by
        split
        · rename_i h
          simp only [Bool.or_eq_true, startsWith_iff] at h
          rcases h with ⟨u, rfl⟩ | ⟨u, rfl⟩
          · exact ⟨_, rfl, .inr (.inl rfl), u, rfl⟩
          · exact ⟨_, rfl, .inr (.inr rfl), u, rfl⟩
        · exact ⟨_, rfl, .inl rfl, s, rfl⟩
      rw [hsign]
      dsimp only
      rw [List.drop_left]
      split
      · exact ⟨rfl, .inl rfl⟩
      · rename_i hn
        refine ⟨by simp [List.takeWhile_append_dropWhile], .inr ?_⟩
        cases ht : u.takeWhile isDigit with
        | nil => rw [ht] at hn; exact absurd rfl hn
        | cons d r => exact ⟨c, sign, d, r, hc, hs, rfl, fun x hx => (isDigit_iff _).mp (takeWhile_mem (by rw [ht]; exact hx))⟩
    · exact ⟨rfl, .inl rfl⟩

theorem scanExp_complete {e rest : Str} (h : ExpPart e) (hr : NoHead (fun c => isDigit c || c == pc! 'e' || c == pc! 'E') rest) :
    scanExp (e ++ rest) = (e, rest) := by
  rcases h with rfl | ⟨c, s, d, r, hc, hs, rfl, h1⟩
  · simp only [List.nil_append]
    cases rest with
    | nil => rfl
    | cons c r =>
      have := hr c r rfl
      simp only [Bool.or_eq_false_iff, beq_eq_false_iff_ne] at this
      simp only [scanExp]
      rw [if_neg (by rintro (h | h); exact this.1.2 h; exact this.2 h)]
  · obtain ⟨e1, e2⟩ := span_append (f := isDigit) (t := d :: r) (r := rest) (fun c hc => (isDigit_iff _).mpr (h1 c hc))
      (fun c r h => by have := hr c r h; simp only [Bool.or_eq_false_iff] at this; exact this.1.1)
    have hd := h1 d (by simp)
    unfold Digit at hd
    simp only [List.cons_append, scanExp, List.append_assoc]
    rw [if_pos hc]
    have hsign : (if (Py.startsWith (s ++ (d :: (r ++ rest))) [43] || Py.startsWith (s ++ (d :: (r ++ rest))) [45]) = true
        then (s ++ (d :: (r ++ rest))).take 1 else []) = s := by
      rcases hs with rfl | rfl | rfl
      · rw [if_neg]
        · simp only [Bool.or_eq_true, startsWith_iff, List.nil_append]
          rintro (⟨u, hu⟩ | ⟨u, hu⟩) <;> (simp only [List.cons_append, List.cons.injEq] at hu; omega)
      · rfl
      · rfl
    rw [hsign, List.drop_left]
    simp only [List.cons_append] at e1 e2
    rw [e1, e2]
    rfl

/-- what can follow a value: white space, a comma, a closing bracket, or nothing -/
def Delim (s : Str) : Prop := ∀ c r, s = c :: r → isWs c = true ∨ c = pc! ',' ∨ c = pc! ']' ∨ c = pc! '}'

theorem Delim.noHead {s : Str} (h : Delim s) {f : Nat → Bool} (hf : ∀ c ∈ [32, 9, 10, 13, 44, 93, 125], f c = false) : NoHead f s := by
  intro c r hs
  apply hf
  rcases h c r hs with h | h | h | h
  · unfold isWs at h; simp at h; simp; omega
  · simp [h]
  · simp [h]
  · simp [h]

theorem startsWith_cons (c d : Nat) (s : Str) : Py.startsWith (c :: s) [d] = (d == c) := by
  unfold Py.startsWith
  simp [List.isPrefixOf]

theorem ofReal_eq (p : Nums) (t : Str) : ofReal (p.real t) = realJson p t := by
  unfold ofReal realJson
  cases p.real t <;> rfl

theorem lim_iff (p : Nums) (ds : Str) : p.lim.any (fun l => decide (l < ds.length)) = false ↔ ∀ l, p.lim = some l → ds.length ≤ l := by
  cases p.lim with
  | none => simp
  | some l => simp

theorem scanNumber_sound {p : Nums} {s : Str} {j : Json} {r : Str} (h : scanNumber p s = .ok (j, r)) : ∃ t, s = t ++ r ∧ Number p t j := by
  unfold scanNumber at h
  obtain ⟨sign, u, hsu, hs, hse⟩ : ∃ sign u, (if Py.startsWith s [pc! '-'] = true then ([pc! '-'], s.drop 1) else ([], s)) = (sign, u) ∧
      (sign = [] ∨ sign = py!"-") ∧ s = sign ++ u := by
    split
    · rename_i hh
      obtain ⟨u, rfl⟩ := (startsWith_iff _ _).mp hh
      exact ⟨_, _, rfl, .inr rfl, rfl⟩
    · exact ⟨_, _, rfl, .inl rfl, rfl⟩
  rw [hsu] at h
  dsimp only at h
  split at h
  · cases h
  · rename_i ds r1 hd
    obtain ⟨rfl, hi⟩ := scanDigits_sound hd
    obtain ⟨hf1, hf2⟩ := scanFrac_sound r1
    generalize scanFrac r1 = f at *
    obtain ⟨f, r2⟩ := f
    dsimp only at hf1 hf2 h
    subst hf1
    obtain ⟨he1, he2⟩ := scanExp_sound r2
    generalize scanExp r2 = e at *
    obtain ⟨e, r3⟩ := e
    dsimp only at he1 he2 h
    subst he1
    split at h
    · rename_i hz
      simp only [Bool.and_eq_true, List.isEmpty_iff] at hz
      obtain ⟨rfl, rfl⟩ := hz
      split at h
      · cases h
      · rename_i hl
        cases h
        have hl := (lim_iff p ds).mp (by simpa using hl)
        have hv := (decimal_iff ds _).mpr ⟨hi.digits, rfl⟩
        rcases hs with rfl | rfl
        · exact ⟨ds, hse, .int hi hv hl⟩
        · exact ⟨_, hse, .neg hi hv hl⟩
    · rename_i hz
      cases h
      refine ⟨sign ++ (ds ++ (f ++ e)), by rw [hse]; simp, ?_⟩
      rw [ofReal_eq]
      refine .real hs hi hf2 he2 fun hh => hz ?_
      rw [List.append_eq_nil_iff] at hh
      simp [hh.1, hh.2]

/-- the first character of a numeral -/
theorem _root_.Verif.Spec.JsonText.IntPart.head {t : Str} (h : IntPart t) : ∃ d r, t = d :: r ∧ Digit d := by
  rcases h with rfl | ⟨d, r, rfl, h1, h2, -⟩
  · exact ⟨48, [], rfl, by unfold Digit; omega⟩
  · exact ⟨d, r, rfl, by unfold Digit; omega⟩

theorem scanNumber_parts {p : Nums} {s t f e rest : Str} (hs : s = [] ∨ s = py!"-") (ht : IntPart t) (hf : FracPart f) (he : ExpPart e) (hr : Delim rest) :
    scanNumber p (s ++ (t ++ (f ++ (e ++ rest)))) = if f.isEmpty && e.isEmpty then
      if p.lim.any (fun l => l < t.length) then .error (.raised .valueError)
      else .ok (.num (if s.isEmpty then (digitsVal t : Int) else -(digitsVal t : Int)), rest)
      else .ok (ofReal (p.real (s ++ (t ++ (f ++ e)))), rest) := by
  have h1 : (if Py.startsWith (s ++ (t ++ (f ++ (e ++ rest)))) [pc! '-'] = true then ([pc! '-'], (s ++ (t ++ (f ++ (e ++ rest)))).drop 1)
      else ([], s ++ (t ++ (f ++ (e ++ rest))))) = (s, t ++ (f ++ (e ++ rest))) := by
    rcases hs with rfl | rfl
    · obtain ⟨d, r, rfl, hd⟩ := ht.head
      simp only [List.nil_append, List.cons_append, startsWith_cons]
      rw [if_neg]
      unfold Digit at hd
      simp; omega
    · rfl
  have hE : NoHead (fun c => isDigit c || c == pc! '.') (e ++ rest) := by
    rcases he with rfl | ⟨c, s, d, r, hc, -, rfl, -⟩
    · exact hr.noHead (by decide)
    · intro c' r' hh
      simp only [List.cons_append, List.cons.injEq] at hh
      obtain ⟨rfl, -⟩ := hh
      rcases hc with rfl | rfl <;> decide
  have hF : NoHead isDigit (f ++ (e ++ rest)) := by
    rcases hf with rfl | ⟨d, r, rfl, -⟩
    · intro c r hh
      have := hE c r hh
      simp only [Bool.or_eq_false_iff] at this
      exact this.1
    · intro c' r' hh
      simp only [List.cons_append, List.cons.injEq] at hh
      obtain ⟨rfl, -⟩ := hh
      decide
  unfold scanNumber
  rw [h1]
  dsimp only
  rw [scanDigits_complete ht hF]
  dsimp only
  rw [scanFrac_complete hf hE]
  dsimp only
  rw [scanExp_complete he (hr.noHead (by decide))]

theorem scanNumber_complete {p : Nums} {t : Str} {j : Json} (h : Number p t j) {rest : Str} (hr : Delim rest) : scanNumber p (t ++ rest) = .ok (j, rest) := by
  cases h with
  | @int _ n h1 h2 h3 =>
    have := scanNumber_parts (p := p) (s := []) (f := []) (e := []) (.inl rfl) h1 (.inl rfl) (.inl rfl) hr
    simp only [List.nil_append] at this
    rw [this, (lim_iff p t).mpr h3, ((decimal_iff _ _).mp h2).2]
    rfl
  | @neg t n h1 h2 h3 =>
    have := scanNumber_parts (p := p) (s := [45]) (f := []) (e := []) (.inr rfl) h1 (.inl rfl) (.inl rfl) hr
    simp only [List.nil_append, List.cons_append] at this ⊢
    rw [this, (lim_iff p t).mpr h3, ((decimal_iff _ _).mp h2).2]
    rfl
  | @real s t f e h1 h2 h3 h4 h5 =>
    have := scanNumber_parts (p := p) h1 h2 h3 h4 hr
    simp only [List.append_assoc]
    rw [this, if_neg, ofReal_eq]
    simp only [Bool.and_eq_true, List.isEmpty_iff]
    rintro ⟨rfl, rfl⟩
    exact h5 rfl

end Verif.JsonText
