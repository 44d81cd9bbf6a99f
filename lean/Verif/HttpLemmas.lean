import Verif.Http
import Verif.Spec.Http
import Verif.ConfigLemmas

/-! # UTF-8, base64 and query strings -/

namespace Verif.Http
open Verif Spec

/-! ## UTF-8 -/

theorem utf8Char_ok {c : Nat} : (∃ bs, utf8Char c = .ok bs) ↔ ¬ (0xd800 ≤ c ∧ c ≤ 0xdfff) := by
  unfold utf8Char
  split
  · simp; omega
  · split
    · simp; omega
    · split
      · rename_i h; simp at h; simp [h]
      · rename_i h; simp at h
        split <;> (simp; omega)

theorem utf8Char_error {c : Nat} (h : 0xd800 ≤ c ∧ c ≤ 0xdfff) : utf8Char c = .error .unicodeEncodeError := by
  unfold utf8Char
  rw [if_neg (by omega), if_neg (by omega), if_pos (by simp [h])]

theorem utf8_ok (s : Str) : (∃ bs, utf8 s = .ok bs) ↔ ∀ c ∈ s, ¬ (0xd800 ≤ c ∧ c ≤ 0xdfff) := by
  induction s with
  | nil => simp [utf8]
  | cons c s ih =>
    simp only [List.mem_cons, forall_eq_or_imp]
    rw [← ih, ← utf8Char_ok, utf8]
    cases utf8Char c with
    | error e => simp [bind, Except.bind]
    | ok b =>
      cases utf8 s with
      | error e => simp [bind, Except.bind]
      | ok bs => simp [bind, Except.bind, pure, Except.pure]

theorem utf8_error (s : Str) (e : PyExc) (h : utf8 s = .error e) : e = .unicodeEncodeError := by
  induction s with
  | nil => cases h
  | cons c s ih =>
    rw [utf8] at h
    by_cases hc : 0xd800 ≤ c ∧ c ≤ 0xdfff
    · rw [utf8Char_error hc] at h; cases h; rfl
    · obtain ⟨b, hb⟩ := utf8Char_ok.mpr hc
      rw [hb] at h
      cases hs : utf8 s with
      | error e' => rw [hs] at h; cases h; exact ih hs
      | ok bs => rw [hs] at h; cases h

/-- bytes -/
def Bytes (bs : List Nat) : Prop := ∀ b ∈ bs, b < 256

theorem utf8Char_spec {c : Nat} {bs : List Nat} (h : utf8Char c = .ok bs) (hc : c < 0x110000) (rest : List Nat) :
    utf8Decode (bs ++ rest) = (utf8Decode rest).map (c :: ·) ∧ Bytes bs := by
  unfold utf8Char at h
  split at h
  · rename_i h1
    cases h
    refine ⟨?_, by simp [Bytes]; omega⟩
    rw [List.cons_append, utf8Decode.eq_def]; simp only; rw [if_pos h1]; rfl
  · split at h
    · rename_i h1 h2
      cases h
      refine ⟨?_, by simp [Bytes]; omega⟩
      rw [List.cons_append, utf8Decode.eq_def]
      simp only [List.cons_append, List.nil_append]
      rw [if_neg (by omega)]
      rw [if_pos (by simp; omega), if_pos (by simp [isCont]; omega)]
      have : (0xc0 + c / 64 - 0xc0) * 64 + (0x80 + c % 64 - 0x80) = c := by omega
      rw [this]
    · split at h
      · cases h
      · rename_i h3
        simp at h3
        split at h
        · rename_i h1 h2 h4
          cases h
          refine ⟨?_, by simp [Bytes]; omega⟩
          rw [List.cons_append, utf8Decode.eq_def]
          simp only [List.cons_append, List.nil_append]
          rw [if_neg (by omega)]
          have hv : (0xe0 + c / 4096 - 0xe0) * 4096 + (0x80 + c / 64 % 64 - 0x80) * 64 + (0x80 + c % 64 - 0x80) = c := by omega
          rw [if_neg (by simp), if_pos (by simp; omega), hv, if_pos (by simp [isCont]; omega)]
        · rename_i h1 h2 h4
          cases h
          refine ⟨?_, by simp [Bytes]; omega⟩
          rw [List.cons_append, utf8Decode.eq_def]
          simp only [List.cons_append, List.nil_append]
          rw [if_neg (by omega)]
          have hv : (0xf0 + c / 262144 - 0xf0) * 262144 + (0x80 + c / 4096 % 64 - 0x80) * 4096 + (0x80 + c / 64 % 64 - 0x80) * 64 +
            (0x80 + c % 64 - 0x80) = c := by omega
          rw [if_neg (by simp; omega), if_neg (by simp), if_pos (by simp; omega), hv, if_pos (by simp [isCont]; omega)]

theorem utf8_spec {s : Str} {bs : List Nat} (h : utf8 s = .ok bs) (hs : CodePoints s) : utf8Decode bs = some s ∧ Bytes bs := by
  induction s generalizing bs with
  | nil => cases h; exact ⟨rfl, by simp [Bytes]⟩
  | cons c s ih =>
    rw [utf8] at h
    cases hc : utf8Char c with
    | error e => rw [hc] at h; cases h
    | ok b =>
      cases ht : utf8 s with
      | error e => rw [hc, ht] at h; cases h
      | ok bt =>
        rw [hc, ht] at h
        cases h
        have h1 := utf8Char_spec hc (hs c List.mem_cons_self) bt
        have h2 := ih ht fun x hx => hs x (List.mem_cons_of_mem _ hx)
        refine ⟨by rw [h1.1, h2.1]; rfl, ?_⟩
        intro x hx
        rcases List.mem_append.mp hx with hx | hx
        · exact h1.2 x hx
        · exact h2.2 x hx

/-! ## base64 -/

theorem b64Char_index : ∀ n < 64, base64url.idxOf (b64Char n) = n ∧ b64Char n ∈ base64url ∧ b64Char n ≠ pc! '=' := by decide +kernel

theorem base64url_eq : ∀ c ∈ base64url, c ≠ pc! '=' := by decide +kernel

/-- the encoding without padding -/
def raw : List Nat → Str
  | a :: b :: c :: rest =>
    b64Char (a / 4) :: b64Char (a % 4 * 16 + b / 16) :: b64Char (b % 16 * 4 + c / 64) :: b64Char (c % 64) :: raw rest
  | [a, b] => [b64Char (a / 4), b64Char (a % 4 * 16 + b / 16), b64Char (b % 16 * 4)]
  | [a] => [b64Char (a / 4), b64Char (a % 4 * 16)]
  | [] => []

theorem b64_raw (bs : List Nat) : ∃ k, b64 bs = raw bs ++ List.replicate k (pc! '=') := by
  fun_induction b64 bs with
  | case1 a b c rest ih => obtain ⟨k, hk⟩ := ih; exact ⟨k, by rw [raw, hk]; rfl⟩
  | case2 a b => exact ⟨1, rfl⟩
  | case3 a => exact ⟨2, rfl⟩
  | case4 => exact ⟨0, rfl⟩

theorem raw_spec (bs : List Nat) (h : Bytes bs) : Base64Of (raw bs) bs := by
  fun_induction raw bs with
  | case1 a b c rest ih =>
    have ha := h a (by simp)
    have hb := h b (by simp)
    have hc := h c (by simp)
    obtain ⟨h1, k, hk, e⟩ := ih fun x hx => h x (by simp [hx])
    have i1 := b64Char_index (a / 4) (by omega)
    have i2 := b64Char_index (a % 4 * 16 + b / 16) (by omega)
    have i3 := b64Char_index (b % 16 * 4 + c / 64) (by omega)
    have i4 := b64Char_index (c % 64) (by omega)
    refine ⟨?_, k, hk, ?_⟩
    · intro x hx
      simp only [List.mem_cons] at hx
      rcases hx with rfl | rfl | rfl | rfl | hx
      · exact i1.2.1
      · exact i2.2.1
      · exact i3.2.1
      · exact i4.2.1
      · exact h1 x hx
    · rw [List.map_cons, List.map_cons, List.map_cons, List.map_cons, List.flatten_cons, List.flatten_cons, List.flatten_cons,
        List.flatten_cons, e]
      simp only [List.map_cons, List.flatten_cons, i1.1, i2.1, i3.1, i4.1, bits6, bits8, List.cons_append,
        List.nil_append, List.cons.injEq]
      refine ⟨?_, ?_, ?_, ?_, ?_, ?_, ?_, ?_, ?_, ?_, ?_, ?_, ?_, ?_, ?_, ?_, ?_, ?_, ?_, ?_, ?_, ?_, ?_, ?_, trivial⟩ <;> first | omega | trivial
  | case2 a b =>
    have ha := h a (by simp)
    have hb := h b (by simp)
    have i1 := b64Char_index (a / 4) (by omega)
    have i2 := b64Char_index (a % 4 * 16 + b / 16) (by omega)
    have i3 := b64Char_index (b % 16 * 4) (by omega)
    refine ⟨?_, 2, by omega, ?_⟩
    · intro x hx
      simp only [List.mem_cons, List.not_mem_nil, or_false] at hx
      rcases hx with rfl | rfl | rfl
      · exact i1.2.1
      · exact i2.2.1
      · exact i3.2.1
    · simp only [List.map_cons, List.map_nil, List.flatten_cons, List.flatten_nil, i1.1, i2.1, i3.1, bits6, bits8,
        List.cons_append, List.nil_append, List.cons.injEq, List.replicate]
      refine ⟨?_, ?_, ?_, ?_, ?_, ?_, ?_, ?_, ?_, ?_, ?_, ?_, ?_, ?_, ?_, ?_, ?_, ?_, trivial⟩ <;> first | omega | trivial
  | case3 a =>
    have ha := h a (by simp)
    have i1 := b64Char_index (a / 4) (by omega)
    have i2 := b64Char_index (a % 4 * 16) (by omega)
    refine ⟨?_, 4, by omega, ?_⟩
    · intro x hx
      simp only [List.mem_cons, List.not_mem_nil, or_false] at hx
      rcases hx with rfl | rfl
      · exact i1.2.1
      · exact i2.2.1
    · simp only [List.map_cons, List.map_nil, List.flatten_cons, List.flatten_nil, i1.1, i2.1, bits6, bits8,
        List.cons_append, List.nil_append, List.cons.injEq, List.replicate]
      refine ⟨?_, ?_, ?_, ?_, ?_, ?_, ?_, ?_, ?_, ?_, ?_, ?_, trivial⟩ <;> first | omega | trivial
  | case4 => exact ⟨by simp, 0, by omega, rfl⟩

theorem dropWhile_none {p : Nat → Bool} {s : Str} (h : ∀ c ∈ s, p c = false) : s.dropWhile p = s := by
  cases s with
  | nil => rfl
  | cons c s => rw [List.dropWhile_cons, h c List.mem_cons_self]; rfl

theorem dropWhile_replicate (x k : Nat) (s : Str) (h : ∀ c ∈ s, c ≠ x) :
    (List.replicate k x ++ s).dropWhile (· == x) = s := by
  induction k with
  | zero => exact dropWhile_none fun c hc => by simpa using h c hc
  | succ k ih => rw [List.replicate_succ, List.cons_append, List.dropWhile_cons]; simp [ih]

theorem strip_raw (x : Nat) (s : Str) (h : ∀ c ∈ s, c ≠ x) (k : Nat) : stripChar x (s ++ List.replicate k x) = s := by
  unfold stripChar
  by_cases hs : s = []
  · subst hs
    have := dropWhile_replicate x k [] (by simp)
    rw [List.append_nil] at this
    rw [List.nil_append, this]; rfl
  · have h1 : (s ++ List.replicate k x).dropWhile (· == x) = s ++ List.replicate k x := by
      cases s with
      | nil => exact absurd rfl hs
      | cons c s =>
        have := h c List.mem_cons_self
        rw [List.cons_append, List.dropWhile_cons]; simp [this]
    rw [h1, List.reverse_append, List.reverse_replicate, dropWhile_replicate x k _ (by simpa using h), List.reverse_reverse]

theorem stripped (bs : List Nat) (h : Bytes bs) : stripChar (pc! '=') (b64 bs) = raw bs := by
  obtain ⟨k, hk⟩ := b64_raw bs
  rw [hk]
  exact strip_raw _ _ (fun c hc => base64url_eq c ((raw_spec bs h).1 c hc)) k

theorem bits8_length (bs : List Nat) : (bs.map bits8).flatten.length = 8 * bs.length := by
  induction bs with
  | nil => rfl
  | cons b bs ih => rw [List.map_cons, List.flatten_cons, List.length_append, ih]; simp [bits8]; omega

theorem bits8_inj {a b : Nat} (ha : a < 256) (hb : b < 256) (h : bits8 a = bits8 b) : a = b := by
  simp only [bits8, List.cons.injEq, and_true] at h; omega

/-- a base64 text stands for at most one sequence of bytes -/
theorem base64Of_unique {t : Str} {a b : List Nat} (ha : Bytes a) (hb : Bytes b) (h1 : Base64Of t a) (h2 : Base64Of t b) : a = b := by
  obtain ⟨_, k, hk, e1⟩ := h1
  obtain ⟨_, l, hl, e2⟩ := h2
  rw [e1] at e2
  clear e1
  induction a generalizing b with
  | nil =>
    cases b with
    | nil => rfl
    | cons y b =>
      have := congrArg List.length e2
      simp [bits8] at this; omega
  | cons x a ih =>
    cases b with
    | nil =>
      have := congrArg List.length e2
      simp [bits8] at this; omega
    | cons y b =>
      rw [List.map_cons, List.map_cons, List.flatten_cons, List.flatten_cons, List.append_assoc, List.append_assoc] at e2
      have h8 := List.append_inj e2 (by simp [bits8])
      rw [bits8_inj (ha x List.mem_cons_self) (hb y List.mem_cons_self) h8.1,
        ih (fun z hz => ha z (List.mem_cons_of_mem _ hz)) (fun z hz => hb z (List.mem_cons_of_mem _ hz)) h8.2]

/-! ## query strings -/

theorem hexDigit_value : ∀ n < 16, hexValue (hexDigit n) = some n := by decide

theorem quoteByte_decode (b : Nat) (hb : b < 256) (rest : Str) :
    percentDecode (quoteByte b ++ rest) = (percentDecode rest).map (b :: ·) := by
  unfold quoteByte
  split
  · rename_i h
    have : b ≠ 43 ∧ b ≠ 37 := by simp [alwaysSafe] at h; omega
    rw [List.cons_append, List.nil_append, percentDecode.eq_def]; simp only; rw [if_neg this.1, if_neg this.2]
  · split
    · rename_i h; subst h; rw [List.cons_append, List.nil_append, percentDecode.eq_def]; simp only; rw [if_pos trivial]
    · rw [List.cons_append, List.cons_append, List.cons_append, List.nil_append, percentDecode.eq_def]
      simp only
      rw [if_neg (by decide), if_pos trivial, hexDigit_value _ (by omega), hexDigit_value _ (by omega)]
      have : 16 * (b / 16) + b % 16 = b := by omega
      simp [this]

theorem quote_decode (bs : List Nat) (h : Bytes bs) : percentDecode (bs.map quoteByte).flatten = some bs := by
  induction bs with
  | nil => rfl
  | cons b bs ih =>
    rw [List.map_cons, List.flatten_cons, quoteByte_decode b (h b List.mem_cons_self),
      ih fun x hx => h x (List.mem_cons_of_mem _ hx)]
    rfl

/-- characters of an encoded name or value -/
def Quoted (c : Nat) : Prop := alwaysSafe c = true ∨ c = 43 ∨ c = 37

theorem hexDigit_safe : ∀ n < 16, alwaysSafe (hexDigit n) = true := by decide

theorem quoteByte_chars (b : Nat) (hb : b < 256) : ∀ c ∈ quoteByte b, Quoted c := by
  intro c hc
  unfold quoteByte at hc
  split at hc
  · rename_i h; rw [List.mem_singleton.mp hc]; exact Or.inl h
  · split at hc
    · rw [List.mem_singleton.mp hc]; exact Or.inr (Or.inl rfl)
    · simp only [List.mem_cons, List.not_mem_nil, or_false] at hc
      rcases hc with rfl | rfl | rfl
      · exact Or.inr (Or.inr rfl)
      · exact Or.inl (hexDigit_safe _ (by omega))
      · exact Or.inl (hexDigit_safe _ (by omega))

theorem quotePlus_spec {s q : Str} (h : quotePlus s = .ok q) (hs : CodePoints s) :
    decodeField q = some s ∧ ∀ c ∈ q, Quoted c := by
  unfold quotePlus at h
  cases hu : utf8 s with
  | error e => rw [hu] at h; cases h
  | ok bs =>
    rw [hu] at h
    cases h
    obtain ⟨h1, h2⟩ := utf8_spec hu hs
    refine ⟨?_, ?_⟩
    · rw [decodeField, quote_decode bs h2]; exact h1
    · intro c hc
      simp only [List.mem_flatten, List.mem_map] at hc
      obtain ⟨_, ⟨b, hb, rfl⟩, hc⟩ := hc
      exact quoteByte_chars b (h2 b hb) c hc

theorem takeWhile_stop {k v : Str} {x : Nat} (h : x ∉ k) :
    (k ++ [x] ++ v).takeWhile (· ≠ x) = k ∧ ((k ++ [x] ++ v).dropWhile (· ≠ x)).drop 1 = v := by
  induction k with
  | nil => simp
  | cons c k ih =>
    simp only [List.mem_cons, not_or] at h
    have hc : c ≠ x := fun e => h.1 e.symm
    have := ih h.2
    simp only [List.cons_append, List.takeWhile_cons, List.dropWhile_cons]
    simp only [hc, ne_eq, not_false_eq_true, decide_true, if_true]
    exact ⟨congrArg (c :: ·) this.1, this.2⟩

theorem quoted_ne {c : Nat} (h : Quoted c) : c ≠ 61 ∧ c ≠ 38 ∧ c ≠ 35 ∧ c ≠ 63 ∧ c < 128 := by
  rcases h with h | rfl | rfl
  · simp [alwaysSafe] at h; omega
  · decide
  · decide

/-- characters of an encoded query -/
def QueryChar (c : Nat) : Prop := Quoted c ∨ c = 61 ∨ c = 38

theorem quotePairs_spec {ps : List (Str × Str)} {l : List Str} (h : quotePairs ps = .ok l)
    (hp : ∀ p ∈ ps, CodePoints p.1 ∧ CodePoints p.2) :
    l.map fieldOf = ps.map some ∧ l.length = ps.length ∧ ∀ t ∈ l, 38 ∉ t ∧ ∀ c ∈ t, QueryChar c := by
  induction ps generalizing l with
  | nil => cases h; simp
  | cons p ps ih =>
    obtain ⟨k, v⟩ := p
    rw [quotePairs] at h
    cases hk : quotePlus k with
    | error e => rw [hk] at h; cases h
    | ok qk =>
      cases hv : quotePlus v with
      | error e => rw [hk, hv] at h; cases h
      | ok qv =>
        cases hr : quotePairs ps with
        | error e => rw [hk, hv, hr] at h; cases h
        | ok r =>
          rw [hk, hv, hr] at h
          cases h
          obtain ⟨h1, h2, h3⟩ := ih hr fun p hp' => hp p (List.mem_cons_of_mem _ hp')
          obtain ⟨dk, ck⟩ := quotePlus_spec hk (hp (k, v) List.mem_cons_self).1
          obtain ⟨dv, cv⟩ := quotePlus_spec hv (hp (k, v) List.mem_cons_self).2
          have hk61 : (61 : Nat) ∉ qk := fun hm => (quoted_ne (ck 61 hm)).1 rfl
          have ht := takeWhile_stop (v := qv) hk61
          refine ⟨?_, by simp [h2], ?_⟩
          · rw [List.map_cons, List.map_cons, h1]
            congr 1
            unfold fieldOf
            rw [ht.1, ht.2, dk, dv]
          · intro t hm
            rcases List.mem_cons.mp hm with rfl | hm
            · constructor
              · simp only [List.mem_append, List.mem_singleton, not_or]
                exact ⟨⟨fun hm => (quoted_ne (ck 38 hm)).2.1 rfl, by decide⟩, fun hm => (quoted_ne (cv 38 hm)).2.1 rfl⟩
              · intro c hc
                simp only [List.mem_append, List.mem_singleton] at hc
                rcases hc with (hc | rfl) | hc
                · exact Or.inl (ck c hc)
                · exact Or.inr (Or.inl rfl)
                · exact Or.inl (cv c hc)
            · exact h3 t hm

theorem splitOn_join (x : Nat) (l : List Str) (hne : l ≠ []) (h : ∀ t ∈ l, x ∉ t) : Py.splitOn x (Py.join [x] l) = l := by
  have hone : ∀ t : Str, x ∉ t → Py.splitOn x t = [t] := by
    intro t ht
    induction t with
    | nil => rfl
    | cons c t ih =>
      simp only [List.mem_cons, not_or] at ht
      rw [Py.splitOn, if_neg (fun e => ht.1 e.symm), ih ht.2]
  have happ : ∀ t rest : Str, x ∉ t → Py.splitOn x (t ++ x :: rest) = t :: Py.splitOn x rest := by
    intro t rest ht
    induction t with
    | nil => rw [List.nil_append, Py.splitOn, if_pos rfl]
    | cons c t ih =>
      simp only [List.mem_cons, not_or] at ht
      rw [List.cons_append, Py.splitOn, if_neg (fun e => ht.1 e.symm), ih ht.2]
  induction l with
  | nil => exact absurd rfl hne
  | cons t l ih =>
    cases l with
    | nil => exact hone t (h t List.mem_cons_self)
    | cons u l =>
      have hj : Py.join [x] (t :: u :: l) = t ++ x :: Py.join [x] (u :: l) := by rw [Py.join]; simp; simp
      rw [hj, happ t _ (h t List.mem_cons_self), ih (by simp) fun s hs => h s (List.mem_cons_of_mem _ hs)]

theorem join_chars {P : Nat → Prop} {x : Nat} (hx : P x) (l : List Str) (h : ∀ t ∈ l, ∀ c ∈ t, P c) : ∀ c ∈ Py.join [x] l, P c := by
  induction l with
  | nil => intro c hc; simp [Py.join] at hc
  | cons t l ih =>
    cases l with
    | nil => exact h t List.mem_cons_self
    | cons u l =>
      have hj : Py.join [x] (t :: u :: l) = t ++ x :: Py.join [x] (u :: l) := by rw [Py.join]; simp; simp
      intro c hc
      rw [hj] at hc
      rcases List.mem_append.mp hc with hc | hc
      · exact h t List.mem_cons_self c hc
      · rcases List.mem_cons.mp hc with rfl | hc
        · exact hx
        · exact ih (fun s hs => h s (List.mem_cons_of_mem _ hs)) c hc

theorem urlencode_spec {ps : List (Str × Str)} {q : Str} (h : urlencode ps = .ok q) (hne : ps ≠ [])
    (hp : ∀ p ∈ ps, CodePoints p.1 ∧ CodePoints p.2) : parseQuery q = ps.map some ∧ ∀ c ∈ q, QueryChar c := by
  unfold urlencode at h
  cases hl : quotePairs ps with
  | error e => rw [hl] at h; cases h
  | ok l =>
    rw [hl] at h
    cases h
    obtain ⟨h1, h2, h3⟩ := quotePairs_spec hl hp
    have hln : l ≠ [] := by
      rintro rfl
      exact hne (List.length_eq_zero_iff.mp h2.symm)
    refine ⟨?_, join_chars (Or.inr (Or.inr rfl)) l fun t ht => (h3 t ht).2⟩
    rw [parseQuery, splitOn_join _ l hln fun t ht => (h3 t ht).1, h1]

theorem quotePlus_ok (s : Str) : (∃ q, quotePlus s = .ok q) ↔ ∀ c ∈ s, ¬ (0xd800 ≤ c ∧ c ≤ 0xdfff) := by
  rw [← utf8_ok, quotePlus]
  cases utf8 s with
  | error e => simp [bind, Except.bind]
  | ok b => simp [bind, Except.bind, pure, Except.pure]

theorem quotePairs_ok (ps : List (Str × Str)) : (∃ q, quotePairs ps = .ok q) ↔
    ∀ p ∈ ps, (∀ c ∈ p.1, ¬ (0xd800 ≤ c ∧ c ≤ 0xdfff)) ∧ ∀ c ∈ p.2, ¬ (0xd800 ≤ c ∧ c ≤ 0xdfff) := by
  induction ps with
  | nil => simp [quotePairs]
  | cons p ps ih =>
    obtain ⟨k, v⟩ := p
    simp only [List.mem_cons, forall_eq_or_imp]
    rw [← ih, ← quotePlus_ok, ← quotePlus_ok, quotePairs]
    cases quotePlus k with
    | error e => simp [bind, Except.bind]
    | ok a =>
      cases quotePlus v with
      | error e => simp [bind, Except.bind]
      | ok b =>
        cases quotePairs ps with
        | error e => simp [bind, Except.bind]
        | ok r => simp [bind, Except.bind, pure, Except.pure]

end Verif.Http
