import Verif.Spec.JsonBytes
import Verif.JsonBytes
import Verif.JsonTextLemmas3

/-! # Lemmas about encodings of JSON texts -/

namespace Verif.JsonText
open Verif Verif.Spec.JsonText

/-! ## UTF-8 -/

theorem decodeUtf8_cons {c : Nat} (h : c < 0x110000) (r : List Nat) : decodeUtf8 (utf8Of c ++ r) = (decodeUtf8 r).map (c :: ·) := by
  unfold utf8Of
  split
  · rename_i h1
    simp only [List.cons_append, List.nil_append]
    rw [decodeUtf8.eq_def]
    simp only [h1, if_true]
  split
  · simp only [List.cons_append, List.nil_append, decodeUtf8]
    rw [if_neg (by omega), if_neg (by omega), if_pos (by omega), if_pos (by simp [isCont]; omega),
      show (0xc0 + c / 0x40 - 0xc0) * 64 + (0x80 + c % 0x40 - 0x80) = c by omega]
  split
  · simp only [List.cons_append, List.nil_append, decodeUtf8]
    rw [if_neg (by omega), if_neg (by omega), if_neg (by omega), if_pos (by omega),
      show ((0xe0 + c / 0x1000 - 0xe0) * 64 + (0x80 + c / 0x40 % 0x40 - 0x80)) * 64 + (0x80 + c % 0x40 - 0x80) = c by omega,
      if_pos (by simp [isCont]; omega)]
  · simp only [List.cons_append, List.nil_append, decodeUtf8]
    rw [if_neg (by omega), if_neg (by omega), if_neg (by omega), if_neg (by omega), if_pos (by omega),
      show (((0xf0 + c / 0x40000 - 0xf0) * 64 + (0x80 + c / 0x1000 % 0x40 - 0x80)) * 64 + (0x80 + c / 0x40 % 0x40 - 0x80)) * 64 + (0x80 + c % 0x40 - 0x80) = c by omega,
      if_pos (by simp [isCont]; omega)]

theorem decodeUtf8_encode : ∀ {s : Str}, (∀ c ∈ s, c < 0x110000) → decodeUtf8 (encode .utf8 s) = some s
  | [], _ => rfl
  | c :: s, h => by
    have := decodeUtf8_encode (s := s) fun c hc => h c (by simp [hc])
    simp only [encode, List.flatMap_cons, encodeChar] at this ⊢
    rw [decodeUtf8_cons (h c (by simp)), this]
    rfl

/-- only encodings of texts are decoded -/
theorem decodeUtf8_sound : ∀ {b : List Nat} {s : Str}, decodeUtf8 b = some s → b = encode .utf8 s ∧ ∀ c ∈ s, c < 0x110000
  | [], s, h => by
    cases h
    exact ⟨rfl, by simp⟩
  | a :: r, s, h => by
    have step : ∀ {v : Nat} {r' : List Nat}, (decodeUtf8 r').map (v :: ·) = some s → r'.length ≤ r.length → a :: r = utf8Of v ++ r' → v < 0x110000 →
        a :: r = encode .utf8 s ∧ ∀ c ∈ s, c < 0x110000 := by
      intro v r' h1 hl h2 h3
      rw [Option.map_eq_some_iff] at h1
      obtain ⟨t, h1, rfl⟩ := h1
      obtain ⟨h4, h5⟩ := decodeUtf8_sound h1
      refine ⟨?_, ?_⟩
      · rw [h2, h4]
        rfl
      · intro c hc
        rcases List.mem_cons.mp hc with rfl | hc
        · exact h3
        · exact h5 c hc
    unfold decodeUtf8 at h
    split at h
    · rename_i h1
      exact step h (Nat.le_refl _) (by simp [utf8Of, h1]) (by omega)
    split at h
    · cases h
    split at h
    · rename_i h1 h2 h3
      split at h
      · rename_i b r'
        split at h
        · rename_i hb
          simp only [isCont, Bool.and_eq_true, decide_eq_true_eq] at hb
          refine step h (by simp) ?_ (by omega)
          unfold utf8Of
          rw [if_neg (by omega), if_pos (by omega), show 0xc0 + ((a - 0xc0) * 64 + (b - 0x80)) / 0x40 = a by omega,
            show 0x80 + ((a - 0xc0) * 64 + (b - 0x80)) % 0x40 = b by omega]
          rfl
        · cases h
      · cases h
    split at h
    · rename_i h1 h2 h3 h4
      split at h
      · rename_i b c r'
        dsimp only at h
        split at h
        · rename_i hb
          simp only [isCont, Bool.and_eq_true, decide_eq_true_eq] at hb
          refine step h (by simp; omega) ?_ (by omega)
          unfold utf8Of
          rw [if_neg (by omega), if_neg (by omega), if_pos (by omega),
            show 0xe0 + (((a - 0xe0) * 64 + (b - 0x80)) * 64 + (c - 0x80)) / 0x1000 = a by omega,
            show 0x80 + (((a - 0xe0) * 64 + (b - 0x80)) * 64 + (c - 0x80)) / 0x40 % 0x40 = b by omega,
            show 0x80 + (((a - 0xe0) * 64 + (b - 0x80)) * 64 + (c - 0x80)) % 0x40 = c by omega]
          rfl
        · cases h
      · cases h
    split at h
    · rename_i h1 h2 h3 h4 h5
      split at h
      · rename_i b c d r'
        dsimp only at h
        split at h
        · rename_i hb
          simp only [isCont, Bool.and_eq_true, decide_eq_true_eq] at hb
          refine step h (by simp; omega) ?_ (by omega)
          unfold utf8Of
          rw [if_neg (by omega), if_neg (by omega), if_neg (by omega),
            show 0xf0 + ((((a - 0xf0) * 64 + (b - 0x80)) * 64 + (c - 0x80)) * 64 + (d - 0x80)) / 0x40000 = a by omega,
            show 0x80 + ((((a - 0xf0) * 64 + (b - 0x80)) * 64 + (c - 0x80)) * 64 + (d - 0x80)) / 0x1000 % 0x40 = b by omega,
            show 0x80 + ((((a - 0xf0) * 64 + (b - 0x80)) * 64 + (c - 0x80)) * 64 + (d - 0x80)) / 0x40 % 0x40 = c by omega,
            show 0x80 + ((((a - 0xf0) * 64 + (b - 0x80)) * 64 + (c - 0x80)) * 64 + (d - 0x80)) % 0x40 = d by omega]
          rfl
        · cases h
      · cases h
    · cases h
termination_by b => b.length
decreasing_by simp; omega

/-! ## UTF-16, UTF-32 -/

theorem units16_bytes (l : Bool) (u : Nat) (r : List Nat) : units16 l (bytes2 l u ++ r) = (units16 l r).map (u :: ·) := by
  cases l
  · simp only [bytes2, Bool.false_eq_true, if_false, List.cons_append, List.nil_append, units16]
    rw [show u / 256 * 256 + u % 256 = u by omega]
  · simp only [bytes2, if_true, List.cons_append, List.nil_append, units16]
    rw [show u / 256 * 256 + u % 256 = u by omega]

theorem units16_all (l : Bool) : ∀ {us : List Nat}, (∀ u ∈ us, u < 65536) → units16 l (us.flatMap (bytes2 l)) = some us
  | [], _ => rfl
  | u :: us, h => by
    rw [List.flatMap_cons, units16_bytes l u, units16_all l (us := us) fun u hu => h u (by simp [hu])]
    rfl

theorem utf16Of_bound {c : Nat} (h : c < 0x110000) : ∀ u ∈ utf16Of c, u < 65536 := by
  intro u hu
  unfold utf16Of at hu
  split at hu
  · simp at hu; omega
  · simp at hu; omega

theorem joinUnits_char {c : Nat} (h : c < 0x110000) {r : List Nat} (hr : High c → ∀ w t, r = w :: t → ¬ Low w) :
    joinUnits (utf16Of c ++ r) = c :: joinUnits r := by
  unfold utf16Of
  split
  · rename_i h1
    cases r with
    | nil => rfl
    | cons w r =>
      simp only [List.cons_append, List.nil_append, joinUnits]
      rw [if_neg]
      have := fun hc => hr hc w r rfl
      unfold High Low at this
      simp only [isHigh, isLow, Bool.and_eq_true, decide_eq_true_eq, not_and]
      omega
  · rename_i h1
    simp only [List.cons_append, List.nil_append, joinUnits]
    rw [if_pos (by simp [isHigh, isLow]; omega),
      show 0x10000 + (0xd800 + (c - 0x10000) / 0x400 - 0xd800) * 1024 + (0xdc00 + (c - 0x10000) % 0x400 - 0xdc00) = c by omega]

theorem noPair_tail {c : Nat} {s : Str} (h : NoPair (c :: s)) : NoPair s := by
  rintro ⟨a, m, n, b, rfl, hm, hn⟩
  exact h ⟨c :: a, m, n, b, rfl, hm, hn⟩

theorem joinUnits_all : ∀ {s : Str}, (∀ c ∈ s, c < 0x110000) → NoPair s → joinUnits (s.flatMap utf16Of) = s
  | [], _, _ => rfl
  | c :: s, h, hp => by
    rw [List.flatMap_cons, joinUnits_char (h c (by simp)) ?_, joinUnits_all (fun c hc => h c (by simp [hc])) (noPair_tail hp)]
    intro hc w t hw hl
    cases s with
    | nil => cases hw
    | cons d s =>
      have hd := h d (by simp)
      rw [List.flatMap_cons] at hw
      unfold utf16Of at hw
      split at hw
      · simp only [List.cons_append, List.cons.injEq] at hw
        obtain ⟨rfl, -⟩ := hw
        exact hp ⟨[], c, d, s, rfl, hc, hl⟩
      · simp only [List.cons_append, List.cons.injEq] at hw
        unfold Low at hl
        omega

theorem scalar_bound {c : Nat} (h : Scalar c) : c < 0x110000 := by unfold Scalar at h; omega

theorem scalar_noPair {s : Str} (h : ∀ c ∈ s, Scalar c) : NoPair s := by
  rintro ⟨a, m, n, b, rfl, hm, -⟩
  have := h m (by simp)
  unfold High at hm
  unfold Scalar at this
  omega

theorem decodeUtf16_encode (l : Bool) {s : Str} (h : ∀ c ∈ s, c < 0x110000) (hp : NoPair s) : decodeUtf16 l (encode (.utf16 l) s) = some s := by
  have : encode (.utf16 l) s = (s.flatMap utf16Of).flatMap (bytes2 l) := by
    unfold encode encodeChar
    rw [List.flatMap_assoc]
  unfold decodeUtf16
  rw [this, units16_all]
  · simp only [Option.map_some, joinUnits_all h hp]
  · intro u hu
    obtain ⟨c, hc, hu⟩ := List.mem_flatMap.mp hu
    exact utf16Of_bound (h c hc) u hu

theorem decodeUtf32_encode (l : Bool) : ∀ {s : Str}, (∀ c ∈ s, c < 0x110000) → decodeUtf32 l (encode (.utf32 l) s) = some s
  | [], _ => rfl
  | c :: s, h => by
    have hc := h c (by simp)
    have := decodeUtf32_encode l (s := s) fun c hc => h c (by simp [hc])
    simp only [encode, List.flatMap_cons, encodeChar] at this ⊢
    cases l
    · simp only [bytes4, Bool.false_eq_true, if_false, List.cons_append, List.nil_append, decodeUtf32] at this ⊢
      rw [show ((c / 16777216 * 256 + c / 65536 % 256) * 256 + c / 256 % 256) * 256 + c % 256 = c by omega, if_pos hc, this]
      rfl
    · simp only [bytes4, if_true, List.cons_append, List.nil_append, decodeUtf32] at this ⊢
      rw [show ((c / 16777216 * 256 + c / 65536 % 256) * 256 + c / 256 % 256) * 256 + c % 256 = c by omega, if_pos hc, this]
      rfl

/-! ## detection -/

/-- the beginning of a JSON text: a character of ASCII, and no zero behind it -/
def Plain (s : Str) : Prop := ∃ c r, s = c :: r ∧ 0 < c ∧ c < 128 ∧ ∀ d r', r = d :: r' → d ≠ 0

theorem detected' {s : Str} (hs : ∀ c ∈ s, c < 0x110000) (hp : Plain s) (f : Form) (mark : Bool) (hn : (∃ l, f = .utf16 l) → NoPair s) :
    decodeBytes (detectEncoding (fileOf f mark s)) (fileOf f mark s) = some s := by
  obtain ⟨c, r, rfl, h0, h1, h2⟩ := hp
  have e8 := decodeUtf8_encode (s := c :: r) hs
  have e16 := fun l (hf : f = .utf16 l) => decodeUtf16_encode l hs (hn ⟨l, hf⟩)
  have e32 := fun l => decodeUtf32_encode l (s := c :: r) hs
  cases mark with
  | true =>
    have hm : ∀ f, fileOf f true (c :: r) = encodeChar f 0xfeff ++ encode f (c :: r) := fun f => rfl
    cases f with
    | utf8 =>
      have he : detectEncoding (fileOf .utf8 true (c :: r)) = .utf8Sig := rfl
      rw [he, hm]
      exact e8
    | utf16 l =>
      have hd : detectEncoding (fileOf (.utf16 l) true (c :: r)) = .utf16 := by
        rw [hm]
        cases l
        · rfl
        · have : encode (.utf16 true) (c :: r) = c :: 0 :: encode (.utf16 true) r := by
            simp only [encode, List.flatMap_cons, encodeChar, utf16Of]
            rw [if_pos (by omega)]
            simp only [List.flatMap_cons, List.flatMap_nil, bytes2, if_true, List.cons_append, List.nil_append]
            rw [show c % 256 = c by omega, show c / 256 = 0 by omega]
          rw [this]
          unfold detectEncoding
          rw [if_neg, if_pos]
          · rfl
          · simp only [encodeChar, utf16Of, Bool.or_eq_true, startsWith_iff]
            simp [bytes2]
            omega
      rw [hd, hm]
      cases l
      · exact e16 false rfl
      · exact e16 true rfl
    | utf32 l =>
      have hd : detectEncoding (fileOf (.utf32 l) true (c :: r)) = .utf32 := by
        rw [hm]
        cases l <;> rfl
      rw [hd, hm]
      cases l
      · exact e32 false
      · exact e32 true
  | false =>
    have hm : ∀ f, fileOf f false (c :: r) = encode f (c :: r) := fun f => rfl
    have noMark : ∀ (b : List Nat) (m : Nat) (ms : List Nat), m ≠ c → Py.startsWith (c :: b) (m :: ms) = false := by
      intro b m ms hmc
      rw [← Bool.not_eq_true, startsWith_iff]
      rintro ⟨t, ht⟩
      simp only [List.cons_append, List.cons.injEq] at ht
      exact hmc ht.1.symm
    cases f with
    | utf8 =>
      rw [hm]
      have : detectEncoding (encode .utf8 (c :: r)) = .utf8 := by
        have hc : encode .utf8 (c :: r) = c :: encode .utf8 r := by
          simp only [encode, List.flatMap_cons, encodeChar, utf8Of]
          rw [if_pos (by omega)]
          rfl
        rw [hc]
        unfold detectEncoding
        simp only [noMark _ 0 _ (by omega), noMark _ 0xff _ (by omega), noMark _ 0xfe _ (by omega), noMark _ 0xef _ (by omega), Bool.or_self,
          Bool.false_eq_true, if_false]
        have hb : ∀ b1 t, encode .utf8 r = b1 :: t → b1 ≠ 0 := by
          intro b1 t hb
          cases r with
          | nil => cases hb
          | cons d r =>
            have hd := h2 d r rfl
            simp only [encode, List.flatMap_cons, encodeChar, utf8Of] at hb
            split at hb
            · simp only [List.cons_append, List.cons.injEq] at hb; omega
            split at hb
            · simp only [List.cons_append, List.cons.injEq] at hb; omega
            split at hb
            · simp only [List.cons_append, List.cons.injEq] at hb; omega
            · simp only [List.cons_append, List.cons.injEq] at hb; omega
        split
        · rename_i b0 b1 b2 b3 t heq
          simp only [List.cons.injEq] at heq
          obtain ⟨rfl, heq⟩ := heq
          rw [if_neg (by omega), if_neg (hb _ _ heq)]
        · rename_i b0 b1 heq
          simp only [List.cons.injEq] at heq
          obtain ⟨rfl, heq⟩ := heq
          rw [if_neg (by omega), if_neg (hb _ _ heq)]
        · rfl
      rw [this]
      exact e8
    | utf16 l =>
      rw [hm]
      have hc : encode (.utf16 l) (c :: r) = bytes2 l c ++ encode (.utf16 l) r := by
        simp only [encode, List.flatMap_cons, encodeChar, utf16Of]
        rw [if_pos (by omega)]
        simp
      have hu : r = [] ∨ ∃ u t, u ≠ 0 ∧ u < 65536 ∧ encode (.utf16 l) r = bytes2 l u ++ t := by
        cases r with
        | nil => exact .inl rfl
        | cons d r =>
          have hd := h2 d r rfl
          have hds := hs d (by simp)
          right
          simp only [encode, List.flatMap_cons, encodeChar, utf16Of]
          split
          · exact ⟨d, List.flatMap (encodeChar (.utf16 l)) r, hd, by omega, by simp⟩
          · exact ⟨0xd800 + (d - 0x10000) / 0x400, _, by omega, by omega, by simp only [List.flatMap_cons, List.append_assoc]; rfl⟩
      cases l with
      | false =>
        have : detectEncoding (encode (.utf16 false) (c :: r)) = .utf16be := by
          rw [hc]
          simp only [bytes2, Bool.false_eq_true, if_false, List.cons_append, List.nil_append]
          rw [show c / 256 = 0 by omega, show c % 256 = c by omega]
          unfold detectEncoding
          have hz : Py.startsWith (0 :: c :: encode (.utf16 false) r) [0, 0, 0xfe, 0xff] = false := by
            rw [← Bool.not_eq_true, startsWith_iff]
            rintro ⟨t, ht⟩
            simp only [List.cons_append, List.cons.injEq] at ht
            omega
          have hz' : ∀ m ms, m ≠ 0 → Py.startsWith (0 :: c :: encode (.utf16 false) r) (m :: ms) = false := by
            intro m ms hm
            rw [← Bool.not_eq_true, startsWith_iff]
            rintro ⟨t, ht⟩
            simp only [List.cons_append, List.cons.injEq] at ht
            omega
          simp only [hz, hz' 0xff _ (by omega), hz' 0xfe _ (by omega), hz' 0xef _ (by omega), Bool.or_self, Bool.false_eq_true, if_false]
          rcases hu with rfl | ⟨u, t, -, -, hu⟩
          · rfl
          · rw [hu]
            simp only [bytes2, Bool.false_eq_true, if_false, List.cons_append, List.nil_append, if_true]
            rw [if_pos (by omega)]
        rw [this]
        exact e16 false rfl
      | true =>
        have : detectEncoding (encode (.utf16 true) (c :: r)) = .utf16le := by
          rw [hc]
          simp only [bytes2, if_true, List.cons_append, List.nil_append]
          rw [show c / 256 = 0 by omega, show c % 256 = c by omega]
          unfold detectEncoding
          simp only [noMark _ 0 _ (by omega), noMark _ 0xff _ (by omega), noMark _ 0xfe _ (by omega), noMark _ 0xef _ (by omega), Bool.or_self,
            Bool.false_eq_true, if_false]
          rcases hu with rfl | ⟨u, t, hu1, hu2, hu⟩
          · simp only [encode, List.flatMap_nil]
            rw [if_neg (by omega), if_pos trivial]
          · rw [hu]
            simp only [bytes2, if_true, List.cons_append, List.nil_append]
            rw [if_neg (by omega), if_pos (by omega)]
        rw [this]
        exact e16 true rfl
    | utf32 l =>
      rw [hm]
      have hc : encode (.utf32 l) (c :: r) = bytes4 l c ++ encode (.utf32 l) r := rfl
      cases l with
      | false =>
        have : detectEncoding (encode (.utf32 false) (c :: r)) = .utf32be := by
          rw [hc]
          simp only [bytes4, Bool.false_eq_true, if_false, List.cons_append, List.nil_append]
          rw [show c / 16777216 = 0 by omega, show c / 65536 % 256 = 0 by omega, show c / 256 % 256 = 0 by omega, show c % 256 = c by omega]
          rfl
        rw [this]
        exact e32 false
      | true =>
        have : detectEncoding (encode (.utf32 true) (c :: r)) = .utf32le := by
          rw [hc]
          simp only [bytes4, if_true, List.cons_append, List.nil_append]
          rw [show c / 16777216 = 0 by omega, show c / 65536 % 256 = 0 by omega, show c / 256 % 256 = 0 by omega, show c % 256 = c by omega]
          unfold detectEncoding
          simp only [noMark _ 0 _ (by omega), noMark _ 0xff _ (by omega), noMark _ 0xfe _ (by omega), noMark _ 0xef _ (by omega), Bool.or_self,
            Bool.false_eq_true, if_false]
          rw [if_neg (by omega), if_pos trivial, if_neg (by simp)]
        rw [this]
        exact e32 true

theorem detected {s : Str} (hs : ∀ c ∈ s, Scalar c) (hp : Plain s) (f : Form) (mark : Bool) :
    decodeBytes (detectEncoding (fileOf f mark s)) (fileOf f mark s) = some s :=
  detected' (fun c hc => scalar_bound (hs c hc)) hp f mark fun _ => scalar_noPair hs

/-! ## only files with a text are decoded -/

theorem units16_sound (l : Bool) : ∀ {b us : List Nat}, units16 l b = some us → (∀ x ∈ b, x < 256) → b = us.flatMap (bytes2 l)
  | [], us, h, _ => by cases h; rfl
  | [x], us, h, _ => by cases h
  | x :: y :: r, us, h, hb => by
    have hx := hb x (by simp)
    have hy := hb y (by simp)
    simp only [units16, Option.map_eq_some_iff] at h
    obtain ⟨us, h, rfl⟩ := h
    rw [List.flatMap_cons, ← units16_sound l h fun x hx => hb x (by simp [hx])]
    cases l
    · simp only [bytes2, Bool.false_eq_true, if_false, List.cons_append, List.nil_append]
      rw [show (x * 256 + y) / 256 = x by omega, show (x * 256 + y) % 256 = y by omega]
    · simp only [bytes2, if_true, List.cons_append, List.nil_append]
      rw [show (y * 256 + x) / 256 = y by omega, show (y * 256 + x) % 256 = x by omega]

theorem units16_bound (l : Bool) : ∀ {b us : List Nat}, units16 l b = some us → (∀ x ∈ b, x < 256) → ∀ u ∈ us, u < 65536
  | [], us, h, _ => by cases h; simp
  | [x], us, h, _ => by cases h
  | x :: y :: r, us, h, hb => by
    have hx := hb x (by simp)
    have hy := hb y (by simp)
    simp only [units16, Option.map_eq_some_iff] at h
    obtain ⟨us, h, rfl⟩ := h
    intro u hu
    rcases List.mem_cons.mp hu with rfl | hu
    · split <;> omega
    · exact units16_bound l h (fun x hx => hb x (by simp [hx])) u hu

theorem joinUnits_sound : ∀ {us : List Nat}, (∀ u ∈ us, u < 65536) →
    (joinUnits us).flatMap utf16Of = us ∧ (∀ c ∈ joinUnits us, c < 0x110000) ∧ NoPair (joinUnits us) ∧
      ∀ w t, joinUnits us = w :: t → Low w → ∃ r, us = w :: r
  | [], _ => ⟨rfl, by simp [joinUnits], (by rintro ⟨a, m, n, b, h, -⟩; cases a <;> cases h), fun _ _ h => (nomatch h)⟩
  | [u], h => by
    have hu := h u (by simp)
    refine ⟨by simp only [joinUnits, List.flatMap_cons, List.flatMap_nil, utf16Of]; rw [if_pos (by omega)]; rfl, ?_, ?_, ?_⟩
    · intro c hc
      simp only [joinUnits, List.mem_cons, List.not_mem_nil, or_false] at hc
      omega
    · rintro ⟨a, m, n, b, h, -⟩
      have := congrArg List.length h
      simp [joinUnits] at this
      omega
    · intro w t h _
      simp only [joinUnits, List.cons.injEq] at h
      obtain ⟨rfl, -⟩ := h
      exact ⟨[], rfl⟩
  | u :: w :: r, h => by
    have hu := h u (by simp)
    have hw := h w (by simp)
    unfold joinUnits
    split
    · rename_i hh
      simp only [isHigh, isLow, Bool.and_eq_true, decide_eq_true_eq] at hh
      obtain ⟨i1, i2, i3, i4⟩ := joinUnits_sound (us := r) fun x hx => h x (by simp [hx])
      generalize hv : 0x10000 + (u - 0xd800) * 1024 + (w - 0xdc00) = v
      have hv1 : 0x10000 ≤ v ∧ v < 0x110000 := by omega
      refine ⟨?_, ?_, ?_, ?_⟩
      · rw [List.flatMap_cons, i1]
        unfold utf16Of
        rw [if_neg (by omega), show 0xd800 + (v - 0x10000) / 0x400 = u by omega, show 0xdc00 + (v - 0x10000) % 0x400 = w by omega]
        rfl
      · intro c hc
        rcases List.mem_cons.mp hc with rfl | hc
        · exact hv1.2
        · exact i2 c hc
      · rintro ⟨a, m, n, b, ha, hm, hn⟩
        cases a with
        | nil =>
          simp only [List.nil_append, List.cons.injEq] at ha
          unfold High at hm
          omega
        | cons x a =>
          simp only [List.cons_append, List.cons.injEq] at ha
          exact i3 ⟨a, m, n, b, ha.2, hm, hn⟩
      · intro x t hx hl
        simp only [List.cons.injEq] at hx
        unfold Low at hl
        omega
    · rename_i hh
      simp only [isHigh, isLow, Bool.and_eq_true, decide_eq_true_eq] at hh
      obtain ⟨i1, i2, i3, i4⟩ := joinUnits_sound (us := w :: r) fun x hx => h x (by simp [List.mem_cons.mp hx])
      refine ⟨?_, ?_, ?_, ?_⟩
      · rw [List.flatMap_cons, i1]
        unfold utf16Of
        rw [if_pos (by omega)]
        rfl
      · intro c hc
        rcases List.mem_cons.mp hc with rfl | hc
        · omega
        · exact i2 c hc
      · rintro ⟨a, m, n, b, ha, hm, hn⟩
        cases a with
        | nil =>
          simp only [List.nil_append, List.cons.injEq] at ha
          obtain ⟨rfl, ha⟩ := ha
          obtain ⟨r', hr⟩ := i4 n b ha hn
          simp only [List.cons.injEq] at hr
          obtain ⟨rfl, -⟩ := hr
          unfold High at hm
          unfold Low at hn
          omega
        | cons x a =>
          simp only [List.cons_append, List.cons.injEq] at ha
          exact i3 ⟨a, m, n, b, ha.2, hm, hn⟩
      · intro x t hx _
        simp only [List.cons.injEq] at hx
        obtain ⟨rfl, -⟩ := hx
        exact ⟨_, rfl⟩

theorem decodeUtf16_sound {l : Bool} {b : List Nat} {s : Str} (h : decodeUtf16 l b = some s) (hb : ∀ x ∈ b, x < 256) :
    b = encode (.utf16 l) s ∧ (∀ c ∈ s, c < 0x110000) ∧ NoPair s := by
  unfold decodeUtf16 at h
  rw [Option.map_eq_some_iff] at h
  obtain ⟨us, h, rfl⟩ := h
  obtain ⟨i1, i2, i3, -⟩ := joinUnits_sound (units16_bound l h hb)
  refine ⟨?_, i2, i3⟩
  conv => lhs; rw [units16_sound l h hb, ← i1]
  unfold encode encodeChar
  rw [List.flatMap_assoc]

theorem decodeUtf32_sound {l : Bool} : ∀ {b : List Nat} {s : Str}, decodeUtf32 l b = some s → (∀ x ∈ b, x < 256) →
    b = encode (.utf32 l) s ∧ ∀ c ∈ s, c < 0x110000
  | [], s, h, _ => by cases h; exact ⟨rfl, by simp⟩
  | [_], _, h, _ => by cases h
  | [_, _], _, h, _ => by cases h
  | [_, _, _], _, h, _ => by cases h
  | a :: b :: c :: d :: r, s, h, hb => by
    have ha := hb a (by simp)
    have hb' := hb b (by simp)
    have hc := hb c (by simp)
    have hd := hb d (by simp)
    simp only [decodeUtf32] at h
    generalize hvv : (if l = true then _ else _ : Nat) = v at h
    split at h
    · rename_i hv
      rw [Option.map_eq_some_iff] at h
      obtain ⟨t, h, rfl⟩ := h
      obtain ⟨i1, i2⟩ := decodeUtf32_sound h fun x hx => hb x (by simp [hx])
      refine ⟨?_, fun x hx => ?_⟩
      · cases l <;> simp only [if_true, Bool.false_eq_true, if_false] at hvv
        · simp only [encode, List.flatMap_cons, encodeChar, bytes4, Bool.false_eq_true, if_false, List.cons_append, List.nil_append] at i1 ⊢
          rw [← i1]
          congr 1
          · omega
          congr 1
          · omega
          congr 1
          · omega
          congr 1
          omega
        · simp only [encode, List.flatMap_cons, encodeChar, bytes4, if_true, List.cons_append, List.nil_append] at i1 ⊢
          rw [← i1]
          congr 1
          · omega
          congr 1
          · omega
          congr 1
          · omega
          congr 1
          omega
      · rcases List.mem_cons.mp hx with rfl | hx
        · exact hv
        · exact i2 x hx
    · cases h

theorem decodeBytes_sound {b : List Nat} {s : Str} (h : decodeBytes (detectEncoding b) b = some s) (hb : ∀ x ∈ b, x < 256) : HasText b s := by
  have drop : ∀ {m t : List Nat}, b = m ++ t → ∀ x ∈ t, x < 256 := fun he x hx => hb x (by rw [he]; simp [hx])
  have hdrop : ∀ (m t : List Nat), (m ++ t).drop m.length = t := by simp
  generalize he : detectEncoding b = e at h
  have hor : ∀ m m' : List Nat, (Py.startsWith b m || Py.startsWith b m') = true → (∃ t, b = m ++ t) ∨ ∃ t, b = m' ++ t := by
    intro m m' h
    rw [Bool.or_eq_true, startsWith_iff, startsWith_iff] at h
    exact h
  have hutf16 : e = .utf16 → (∃ t, b = [0xfe, 0xff] ++ t) ∨ ∃ t, b = [0xff, 0xfe] ++ t := by
    rintro rfl
    unfold detectEncoding at he
    split at he
    · cases he
    split at he
    · rename_i h; exact hor _ _ h
    split at he
    · cases he
    exfalso
    repeat' split at he
    all_goals cases he
  have hutf32 : e = .utf32 → (∃ t, b = [0, 0, 0xfe, 0xff] ++ t) ∨ ∃ t, b = [0xff, 0xfe, 0, 0] ++ t := by
    rintro rfl
    unfold detectEncoding at he
    split at he
    · rename_i h; exact hor _ _ h
    split at he
    · cases he
    split at he
    · cases he
    exfalso
    repeat' split at he
    all_goals cases he
  have notf : ∀ (f : Form), (∀ l, f ≠ .utf16 l) → (∃ l, f = .utf16 l) → NoPair s := fun f hf ⟨l, hl⟩ => absurd hl (hf l)
  cases e with
  | utf8 =>
    obtain ⟨h1, h2⟩ := decodeUtf8_sound (show decodeUtf8 b = some s from h)
    exact ⟨.utf8, false, h1, h2, notf _ (by simp)⟩
  | utf8Sig =>
    replace h : decodeUtf8 (if Py.startsWith b [0xef, 0xbb, 0xbf] then b.drop 3 else b) = some s := h
    split at h
    · rename_i hm
      rw [startsWith_iff] at hm
      obtain ⟨t, rfl⟩ := hm
      obtain ⟨h1, h2⟩ := decodeUtf8_sound (show decodeUtf8 t = some s from h)
      exact ⟨.utf8, true, by rw [h1]; rfl, h2, notf _ (by simp)⟩
    · obtain ⟨h1, h2⟩ := decodeUtf8_sound h
      exact ⟨.utf8, false, h1, h2, notf _ (by simp)⟩
  | utf16le =>
    obtain ⟨h1, h2, h3⟩ := decodeUtf16_sound (show decodeUtf16 true b = some s from h) hb
    exact ⟨.utf16 true, false, h1, h2, fun _ => h3⟩
  | utf16be =>
    obtain ⟨h1, h2, h3⟩ := decodeUtf16_sound (show decodeUtf16 false b = some s from h) hb
    exact ⟨.utf16 false, false, h1, h2, fun _ => h3⟩
  | utf32le =>
    obtain ⟨h1, h2⟩ := decodeUtf32_sound (show decodeUtf32 true b = some s from h) hb
    exact ⟨.utf32 true, false, h1, h2, notf _ (by simp)⟩
  | utf32be =>
    obtain ⟨h1, h2⟩ := decodeUtf32_sound (show decodeUtf32 false b = some s from h) hb
    exact ⟨.utf32 false, false, h1, h2, notf _ (by simp)⟩
  | utf16 =>
    rcases hutf16 rfl with ⟨t, rfl⟩ | ⟨t, rfl⟩
    · obtain ⟨h1, h2, h3⟩ := decodeUtf16_sound (show decodeUtf16 false t = some s from h) (drop rfl)
      exact ⟨.utf16 false, true, by rw [h1]; rfl, h2, fun _ => h3⟩
    · obtain ⟨h1, h2, h3⟩ := decodeUtf16_sound (show decodeUtf16 true t = some s from h) (drop rfl)
      exact ⟨.utf16 true, true, by rw [h1]; rfl, h2, fun _ => h3⟩
  | utf32 =>
    rcases hutf32 rfl with ⟨t, rfl⟩ | ⟨t, rfl⟩
    · obtain ⟨h1, h2⟩ := decodeUtf32_sound (show decodeUtf32 false t = some s from h) (drop rfl)
      exact ⟨.utf32 false, true, by rw [h1]; rfl, h2, notf _ (by simp)⟩
    · obtain ⟨h1, h2⟩ := decodeUtf32_sound (show decodeUtf32 true t = some s from h) (drop rfl)
      exact ⟨.utf32 true, true, by rw [h1]; rfl, h2, notf _ (by simp)⟩

/-! ## JSON texts have no zero -/

def Graphic (t : Str) : Prop := ∀ c ∈ t, 9 ≤ c

theorem graphic_append {s t : Str} (hs : Graphic s) (ht : Graphic t) : Graphic (s ++ t) := by
  intro c hc
  rcases List.mem_append.mp hc with h | h
  · exact hs c h
  · exact ht c h

theorem graphic_cons {c : Nat} {t : Str} (hc : 9 ≤ c) (ht : Graphic t) : Graphic (c :: t) := by
  intro x hx
  rcases List.mem_cons.mp hx with rfl | h
  · exact hc
  · exact ht x h

theorem graphic_nil : Graphic [] := fun _ h => by cases h

theorem ws_graphic {w : Str} (h : Ws w) : Graphic w := fun c hc => by have := h c hc; omega

theorem hex_graphic {ds : Str} {n : Nat} (h : Hex4 ds n) : Graphic ds := by
  have hv : ∀ {c v}, hexVal c = some v → 9 ≤ c := by
    intro c v hv
    unfold hexVal at hv
    split at hv
    · omega
    split at hv
    · omega
    split at hv
    · omega
    · cases hv
  obtain ⟨a, b, c, d, _, _, _, _, rfl, ha, hb, hc, hd, -⟩ := h
  exact graphic_cons (hv ha) (graphic_cons (hv hb) (graphic_cons (hv hc) (graphic_cons (hv hd) graphic_nil)))

theorem chars_graphic {t v : Str} (h : Chars t v) : Graphic t := by
  induction h with
  | nil => exact graphic_nil
  | plain h1 _ _ _ ih => exact graphic_cons (by omega) ih
  | @escape e c t v h1 _ ih =>
    refine graphic_cons (by omega) (graphic_cons ?_ ih)
    simp only [List.mem_cons, Prod.mk.injEq, List.not_mem_nil, or_false] at h1
    omega
  | unicode h1 _ _ ih => exact graphic_cons (by omega) (graphic_cons (by omega) (graphic_append (hex_graphic h1) ih))
  | pair h1 _ h2 _ _ ih =>
    exact graphic_cons (by omega) (graphic_cons (by omega) (graphic_append (hex_graphic h1)
      (graphic_cons (by omega) (graphic_cons (by omega) (graphic_append (hex_graphic h2) ih)))))

theorem digits_graphic {t : Str} (h : ∀ c ∈ t, Digit c) : Graphic t := fun c hc => by have := h c hc; unfold Digit at this; omega

theorem number_graphic {p : Nums} {t : Str} {j : Json} (h : Number p t j) : Graphic t := by
  cases h with
  | int h1 => exact digits_graphic h1.digits
  | neg h1 => exact graphic_cons (by omega) (digits_graphic h1.digits)
  | real hs h1 hf he =>
    refine graphic_append ?_ (graphic_append (digits_graphic h1.digits) (graphic_append ?_ ?_))
    · rcases hs with rfl | rfl
      · exact graphic_nil
      · exact graphic_cons (by omega) graphic_nil
    · rcases hf with rfl | ⟨d, r, rfl, h⟩
      · exact graphic_nil
      · exact graphic_cons (by omega) (digits_graphic h)
    · rcases he with rfl | ⟨e, s, d, r, he, hs, rfl, h⟩
      · exact graphic_nil
      · refine graphic_cons (by omega) (graphic_append ?_ (digits_graphic h))
        rcases hs with rfl | rfl | rfl
        · exact graphic_nil
        · exact graphic_cons (by omega) graphic_nil
        · exact graphic_cons (by omega) graphic_nil

mutual
theorem value_graphic {p : Nums} : ∀ {t : Str} {j : Json}, Value p t j → Graphic t
  | _, _, .null => by unfold Graphic; decide
  | _, _, .true => by unfold Graphic; decide
  | _, _, .false => by unfold Graphic; decide
  | _, _, .nan => by unfold Graphic; decide
  | _, _, .inf => by unfold Graphic; decide
  | _, _, .negInf => by unfold Graphic; decide
  | _, _, .number h => number_graphic h
  | _, _, .string h => graphic_cons (by omega) (graphic_append (chars_graphic h) (graphic_cons (by omega) graphic_nil))
  | _, _, .emptyArr h => graphic_cons (by omega) (graphic_append (ws_graphic h) (graphic_cons (by omega) graphic_nil))
  | _, _, .arr h => graphic_cons (by omega) (graphic_append (elements_graphic h) (graphic_cons (by omega) graphic_nil))
  | _, _, .emptyObj h => graphic_cons (by omega) (graphic_append (ws_graphic h) (graphic_cons (by omega) graphic_nil))
  | _, _, .obj h _ => graphic_cons (by omega) (graphic_append (members_graphic h) (graphic_cons (by omega) graphic_nil))

theorem elements_graphic {p : Nums} : ∀ {t : Str} {l : List Json}, Elements p t l → Graphic t
  | _, _, .one ha h hb => graphic_append (ws_graphic ha) (graphic_append (value_graphic h) (ws_graphic hb))
  | _, _, .more ha h hb hu => graphic_append (ws_graphic ha) (graphic_append (value_graphic h) (graphic_append (ws_graphic hb)
      (graphic_cons (by omega) (elements_graphic hu))))

theorem members_graphic {p : Nums} : ∀ {t : Str} {l : List (Str × Json)}, Members p t l → Graphic t
  | _, _, .one ha hk hb hc h hd => graphic_append (ws_graphic ha) (graphic_cons (by omega) (graphic_append (chars_graphic hk) (graphic_cons (by omega)
      (graphic_append (ws_graphic hb) (graphic_cons (by omega) (graphic_append (ws_graphic hc) (graphic_append (value_graphic h) (ws_graphic hd))))))))
  | _, _, .more ha hk hb hc h hd hu => graphic_append (ws_graphic ha) (graphic_cons (by omega) (graphic_append (chars_graphic hk) (graphic_cons (by omega)
      (graphic_append (ws_graphic hb) (graphic_cons (by omega) (graphic_append (ws_graphic hc) (graphic_append (value_graphic h)
        (graphic_append (ws_graphic hd) (graphic_cons (by omega) (members_graphic hu))))))))))
end

theorem denotes_plain {p : Nums} {s : Str} {j : Json} (h : Denotes p s j) : Plain s := by
  obtain ⟨a, t, b, rfl, ha, hb, hv⟩ := h
  have hg : Graphic (a ++ (t ++ b)) := graphic_append (ws_graphic ha) (graphic_append (value_graphic hv) (ws_graphic hb))
  obtain ⟨c, r, rfl, -, -, -, -, h1, h2⟩ := value_head hv
  cases a with
  | nil =>
    refine ⟨c, r ++ b, rfl, by omega, h1, fun d r' hd => ?_⟩
    have := hg d (by simp [hd])
    omega
  | cons x a =>
    have hx := ha x (by simp)
    refine ⟨x, a ++ (c :: r ++ b), rfl, by omega, by omega, fun d r' hd => ?_⟩
    have := hg d (by rw [List.cons_append, hd]; simp)
    omega

end Verif.JsonText
