import Verif.JsonFile
import Verif.JsonBytesLemmas

/-! # Lemmas about JSON files: positions of errors, files in UTF-8 -/

namespace Verif.JsonText
open Verif Verif.File Verif.Spec.JsonText

/-! ## positions -/

/-- errors are at most `n` characters before the end, and at most `n` characters are left -/
def Within {α : Type} (n : Nat) (x : Except Fail (α × Str)) : Prop :=
  (∀ m k, x = .error (.syntax m k) → k ≤ n) ∧ ∀ a r, x = .ok (a, r) → r.length ≤ n

theorem Within.mono {α : Type} {n m : Nat} {x : Except Fail (α × Str)} (h : Within n x) (hn : n ≤ m) : Within m x :=
  ⟨fun _ _ e => Nat.le_trans (h.1 _ _ e) hn, fun _ _ e => Nat.le_trans (h.2 _ _ e) hn⟩

theorem Within.bind {α β : Type} {n : Nat} {x : Except Fail (α × Str)} {f : α × Str → Except Fail (β × Str)} (h : Within n x)
    (hf : ∀ a r, r.length ≤ n → Within n (f (a, r))) : Within n (x >>= f) := by
  cases x with
  | error e =>
    refine ⟨fun m k he => ?_, fun a r he => ?_⟩
    · have he : (Except.error e : Except Fail (β × Str)) = _ := he
      injection he with he
      exact h.1 m k (by rw [he])
    · have he : (Except.error e : Except Fail (β × Str)) = _ := he
      cases he
  | ok ar => exact hf ar.1 ar.2 (h.2 _ _ rfl)

theorem within_ok {α : Type} {n : Nat} (a : α) {r : Str} (h : r.length ≤ n) : Within n (.ok (a, r)) :=
  ⟨fun _ _ e => (nomatch e), fun _ _ e => by cases e; exact h⟩
theorem within_err {α : Type} {n : Nat} (m : Str) {s : Str} (h : s.length ≤ n) : Within n (err m s : Except Fail (α × Str)) :=
  ⟨fun _ _ e => (by cases e; exact h), fun _ _ e => by cases e⟩
theorem within_raised {α : Type} {n : Nat} (e : PyExc) : Within n (.error (.raised e) : Except Fail (α × Str)) :=
  ⟨fun _ _ e => (nomatch e), fun _ _ e => (nomatch e)⟩

theorem Within.ite {α : Type} {n : Nat} {c : Prop} [Decidable c] {x y : Except Fail (α × Str)} (hx : Within n x) (hy : Within n y) :
    Within n (if c then x else y) := by
  split
  · exact hx
  · exact hy

theorem skipWs_length (s : Str) : (skipWs s).length ≤ s.length := (skipWs_suffix s).length_le

theorem scanHex_length {s r : Str} {v : Nat} (h : scanHex s = some (v, r)) : r.length ≤ s.length := by
  unfold scanHex at h
  split at h
  · split at h
    · cases h; simp
    · cases h
  · cases h

theorem scanUnicode_within (s : Str) : Within s.length (scanUnicode s) := by
  unfold scanUnicode
  split
  · exact within_err _ (Nat.le_refl _)
  · rename_i c r h
    have hr : r.length ≤ s.length := Nat.le_trans (scanHex_length h) (by simp)
    refine Within.ite ?_ (within_ok _ hr)
    split
    · exact within_err _ (by simp; omega)
    · rename_i h2
      have h3 := scanHex_length h2
      rw [List.length_drop] at h3
      exact Within.ite (within_ok _ (by omega)) (within_ok _ hr)

theorem scanString_within {start : Str} {m : Nat} (hm : start.length ≤ m) : ∀ n s, s.length ≤ m → Within m (scanString start n s)
  | 0, _, _ => by unfold scanString; exact within_err _ hm
  | n + 1, [], _ => by unfold scanString; exact within_err _ hm
  | n + 1, c :: s, hs => by
    have hs' : s.length ≤ m := by simp at hs; omega
    unfold scanString
    refine Within.ite (within_ok _ hs') (Within.ite ?_ (Within.ite (within_err _ hs) ((scanString_within hm n s hs').bind fun _ _ h => within_ok _ h)))
    split
    · exact within_err _ hm
    · rename_i e r
      refine Within.ite (((scanUnicode_within _).mono hs').bind fun _ r h => (scanString_within hm n r h).bind fun _ _ h => within_ok _ h) ?_
      split
      · exact within_err _ hs
      · exact (scanString_within hm n r (by simp at hs'; omega)).bind fun _ _ h => within_ok _ h

theorem dropWhile_length {p : Nat → Bool} (s : Str) : (s.dropWhile p).length ≤ s.length := (List.dropWhile_suffix p).length_le

theorem scanNumber_within (p : Nums) (s : Str) : Within s.length (scanNumber p s) := by
  unfold scanNumber
  obtain ⟨sign, u, hsu, hse⟩ : ∃ sign u, (if Py.startsWith s [pc! '-'] = true then ([pc! '-'], s.drop 1) else ([], s)) = (sign, u) ∧ u.length ≤ s.length := by
    split
    · exact ⟨_, _, rfl, by simp⟩
    · exact ⟨_, _, rfl, Nat.le_refl _⟩
  rw [hsu]
  dsimp only
  split
  · exact within_err _ (Nat.le_refl _)
  · rename_i ds r hd
    obtain ⟨rfl, -⟩ := scanDigits_sound hd
    have hf : (scanFrac r).2.length ≤ r.length := by
      unfold scanFrac
      split
      · split
        · have := dropWhile_length (p := isDigit) (s := by assumption)
          simp; omega
        · exact Nat.le_refl _
      · exact Nat.le_refl _
    have he : ∀ r, (scanExp r).2.length ≤ r.length := by
      intro r
      unfold scanExp
      split
      · exact Nat.le_refl _
      · split
        · dsimp only
          generalize (if (Py.startsWith _ [pc! '+'] || Py.startsWith _ [pc! '-']) = true then List.take 1 _ else []) = sign
          split
          · exact Nat.le_refl _
          · refine Nat.le_trans (dropWhile_length _) ?_
            simp; omega
        · exact Nat.le_refl _
    have := he (scanFrac r).2
    simp at hse
    refine Within.ite (Within.ite (within_raised _) (within_ok _ ?_)) (within_ok _ ?_)
    · omega
    · omega

theorem scan_within (p : Nums) : ∀ n m,
    (∀ s, s.length ≤ m → Within m (scanValue p n s)) ∧ (∀ s, s.length ≤ m → Within m (scanMembers p n s)) ∧
    (∀ s, s.length ≤ m → Within m (scanElements p n s))
  | 0, _ => ⟨fun _ h => by unfold scanValue; exact within_err _ h, fun _ h => by unfold scanMembers; exact within_err _ h,
      fun _ h => by unfold scanElements; exact within_err _ h⟩
  | n + 1, m => by
    obtain ⟨ihV, ihM, ihE⟩ := scan_within p n m
    have ws : ∀ s : Str, s.length ≤ m → (skipWs s).length ≤ m := fun s h => Nat.le_trans (skipWs_length s) h
    have dr : ∀ (s : Str) k, s.length ≤ m → (s.drop k).length ≤ m := fun s k h => by simp; omega
    refine ⟨fun s hs => ?_, fun s hs => ?_, fun s hs => ?_⟩
    · cases s with
      | nil => unfold scanValue; exact within_err _ hs
      | cons c s =>
        have hs' : s.length ≤ m := by simp at hs; omega
        unfold scanValue
        refine Within.ite ((scanString_within hs _ _ hs').bind fun _ _ h => within_ok _ h)
          (Within.ite (Within.ite (within_ok _ (dr _ _ (ws _ hs'))) ((ihM _ (ws _ hs')).bind fun _ _ h => within_ok _ h))
          (Within.ite (Within.ite (within_ok _ (dr _ _ (ws _ hs'))) ((ihE _ (ws _ hs')).bind fun _ _ h => within_ok _ h)) ?_))
        split
        · exact within_ok _ (dr _ _ hs)
        · exact (scanNumber_within p _).mono hs
    · cases s with
      | nil => unfold scanMembers; exact within_err _ hs
      | cons c s =>
        have hs' : s.length ≤ m := by simp at hs; omega
        unfold scanMembers
        exact Within.ite (within_err _ hs) ((scanString_within hs _ _ hs').bind fun _ r hr => Within.ite (within_err _ (ws _ hr))
          ((ihV _ (ws _ (dr _ _ (ws _ hr)))).bind fun _ r hr =>
          Within.ite (within_ok _ (dr _ _ (ws _ hr))) (Within.ite (within_err _ (ws _ hr)) ((ihM _ (ws _ (dr _ _ (ws _ hr)))).bind fun _ _ h => within_ok _ h))))
    · unfold scanElements
      exact (ihV _ hs).bind fun _ r hr => Within.ite (within_ok _ (dr _ _ (ws _ hr))) (Within.ite (within_err _ (ws _ hr))
        ((ihE _ (ws _ (dr _ _ (ws _ hr)))).bind fun _ _ h => within_ok _ h))

theorem decode_within {p : Nums} {s m : Str} {k : Nat} (h : decode p s = .error (.syntax m k)) : k ≤ s.length := by
  unfold decode at h
  have hw := (scan_within p (2 * s.length + 1) s.length).1 (skipWs s) (skipWs_length s)
  cases hv : scanValue p (2 * s.length + 1) (skipWs s) with
  | error e =>
    rw [hv] at h
    have h : (Except.error e : Except Fail Json) = _ := h
    injection h with h
    exact hw.1 m k (by rw [hv, h])
  | ok vr =>
    obtain ⟨v, r⟩ := vr
    rw [hv] at h
    have hr := hw.2 v r hv
    replace h : (if (skipWs r).isEmpty then (.ok v : Except Fail Json) else err py!"Extra data" (skipWs r)) = _ := h
    split at h
    · cases h
    · have := skipWs_length r
      simp only [err, Except.error.injEq, Fail.syntax.injEq] at h
      omega

/-! ## files in UTF-8 -/

theorem utf8Of_ne (c : Nat) : utf8Of c ≠ [] := by
  unfold utf8Of
  repeat' split
  all_goals simp

/-- bytes of UTF-8 -/
theorem utf8Of_byte {c : Nat} (h0 : c ≠ 0) (h : c < 0x110000) : ∀ b ∈ utf8Of c, b ≠ 0 ∧ b < 0xfe := by
  intro b hb
  unfold utf8Of at hb
  repeat' split at hb
  all_goals simp at hb; omega

theorem encode8_byte {s : Str} (h0 : 0 ∉ s) (h : ∀ c ∈ s, c < 0x110000) : ∀ b ∈ encode .utf8 s, b ≠ 0 ∧ b < 0xfe := by
  intro b hb
  obtain ⟨c, hc, hb⟩ := List.mem_flatMap.mp hb
  exact utf8Of_byte (fun he => h0 (he ▸ hc)) (h c hc) b hb

theorem startsWith_head {b m : List Nat} {x : Nat} (h : Py.startsWith b (x :: m) = true) : x ∈ b := by
  rw [startsWith_iff] at h
  obtain ⟨t, rfl⟩ := h
  simp

/-- files without zero that do not begin with the byte order mark of another form are read as UTF-8 -/
theorem detect8 {b : List Nat} (h0 : 0 ∉ b) (h1 : Py.startsWith b [0xfe, 0xff] = false) (h2 : Py.startsWith b [0xff, 0xfe] = false) :
    detectEncoding b = (if Py.startsWith b [0xef, 0xbb, 0xbf] then .utf8Sig else .utf8) := by
  have g1 : Py.startsWith b [0, 0, 0xfe, 0xff] = false := by
    rw [← Bool.not_eq_true]
    exact fun h => h0 (startsWith_head h)
  have g2 : Py.startsWith b [0xff, 0xfe, 0, 0] = false := by
    rw [← Bool.not_eq_true, startsWith_iff]
    rintro ⟨t, rfl⟩
    exact h0 (by simp)
  unfold detectEncoding
  simp only [g1, g2, h1, h2, Bool.or_self, Bool.false_eq_true, if_false]
  split
  · rfl
  · split
    · rw [if_neg, if_neg]
      · rintro rfl; exact h0 (by simp)
      · rintro rfl; exact h0 (by simp)
    · rw [if_neg, if_neg]
      · rintro rfl; exact h0 (by simp)
      · rintro rfl; exact h0 (by simp)
    · rfl

theorem decodeUtf8_some {b : List Nat} {s : Str} : decodeUtf8 b = some s ↔ b = encode .utf8 s ∧ ∀ c ∈ s, c < 0x110000 :=
  ⟨decodeUtf8_sound, fun ⟨h1, h2⟩ => by rw [h1]; exact decodeUtf8_encode h2⟩

/-- the text of such a file: without the byte order mark, if there is one -/
theorem decode8 {b : List Nat} (h0 : 0 ∉ b) (h1 : Py.startsWith b [0xfe, 0xff] = false) (h2 : Py.startsWith b [0xff, 0xfe] = false) (s : Str) :
    decodeBytes (detectEncoding b) b = some s ↔
      ∃ mark, b = fileOf .utf8 mark s ∧ (∀ c ∈ s, c < 0x110000) ∧ (mark = false → ∀ r, s ≠ 0xfeff :: r) := by
  have hfe : ∀ s, fileOf .utf8 true s = 0xef :: 0xbb :: 0xbf :: encode .utf8 s := fun _ => rfl
  rw [detect8 h0 h1 h2]
  split
  · rename_i h
    rw [startsWith_iff] at h
    obtain ⟨b, rfl⟩ := h
    show decodeUtf8 b = some s ↔ _
    rw [decodeUtf8_some]
    constructor
    · rintro ⟨rfl, h⟩
      exact ⟨true, rfl, h, by simp⟩
    · rintro ⟨mark, hb, hs, hm⟩
      cases mark with
      | true =>
        rw [hfe] at hb
        simp only [List.cons_append, List.nil_append, List.cons.injEq, true_and] at hb
        exact ⟨hb, hs⟩
      | false =>
        exfalso
        have hd := decodeUtf8_encode hs
        rw [show encode .utf8 s = _ from hb.symm] at hd
        have hd' := decodeUtf8_cons (c := 0xfeff) (by decide) b
        rw [show utf8Of 0xfeff ++ b = [239, 187, 191] ++ b from rfl, hd] at hd'
        cases hb : decodeUtf8 b with
        | none => rw [hb] at hd'; cases hd'
        | some r =>
          rw [hb] at hd'
          simp only [Option.map_some, Option.some.injEq] at hd'
          exact hm rfl r hd'
  · rename_i h
    show decodeUtf8 b = some s ↔ _
    rw [decodeUtf8_some]
    constructor
    · rintro ⟨rfl, hs⟩
      refine ⟨false, rfl, hs, fun _ r hr => h ?_⟩
      rw [hr]
      rfl
    · rintro ⟨mark, rfl, hs, -⟩
      cases mark with
      | true => exact absurd rfl h
      | false => exact ⟨rfl, hs⟩

/-- … and every text without zero is read from its bytes -/
theorem file8 {s : Str} (h0 : 0 ∉ s) (h : ∀ c ∈ s, c < 0x110000) (mark : Bool) (hm : mark = false → ∀ r, s ≠ 0xfeff :: r) :
    decodeBytes (detectEncoding (fileOf .utf8 mark s)) (fileOf .utf8 mark s) = some s := by
  have hb : ∀ b ∈ fileOf .utf8 mark s, b ≠ 0 ∧ b < 0xfe := by
    cases mark with
    | false => exact encode8_byte h0 h
    | true =>
      refine encode8_byte (s := 0xfeff :: s) (by simp [h0]) fun c hc => ?_
      rcases List.mem_cons.mp hc with rfl | hc
      · decide
      · exact h c hc
  have hn : ∀ x m, 0xfe ≤ x → Py.startsWith (fileOf .utf8 mark s) (x :: m) = false := by
    intro x m hx
    rw [← Bool.not_eq_true]
    intro hh
    have := (hb x (startsWith_head hh)).2
    omega
  exact (decode8 (fun h => (hb 0 h).1 rfl) (hn _ _ (by decide)) (hn _ _ (by decide)) s).mpr ⟨mark, rfl, h, hm⟩

end Verif.JsonText
