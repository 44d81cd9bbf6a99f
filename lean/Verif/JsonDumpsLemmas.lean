import Verif.JsonDumps
import Verif.Spec.JsonDumps
import Verif.JsonTextLemmas3

/-! # Lemmas about JSON that is written -/

namespace Verif.JsonText
open Verif Verif.Generate Verif.Spec.JsonText

/-! ## strings -/

theorem hex4_val (n : Nat) (h : n < 65536) : Spec.JsonText.Hex4 (hex4 n) n := by
  have hd : ∀ k, k < 16 → Spec.JsonText.hexVal (if k < 10 then 48 + k else 97 + (k - 10)) = some k := by decide
  refine ⟨_, _, _, _, n / 4096 % 16, n / 256 % 16, n / 16 % 16, n % 16, rfl, hd _ ?_, hd _ ?_, hd _ ?_, hd _ ?_, ?_⟩ <;> omega

theorem hex_unique {s t u : Str} {m n : Nat} (h1 : Spec.JsonText.Hex4 s m) (h2 : Spec.JsonText.Hex4 t n) (r : Str) (he : s ++ r = t ++ u) : m = n ∧ r = u := by
  obtain ⟨a, b, c, d, a', b', c', d', rfl, ha, hb, hc, hd, rfl⟩ := h1
  obtain ⟨x, y, z, w, x', y', z', w', rfl, hx, hy, hz, hw, rfl⟩ := h2
  simp only [List.cons_append, List.nil_append, List.cons.injEq] at he
  obtain ⟨rfl, rfl, rfl, rfl, rfl⟩ := he
  rw [ha] at hx; rw [hb] at hy; rw [hc] at hz; rw [hd] at hw
  cases hx; cases hy; cases hz; cases hw
  exact ⟨rfl, rfl⟩

/-- the character is written as itself, as an escape of one character, or with its number -/
theorem dumpsChar_cases {c : Nat} (h : c < 0x110000) :
    (dumpsChar c = [c] ∧ 32 ≤ c ∧ c ≠ 34 ∧ c ≠ 92) ∨
    (∃ e, dumpsChar c = [92, e] ∧ (e, c) ∈ [(34, 34), (92, 92), (47, 47), (pc! 'b', 8), (pc! 'f', 12), (pc! 'n', 10), (pc! 'r', 13), (pc! 't', 9)]) ∨
    (dumpsChar c = 92 :: pc! 'u' :: hex4 c ∧ c < 0x10000) ∨
    (0x10000 ≤ c ∧ ∃ m n, dumpsChar c = 92 :: pc! 'u' :: hex4 m ++ (92 :: pc! 'u' :: hex4 n) ∧ High m ∧ Low n ∧
      c = 0x10000 + (m - 0xd800) * 1024 + (n - 0xdc00)) := by
  generalize ht : dumpsChar c = t
  unfold dumpsChar at ht
  split at ht
  · rename_i hc; subst hc; exact .inr (.inl ⟨_, ht.symm, by decide⟩)
  split at ht
  · rename_i hc; subst hc; exact .inr (.inl ⟨_, ht.symm, by decide⟩)
  split at ht
  · rename_i hc; subst hc; exact .inr (.inl ⟨_, ht.symm, by decide⟩)
  split at ht
  · rename_i hc; subst hc; exact .inr (.inl ⟨_, ht.symm, by decide⟩)
  split at ht
  · rename_i hc; subst hc; exact .inr (.inl ⟨_, ht.symm, by decide⟩)
  split at ht
  · rename_i hc; subst hc; exact .inr (.inl ⟨_, ht.symm, by decide⟩)
  split at ht
  · rename_i hc; subst hc; exact .inr (.inl ⟨_, ht.symm, by decide⟩)
  split at ht
  · rename_i hc
    simp only [Bool.and_eq_true, decide_eq_true_eq] at hc
    exact .inl ⟨ht.symm, by omega, by assumption, by assumption⟩
  split at ht
  · rename_i hc
    exact .inr (.inr (.inl ⟨ht.symm, hc⟩))
  · exact .inr (.inr (.inr ⟨by omega, _, _, ht.symm, by unfold High; omega, by unfold Low; omega, by omega⟩))

/-- an escaped low surrogate comes from a low surrogate -/
theorem lowEscape_dumps {c : Nat} (h : c < 0x110000) {t : Str} (hl : LowEscape (dumpsChar c ++ t)) : Low c := by
  obtain ⟨ds, n, t', he, hx, hn⟩ := hl
  have tail : ∀ {m u}, m < 65536 → 92 :: pc! 'u' :: hex4 m ++ u = 92 :: pc! 'u' :: ds ++ t' → m = n := by
    intro m u hm he
    simp only [List.cons_append, List.cons.injEq, true_and] at he
    exact (hex_unique (hex4_val m hm) hx _ he).1
  rcases dumpsChar_cases h with ⟨hd, -, -, h92⟩ | ⟨e, hd, hm⟩ | ⟨hd, hc⟩ | ⟨-, m, k, hd, hm, -, -⟩
  · rw [hd] at he
    simp only [List.cons_append, List.cons.injEq] at he
    exact absurd he.1 h92
  · rw [hd] at he
    simp only [List.cons_append, List.nil_append, List.cons.injEq, true_and] at he
    obtain ⟨rfl, -⟩ := he
    simp only [List.mem_cons, Prod.mk.injEq, List.not_mem_nil, or_false] at hm
    omega
  · rw [hd] at he
    rw [tail hc he]
    exact hn
  · rw [hd, List.append_assoc] at he
    have := tail (by unfold High at hm; omega) he
    subst this
    unfold High at hm
    unfold Low at hn
    omega

/-- what is written for a text is read as the text, with pairs of surrogates joined -/
theorem dumps_chars {s v : Str} (hj : Joined s v) (hs : ∀ c ∈ s, c < 0x110000) : Chars (s.map dumpsChar).flatten v := by
  induction hj with
  | nil => exact .nil
  | @pair m n s t hm hn _ ih =>
    have h1 : dumpsChar m = 92 :: pc! 'u' :: hex4 m := by
      unfold High at hm
      rcases dumpsChar_cases (c := m) (by omega) with ⟨hd, -⟩ | ⟨e, -, hd⟩ | ⟨hd, -⟩ | ⟨hd, -⟩
      · unfold dumpsChar at hd
        repeat rw [if_neg (by omega)] at hd
        rw [if_neg (by simp; omega), if_pos (by omega)] at hd
        cases hd
      · simp only [List.mem_cons, Prod.mk.injEq, List.not_mem_nil, or_false] at hd
        omega
      · exact hd
      · omega
    have h2 : dumpsChar n = 92 :: pc! 'u' :: hex4 n := by
      unfold Low at hn
      rcases dumpsChar_cases (c := n) (by omega) with ⟨hd, -⟩ | ⟨e, -, hd⟩ | ⟨hd, -⟩ | ⟨hd, -⟩
      · unfold dumpsChar at hd
        repeat rw [if_neg (by omega)] at hd
        rw [if_neg (by simp; omega), if_pos (by omega)] at hd
        cases hd
      · simp only [List.mem_cons, Prod.mk.injEq, List.not_mem_nil, or_false] at hd
        omega
      · exact hd
      · omega
    simp only [List.map_cons, List.flatten_cons, h1, h2]
    exact .pair (hex4_val m (by unfold High at hm; omega)) hm (hex4_val n (by unfold Low at hn; omega)) hn (ih fun c hc => hs c (by simp [hc]))
  | @char c s t hc _ ih =>
    have ih := ih fun c hc => hs c (by simp [hc])
    simp only [List.map_cons, List.flatten_cons]
    rcases dumpsChar_cases (hs c (by simp)) with ⟨hd, h1, h2, h3⟩ | ⟨e, hd, hm⟩ | ⟨hd, h1⟩ | ⟨-, m, k, hd, hm, hk, hv⟩
    · rw [hd]
      exact .plain h1 h2 h3 ih
    · rw [hd]
      exact .escape hm ih
    · rw [hd]
      refine .unicode (hex4_val c h1) ?_ ih
      rintro ⟨hh, hl⟩
      refine hc ⟨hh, ?_⟩
      cases s with
      | nil =>
        obtain ⟨ds, n, t', he, -⟩ := hl
        cases he
      | cons n s => exact ⟨n, s, rfl, lowEscape_dumps (hs n (by simp)) hl⟩
    · have := Chars.pair (hex4_val m (by unfold High at hm; omega)) hm (hex4_val k (by unfold Low at hk; omega)) hk ih
      rw [← hv] at this
      rw [hd]
      simpa using this

theorem joined_self : ∀ {s : Str}, Unpaired s → Joined s s
  | [], _ => .nil
  | c :: s, h => by
    refine .char ?_ (joined_self (s := s) ⟨fun d hd => h.1 d (by simp [hd]), ?_⟩)
    · rintro ⟨hc, n, r, rfl, hn⟩
      exact h.2 ⟨[], c, n, r, rfl, hc, hn⟩
    · rintro ⟨a, m, n, b, rfl, hm, hn⟩
      exact h.2 ⟨c :: a, m, n, b, rfl, hm, hn⟩

theorem joined_total (s : Str) : ∃ t, Joined s t := by
  suffices ∀ n (s : Str), s.length ≤ n → ∃ t, Joined s t from this _ s (Nat.le_refl _)
  intro n
  induction n with
  | zero =>
    intro s hs
    cases s with
    | nil => exact ⟨_, .nil⟩
    | cons => simp at hs
  | succ n ih =>
    intro s hs
    cases s with
    | nil => exact ⟨_, .nil⟩
    | cons c s =>
      have hs' : s.length ≤ n := by simpa using hs
      by_cases h : High c ∧ ∃ k r, s = k :: r ∧ Low k
      · obtain ⟨hc, k, r, rfl, hk⟩ := h
        obtain ⟨t, ht⟩ := ih r (by simp at hs'; omega)
        exact ⟨_, .pair hc hk ht⟩
      · obtain ⟨t, ht⟩ := ih s hs'
        exact ⟨_, .char h ht⟩

/-- a text is its own joined form only without pairs -/
theorem joined_length {s t : Str} (h : Joined s t) : t.length ≤ s.length := by
  induction h with
  | nil => exact Nat.le_refl _
  | pair _ _ _ ih => simp; omega
  | char _ _ ih => simpa using ih

theorem joined_fixed {s t : Str} (h : Joined s t) (he : t.length = s.length) : ¬ ∃ a m n b, s = a ++ m :: n :: b ∧ High m ∧ Low n := by
  induction h with
  | nil =>
    rintro ⟨a, m, n, b, hs, -⟩
    cases a <;> cases hs
  | pair _ _ h _ =>
    have := joined_length h
    simp at he
    omega
  | @char c s t hc h ih =>
    rintro ⟨a, m, n, b, hs, hm, hn⟩
    cases a with
    | nil =>
      simp only [List.nil_append, List.cons.injEq] at hs
      obtain ⟨rfl, rfl⟩ := hs
      exact hc ⟨hm, n, b, rfl, hn⟩
    | cons x a =>
      simp only [List.cons_append, List.cons.injEq] at hs
      exact ih (by simpa using he) ⟨a, m, n, b, hs.2, hm, hn⟩

/-! ## numbers -/

theorem natStr_number (n : Nat) : Decimal (Py.natStr n) n ∧ IntPart (Py.natStr n) ∧ ∀ l, 0 < l → n < 10 ^ l → (Py.natStr n).length ≤ l := by
  have key : ∀ f n, n < f → Decimal (Py.natStrF f n) n ∧ IntPart (Py.natStrF f n) ∧ (0 < n → ∃ d r, Py.natStrF f n = d :: r ∧ 49 ≤ d) ∧
      ∀ l, 0 < l → n < 10 ^ l → (Py.natStrF f n).length ≤ l := by
    intro f
    induction f with
    | zero => intro n h; omega
    | succ f ih =>
      intro n h
      rw [Py.natStrF]
      split
      · rename_i h10
        refine ⟨?_, ?_, fun hp => ⟨48 + n, [], rfl, by omega⟩, fun l hl _ => hl⟩
        · have := Decimal.snoc (t := []) (n := 0) h10 .nil
          simpa using this
        · by_cases h0 : n = 0
          · subst h0; exact .inl rfl
          · exact .inr ⟨48 + n, [], rfl, by omega, by omega, by simp⟩
      · rename_i h10
        obtain ⟨h1, h2, h3, h4⟩ := ih (n / 10) (by omega)
        obtain ⟨d, r, hd, hd1⟩ := h3 (by omega)
        refine ⟨?_, ?_, fun _ => ⟨d, r ++ [48 + n % 10], by rw [hd]; rfl, hd1⟩, fun l hl hn => ?_⟩
        · have := Decimal.snoc (d := n % 10) (by omega) h1
          rwa [show 10 * (n / 10) + n % 10 = n by omega] at this
        · rw [hd] at h2 ⊢
          have hg := h2.digits
          refine .inr ⟨d, r ++ [48 + n % 10], rfl, hd1, (hg d (by simp)).2, fun c hc => ?_⟩
          simp only [List.mem_append, List.mem_cons, List.not_mem_nil, or_false] at hc
          rcases hc with hc | rfl
          · exact hg c (by simp [hc])
          · unfold Digit; omega
        · cases l with
          | zero => omega
          | succ l =>
            cases l with
            | zero => simp at hn; omega
            | succ l =>
              have := h4 (l + 1) (by omega) (by rw [Nat.pow_succ 10 (l + 1)] at hn; omega)
              simp
              exact this
  obtain ⟨h1, h2, -, h3⟩ := key (n + 1) n (by omega)
  exact ⟨h1, h2, h3⟩

theorem int_value {p : Nums} (i : Int) (h : ∀ l, p.lim = some l → 0 < l ∧ i.natAbs < 10 ^ l) : Value p (intStr i) (.num i) := by
  cases i with
  | ofNat n =>
    obtain ⟨h1, h2, h3⟩ := natStr_number n
    exact .number (.int h2 h1 fun l hl => h3 l (h l hl).1 (h l hl).2)
  | negSucc n =>
    obtain ⟨h1, h2, h3⟩ := natStr_number (n + 1)
    exact .number (.neg h2 h1 fun l hl => h3 l (h l hl).1 (h l hl).2)

theorem real_value {p : Nums} {real : Nat → Str} {n : Nat} (h : RealText (real n)) (hr : p.real (real n) = .inr n) : Value p (real n) (.float n) := by
  have hj : realJson p (real n) = .float n := by rw [realJson, hr]
  rw [← hj]
  rcases h with h | h | h | ⟨s, i, f, e, hs, hi, hf, he, hne, h⟩
  · rw [h]; exact .nan
  · rw [h]; exact .inf
  · rw [h]; exact .negInf
  · rw [h]; exact .number (.real hs hi hf he hne)

/-! ## values -/

theorem firsts_of_nodup : ∀ {ks : List Str}, ks.Nodup → firsts ks = ks
  | [], _ => rfl
  | k :: ks, h => by
    rw [List.nodup_cons] at h
    rw [firsts, firsts_of_nodup h.2, List.filter_eq_self.mpr]
    intro a ha
    simp only [decide_eq_true_eq]
    rintro rfl
    exact h.1 ha

theorem collapsed_self {kvs : List (Str × Json)} (h : (kvs.map (·.1)).Nodup) : Collapsed kvs kvs := by
  refine ⟨(firsts_of_nodup h).symm, fun k v => ⟨fun hm => ?_, ?_⟩⟩
  · obtain ⟨a, b, rfl⟩ := List.append_of_mem hm
    refine ⟨a, b, rfl, fun hk => ?_⟩
    rw [List.map_append, List.map_cons, List.nodup_append] at h
    exact (List.nodup_cons.mp h.2.1).1 hk
  · rintro ⟨a, b, rfl, -⟩
    simp

theorem ws_space : Ws py!" " := fun c hc => by simp at hc; exact .inl hc

mutual
theorem dumps_value {p : Nums} {real : Nat → Str} : ∀ {j : Json}, Plainly p real j → Value p (dumps real j) j
  | .null, _ => .null
  | .bool true, _ => .true
  | .bool false, _ => .false
  | .num i, h => by cases h with | num _ h => exact int_value i h
  | .float n, h => by cases h with | float _ h1 h2 => exact real_value h1 h2
  | .str s, h => by
    cases h with
    | str h =>
      have := dumps_chars (joined_self h) h.1
      exact .string this
  | .arr l, h => by
    cases h with
    | arr h =>
      by_cases hl : l = []
      · subst hl; exact .emptyArr (w := []) ws_nil
      · exact .arr (dumps_elements l hl h)
  | .obj kvs, h => by
    cases h with
    | obj h h' hn =>
      by_cases hl : kvs = []
      · subst hl; exact .emptyObj (w := []) ws_nil
      · exact .obj (dumps_members kvs hl h h') (collapsed_self hn)

theorem dumps_elements {p : Nums} {real : Nat → Str} : ∀ l : List Json, l ≠ [] → (∀ k ∈ l, Plainly p real k) → Elements p (dumpsElements real l) l
  | [], h, _ => absurd rfl h
  | [j], _, h => by
    have := Elements.one (a := []) (b := []) ws_nil (dumps_value (h j (by simp))) ws_nil
    simpa [dumpsElements] using this
  | j :: k :: l, _, h => by
    have := Elements.more (a := []) (b := []) ws_nil (dumps_value (h j (by simp))) ws_nil
      (elements_ws ws_space (dumps_elements (k :: l) (by simp) fun x hx => h x (List.mem_cons_of_mem _ hx)))
    simpa [dumpsElements] using this

theorem dumps_members {p : Nums} {real : Nat → Str} : ∀ l : List (Str × Json), l ≠ [] → (∀ k ∈ l, Unpaired k.1) → (∀ k ∈ l, Plainly p real k.2) →
    Members p (dumpsMembers real l) l
  | [], h, _, _ => absurd rfl h
  | [(n, j)], _, h, h' => by
    have h1 := h (n, j) (by simp)
    have := Members.one (a := []) (b := []) (d := []) ws_nil (dumps_chars (joined_self h1) h1.1) ws_nil ws_space (dumps_value (h' (n, j) (by simp))) ws_nil
    simpa [dumpsMembers, dumpsStr] using this
  | (n, j) :: k :: l, _, h, h' => by
    have h1 := h (n, j) (by simp)
    have := Members.more (a := []) (b := []) (d := []) ws_nil (dumps_chars (joined_self h1) h1.1) ws_nil ws_space (dumps_value (h' (n, j) (by simp))) ws_nil
      (members_ws ws_space (dumps_members (k :: l) (by simp) (fun x hx => h x (List.mem_cons_of_mem _ hx)) fun x hx => h' x (List.mem_cons_of_mem _ hx)))
    simpa [dumpsMembers, dumpsStr] using this
end

theorem dumps_denotes {p : Nums} {real : Nat → Str} {j : Json} (h : Plainly p real j) : Denotes p (dumps real j) j :=
  ⟨[], dumps real j, [], by simp, ws_nil, ws_nil, dumps_value h⟩

/-! ## ASCII -/

/-- characters that can be printed in every encoding -/
def Ascii (t : Str) : Prop := ∀ c ∈ t, 32 ≤ c ∧ c < 127

theorem Ascii.append {s t : Str} (hs : Ascii s) (ht : Ascii t) : Ascii (s ++ t) := by
  intro c hc
  rcases List.mem_append.mp hc with h | h
  · exact hs c h
  · exact ht c h

theorem Ascii.cons {c : Nat} {t : Str} (hc : 32 ≤ c ∧ c < 127) (ht : Ascii t) : Ascii (c :: t) := by
  intro x hx
  rcases List.mem_cons.mp hx with rfl | h
  · exact hc
  · exact ht x h

theorem ascii_nil : Ascii [] := fun _ h => by cases h

theorem ascii_hex4 (n : Nat) : Ascii (hex4 n) := by
  have hd : ∀ k, 32 ≤ (if k % 16 < 10 then 48 + k % 16 else 97 + (k % 16 - 10)) ∧ (if k % 16 < 10 then 48 + k % 16 else 97 + (k % 16 - 10)) < 127 :=
    fun k => by split <;> omega
  intro c hc
  simp only [hex4, List.mem_cons, List.not_mem_nil, or_false] at hc
  rcases hc with rfl | rfl | rfl | rfl <;> exact hd _

theorem ascii_char (c : Nat) : Ascii (dumpsChar c) := by
  unfold dumpsChar
  repeat' split
  iterate 7 exact .cons (by decide) (.cons (by decide) ascii_nil)
  · rename_i h
    simp at h
    exact .cons (by omega) ascii_nil
  · exact .cons (by decide) (.cons (by decide) (ascii_hex4 _))
  · exact .append (.cons (by decide) (.cons (by decide) (ascii_hex4 _))) (.cons (by decide) (.cons (by decide) (ascii_hex4 _)))

theorem ascii_str (s : Str) : Ascii (dumpsStr s) := by
  refine .cons (by decide) (.append (fun c hc => ?_) (.cons (by decide) ascii_nil))
  simp only [List.mem_flatten, List.mem_map] at hc
  obtain ⟨l, ⟨x, -, rfl⟩, hl⟩ := hc
  exact ascii_char x c hl

theorem ascii_nat (n : Nat) : Ascii (Py.natStr n) := fun c hc => by
  have := (natStr_number n).2.1.digits c hc
  unfold Digit at this
  omega

theorem ascii_int : ∀ i : Int, Ascii (intStr i)
  | .ofNat n => ascii_nat n
  | .negSucc n => .cons (by decide) (ascii_nat _)

mutual
theorem dumps_ascii' {real : Nat → Str} (hr : ∀ n, Ascii (real n)) : ∀ j : Json, Ascii (dumps real j)
  | .null => by unfold dumps Ascii; decide
  | .bool true => by unfold dumps Ascii; decide
  | .bool false => by unfold dumps Ascii; decide
  | .num i => by unfold dumps; exact ascii_int i
  | .float n => by unfold dumps; exact hr n
  | .str s => by unfold dumps; exact ascii_str s
  | .arr l => by unfold dumps; exact .cons (by decide) (.append (elements_ascii hr l) (.cons (by decide) ascii_nil))
  | .obj l => by unfold dumps; exact .cons (by decide) (.append (members_ascii hr l) (.cons (by decide) ascii_nil))
theorem elements_ascii {real : Nat → Str} (hr : ∀ n, Ascii (real n)) : ∀ l : List Json, Ascii (dumpsElements real l)
  | [] => by unfold dumpsElements; exact ascii_nil
  | [j] => by unfold dumpsElements; exact dumps_ascii' hr j
  | j :: k :: l => by
    unfold dumpsElements
    exact .append (dumps_ascii' hr j) (.append (by unfold Ascii; decide) (elements_ascii hr (k :: l)))
theorem members_ascii {real : Nat → Str} (hr : ∀ n, Ascii (real n)) : ∀ l : List (Str × Json), Ascii (dumpsMembers real l)
  | [] => by unfold dumpsMembers; exact ascii_nil
  | [(n, j)] => by
    unfold dumpsMembers
    exact .append (ascii_str n) (.append (by unfold Ascii; decide) (dumps_ascii' hr j))
  | (n, j) :: k :: l => by
    unfold dumpsMembers
    exact .append (ascii_str n) (.append (by unfold Ascii; decide) (.append (dumps_ascii' hr j) (.append (by unfold Ascii; decide) (members_ascii hr (k :: l)))))
end

end Verif.JsonText
