import Verif.UriLemmas2

/-! # The IRI pattern, component by component: characters, hosts -/

namespace Verif.DataTypes.Uri
open Verif Re Spec

/-! ## characters -/

theorem m_ucs (s : Str) : Matches rUcs s ↔ ∃ c, s = [c] ∧ IsUcs c := by
  rw [rUcs, matches_cls]
  refine exists_congr fun c => and_congr Iff.rfl ?_
  simp only [inCls_pos, List.mem_cons, List.not_mem_nil, or_false, exists_eq_or_imp, exists_eq_left, IsUcs]
  constructor
  · intro h
    by_cases h1 : c < 0x10000
    · omega
    · by_cases h2 : c < 0xe0000
      · exact Or.inr (Or.inr (Or.inr (Or.inl ⟨c / 0x10000, by omega⟩)))
      · omega
  · rintro (h | h | h | ⟨p, h1, h2, h3, h4⟩ | h)
    · omega
    · omega
    · omega
    · have : p = 1 ∨ p = 2 ∨ p = 3 ∨ p = 4 ∨ p = 5 ∨ p = 6 ∨ p = 7 ∨ p = 8 ∨ p = 9 ∨ p = 10 ∨ p = 11 ∨ p = 12 ∨ p = 13 := by omega
      rcases this with rfl | rfl | rfl | rfl | rfl | rfl | rfl | rfl | rfl | rfl | rfl | rfl | rfl <;> omega
    · omega

theorem m_cls_of {rs : List (Nat × Nat)} {P : Nat → Prop} (h : ∀ c, inCls false rs c = true ↔ P c) (s : Str) :
    Matches (.cls false rs) s ↔ ∃ c, s = [c] ∧ P c := by
  rw [matches_cls]; simp only [h]

theorem in_unresA (c : Nat) : inCls false [(97, 122), (65, 90), (48, 57), (45, 45), (46, 46), (95, 95), (126, 126)] c = true ↔
    IsAlnum c ∨ c ∈ py!"-._~" := by
  simp only [inCls_pos, List.mem_cons, List.not_mem_nil, or_false, exists_eq_or_imp, exists_eq_left, IsAlnum, IsAlpha,
    IsUpper, IsLower, IsNum]
  omega

theorem in_sub (c : Nat) : inCls false [(33, 33), (36, 36), (38, 38), (39, 39), (40, 40), (41, 41), (42, 42), (43, 43),
    (44, 44), (59, 59), (61, 61)] c = true ↔ IsSubDelim c := by
  simp only [inCls_pos, List.mem_cons, List.not_mem_nil, or_false, exists_eq_or_imp, exists_eq_left, IsSubDelim]
  omega

theorem m_unres (s : Str) : Matches rUnres s ↔ ∃ c, s = [c] ∧ IsUnreserved c := by
  rw [rUnres]
  simp only [alts, matches_alt]
  rw [rUnresA, m_cls_of in_unresA, m_ucs]
  simp only [IsUnreserved]
  constructor
  · rintro (⟨c, rfl, h⟩ | ⟨c, rfl, h⟩)
    · exact ⟨c, rfl, h.elim Or.inl fun h => Or.inr (Or.inl h)⟩
    · exact ⟨c, rfl, Or.inr (Or.inr h)⟩
  · rintro ⟨c, rfl, h | h | h⟩
    · exact Or.inl ⟨c, rfl, Or.inl h⟩
    · exact Or.inl ⟨c, rfl, Or.inr h⟩
    · exact Or.inr ⟨c, rfl, h⟩

/-- one character of a kind, or an escape sequence -/
def EncOne (P : Nat → Prop) (t : Str) : Prop := (∃ c, t = [c] ∧ P c) ∨ ∃ a b, t = [37, a, b] ∧ IsHex a ∧ IsHex b

theorem m_reg (s : Str) : Matches rReg s ↔ EncOne RegChar s := by
  rw [rReg]
  simp only [alts, matches_alt]
  rw [m_unres, m_pct, rSub, m_cls_of in_sub]
  constructor
  · rintro (⟨c, rfl, h⟩ | h | ⟨c, rfl, h⟩)
    · exact Or.inl ⟨c, rfl, Or.inl h⟩
    · exact Or.inr h
    · exact Or.inl ⟨c, rfl, Or.inr h⟩
  · rintro (⟨c, rfl, h | h⟩ | h)
    · exact Or.inl ⟨c, rfl, h⟩
    · exact Or.inr (Or.inr ⟨c, rfl, h⟩)
    · exact Or.inr (Or.inl h)

theorem m_reg_alt {r : Re} {Q : Nat → Prop} (h : ∀ t, Matches r t ↔ ∃ c, t = [c] ∧ Q c) (s : Str) :
    Matches (alts [rUnres, rPct, rSub, r]) s ↔ EncOne (fun c => RegChar c ∨ Q c) s := by
  have h1 : Matches (alts [rUnres, rPct, rSub, r]) s ↔ Matches rReg s ∨ Matches r s := by
    rw [rReg]; simp only [alts, matches_alt, or_assoc]
  rw [h1, m_reg, h]
  constructor
  · rintro ((⟨c, rfl, h⟩ | h) | ⟨c, rfl, h⟩)
    · exact Or.inl ⟨c, rfl, Or.inl h⟩
    · exact Or.inr h
    · exact Or.inl ⟨c, rfl, Or.inr h⟩
  · rintro (⟨c, rfl, h | h⟩ | h)
    · exact Or.inl (Or.inl ⟨c, rfl, h⟩)
    · exact Or.inr ⟨c, rfl, h⟩
    · exact Or.inl (Or.inr h)

theorem m_litP (x : Nat) (s : Str) : Matches (lit x) s ↔ ∃ c, s = [c] ∧ c = x := by
  rw [matches_lit]
  constructor
  · rintro rfl; exact ⟨x, rfl, rfl⟩
  · rintro ⟨c, rfl, rfl⟩; rfl

theorem m_user (s : Str) : Matches rUser s ↔ EncOne (fun c => RegChar c ∨ c = 58) s := m_reg_alt (m_litP 58) s
theorem m_nc (s : Str) : Matches rNc s ↔ EncOne (fun c => RegChar c ∨ c = 64) s := m_reg_alt (m_litP 64) s

theorem in_pair (x y c : Nat) : inCls false [(x, x), (y, y)] c = true ↔ c ∈ [x, y] := by
  simp only [inCls_pos, List.mem_cons, List.not_mem_nil, or_false, exists_eq_or_imp, exists_eq_left]
  omega

theorem m_pchar (s : Str) : Matches rPchar s ↔ EncOne PathChar s := m_reg_alt (m_cls_of (in_pair 58 64)) s

theorem in_private (c : Nat) : inCls false [(0xe000, 0xf8ff), (0xf0000, 0xffffd), (0x100000, 0x10fffd)] c = true ↔
    IsPrivate c := by
  simp only [inCls_pos, List.mem_cons, List.not_mem_nil, or_false, exists_eq_or_imp, exists_eq_left, IsPrivate]

theorem m_enc_alt {r q : Re} {P Q : Nat → Prop} (h1 : ∀ t, Matches r t ↔ EncOne P t)
    (h2 : ∀ t, Matches q t ↔ ∃ c, t = [c] ∧ Q c) (s : Str) : Matches (.alt r q) s ↔ EncOne (fun c => P c ∨ Q c) s := by
  rw [matches_alt, h1, h2]
  constructor
  · rintro ((⟨c, rfl, h⟩ | h) | ⟨c, rfl, h⟩)
    · exact Or.inl ⟨c, rfl, Or.inl h⟩
    · exact Or.inr h
    · exact Or.inl ⟨c, rfl, Or.inr h⟩
  · rintro (⟨c, rfl, h | h⟩ | h)
    · exact Or.inl (Or.inl ⟨c, rfl, h⟩)
    · exact Or.inr ⟨c, rfl, h⟩
    · exact Or.inl (Or.inr h)

theorem enc_append {P : Nat → Prop} {s t : Str} (hs : Enc P s) (ht : Enc P t) : Enc P (s ++ t) := by
  induction hs with
  | nil => exact ht
  | char h _ ih => exact .char h ih
  | pct h1 h2 _ ih => exact .pct h1 h2 ih

theorem enc_one {P : Nat → Prop} {t : Str} (h : EncOne P t) : Enc P t := by
  rcases h with ⟨c, rfl, h⟩ | ⟨a, b, rfl, ha, hb⟩
  · exact .char h .nil
  · exact .pct ha hb .nil

theorem enc_mono {P Q : Nat → Prop} (h : ∀ c, P c → Q c) {s : Str} (hs : Enc P s) : Enc Q s := by
  induction hs with
  | nil => exact .nil
  | char hc _ ih => exact .char (h _ hc) ih
  | pct h1 h2 _ ih => exact .pct h1 h2 ih

theorem m_enc {r : Re} {P : Nat → Prop} (h : ∀ t, Matches r t ↔ EncOne P t) (s : Str) : Matches (.star r) s ↔ Enc P s := by
  constructor
  · intro hm
    obtain ⟨ts, rfl, hts⟩ := (matches_star r s).mp hm
    clear hm
    induction ts with
    | nil => exact .nil
    | cons t ts ih =>
      exact enc_append (enc_one ((h t).mp (hts t List.mem_cons_self))) (ih fun u hu => hts u (List.mem_cons_of_mem _ hu))
  · intro hs
    induction hs with
    | nil => exact .starNil
    | @char c s hc _ ih => exact .starCons (s := [c]) ((h _).mpr (Or.inl ⟨c, rfl, hc⟩)) ih
    | @pct a b s ha hb _ ih => exact .starCons (s := [37, a, b]) ((h _).mpr (Or.inr ⟨a, b, rfl, ha, hb⟩)) ih

theorem m_enc_plus {r : Re} {P : Nat → Prop} (h : ∀ t, Matches r t ↔ EncOne P t) (s : Str) :
    Matches (plus r) s ↔ Enc P s ∧ s ≠ [] := by
  rw [plus, matches_seq]
  constructor
  · rintro ⟨u, v, rfl, h1, h2⟩
    refine ⟨enc_append (enc_one ((h u).mp h1)) ((m_enc h v).mp h2), ?_⟩
    rcases (h u).mp h1 with ⟨c, rfl, _⟩ | ⟨a, b, rfl, _⟩ <;> simp
  · rintro ⟨hs, hne⟩
    cases hs with
    | nil => exact absurd rfl hne
    | @char c s hc hs => exact ⟨[c], s, rfl, (h _).mpr (Or.inl ⟨c, rfl, hc⟩), (m_enc h s).mpr hs⟩
    | @pct a b s ha hb hs => exact ⟨[37, a, b], s, rfl, (h _).mpr (Or.inr ⟨a, b, rfl, ha, hb⟩), (m_enc h s).mpr hs⟩

/-! ## IP addresses -/

set_option maxRecDepth 20000 in
theorem octet_all : ∀ n < 256, rOctet.test (Py.natStr n) = true := by decide +kernel

theorem octet_one : ∀ a < 10, [48 + a] = Py.natStr a := by decide +kernel
theorem octet_two : ∀ a < 10, ∀ b < 10, 1 ≤ a → [48 + a, 48 + b] = Py.natStr (10 * a + b) := by decide +kernel
set_option maxRecDepth 20000 in
theorem octet_three : ∀ a < 3, ∀ b < 10, ∀ c < 10, 1 ≤ a → [48 + a, 48 + b, 48 + c] = Py.natStr (100 * a + 10 * b + c) := by
  decide +kernel

theorem m_range (lo hi : Nat) (s : Str) : Matches (.cls false [(lo, hi)]) s ↔ ∃ c, s = [c] ∧ lo ≤ c ∧ c ≤ hi :=
  m_cls_of (by intro c; simp [inCls]) s

theorem m_octet (t : Str) : Matches rOctet t ↔ ∃ n, n ≤ 255 ∧ t = Py.natStr n := by
  constructor
  · intro h
    rw [rOctet, matches_alts] at h
    obtain ⟨r, hr, h⟩ := h
    simp only [List.mem_cons, List.not_mem_nil, or_false] at hr
    rcases hr with rfl | rfl | rfl | rfl | rfl
    · obtain ⟨c, rfl, h1, h2⟩ := (m_range _ _ _).mp h
      have := octet_one (c - 48) (by omega)
      exact ⟨c - 48, by omega, by rw [← this, Nat.add_sub_cancel' h1]⟩
    · simp only [matches_seqs_cons, matches_seqs_one, rNum, m_range] at h
      obtain ⟨_, _, rfl, ⟨c, rfl, h1, h2⟩, d, rfl, h3, h4⟩ := h
      have := octet_two (c - 48) (by omega) (d - 48) (by omega) (by omega)
      refine ⟨_, ?_, by rw [← this, Nat.add_sub_cancel' (by omega), Nat.add_sub_cancel' (by omega)]; rfl⟩
      omega
    · simp only [matches_seqs_cons, matches_seqs_one, rNum, m_range, pow, matches_seq, matches_eps, matches_lit] at h
      obtain ⟨_, _, rfl, rfl, _, _, rfl, ⟨c, rfl, h1, h2⟩, _, _, rfl, ⟨d, rfl, h3, h4⟩, rfl⟩ := h
      have := octet_three 1 (by omega) (c - 48) (by omega) (d - 48) (by omega) (by omega)
      refine ⟨_, ?_, by rw [← this, Nat.add_sub_cancel' (by omega), Nat.add_sub_cancel' (by omega)]; rfl⟩
      omega
    · simp only [matches_seqs_cons, matches_seqs_one, rNum, m_range, matches_lit] at h
      obtain ⟨_, _, rfl, rfl, _, _, rfl, ⟨c, rfl, h1, h2⟩, d, rfl, h3, h4⟩ := h
      have := octet_three 2 (by omega) (c - 48) (by omega) (d - 48) (by omega) (by omega)
      refine ⟨_, ?_, by rw [← this, Nat.add_sub_cancel' (by omega), Nat.add_sub_cancel' (by omega)]; rfl⟩
      omega
    · simp only [matches_seqs_cons, matches_seqs_one, m_range, matches_lit] at h
      obtain ⟨_, _, rfl, rfl, _, _, rfl, rfl, d, rfl, h3, h4⟩ := h
      have := octet_three 2 (by omega) 5 (by omega) (d - 48) (by omega) (by omega)
      refine ⟨_, ?_, by rw [← this, Nat.add_sub_cancel' (by omega)]; rfl⟩
      omega
  · rintro ⟨n, hn, rfl⟩
    exact (test_iff _ _).mp (octet_all n (by omega))

theorem m_ipv4 (t : Str) : Matches rIpv4 t ↔ Ipv4 t := by
  rw [rIpv4]
  simp only [matches_seqs_cons, matches_seqs_one, matches_lit, m_octet, Ipv4, Py.join]
  constructor
  · rintro ⟨_, _, rfl, ⟨a, ha, rfl⟩, _, _, rfl, rfl, _, _, rfl, ⟨b, hb, rfl⟩, _, _, rfl, rfl, _, _, rfl, ⟨c, hc, rfl⟩, _, _, rfl, rfl,
      d, hd, rfl⟩
    exact ⟨a, b, c, d, ha, hb, hc, hd, by simp [List.append_assoc]⟩
  · rintro ⟨a, b, c, d, ha, hb, hc, hd, rfl⟩
    exact ⟨_, _, by simp only [List.append_assoc], ⟨a, ha, rfl⟩, _, _, rfl, rfl, _, _, rfl, ⟨b, hb, rfl⟩, _, _, rfl, rfl, _, _, rfl,
      ⟨c, hc, rfl⟩, _, _, rfl, rfl, d, hd, rfl⟩

theorem m_h16 (t : Str) : Matches rH16 t ↔ Hextet t := by
  rw [rH16, rHex, matches_rep_cls]
  simp only [in_hex, Hextet, Run, and_assoc]

/-- groups, each followed by a colon -/
def lead (gs : List Str) : Str := (gs.map (· ++ [58])).flatten

theorem lead_cons (g : Str) (gs : List Str) : lead (g :: gs) = g ++ 58 :: lead gs := by simp [lead]
theorem lead_append (a b : List Str) : lead (a ++ b) = lead a ++ lead b := by simp [lead]

theorem join_lead (gs : List Str) (x : Str) : Py.join py!":" (gs ++ [x]) = lead gs ++ x := by
  induction gs with
  | nil => simp [lead, Py.join]
  | cons g gs ih =>
    have : Py.join py!":" (g :: (gs ++ [x])) = g ++ py!":" ++ Py.join py!":" (gs ++ [x]) := by
      cases gs <;> rfl
    rw [List.cons_append, this, ih, lead_cons]; simp

theorem m_h16c (k : Nat) (t : Str) : Matches (pow rH16c k) t ↔
    ∃ gs : List Str, gs.length = k ∧ (∀ g ∈ gs, Hextet g) ∧ t = lead gs := by
  rw [matches_pow]
  have h : ∀ u, Matches rH16c u ↔ ∃ g, u = g ++ [58] ∧ Hextet g := by
    intro u
    rw [rH16c, matches_seqs_cons]
    simp only [matches_seqs_one, matches_lit, m_h16]
    constructor
    · rintro ⟨g, _, rfl, hg, rfl⟩; exact ⟨g, rfl, hg⟩
    · rintro ⟨g, rfl, hg⟩; exact ⟨g, _, rfl, hg, rfl⟩
  simp only [h]
  constructor
  · rintro ⟨ts, hl, rfl, hts⟩
    clear h
    induction ts generalizing k with
    | nil => exact ⟨[], hl, by simp, rfl⟩
    | cons t ts ih =>
      obtain ⟨g, rfl, hg⟩ := hts t List.mem_cons_self
      obtain ⟨gs, h1, h2, h3⟩ := ih (k - 1) (by simp at hl; omega) fun u hu => hts u (List.mem_cons_of_mem _ hu)
      refine ⟨g :: gs, by simp at hl ⊢; omega, ?_, ?_⟩
      · intro x hx
        rcases List.mem_cons.mp hx with rfl | hx
        · exact hg
        · exact h2 x hx
      · rw [List.flatten_cons, h3, lead_cons]; simp
  · rintro ⟨gs, hl, hg, rfl⟩
    refine ⟨gs.map (· ++ [58]), by simpa using hl, rfl, ?_⟩
    intro t ht
    obtain ⟨g, h1, rfl⟩ := List.mem_map.mp ht
    exact ⟨g, rfl, hg g h1⟩

theorem m_ls32 (t : Str) : Matches rLs32 t ↔ LastGroups 2 t := by
  rw [rLs32]
  simp only [alts, matches_alt, m_ipv4, matches_seqs_cons, matches_seqs_one, matches_lit, m_h16]
  constructor
  · rintro (⟨a, _, rfl, ha, _, b, rfl, rfl, hb⟩ | h)
    · exact Or.inl ⟨[a, b], rfl, by simp [ha, hb], by simp [Py.join]⟩
    · exact Or.inr ⟨[], t, rfl, by simp, h, rfl⟩
  · rintro (⟨gs, hl, hg, rfl⟩ | ⟨gs, v, hl, hg, hv, rfl⟩)
    · match gs, hl with
      | [a, b], _ =>
        exact Or.inl ⟨a, _, by simp only [Py.join, List.append_assoc], hg a (by simp), _, b, rfl, rfl, hg b (by simp)⟩
    · match gs, hl with
      | [], _ => exact Or.inr hv

theorem lastGroups_split (k : Nat) (t : Str) : LastGroups (k + 2) t ↔
    ∃ u v, t = u ++ v ∧ Matches (pow rH16c k) u ∧ LastGroups 2 v := by
  simp only [m_h16c]
  constructor
  · rintro (⟨gs, hl, hg, rfl⟩ | ⟨gs, x, hl, hg, hx, rfl⟩)
    · have h1 : gs = gs.take k ++ gs.drop k := (List.take_append_drop _ _).symm
      have h2 : ∃ a b, gs.drop k = [a, b] := by
        have : (gs.drop k).length = 2 := by simp; omega
        match gs.drop k, this with
        | [a, b], _ => exact ⟨a, b, rfl⟩
      obtain ⟨a, b, h2⟩ := h2
      refine ⟨lead (gs.take k), a ++ [58] ++ b, ?_, ⟨gs.take k, by simp; omega, fun g h => hg g (List.mem_of_mem_take h), rfl⟩, ?_⟩
      · conv => lhs; rw [h1, h2, show gs.take k ++ [a, b] = (gs.take k ++ [a]) ++ [b] by simp, join_lead, lead_append]
        simp [lead]
      · exact Or.inl ⟨[a, b], rfl, fun g h => hg g (List.mem_of_mem_drop (h2 ▸ h)), by simp [Py.join]⟩
    · exact ⟨lead gs, x, join_lead _ _, ⟨gs, by omega, hg, rfl⟩, Or.inr ⟨[], x, rfl, by simp, hx, rfl⟩⟩
  · rintro ⟨_, v, rfl, ⟨gs, hl, hg, rfl⟩, ⟨hs, hl2, hh, rfl⟩ | ⟨hs, x, hl2, hh, hx, rfl⟩⟩
    · match hs, hl2 with
      | [a, b], _ =>
        refine Or.inl ⟨gs ++ [a, b], by simp; omega, ?_, ?_⟩
        · intro g h
          rcases List.mem_append.mp h with h | h
          · exact hg g h
          · exact hh g h
        · rw [show gs ++ [a, b] = (gs ++ [a]) ++ [b] by simp, join_lead, lead_append]
          simp [lead, Py.join]
    · match hs, hl2 with
      | [], _ => exact Or.inr ⟨gs, x, by omega, hg, hx, (join_lead gs x).symm⟩

theorem groups_zero (t : Str) : Groups 0 t ↔ t = [] := by
  constructor
  · rintro ⟨gs, hl, _, rfl⟩
    rw [List.length_eq_zero_iff.mp hl]; rfl
  · rintro rfl; exact ⟨[], rfl, by simp, rfl⟩

theorem groups_succ (k : Nat) (t : Str) : Groups (k + 1) t ↔ ∃ u v, t = u ++ v ∧ Matches (pow rH16c k) u ∧ Hextet v := by
  simp only [m_h16c]
  constructor
  · rintro ⟨gs, hl, hg, rfl⟩
    have hne : gs ≠ [] := by rintro rfl; simp at hl
    obtain ⟨x, hs, rfl⟩ : ∃ x hs, gs = hs ++ [x] := ⟨_, _, (List.dropLast_concat_getLast hne).symm⟩
    exact ⟨lead hs, x, join_lead _ _, ⟨hs, by simpa using hl, fun g h => hg g (by simp [h]), rfl⟩, hg x (by simp)⟩
  · rintro ⟨_, v, rfl, ⟨gs, hl, hg, rfl⟩, hv⟩
    refine ⟨gs ++ [v], by simpa using hl, ?_, (join_lead _ _).symm⟩
    intro g h
    rcases List.mem_append.mp h with h | h
    · exact hg g h
    · rw [List.mem_singleton.mp h]; exact hv

theorem groups_one (t : Str) : Groups 1 t ↔ Hextet t := by
  rw [groups_succ]
  simp only [pow, matches_eps]
  constructor
  · rintro ⟨_, v, rfl, rfl, h⟩; exact h
  · intro h; exact ⟨[], t, rfl, rfl, h⟩

theorem m_before (k : Nat) (t : Str) : Matches (rBefore k) t ↔ Groups 0 t ∨ Groups (k + 1) t := by
  rw [rBefore, matches_opt, groups_zero, groups_succ, matches_seqs_cons]
  simp only [matches_seqs_one, m_h16]

theorem lastGroups_zero (t : Str) : LastGroups 0 t ↔ t = [] := by
  rw [LastGroups, groups_zero]
  constructor
  · rintro (h | ⟨_, _, h, _⟩)
    · exact h
    · omega
  · exact Or.inl

theorem lastGroups_one (t : Str) : LastGroups 1 t ↔ Hextet t := by
  rw [LastGroups, groups_one]
  constructor
  · rintro (h | ⟨_, _, h, _⟩)
    · exact h
    · omega
  · exact Or.inl

/-- one of the alternatives around `::` -/
theorem m_around {b : Re} {rs : List Re} {A B : Str → Prop} (hb : ∀ t, Matches b t ↔ A t)
    (hr : ∀ t, Matches (seqs rs) t ↔ B t) (t : Str) :
    Matches (seqs (b :: lit 58 :: lit 58 :: rs)) t ↔ ∃ l r, t = l ++ py!"::" ++ r ∧ A l ∧ B r := by
  have h : Matches (seqs (b :: lit 58 :: lit 58 :: rs)) t ↔
      ∃ l x, t = l ++ x ∧ A l ∧ ∃ y z, x = y ++ z ∧ Matches (seqs [lit 58, lit 58]) y ∧ B z := by
    have := matches_seqs_append [b] ([lit 58, lit 58] ++ rs) t
    simp only [List.cons_append, List.nil_append, matches_seqs_one, hb] at this
    rw [this]
    refine exists_congr fun l => exists_congr fun x => and_congr Iff.rfl (and_congr Iff.rfl ?_)
    have := matches_seqs_append [lit 58, lit 58] rs x
    simp only [List.cons_append, List.nil_append, hr] at this
    exact this
  rw [h]
  simp only [matches_seqs_cons, matches_seqs_one, matches_lit]
  constructor
  · rintro ⟨l, _, rfl, hl, _, r, rfl, ⟨_, _, rfl, rfl, rfl⟩, hr⟩
    exact ⟨l, r, by simp, hl, hr⟩
  · rintro ⟨l, r, rfl, hl, hr⟩
    exact ⟨l, py!"::" ++ r, by rw [List.append_assoc], hl, py!"::", r, rfl, ⟨[58], [58], rfl, rfl, rfl⟩, hr⟩

theorem m_after (k : Nat) (t : Str) : Matches (seqs [pow rH16c k, rLs32]) t ↔ LastGroups (k + 2) t := by
  rw [matches_seqs_cons, lastGroups_split]
  simp only [matches_seqs_one, m_ls32]

theorem m_after3 (t : Str) : Matches (seqs [rH16, lit 58, rLs32]) t ↔ LastGroups 3 t := by
  rw [← m_after 1]
  simp only [matches_seqs_cons, matches_seqs_one, matches_lit, m_ls32, m_h16c, m_h16]
  constructor
  · rintro ⟨u, _, rfl, hu, _, w, rfl, rfl, hw⟩
    exact ⟨u ++ [58], w, by simp, ⟨[u], rfl, by simp [hu], by simp [lead]⟩, hw⟩
  · rintro ⟨_, w, rfl, ⟨gs, hl, hg, rfl⟩, hw⟩
    match gs, hl with
    | [g], _ => exact ⟨g, 58 :: w, by simp [lead], hg g (by simp), [58], w, rfl, rfl, hw⟩

theorem m_before0 (t : Str) : Matches (opt rH16) t ↔ Groups 0 t ∨ Groups 1 t := by
  rw [matches_opt, groups_zero, groups_one, m_h16]

theorem m_before1 (t : Str) : Matches (opt (seqs [opt rH16c, rH16])) t ↔ Groups 0 t ∨ Groups 1 t ∨ Groups 2 t := by
  rw [matches_opt, groups_zero, groups_one, groups_succ, matches_seqs_cons]
  apply or_congr Iff.rfl
  have h : pow rH16c 1 = .seq rH16c .eps := rfl
  simp only [matches_seqs_one, matches_opt, m_h16, h, matches_seq, matches_eps]
  constructor
  · rintro ⟨_, v, rfl, rfl | h, hv⟩
    · exact Or.inl hv
    · exact Or.inr ⟨_, v, rfl, ⟨_, [], by simp, h, rfl⟩, hv⟩
  · rintro (h | ⟨_, v, rfl, ⟨u, _, rfl, hu, rfl⟩, hv⟩)
    · exact ⟨[], t, rfl, Or.inl rfl, h⟩
    · exact ⟨u, v, by simp, Or.inr hu, hv⟩

theorem m_ipv6 (t : Str) : Matches rIpv6 t ↔ Ipv6 CodeGroups t := by
  have h1 := m_after 6 t
  have h2 : Matches (seqs [lit 58, lit 58, pow rH16c 5, rLs32]) t ↔ ∃ l r, t = l ++ py!"::" ++ r ∧ Groups 0 l ∧ LastGroups 7 r := by
    have := m_around (b := .eps) (rs := [pow rH16c 5, rLs32]) (A := Groups 0) (fun u => (matches_eps u).trans (groups_zero u).symm) (m_after 5) t
    rw [← this]
    have := matches_seqs_append [.eps] [lit 58, lit 58, pow rH16c 5, rLs32] t
    simp only [List.cons_append, List.nil_append, matches_seqs_one, matches_eps] at this
    rw [this]
    constructor
    · intro h; exact ⟨[], t, rfl, rfl, h⟩
    · rintro ⟨_, v, rfl, rfl, h⟩; exact h
  have h3 := m_around m_before0 (m_after 4) t
  have h4 := m_around m_before1 (m_after 3) t
  have h5 := m_around (m_before 2) (m_after 2) t
  have h6 := m_around (m_before 3) m_after3 t
  have h7 := m_around (m_before 4) (rs := [rLs32]) m_ls32 t
  have h8 := m_around (m_before 5) (rs := [rH16]) (fun u => (m_h16 u).trans (lastGroups_one u).symm) t
  have h9 := m_around (m_before 6) (rs := []) (fun u => (matches_eps u).trans (lastGroups_zero u).symm) t
  rw [rIpv6]
  simp only [alts, matches_alt]
  rw [h1, h2, h3, h4, h5, h6, h7, h8, h9, Ipv6]
  apply or_congr Iff.rfl
  constructor
  · rintro (⟨l, r, e, hl, hr⟩ | ⟨l, r, e, hl | hl, hr⟩ | ⟨l, r, e, hl | hl | hl, hr⟩ | ⟨l, r, e, hl | hl, hr⟩ | ⟨l, r, e, hl | hl, hr⟩ |
      ⟨l, r, e, hl | hl, hr⟩ | ⟨l, r, e, hl | hl, hr⟩ | ⟨l, r, e, hl | hl, hr⟩) <;>
      exact ⟨_, _, l, r, e, hl, hr, by unfold CodeGroups; omega⟩
  · rintro ⟨m, n, l, r, e, hl, hr, hok⟩
    obtain ⟨hn, hok⟩ := hok
    have hn' : n = 7 ∨ n = 6 ∨ n = 5 ∨ n = 4 ∨ n = 3 ∨ n = 2 ∨ n = 1 ∨ n = 0 := by omega
    rcases hn' with rfl | rfl | rfl | rfl | rfl | rfl | rfl | rfl
    · have : m = 0 := by omega
      subst this; exact Or.inl ⟨l, r, e, hl, hr⟩
    · have : m = 0 ∨ m = 1 := by omega
      rcases this with rfl | rfl
      · exact Or.inr (Or.inl ⟨l, r, e, Or.inl hl, hr⟩)
      · exact Or.inr (Or.inl ⟨l, r, e, Or.inr hl, hr⟩)
    · have : m = 0 ∨ m = 1 ∨ m = 2 := by omega
      rcases this with rfl | rfl | rfl
      · exact Or.inr (Or.inr (Or.inl ⟨l, r, e, Or.inl hl, hr⟩))
      · exact Or.inr (Or.inr (Or.inl ⟨l, r, e, Or.inr (Or.inl hl), hr⟩))
      · exact Or.inr (Or.inr (Or.inl ⟨l, r, e, Or.inr (Or.inr hl), hr⟩))
    · have : m = 0 ∨ m = 3 := by omega
      rcases this with rfl | rfl
      · exact Or.inr (Or.inr (Or.inr (Or.inl ⟨l, r, e, Or.inl hl, hr⟩)))
      · exact Or.inr (Or.inr (Or.inr (Or.inl ⟨l, r, e, Or.inr hl, hr⟩)))
    · have : m = 0 ∨ m = 4 := by omega
      rcases this with rfl | rfl
      · exact Or.inr (Or.inr (Or.inr (Or.inr (Or.inl ⟨l, r, e, Or.inl hl, hr⟩))))
      · exact Or.inr (Or.inr (Or.inr (Or.inr (Or.inl ⟨l, r, e, Or.inr hl, hr⟩))))
    · have : m = 0 ∨ m = 5 := by omega
      rcases this with rfl | rfl
      · exact Or.inr (Or.inr (Or.inr (Or.inr (Or.inr (Or.inl ⟨l, r, e, Or.inl hl, hr⟩)))))
      · exact Or.inr (Or.inr (Or.inr (Or.inr (Or.inr (Or.inl ⟨l, r, e, Or.inr hl, hr⟩)))))
    · have : m = 0 ∨ m = 6 := by omega
      rcases this with rfl | rfl
      · exact Or.inr (Or.inr (Or.inr (Or.inr (Or.inr (Or.inr (Or.inl ⟨l, r, e, Or.inl hl, hr⟩))))))
      · exact Or.inr (Or.inr (Or.inr (Or.inr (Or.inr (Or.inr (Or.inl ⟨l, r, e, Or.inr hl, hr⟩))))))
    · have : m = 0 ∨ m = 7 := by omega
      rcases this with rfl | rfl
      · exact Or.inr (Or.inr (Or.inr (Or.inr (Or.inr (Or.inr (Or.inr ⟨l, r, e, Or.inl hl, hr⟩))))))
      · exact Or.inr (Or.inr (Or.inr (Or.inr (Or.inr (Or.inr (Or.inr ⟨l, r, e, Or.inr hl, hr⟩))))))

theorem m_future (t : Str) : Matches rFuture t ↔ IpvFuture t := by
  have hu : ∀ u, Matches (alts [rUnresA, rSub, lit 58]) u ↔ ∃ c, u = [c] ∧ (IsAlnum c ∨ c ∈ py!"-._~" ∨ IsSubDelim c ∨ c = 58) := by
    intro u
    simp only [alts, matches_alt, rUnresA, rSub, m_cls_of in_unresA, m_cls_of in_sub, m_litP]
    constructor
    · rintro (⟨c, rfl, h | h⟩ | ⟨c, rfl, h⟩ | ⟨c, rfl, h⟩)
      · exact ⟨c, rfl, Or.inl h⟩
      · exact ⟨c, rfl, Or.inr (Or.inl h)⟩
      · exact ⟨c, rfl, Or.inr (Or.inr (Or.inl h))⟩
      · exact ⟨c, rfl, Or.inr (Or.inr (Or.inr h))⟩
    · rintro ⟨c, rfl, h | h | h | h⟩
      · exact Or.inl ⟨c, rfl, Or.inl h⟩
      · exact Or.inl ⟨c, rfl, Or.inr h⟩
      · exact Or.inr (Or.inl ⟨c, rfl, h⟩)
      · exact Or.inr (Or.inr ⟨c, rfl, h⟩)
  have hp : ∀ u, Matches (plus (alts [rUnresA, rSub, lit 58])) u ↔
      u ≠ [] ∧ ∀ c ∈ u, (IsAlnum c ∨ c ∈ py!"-._~" ∨ IsSubDelim c ∨ c = 58) := by
    intro u
    rw [matches_plus]
    simp only [hu]
    constructor
    · rintro ⟨ts, hne, rfl, h⟩
      have := flatten_single _ ts h
      refine ⟨?_, this.1⟩
      intro e
      have h2 := this.2
      rw [e] at h2
      exact hne (List.length_eq_zero_iff.mp h2.symm)
    · rintro ⟨hne, h⟩
      refine ⟨u.map fun c => [c], by simpa using hne, (singles_flatten u).symm, ?_⟩
      intro t ht
      obtain ⟨c, hc, rfl⟩ := List.mem_map.mp ht
      exact ⟨c, rfl, h c hc⟩
  rw [rFuture]
  simp only [matches_seqs_cons, matches_seqs_one, matches_lit, hp, rHex, matches_plus_cls, m_cls_of (in_pair 118 86), in_hex]
  constructor
  · rintro ⟨_, _, rfl, ⟨c, rfl, hc⟩, hs, _, rfl, ⟨h1, h2⟩, _, us, rfl, rfl, h3, h4⟩
    exact ⟨c, hs, us, by simp, by simpa using hc, h1, h2, h3, h4⟩
  · rintro ⟨v, hs, us, rfl, hv, h1, h2, h3, h4⟩
    exact ⟨[v], hs ++ py!"." ++ us, by simp, ⟨v, rfl, by simpa using hv⟩, hs, py!"." ++ us, by simp, ⟨h1, h2⟩, [46], us, rfl, rfl, h3, h4⟩

/-! ## authority -/

theorem enc_digits {P : Nat → Prop} (hP : ∀ c, IsNum c → P c) (n : Nat) : Enc P (Py.natStr n) := by
  have : ∀ f n, Enc P (Py.natStrF f n) := by
    intro f
    induction f with
    | zero => intro n; exact .nil
    | succ f ih =>
      intro n
      rw [Py.natStrF]
      split
      · exact .char (hP _ ⟨by omega, by omega⟩) .nil
      · exact enc_append (ih _) (.char (hP _ ⟨by omega, by omega⟩) .nil)
  exact this _ _

theorem ipv4_reg {t : Str} (h : Ipv4 t) : Enc RegChar t := by
  obtain ⟨a, b, c, d, _, _, _, _, rfl⟩ := h
  have hn : ∀ c, IsNum c → RegChar c := fun c h => Or.inl (Or.inl (Or.inr h))
  have hd : Enc RegChar py!"." := .char (Or.inl (Or.inr (Or.inl (by decide)))) .nil
  simp only [Py.join]
  exact enc_append (enc_append (enc_digits hn a) hd) (enc_append (enc_append (enc_digits hn b) hd)
    (enc_append (enc_append (enc_digits hn c) hd) (enc_digits hn d)))

theorem m_host (t : Str) : Matches rHost t ↔ HostText CodeGroups t := by
  rw [rHost]
  simp only [alts, matches_alt, m_ipv4, m_enc m_reg]
  have h : Matches rLiteral t ↔ ∃ ip, t = py!"[" ++ ip ++ py!"]" ∧ (Ipv6 CodeGroups ip ∨ IpvFuture ip) := by
    rw [rLiteral]
    simp only [matches_seqs_cons, matches_seqs_one, matches_lit, alts, matches_alt, m_ipv6, m_future]
    constructor
    · rintro ⟨_, _, rfl, rfl, ip, _, rfl, h, rfl⟩; exact ⟨ip, rfl, h⟩
    · rintro ⟨ip, rfl, h⟩; exact ⟨_, _, by rw [List.append_assoc], rfl, ip, _, rfl, h, rfl⟩
  rw [h, HostText]
  constructor
  · rintro (h | h | h)
    · exact Or.inr h
    · exact Or.inl (ipv4_reg h)
    · exact Or.inl h
  · rintro (h | h)
    · exact Or.inr (Or.inr h)
    · exact Or.inl h

theorem m_userAt (t : Str) : Matches (opt rUserAt) t ↔
    t = [] ∨ ∃ u, t = u ++ py!"@" ∧ Enc (fun c => RegChar c ∨ c = 58) u := by
  rw [matches_opt, rUserAt, matches_seqs_cons]
  simp only [matches_seqs_one, matches_lit, m_enc m_user]
  apply or_congr Iff.rfl
  constructor
  · rintro ⟨u, _, rfl, h, rfl⟩; exact ⟨u, rfl, h⟩
  · rintro ⟨u, rfl, h⟩; exact ⟨u, _, rfl, h, rfl⟩

theorem m_port (t : Str) : Matches (opt rPort) t ↔ t = [] ∨ ∃ ds, t = 58 :: ds ∧ ∀ d ∈ ds, IsNum d := by
  rw [matches_opt, rPort, matches_seqs_cons]
  simp only [matches_seqs_one, matches_lit, rNum, matches_star_cls]
  have hn : ∀ c, inCls false [(48, 57)] c = true ↔ IsNum c := by simp [inCls, IsNum]
  simp only [hn]
  apply or_congr Iff.rfl
  constructor
  · rintro ⟨_, ds, rfl, rfl, h⟩; exact ⟨ds, rfl, h⟩
  · rintro ⟨ds, rfl, h⟩; exact ⟨_, ds, rfl, rfl, h⟩

end Verif.DataTypes.Uri
