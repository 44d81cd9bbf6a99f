import Verif.Regex

namespace Verif.Re
open Verif

theorem matches_empty (s : Str) : ¬ Matches .empty s := by intro h; cases h

theorem matches_eps (s : Str) : Matches .eps s ↔ s = [] :=
  ⟨fun h => by cases h; rfl, fun h => h ▸ .eps⟩

theorem matches_cls (neg : Bool) (rs : List (Nat × Nat)) (s : Str) :
    Matches (.cls neg rs) s ↔ ∃ c, s = [c] ∧ inCls neg rs c = true :=
  ⟨fun h => by cases h with | cls h => exact ⟨_, rfl, h⟩, fun ⟨_, e, h⟩ => e ▸ .cls h⟩

theorem matches_seq (a b : Re) (s : Str) :
    Matches (.seq a b) s ↔ ∃ u v, s = u ++ v ∧ Matches a u ∧ Matches b v :=
  ⟨fun h => by cases h with | seq h1 h2 => exact ⟨_, _, rfl, h1, h2⟩, fun ⟨_, _, e, h1, h2⟩ => e ▸ .seq h1 h2⟩

theorem matches_alt (a b : Re) (s : Str) : Matches (.alt a b) s ↔ Matches a s ∨ Matches b s :=
  ⟨fun h => by
    cases h with
    | altL h => exact Or.inl h
    | altR h => exact Or.inr h, fun h => h.elim .altL .altR⟩

theorem matches_opt (a : Re) (s : Str) : Matches (opt a) s ↔ s = [] ∨ Matches a s := by
  rw [opt, matches_alt, matches_eps]

theorem matches_lit (c : Nat) (s : Str) : Matches (lit c) s ↔ s = [c] := by
  rw [lit, matches_cls]
  constructor
  · rintro ⟨d, rfl, h⟩
    simp [inCls] at h
    have : d = c := by omega
    rw [this]
  · rintro rfl; exact ⟨c, rfl, by simp [inCls]⟩

/-- star as a list of pieces; the pieces may be chosen non-empty -/
theorem matches_star (a : Re) (s : Str) :
    Matches (.star a) s ↔ ∃ ts : List Str, s = ts.flatten ∧ ∀ t ∈ ts, Matches a t := by
  constructor
  · intro h
    generalize hr : Re.star a = r at h
    induction h with
    | starNil => exact ⟨[], rfl, by simp⟩
    | starCons h1 h2 _ ih2 =>
      injection hr with hr
      subst hr
      obtain ⟨ts, e, h⟩ := ih2 rfl
      exact ⟨_ :: ts, by rw [e]; rfl, by
        intro t ht
        rcases List.mem_cons.mp ht with rfl | ht
        · exact h1
        · exact h t ht⟩
    | _ => cases hr
  · rintro ⟨ts, rfl, h⟩
    induction ts with
    | nil => exact .starNil
    | cons t ts ih =>
      exact .starCons (h t List.mem_cons_self) (ih fun t ht => h t (List.mem_cons_of_mem _ ht))

theorem matches_star_ne (a : Re) (s : Str) :
    Matches (.star a) s ↔ ∃ ts : List Str, s = ts.flatten ∧ ∀ t ∈ ts, Matches a t ∧ t ≠ [] := by
  rw [matches_star]
  constructor
  · rintro ⟨ts, rfl, h⟩
    refine ⟨ts.filter (fun t => !t.isEmpty), ?_, ?_⟩
    · clear h
      induction ts with
      | nil => rfl
      | cons t ts ih => cases t <;> simp [ih]
    · intro t ht
      rw [List.mem_filter] at ht
      exact ⟨h t ht.1, by cases t <;> simp_all⟩
  · rintro ⟨ts, e, h⟩
    exact ⟨ts, e, fun t ht => (h t ht).1⟩

theorem matches_pow (a : Re) (n : Nat) (s : Str) :
    Matches (pow a n) s ↔ ∃ ts : List Str, ts.length = n ∧ s = ts.flatten ∧ ∀ t ∈ ts, Matches a t := by
  induction n generalizing s with
  | zero =>
    rw [pow, matches_eps]
    constructor
    · rintro rfl; exact ⟨[], rfl, rfl, by simp⟩
    · rintro ⟨ts, hl, rfl, _⟩
      rw [List.eq_nil_of_length_eq_zero hl]; rfl
  | succ n ih =>
    rw [pow, matches_seq]
    constructor
    · rintro ⟨u, v, rfl, h1, h2⟩
      obtain ⟨ts, hl, rfl, h⟩ := (ih v).mp h2
      exact ⟨u :: ts, by simp [hl], by simp, by
        intro t ht
        rcases List.mem_cons.mp ht with rfl | ht
        · exact h1
        · exact h t ht⟩
    · rintro ⟨ts, hl, rfl, h⟩
      cases ts with
      | nil => simp at hl
      | cons t ts =>
        exact ⟨t, ts.flatten, by simp, h t List.mem_cons_self,
          (ih _).mpr ⟨ts, by simpa using hl, rfl, fun t ht => h t (List.mem_cons_of_mem _ ht)⟩⟩

theorem matches_upTo (a : Re) (n : Nat) (s : Str) :
    Matches (upTo a n) s ↔ ∃ ts : List Str, ts.length ≤ n ∧ s = ts.flatten ∧ ∀ t ∈ ts, Matches a t := by
  induction n generalizing s with
  | zero =>
    rw [upTo, matches_eps]
    constructor
    · rintro rfl; exact ⟨[], by simp, rfl, by simp⟩
    · rintro ⟨ts, hl, rfl, _⟩
      have : ts = [] := List.eq_nil_of_length_eq_zero (by omega)
      rw [this]; rfl
  | succ n ih =>
    rw [upTo, matches_alt, matches_eps, matches_seq]
    constructor
    · rintro (rfl | ⟨u, v, rfl, h1, h2⟩)
      · exact ⟨[], by simp, rfl, by simp⟩
      · obtain ⟨ts, hl, rfl, h⟩ := (ih v).mp h2
        exact ⟨u :: ts, by simp [hl], by simp, by
          intro t ht
          rcases List.mem_cons.mp ht with rfl | ht
          · exact h1
          · exact h t ht⟩
    · rintro ⟨ts, hl, rfl, h⟩
      cases ts with
      | nil => exact Or.inl rfl
      | cons t ts =>
        exact Or.inr ⟨t, ts.flatten, by simp, h t List.mem_cons_self,
          (ih _).mpr ⟨ts, by simpa using hl, rfl, fun t ht => h t (List.mem_cons_of_mem _ ht)⟩⟩

theorem matches_plus (a : Re) (s : Str) :
    Matches (plus a) s ↔ ∃ ts : List Str, ts ≠ [] ∧ s = ts.flatten ∧ ∀ t ∈ ts, Matches a t := by
  rw [plus, matches_seq]
  constructor
  · rintro ⟨u, v, rfl, h1, h2⟩
    obtain ⟨ts, rfl, h⟩ := (matches_star a v).mp h2
    exact ⟨u :: ts, by simp, by simp, by
      intro t ht
      rcases List.mem_cons.mp ht with rfl | ht
      · exact h1
      · exact h t ht⟩
  · rintro ⟨ts, hne, rfl, h⟩
    cases ts with
    | nil => exact absurd rfl hne
    | cons t ts =>
      exact ⟨t, ts.flatten, by simp, h t List.mem_cons_self,
        (matches_star _ _).mpr ⟨ts, rfl, fun t ht => h t (List.mem_cons_of_mem _ ht)⟩⟩

/-! ## repetitions of a character class -/

theorem flatten_single (p : Nat → Prop) (ts : List Str) (h : ∀ t ∈ ts, ∃ c, t = [c] ∧ p c) :
    (∀ c ∈ ts.flatten, p c) ∧ ts.flatten.length = ts.length := by
  induction ts with
  | nil => simp
  | cons t ts ih =>
    obtain ⟨c, rfl, hc⟩ := h t List.mem_cons_self
    have := ih fun t ht => h t (List.mem_cons_of_mem _ ht)
    constructor
    · intro d hd
      simp at hd
      rcases hd with rfl | ⟨l, hl, hd⟩
      · exact hc
      · exact this.1 d (List.mem_flatten.mpr ⟨l, hl, hd⟩)
    · simp at this ⊢; omega

theorem singles_flatten (s : Str) : (s.map fun c => [c]).flatten = s := by
  induction s with
  | nil => rfl
  | cons c s ih => simp [ih]

theorem matches_star_cls (neg : Bool) (rs : List (Nat × Nat)) (s : Str) :
    Matches (.star (.cls neg rs)) s ↔ ∀ c ∈ s, inCls neg rs c = true := by
  rw [matches_star]
  simp only [matches_cls]
  constructor
  · rintro ⟨ts, rfl, h⟩
    exact (flatten_single _ ts h).1
  · intro h
    refine ⟨s.map fun c => [c], (singles_flatten s).symm, ?_⟩
    intro t ht
    obtain ⟨c, hc, rfl⟩ := List.mem_map.mp ht
    exact ⟨c, rfl, h c hc⟩

theorem matches_plus_cls (neg : Bool) (rs : List (Nat × Nat)) (s : Str) :
    Matches (plus (.cls neg rs)) s ↔ s ≠ [] ∧ ∀ c ∈ s, inCls neg rs c = true := by
  rw [plus, matches_seq]
  simp only [matches_cls, matches_star_cls]
  constructor
  · rintro ⟨u, v, rfl, ⟨c, rfl, h1⟩, h2⟩
    refine ⟨by simp, ?_⟩
    intro d hd
    rcases List.mem_cons.mp hd with rfl | hd
    · exact h1
    · exact h2 d hd
  · rintro ⟨hne, h⟩
    cases s with
    | nil => exact absurd rfl hne
    | cons c s =>
      exact ⟨[c], s, rfl, ⟨c, rfl, h c List.mem_cons_self⟩, fun d hd => h d (List.mem_cons_of_mem _ hd)⟩

theorem matches_pow_cls (neg : Bool) (rs : List (Nat × Nat)) (n : Nat) (s : Str) :
    Matches (pow (.cls neg rs) n) s ↔ s.length = n ∧ ∀ c ∈ s, inCls neg rs c = true := by
  rw [matches_pow]
  simp only [matches_cls]
  constructor
  · rintro ⟨ts, hl, rfl, h⟩
    have := flatten_single _ ts h
    exact ⟨by rw [this.2, hl], this.1⟩
  · rintro ⟨hl, h⟩
    refine ⟨s.map fun c => [c], by simp [hl], (singles_flatten s).symm, ?_⟩
    intro t ht
    obtain ⟨c, hc, rfl⟩ := List.mem_map.mp ht
    exact ⟨c, rfl, h c hc⟩

theorem matches_upTo_cls (neg : Bool) (rs : List (Nat × Nat)) (n : Nat) (s : Str) :
    Matches (upTo (.cls neg rs) n) s ↔ s.length ≤ n ∧ ∀ c ∈ s, inCls neg rs c = true := by
  rw [matches_upTo]
  simp only [matches_cls]
  constructor
  · rintro ⟨ts, hl, rfl, h⟩
    have := flatten_single _ ts h
    exact ⟨by rw [this.2]; exact hl, this.1⟩
  · rintro ⟨hl, h⟩
    refine ⟨s.map fun c => [c], by simp [hl], (singles_flatten s).symm, ?_⟩
    intro t ht
    obtain ⟨c, hc, rfl⟩ := List.mem_map.mp ht
    exact ⟨c, rfl, h c hc⟩

/-- `{m,n}` on a class -/
theorem matches_rep_cls (neg : Bool) (rs : List (Nat × Nat)) (m k : Nat) (s : Str) :
    Matches (.seq (pow (.cls neg rs) m) (upTo (.cls neg rs) k)) s ↔
      (m ≤ s.length ∧ s.length ≤ m + k) ∧ ∀ c ∈ s, inCls neg rs c = true := by
  rw [matches_seq]
  simp only [matches_pow_cls, matches_upTo_cls]
  constructor
  · rintro ⟨u, v, rfl, ⟨h1, h2⟩, h3, h4⟩
    refine ⟨by simp; omega, ?_⟩
    intro c hc
    rcases List.mem_append.mp hc with hc | hc
    · exact h2 c hc
    · exact h4 c hc
  · rintro ⟨⟨h1, h2⟩, h⟩
    refine ⟨s.take m, s.drop m, (List.take_append_drop m s).symm, ⟨by simp; omega, fun c hc => h c (List.mem_of_mem_take hc)⟩,
      by simp; omega, fun c hc => h c (List.mem_of_mem_drop hc)⟩

/-- `{m,}` on a class -/
theorem matches_atLeast_cls (neg : Bool) (rs : List (Nat × Nat)) (m : Nat) (s : Str) :
    Matches (.seq (pow (.cls neg rs) m) (.star (.cls neg rs))) s ↔
      m ≤ s.length ∧ ∀ c ∈ s, inCls neg rs c = true := by
  rw [matches_seq]
  simp only [matches_pow_cls, matches_star_cls]
  constructor
  · rintro ⟨u, v, rfl, ⟨h1, h2⟩, h4⟩
    refine ⟨by simp; omega, ?_⟩
    intro c hc
    rcases List.mem_append.mp hc with hc | hc
    · exact h2 c hc
    · exact h4 c hc
  · rintro ⟨h1, h⟩
    refine ⟨s.take m, s.drop m, (List.take_append_drop m s).symm, ⟨by simp; omega, fun c hc => h c (List.mem_of_mem_take hc)⟩,
      fun c hc => h c (List.mem_of_mem_drop hc)⟩

theorem matches_seqs_nil (s : Str) : Matches (seqs []) s ↔ s = [] := matches_eps s
theorem matches_seqs_one (r : Re) (s : Str) : Matches (seqs [r]) s ↔ Matches r s := Iff.rfl
theorem matches_seqs_cons (r q : Re) (rs : List Re) (s : Str) :
    Matches (seqs (r :: q :: rs)) s ↔ ∃ u v, s = u ++ v ∧ Matches r u ∧ Matches (seqs (q :: rs)) v :=
  matches_seq _ _ _

theorem matches_seqs_append (as bs : List Re) (s : Str) :
    Matches (seqs (as ++ bs)) s ↔ ∃ u v, s = u ++ v ∧ Matches (seqs as) u ∧ Matches (seqs bs) v := by
  induction as generalizing s with
  | nil =>
    simp only [List.nil_append, matches_seqs_nil]
    constructor
    · intro h; exact ⟨[], s, rfl, rfl, h⟩
    · rintro ⟨_, v, rfl, rfl, h⟩; exact h
  | cons a as ih =>
    cases as with
    | nil =>
      cases bs with
      | nil =>
        simp only [List.cons_append, List.nil_append, matches_seqs_nil, matches_seqs_one]
        constructor
        · intro h; exact ⟨s, [], by simp, h, rfl⟩
        · rintro ⟨u, _, rfl, h, rfl⟩; simpa using h
      | cons b bs => exact matches_seqs_cons a b bs s
    | cons a' as =>
      simp only [List.cons_append] at ih ⊢
      rw [matches_seqs_cons]
      constructor
      · rintro ⟨u, v, rfl, h1, h2⟩
        obtain ⟨w, x, rfl, h3, h4⟩ := (ih v).mp h2
        exact ⟨u ++ w, x, by simp, .seq h1 h3, h4⟩
      · rintro ⟨w, x, rfl, h1, h2⟩
        obtain ⟨u, v, rfl, h3, h4⟩ := (matches_seqs_cons _ _ _ _).mp h1
        exact ⟨u, v ++ x, by simp, h3, (ih _).mpr ⟨v, x, rfl, h4, h2⟩⟩

theorem matches_alts (rs : List Re) (s : Str) : Matches (alts rs) s ↔ ∃ r ∈ rs, Matches r s := by
  induction rs with
  | nil => simp [alts, matches_empty]
  | cons r rs ih =>
    cases rs with
    | nil => simp [alts]
    | cons q qs =>
      rw [alts, matches_alt, ih]
      · simp
      · simp

/-- a literal text -/
def text (t : Str) : Re := seqs (t.map lit)

theorem matches_text (t s : Str) : Matches (text t) s ↔ s = t := by
  induction t generalizing s with
  | nil => exact matches_eps s
  | cons c t ih =>
    cases t with
    | nil => exact matches_lit c s
    | cons d t =>
      show Matches (.seq (lit c) (text (d :: t))) s ↔ _
      rw [matches_seq]
      constructor
      · rintro ⟨u, v, rfl, h1, h2⟩
        rw [(matches_lit _ _).mp h1, (ih v).mp h2]; rfl
      · rintro rfl
        exact ⟨[c], d :: t, rfl, (matches_lit _ _).mpr rfl, (ih _).mpr rfl⟩

/-! ## correctness of the matcher -/

theorem nullable_iff (r : Re) : r.nullable = true ↔ Matches r [] := by
  induction r with
  | empty => simp [nullable, matches_empty]
  | eps => simp [nullable, matches_eps]
  | cls neg rs => simp [nullable, matches_cls]
  | seq a b iha ihb =>
    rw [nullable, Bool.and_eq_true, iha, ihb, matches_seq]
    constructor
    · rintro ⟨h1, h2⟩; exact ⟨[], [], rfl, h1, h2⟩
    · rintro ⟨u, v, e, h1, h2⟩
      obtain ⟨rfl, rfl⟩ := List.append_eq_nil_iff.mp e.symm
      exact ⟨h1, h2⟩
  | alt a b iha ihb => rw [nullable, Bool.or_eq_true, iha, ihb, matches_alt]
  | star a => simp [nullable]; exact .starNil

theorem matches_mkSeq (a b : Re) (s : Str) : Matches (mkSeq a b) s ↔ Matches (.seq a b) s := by
  unfold mkSeq
  split
  · rw [matches_seq]
    constructor
    · intro h; cases h
    · rintro ⟨_, _, _, h, _⟩; cases h
  · rw [matches_seq]
    constructor
    · intro h; exact ⟨[], s, rfl, .eps, h⟩
    · rintro ⟨u, v, rfl, h1, h2⟩
      rw [(matches_eps u).mp h1]; exact h2
  · rfl

theorem matches_mkAlt (a b : Re) (s : Str) : Matches (mkAlt a b) s ↔ Matches (.alt a b) s := by
  unfold mkAlt
  split
  · rw [matches_alt]; simp [matches_empty]
  · rw [matches_alt]; simp [matches_empty]
  · rfl

theorem deriv_iff (c : Nat) (r : Re) (s : Str) : Matches (deriv c r) s ↔ Matches r (c :: s) := by
  induction r generalizing s with
  | empty => simp [deriv, matches_empty]
  | eps => simp [deriv, matches_empty, matches_eps]
  | cls neg rs =>
    rw [deriv, matches_cls]
    split
    · rename_i h
      rw [matches_eps]
      constructor
      · rintro rfl; exact ⟨c, rfl, h⟩
      · rintro ⟨d, e, _⟩; injection e
    · rename_i h
      constructor
      · intro h; cases h
      · rintro ⟨d, e, h'⟩
        injection e with e _
        subst e; exact absurd h' h
  | seq a b iha ihb =>
    have key : Matches (.seq a b) (c :: s) ↔
        Matches (.seq (deriv c a) b) s ∨ (Matches a [] ∧ Matches b (c :: s)) := by
      rw [matches_seq, matches_seq]
      constructor
      · rintro ⟨u, v, e, h1, h2⟩
        cases u with
        | nil => simp at e; subst e; exact Or.inr ⟨h1, h2⟩
        | cons d u =>
          injection e with e1 e2
          subst e1 e2
          exact Or.inl ⟨u, v, rfl, (iha u).mpr h1, h2⟩
      · rintro (⟨u, v, rfl, h1, h2⟩ | ⟨h1, h2⟩)
        · exact ⟨c :: u, v, rfl, (iha u).mp h1, h2⟩
        · exact ⟨[], c :: s, rfl, h1, h2⟩
    rw [deriv, key]
    split
    · rename_i h
      rw [nullable_iff] at h
      rw [matches_mkAlt, matches_alt, matches_mkSeq, ihb]
      simp [h]
    · rename_i h
      rw [nullable_iff] at h
      rw [matches_mkSeq]
      simp [h]
  | alt a b iha ihb => rw [deriv, matches_mkAlt, matches_alt, matches_alt, iha, ihb]
  | star a ih =>
    rw [deriv, matches_mkSeq, matches_seq]
    constructor
    · rintro ⟨u, v, rfl, h1, h2⟩
      exact .starCons (s := c :: u) ((ih u).mp h1) h2
    · intro h
      obtain ⟨ts, e, hts⟩ := (matches_star_ne a _).mp h
      cases ts with
      | nil => cases e
      | cons t ts =>
        have ht := hts t List.mem_cons_self
        cases t with
        | nil => exact absurd rfl ht.2
        | cons d t =>
          injection e with e1 e2
          subst e1 e2
          exact ⟨t, ts.flatten, rfl, (ih t).mpr ht.1, (matches_star _ _).mpr
            ⟨ts, rfl, fun t ht => (hts t (List.mem_cons_of_mem _ ht)).1⟩⟩

theorem test_iff (r : Re) (s : Str) : r.test s = true ↔ Matches r s := by
  induction s generalizing r with
  | nil => exact nullable_iff r
  | cons c s ih => rw [test, ih, deriv_iff]

theorem fullmatch_iff (r : Re) (s : Str) : fullmatch r s = true ↔ Matches r s := test_iff r s

/-- `$` accepts one final line feed -/
theorem anchoredMatch_iff (r : Re) (s : Str) :
    anchoredMatch r s = true ↔ Matches r s ∨ ∃ t, s = t ++ [10] ∧ Matches r t := by
  rw [anchoredMatch, Bool.or_eq_true, Bool.and_eq_true, test_iff, test_iff, beq_iff_eq]
  apply or_congr Iff.rfl
  constructor
  · rintro ⟨h1, h2⟩
    refine ⟨s.dropLast, ?_, h2⟩
    obtain ⟨hne, hl⟩ : ∃ h : s ≠ [], s.getLast h = 10 := by
      cases s with
      | nil => simp at h1
      | cons c s =>
        refine ⟨by simp, ?_⟩
        rw [List.getLast?_eq_some_getLast (by simp)] at h1
        injection h1
    rw [← hl, List.dropLast_concat_getLast]
  · rintro ⟨t, rfl, h⟩
    simpa using h

end Verif.Re
