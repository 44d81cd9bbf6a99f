import Verif.Config
import Verif.Spec.Config

/-! # Helper lemmas about filters and glob patterns -/

namespace Verif.Config
open Verif Spec

/-! ## matching of token lists -/

/-- declarative matching of token lists -/
def GlobT : List Tok → Str → Prop
  | [], s => s = []
  | .star :: ts, s => ∃ a b, s = a ++ b ∧ GlobT ts b
  | t :: ts, s => ∃ c s', s = c :: s' ∧ t.test c = true ∧ GlobT ts s'

theorem globT_cons {t : Tok} (h : t ≠ .star) (ts : List Tok) (s : Str) :
    GlobT (t :: ts) s ↔ ∃ c s', s = c :: s' ∧ t.test c = true ∧ GlobT ts s' := by
  cases t <;> first | exact absurd rfl h | rfl

theorem globT_fixed {fixed : List Tok} (h : ∀ t ∈ fixed, t ≠ .star) (rest : List Tok) (s : Str) :
    GlobT (fixed ++ rest) s ↔ ∃ s', matchFixed fixed s = some s' ∧ GlobT rest s' := by
  induction fixed generalizing s with
  | nil => simp [matchFixed]
  | cons t ts ih =>
    rw [List.cons_append, globT_cons (h t List.mem_cons_self)]
    have ih' := ih (fun x hx => h x (List.mem_cons_of_mem _ hx))
    cases s with
    | nil => simp [matchFixed]
    | cons c s =>
      simp only [matchFixed]
      constructor
      · rintro ⟨c', s', e, ht, hg⟩
        injection e with e1 e2
        subst e1 e2
        rw [if_pos ht]
        exact (ih' s).mp hg
      · rintro ⟨s', hm, hg⟩
        split at hm
        · rename_i ht
          exact ⟨c, s, rfl, ht, (ih' s).mpr ⟨s', hm, hg⟩⟩
        · cases hm

theorem matchFixed_suffix {fixed : List Tok} {s r : Str} (h : matchFixed fixed s = some r) :
    ∃ m, s = m ++ r := by
  induction fixed generalizing s with
  | nil => simp [matchFixed] at h; exact ⟨[], by simp [h]⟩
  | cons t ts ih =>
    cases s with
    | nil => simp [matchFixed] at h
    | cons c s =>
      simp only [matchFixed] at h
      split at h
      · obtain ⟨m, hm⟩ := ih h
        exact ⟨c :: m, by simp [hm]⟩
      · cases h

/-- leftmost match: every match ends not before the first one -/
theorem firstFixed_spec (fixed : List Tok) (s : Str) :
    (∀ r, firstFixed fixed s = some r → ∃ a b, s = a ++ b ∧ matchFixed fixed b = some r) ∧
    (∀ a b r, s = a ++ b → matchFixed fixed b = some r →
      ∃ r' m, firstFixed fixed s = some r' ∧ r' = m ++ r) := by
  induction s with
  | nil =>
    constructor
    · intro r h; exact ⟨[], [], rfl, h⟩
    · intro a b r e h
      have : a = [] ∧ b = [] := by simpa using e.symm
      rw [this.2] at h
      exact ⟨r, [], h, rfl⟩
  | cons c s ih =>
    constructor
    · intro r h
      simp only [firstFixed] at h
      split at h
      · rename_i r' hr
        injection h with h
        subst h
        exact ⟨[], c :: s, rfl, hr⟩
      · obtain ⟨a, b, e, hm⟩ := ih.1 r h
        exact ⟨c :: a, b, by simp [e], hm⟩
    · intro a b r e h
      simp only [firstFixed]
      cases hm : matchFixed fixed (c :: s) with
      | none =>
        simp only
        cases a with
        | nil => simp at e; rw [← e, hm] at h; cases h
        | cons x a =>
          simp at e
          exact ih.2 a b r e.2 h
      | some r0 =>
        refine ⟨r0, ?_⟩
        simp only [true_and]
        -- both remainders are suffixes with lengths determined by `fixed`
        have hlen : ∀ (f : List Tok) (s r : Str), matchFixed f s = some r → s.length = f.length + r.length := by
          intro f
          induction f with
          | nil => intro s r h; simp [matchFixed] at h; simp [h]
          | cons t ts ih =>
            intro s r h
            cases s with
            | nil => simp [matchFixed] at h
            | cons c s =>
              simp only [matchFixed] at h
              split at h
              · have := ih _ _ h; simp; omega
              · cases h
        obtain ⟨m1, e1⟩ := matchFixed_suffix hm
        obtain ⟨m2, e2⟩ := matchFixed_suffix h
        have l1 := hlen _ _ _ hm
        have l2 := hlen _ _ _ h
        have e3 : m1 ++ r0 = (a ++ m2) ++ r := by rw [← e1, e, e2]; simp
        have hl : m1.length ≤ (a ++ m2).length := by
          have := congrArg List.length e3
          simp at this
          have h4 := congrArg List.length e
          simp at h4 l1
          simp
          omega
        rw [List.append_eq_append_iff] at e3
        rcases e3 with ⟨x, h5, h6⟩ | ⟨x, h5, h6⟩
        · exact ⟨x, h6⟩
        · have : x = [] := by
            have := congrArg List.length h5
            simp at this hl
            exact List.eq_nil_of_length_eq_zero (by omega)
          subst this
          simp at h6
          exact ⟨[], by simp [h6]⟩

theorem lastFixed_spec (fixed : List Tok) (s : Str) :
    lastFixed fixed s = true ↔ ∃ a b, s = a ++ b ∧ matchFixed fixed b = some [] := by
  induction s with
  | nil =>
    simp only [lastFixed, beq_iff_eq]
    constructor
    · intro h; exact ⟨[], [], rfl, h⟩
    · rintro ⟨a, b, e, h⟩
      have : a = [] ∧ b = [] := by simpa using e.symm
      rw [this.2] at h
      exact h
  | cons c s ih =>
    simp only [lastFixed, Bool.or_eq_true, beq_iff_eq, ih]
    constructor
    · rintro (h | ⟨a, b, e, h⟩)
      · exact ⟨[], c :: s, rfl, h⟩
      · exact ⟨c :: a, b, by simp [e], h⟩
    · rintro ⟨a, b, e, h⟩
      cases a with
      | nil => simp at e; rw [← e] at h; exact Or.inl h
      | cons x a => simp at e; exact Or.inr ⟨a, b, e.2, h⟩

theorem takeWhile_ne_star (ts : List Tok) : ∀ t ∈ ts.takeWhile (· ≠ .star), t ≠ .star := by
  induction ts with
  | nil => intro t ht; cases ht
  | cons x xs ih =>
    intro t ht
    rw [List.takeWhile_cons] at ht
    split at ht
    · rename_i hx
      rcases List.mem_cons.mp ht with h | h
      · rw [h]; simpa using hx
      · exact ih t h
    · cases ht

theorem dropWhile_star (ts : List Tok) : ts.dropWhile (· ≠ .star) = [] ∨
    ∃ rest, ts.dropWhile (· ≠ .star) = .star :: rest := by
  induction ts with
  | nil => exact Or.inl rfl
  | cons t ts ih =>
    by_cases h : t = .star
    · subst h; right; exact ⟨ts, by simp [List.dropWhile]⟩
    · simpa [List.dropWhile, h] using ih

theorem matchStars_spec : ∀ (n : Nat) (ts : List Tok) (s : Str), ts.length < n →
    (matchStars n ts s = true ↔ GlobT (.star :: ts) s) := by
  intro n
  induction n with
  | zero => intro ts s h; omega
  | succ n ih =>
    intro ts s hlen
    have hsplit : ts = ts.takeWhile (· ≠ .star) ++ ts.dropWhile (· ≠ .star) :=
      (List.takeWhile_append_dropWhile).symm
    have hfix := takeWhile_ne_star ts
    simp only [matchStars]
    rcases dropWhile_star ts with hd | ⟨rest, hd⟩
    · rw [hd]
      simp only
      rw [lastFixed_spec]
      simp only [GlobT]
      rw [hd, List.append_nil] at hsplit
      constructor
      · rintro ⟨a, b, e, h⟩
        refine ⟨a, b, e, ?_⟩
        rw [hsplit, ← List.append_nil (ts.takeWhile _)]
        exact (globT_fixed hfix [] b).mpr ⟨[], h, rfl⟩
      · rintro ⟨a, b, e, h⟩
        rw [hsplit, ← List.append_nil (ts.takeWhile _)] at h
        obtain ⟨s', h1, h2⟩ := (globT_fixed hfix [] b).mp h
        simp [GlobT] at h2
        subst h2
        exact ⟨a, b, e, h1⟩
    · rw [hd]
      simp only
      have hrest : rest.length < n := by
        have := congrArg List.length hsplit
        rw [hd] at this
        simp at this
        omega
      have hspec := firstFixed_spec (ts.takeWhile (· ≠ .star)) s
      rw [hd] at hsplit
      have hglob : GlobT (.star :: ts) s ↔ ∃ a b r, s = a ++ b ∧
          matchFixed (ts.takeWhile (· ≠ .star)) b = some r ∧ GlobT (.star :: rest) r := by
        constructor
        · rintro ⟨a, b, e, h⟩
          rw [hsplit] at h
          obtain ⟨r, h1, h2⟩ := (globT_fixed hfix _ b).mp h
          exact ⟨a, b, r, e, h1, h2⟩
        · rintro ⟨a, b, r, e, h1, h2⟩
          refine ⟨a, b, e, ?_⟩
          rw [hsplit]
          exact (globT_fixed hfix _ b).mpr ⟨r, h1, h2⟩
      rw [hglob]
      cases hf : firstFixed (ts.takeWhile (· ≠ .star)) s with
      | none =>
        simp only [Bool.false_eq_true, false_iff]
        rintro ⟨a, b, r, e, h1, _⟩
        obtain ⟨r', m, h3, _⟩ := hspec.2 a b r e h1
        rw [hf] at h3
        cases h3
      | some r0 =>
        simp only
        rw [ih rest r0 hrest]
        constructor
        · intro h
          obtain ⟨a, b, e, h1⟩ := hspec.1 r0 hf
          exact ⟨a, b, r0, e, h1, h⟩
        · rintro ⟨a, b, r, e, h1, h2⟩
          obtain ⟨r', m, h3, h4⟩ := hspec.2 a b r e h1
          rw [hf] at h3
          injection h3 with h3
          obtain ⟨x, y, h5, h6⟩ := h2
          exact ⟨m ++ x, y, by rw [h3, h4, h5]; simp, h6⟩

theorem matchToks_spec (ts : List Tok) (s : Str) : matchToks ts s = true ↔ GlobT ts s := by
  have hsplit : ts = ts.takeWhile (· ≠ .star) ++ ts.dropWhile (· ≠ .star) :=
    (List.takeWhile_append_dropWhile).symm
  have hfix := takeWhile_ne_star ts
  have key := globT_fixed hfix (ts.dropWhile (· ≠ .star)) s
  rw [← hsplit] at key
  rw [key]
  simp only [matchToks]
  cases hm : matchFixed (ts.takeWhile (· ≠ .star)) s with
  | none => simp
  | some s' =>
    simp only [Option.some.injEq, exists_eq_left']
    rcases dropWhile_star ts with hd | ⟨rest, hd⟩
    · rw [hd]; simp [GlobT]
    · rw [hd]
      simp only
      exact matchStars_spec _ _ _ (Nat.lt_succ_self _)

theorem globT_star_star (ts : List Tok) (s : Str) :
    GlobT (.star :: .star :: ts) s ↔ GlobT (.star :: ts) s := by
  constructor
  · rintro ⟨a, b, e, c, d, e2, h⟩
    exact ⟨a ++ c, d, by rw [e, e2]; simp, h⟩
  · rintro ⟨a, b, e, h⟩
    exact ⟨a, b, e, [], b, rfl, h⟩

theorem compress_spec (ts : List Tok) : ∀ s, GlobT (compress ts) s ↔ GlobT ts s := by
  induction ts with
  | nil => intro s; rfl
  | cons t ts ih =>
    intro s
    by_cases ht : t = .star
    · subst ht
      have h1 : GlobT (.star :: compress ts) s ↔ GlobT (.star :: ts) s := by
        constructor
        · rintro ⟨a, b, e, h⟩; exact ⟨a, b, e, (ih b).mp h⟩
        · rintro ⟨a, b, e, h⟩; exact ⟨a, b, e, (ih b).mpr h⟩
      rw [← h1]
      simp only [compress]
      split
      · rename_i us hus
        rw [hus, globT_star_star]
      · rfl
    · have : compress (t :: ts) = t :: compress ts := by
        cases t <;> first | exact absurd rfl ht | rfl
      rw [this, globT_cons ht, globT_cons ht]
      constructor
      · rintro ⟨c, s', e, h1, h2⟩; exact ⟨c, s', e, h1, (ih s').mp h2⟩
      · rintro ⟨c, s', e, h1, h2⟩; exact ⟨c, s', e, h1, (ih s').mpr h2⟩

/-! ## sets -/

theorem takeSet_iff (p stuff rest : Str) : takeSet p = some (stuff, rest) ↔ IsSet p stuff rest := by
  -- a decomposition lemma for the search of the closing bracket
  have search : ∀ q : Str, (q.takeWhile (· ≠ pc! ']')).length < q.length →
      ∃ t r, q = t ++ pc! ']' :: r ∧ pc! ']' ∉ t ∧ (q.takeWhile (· ≠ pc! ']')) = t := by
    intro q h
    induction q with
    | nil => simp at h
    | cons c q ih =>
      by_cases hc : c = pc! ']'
      · subst hc; exact ⟨[], q, rfl, by simp, by simp⟩
      · have hc' : (c ≠ pc! ']') = true := by simpa using hc
        simp only [List.takeWhile_cons, hc', decide_true, if_true, List.length_cons] at h
        obtain ⟨t, r, h1, h2, h3⟩ := ih (by omega)
        refine ⟨c :: t, r, by simp [← h1], by simp [h2, Ne.symm hc], ?_⟩
        simp [hc, ← h3]
  have stop : ∀ t r : Str, pc! ']' ∉ t → ((t ++ pc! ']' :: r).takeWhile (· ≠ pc! ']')) = t := by
    intro t r ht
    rw [List.takeWhile_append_of_pos]
    · simp
    · intro a ha
      have : a ≠ pc! ']' := fun e => ht (e ▸ ha)
      simpa using this
  constructor
  · intro h
    -- split off the optional exclamation mark
    obtain ⟨neg, q, hp, hneg⟩ : ∃ neg q, p = neg ++ q ∧
        ((neg = py!"!" ∧ p[0]? = some (pc! '!')) ∨ (neg = [] ∧ p[0]? ≠ some (pc! '!'))) := by
      cases p with
      | nil => exact ⟨[], [], rfl, Or.inr ⟨rfl, by simp⟩⟩
      | cons c p =>
        by_cases hc : c = pc! '!'
        · subst hc; exact ⟨py!"!", p, rfl, Or.inl ⟨rfl, rfl⟩⟩
        · exact ⟨[], c :: p, rfl, Or.inr ⟨rfl, by simpa using hc⟩⟩
    have hj : (if p[0]? = some (pc! '!') then 1 else 0) = neg.length := by
      rcases hneg with ⟨rfl, h1⟩ | ⟨rfl, h1⟩ <;> simp [h1]
    unfold takeSet at h
    rw [hj] at h
    have hget : p[neg.length]? = q[0]? := by
      rw [hp, List.getElem?_append_right (Nat.le_refl _)]; simp
    have hnegb : ∀ b bs, q = b :: bs → (neg = py!"!" ∨ neg = [] ∧ b ≠ pc! '!') := by
      intro b bs e
      rcases hneg with ⟨rfl, _⟩ | ⟨rfl, h1⟩
      · exact Or.inl rfl
      · refine Or.inr ⟨rfl, ?_⟩
        intro eb
        apply h1
        rw [hp, e, eb]
        rfl
    simp only [hget] at h
    by_cases hq : q[0]? = some (pc! ']')
    · -- the first character is a closing bracket
      obtain ⟨q', rfl⟩ : ∃ q', q = pc! ']' :: q' := by
        cases q with
        | nil => simp at hq
        | cons c q => simp at hq; exact ⟨q, by rw [hq]⟩
      simp only [hq, if_true] at h
      have hdrop : p.drop (neg.length + 1) = q' := by
        rw [hp, List.drop_append]
        simp
      rw [hdrop] at h
      split at h
      · cases h
      · rename_i hlt
        have hl : p.length = neg.length + 1 + q'.length := by rw [hp]; simp; omega
        obtain ⟨t, r, h1, h2, h3⟩ := search q' (by omega)
        rw [h3] at h
        injection h with h
        injection h with ha hb
        refine ⟨neg, pc! ']', t, ?_, ?_, h2, hnegb _ _ rfl⟩
        · have e1 : neg.length + 1 + t.length = (neg ++ pc! ']' :: t).length := by simp; omega
          rw [← ha, hp, h1, show neg ++ pc! ']' :: (t ++ pc! ']' :: r) = (neg ++ pc! ']' :: t) ++ pc! ']' :: r from by simp,
            e1, List.take_left']
          rfl
        · rw [← ha, ← hb, hp, h1, show neg ++ pc! ']' :: (t ++ pc! ']' :: r) = (neg ++ pc! ']' :: t) ++ pc! ']' :: r from by simp]
          have e1 : neg.length + 1 + t.length = (neg ++ pc! ']' :: t).length := by simp; omega
          rw [e1, List.take_left', List.drop_append]
          · simp
          · rfl
    · simp only [hq, if_false] at h
      have hdrop : p.drop neg.length = q := by rw [hp]; simp
      rw [hdrop] at h
      split at h
      · cases h
      · have hl : p.length = neg.length + q.length := by rw [hp]; simp
        obtain ⟨t, r, h1, h2, h3⟩ := search q (by omega)
        rw [h3] at h
        injection h with h
        injection h with ha hb
        have ht : t ≠ [] := by
          rintro rfl
          apply hq
          rw [h1]; rfl
        obtain ⟨b, bs, rfl⟩ := List.exists_cons_of_ne_nil ht
        have e0 : p = (neg ++ b :: bs) ++ pc! ']' :: r := by rw [hp, h1]; simp
        have e1 : neg.length + (b :: bs).length = (neg ++ b :: bs).length := by simp
        refine ⟨neg, b, bs, ?_, ?_, fun hm => h2 (List.mem_cons_of_mem _ hm), hnegb b _ (by rw [h1]; rfl)⟩
        · rw [← ha, e0, e1, List.take_left']
          rfl
        · rw [← ha, ← hb, e0, e1, List.take_left', List.drop_append]
          · simp
          · rfl
  · rintro ⟨neg, b, bs, rfl, rfl, hbs, hneg⟩
    have hj : (if ((neg ++ b :: bs) ++ pc! ']' :: rest)[0]? = some (pc! '!') then 1 else 0) = neg.length := by
      rcases hneg with rfl | ⟨rfl, hb⟩
      · simp
      · simp [hb]
    unfold takeSet
    rw [hj]
    have hget : ((neg ++ b :: bs) ++ pc! ']' :: rest)[neg.length]? = some b := by simp
    simp only [hget]
    by_cases hb : b = pc! ']'
    · subst hb
      simp only [if_true]
      have hdrop : ((neg ++ pc! ']' :: bs) ++ pc! ']' :: rest).drop (neg.length + 1) = bs ++ pc! ']' :: rest := by
        rw [show (neg ++ pc! ']' :: bs) ++ pc! ']' :: rest = (neg ++ [pc! ']']) ++ (bs ++ pc! ']' :: rest) from by simp]
        exact List.drop_left' (by simp)
      rw [hdrop, stop bs rest hbs]
      have hl : neg.length + 1 + bs.length = (neg ++ pc! ']' :: bs).length := by simp; omega
      rw [hl, if_neg (by simp), List.take_left' rfl]
      congr 2
      rw [List.drop_append]; simp
    · have : ¬ (some b = some (pc! ']')) := by simpa using hb
      simp only [this, if_false]
      have hdrop : ((neg ++ b :: bs) ++ pc! ']' :: rest).drop neg.length = (b :: bs) ++ pc! ']' :: rest := by simp
      rw [hdrop, stop (b :: bs) rest (by simp [hbs, Ne.symm hb])]
      have hl : neg.length + (b :: bs).length = (neg ++ b :: bs).length := by simp
      rw [hl, if_neg (by simp), List.take_left' rfl]
      congr 2
      rw [List.drop_append]; simp

theorem takeSet_none (p : Str) : takeSet p = none ↔ ∀ stuff rest, ¬ IsSet p stuff rest := by
  constructor
  · intro h stuff rest hs
    rw [← takeSet_iff, h] at hs
    cases hs
  · intro h
    cases hh : takeSet p with
    | none => rfl
    | some x => exact absurd ((takeSet_iff p x.1 x.2).mp hh) (h _ _)

/-- first chunks, splitting at the first hyphen that is not at position 0 -/
def F (s : Str) : List Str := mergeEmpty (fixLast (splitChunks s.length 1 s))

theorem findDash_none {k : Nat} {s : Str} (h : findDash k s = none) : pc! '-' ∉ s.drop k := by
  unfold findDash at h
  simp only at h
  split at h
  · cases h
  · rename_i hlt
    intro hm
    by_cases hk : k < s.length
    · have h1 : (s.drop k).length ≤ ((s.drop k).takeWhile (· ≠ pc! '-')).length := by
        rw [List.length_drop]; omega
      have h2 : (s.drop k).takeWhile (· ≠ pc! '-') = s.drop k :=
        List.IsPrefix.eq_of_length_le (List.takeWhile_prefix _) h1
      have : ∀ q : Str, q.takeWhile (· ≠ pc! '-') = q → pc! '-' ∉ q := by
        intro q hq hmem
        induction q with
        | nil => cases hmem
        | cons c q ih =>
          rw [List.takeWhile_cons] at hq
          split at hq
          · rename_i hc
            injection hq with _ hq
            rcases List.mem_cons.mp hmem with h | h
            · rw [← h] at hc; simp at hc
            · exact ih hq h
          · cases hq
      exact this _ h2 hm
    · rw [List.drop_of_length_le (by omega)] at hm
      cases hm

theorem findDash_some {k : Nat} {s : Str} {i : Nat} (h : findDash k s = some i) :
    ∃ x r, s = x ++ pc! '-' :: r ∧ x.length = i ∧ k ≤ i ∧ pc! '-' ∉ x.drop k := by
  unfold findDash at h
  simp only at h
  split at h
  · rename_i hlt
    injection h with h
    have key : ∀ q : Str, (q.takeWhile (· ≠ pc! '-')).length < q.length →
        ∃ r, q = q.takeWhile (· ≠ pc! '-') ++ pc! '-' :: r ∧ pc! '-' ∉ q.takeWhile (· ≠ pc! '-') := by
      intro q hq
      induction q with
      | nil => simp at hq
      | cons c q ih =>
        rw [List.takeWhile_cons] at hq ⊢
        by_cases hc : c = pc! '-'
        · subst hc; exact ⟨q, by simp⟩
        · simp only [ne_eq, hc, not_false_eq_true, decide_true, if_true, List.length_cons] at hq ⊢
          obtain ⟨r, h1, h2⟩ := ih (by simpa using hq)
          refine ⟨r, ?_, ?_⟩
          · rw [List.cons_append]; exact congrArg _ h1
          · intro hm
            rcases List.mem_cons.mp hm with e | e
            · exact hc e.symm
            · exact h2 e
    obtain ⟨r, h1, h2⟩ := key (s.drop k) (by rw [List.length_drop]; omega)
    have hk : k ≤ s.length := by omega
    refine ⟨s.take k ++ (s.drop k).takeWhile (· ≠ pc! '-'), r, ?_, ?_, by omega, ?_⟩
    · rw [List.append_assoc, ← h1, List.take_append_drop]
    · rw [List.length_append, List.length_take]; omega
    · rw [List.drop_append, List.drop_of_length_le (by rw [List.length_take]; omega)]
      have : k - (s.take k).length = 0 := by rw [List.length_take]; omega
      rw [this]
      simpa using h2
  · cases h

/-- add a character in front of the first chunk -/
def consHead (e : Nat) : List Str → List Str
  | [] => [[e]]
  | c :: cs => (e :: c) :: cs

theorem splitChunks_ne_nil (n k : Nat) (s : Str) : splitChunks n k s ≠ [] := by
  cases n with
  | zero => simp [splitChunks]
  | succ n =>
    simp only [splitChunks]
    split <;> simp

theorem findDash_cons (e : Nat) (s : Str) : findDash 2 (e :: s) = (findDash 1 s).map (· + 1) := by
  simp only [findDash, List.drop_succ_cons, List.length_cons]
  by_cases h : 1 + (List.takeWhile (fun x => decide (x ≠ 45)) (List.drop 1 s)).length < s.length
  · rw [if_pos h, if_pos (by omega)]; simp; omega
  · rw [if_neg h, if_neg (by omega)]; rfl

theorem splitChunks_cons (n e : Nat) (s : Str) :
    splitChunks n 2 (e :: s) = consHead e (splitChunks n 1 s) := by
  cases n with
  | zero => rfl
  | succ n =>
    simp only [splitChunks, findDash_cons]
    cases findDash 1 s with
    | none => rfl
    | some i => simp [consHead]

theorem splitChunks_fuel : ∀ (n m k : Nat) (s : Str), s.length ≤ n → s.length ≤ m →
    splitChunks n k s = splitChunks m k s := by
  intro n
  induction n with
  | zero =>
    intro m k s hn hm
    have : s = [] := List.eq_nil_of_length_eq_zero (by omega)
    subst this
    cases m with
    | zero => rfl
    | succ m => simp [splitChunks, findDash]
  | succ n ih =>
    intro m k s hn hm
    cases m with
    | zero =>
      have : s = [] := List.eq_nil_of_length_eq_zero (by omega)
      subst this
      simp [splitChunks, findDash]
    | succ m =>
      simp only [splitChunks]
      cases hf : findDash k s with
      | none => rfl
      | some i =>
        obtain ⟨x, r, hs, hx, _, _⟩ := findDash_some hf
        have hl : (s.drop (i + 1)).length < s.length := by
          rw [List.length_drop]
          have := congrArg List.length hs
          simp at this
          omega
        simp only
        rw [ih m 2 _ (by omega) (by omega)]

/-- the first of several chunks is not empty -/
def Good : List Str → Prop
  | [] => False
  | [_] => True
  | c :: _ :: _ => c ≠ []

theorem good_split (n : Nat) (s : Str) : Good (splitChunks n 1 s) := by
  cases n with
  | zero => simp [splitChunks, Good]
  | succ n =>
    simp only [splitChunks]
    cases hf : findDash 1 s with
    | none => simp [Good]
    | some i =>
      obtain ⟨x, r, hs, hx, hi, _⟩ := findDash_some hf
      simp only
      obtain ⟨d, ds, hd⟩ := List.exists_cons_of_ne_nil (splitChunks_ne_nil n 2 (s.drop (i + 1)))
      rw [hd]
      simp only [Good]
      intro h0
      have := congrArg List.length h0
      rw [List.length_take, hs] at this
      simp at this
      omega

theorem good_fixLast {L : List Str} (h : Good L) : Good (fixLast L) := by
  match L, h with
  | [c], _ => exact trivial
  | [c, []], _ => exact trivial
  | [c, d :: ds], h => simp only [fixLast, Good]; exact h
  | c :: d :: e :: es, h =>
    have : fixLast (c :: d :: e :: es) = c :: fixLast (d :: e :: es) := by
      cases d <;> rfl
    rw [this]
    cases hf : fixLast (d :: e :: es) with
    | nil => exact trivial
    | cons y ys => exact h

theorem fixLast_consHead (e : Nat) {L : List Str} (h : L ≠ []) :
    fixLast (consHead e L) = consHead e (fixLast L) := by
  match L, h with
  | [c], _ => rfl
  | [c, []], _ => rfl
  | [c, d :: ds], _ => rfl
  | c :: d :: x :: es, _ =>
    simp only [consHead]
    have : ∀ c : Str, fixLast (c :: d :: x :: es) = c :: fixLast (d :: x :: es) := by
      intro c; cases d <;> rfl
    rw [this, this]

theorem mergeEmpty_consHead (e : Nat) {L : List Str} (h : Good L) :
    mergeEmpty (consHead e L) = consHead e (mergeEmpty L) := by
  match L, h with
  | [c], _ => rfl
  | c :: d :: ds, h =>
    simp only [consHead, mergeEmpty]
    obtain ⟨x, xs, hx⟩ : ∃ x xs, mergeEmpty (d :: ds) = x :: xs := by
      simp only [mergeEmpty]
      split
      · exact ⟨_, _, rfl⟩
      · split <;> exact ⟨_, _, rfl⟩
    have hx' := hx
    simp only [mergeEmpty] at hx'
    rw [hx']
    simp only
    obtain ⟨y, ys, rfl⟩ := List.exists_cons_of_ne_nil h
    have h1 : (e :: y :: ys).getLastD 0 = (y :: ys).getLastD 0 := by simp [List.getLastD]
    rw [h1]
    split
    · simp
    · rfl

theorem fixLast_ne_nil {L : List Str} (h : L ≠ []) : fixLast L ≠ [] := by
  match L, h with
  | [c], _ => simp [fixLast]
  | [c, []], _ => simp [fixLast]
  | [c, d :: ds], _ => simp [fixLast]
  | c :: d :: x :: es, _ => cases d <;> simp [fixLast]

theorem F_cons (e : Nat) (s : Str) :
    mergeEmpty (fixLast (splitChunks (e :: s).length 2 (e :: s))) = consHead e (F s) := by
  rw [splitChunks_cons, splitChunks_fuel _ s.length 1 s (by simp) (Nat.le_refl _),
    fixLast_consHead e (splitChunks_ne_nil _ _ _), mergeEmpty_consHead e (good_fixLast (good_split _ _))]
  rfl

theorem F_single {s : Str} (h : pc! '-' ∉ s.drop 1) : F s = [s] := by
  unfold F
  cases hl : s.length with
  | zero => simp [splitChunks, fixLast, mergeEmpty]
  | succ n =>
    have : findDash 1 s = none := by
      cases hf : findDash 1 s with
      | none => rfl
      | some i =>
        obtain ⟨x, r, hs, hx, hi, _⟩ := findDash_some hf
        exfalso
        apply h
        rw [hs, List.drop_append, show 1 - x.length = 0 from by omega]
        simp
    simp [splitChunks, this, fixLast, mergeEmpty]

theorem findDash_one {x : Str} {a : Nat} {r : Str} (h : pc! '-' ∉ (x ++ [a]).drop 1) :
    findDash 1 (x ++ [a] ++ pc! '-' :: r) = some (x.length + 1) := by
  have hd : (x ++ [a] ++ pc! '-' :: r).drop 1 = (x ++ [a]).drop 1 ++ pc! '-' :: r := by
    rw [List.drop_append, show 1 - (x ++ [a]).length = 0 from by simp]
    simp
  have ht : ((x ++ [a] ++ pc! '-' :: r).drop 1).takeWhile (· ≠ pc! '-') = (x ++ [a]).drop 1 := by
    rw [hd, List.takeWhile_append_of_pos]
    · simp
    · intro c hc
      have : c ≠ pc! '-' := fun e => h (e ▸ hc)
      simpa using this
  unfold findDash
  simp only
  rw [ht]
  have : ((x ++ [a]).drop 1).length = x.length := by simp
  rw [this, if_pos (by simp; omega)]
  congr 1
  omega

theorem F_dash_end {x : Str} {a : Nat} (h : pc! '-' ∉ (x ++ [a]).drop 1) :
    F (x ++ [a] ++ [pc! '-']) = [x ++ [a] ++ [pc! '-']] := by
  unfold F
  have hl : (x ++ [a] ++ [pc! '-']).length = (x.length + 1) + 1 := by simp
  rw [hl]
  simp only [splitChunks, findDash_one h]
  have h1 : (x ++ [a] ++ [pc! '-']).take (x.length + 1) = x ++ [a] := by
    rw [List.take_left' (by simp)]
  have h2 : (x ++ [a] ++ [pc! '-']).drop (x.length + 1 + 1) = [] := by
    apply List.drop_of_length_le; simp
  rw [h1, h2]
  simp [findDash, fixLast, mergeEmpty]

theorem F_range {x s3 : Str} {a e : Nat} (h : pc! '-' ∉ (x ++ [a]).drop 1) {t : Str} {ds : List Str}
    (hF : F s3 = t :: ds) :
    F (x ++ [a] ++ pc! '-' :: e :: s3) =
      if a > e then (x ++ t) :: ds else (x ++ [a]) :: (e :: t) :: ds := by
  have hl : (x ++ [a] ++ pc! '-' :: e :: s3).length = (x.length + s3.length + 2) + 1 := by simp; omega
  unfold F
  rw [hl]
  generalize hn : x.length + s3.length + 2 = n
  simp only [splitChunks, findDash_one h]
  have h1 : (x ++ [a] ++ pc! '-' :: e :: s3).take (x.length + 1) = x ++ [a] := by
    rw [List.take_left' (by simp)]
  have h2 : (x ++ [a] ++ pc! '-' :: e :: s3).drop (x.length + 1 + 1) = e :: s3 := by
    rw [show x ++ [a] ++ pc! '-' :: e :: s3 = (x ++ [a] ++ [pc! '-']) ++ e :: s3 from by simp]
    rw [List.drop_left' (by simp)]
  have h3 := F_cons e s3
  rw [splitChunks_fuel _ n 2 (e :: s3) (Nat.le_refl _) (by simp; omega)] at h3
  rw [h1, h2]
  have hfix : fixLast ((x ++ [a]) :: splitChunks n 2 (e :: s3)) =
      (x ++ [a]) :: fixLast (splitChunks n 2 (e :: s3)) := by
    rw [splitChunks_cons]
    obtain ⟨y, ys, hy⟩ := List.exists_cons_of_ne_nil (splitChunks_ne_nil n 1 s3)
    rw [hy]
    simp only [consHead]
    cases ys <;> rfl
  rw [hfix]
  simp only [mergeEmpty]
  rw [h3, hF]
  simp [consHead]

theorem items_plain {s : Str} (h : pc! '-' ∉ s.drop 1) : items s = s.map fun c => (c, c) := by
  induction s with
  | nil => simp [items]
  | cons a s ih =>
    cases s with
    | nil => simp [items]
    | cons b s =>
      have hb : b ≠ 45 := by
        intro e; apply h; rw [e]; simp
      have : items (a :: b :: s) = (a, a) :: items (b :: s) := by
        rw [items]
        intro b' rest e
        injection e with e _
        exact hb e
      rw [this, ih (fun hm => h (by simpa using List.mem_of_mem_drop hm))]
      rfl

theorem items_prefix {x r : Str} {a : Nat} (h : pc! '-' ∉ (x ++ [a]).drop 1) :
    items (x ++ a :: r) = (x.map fun c => (c, c)) ++ items (a :: r) := by
  induction x with
  | nil => rfl
  | cons c x ih =>
    have hx : pc! '-' ∉ x ++ [a] := by simpa using h
    have h2 : items (c :: (x ++ a :: r)) = (c, c) :: items (x ++ a :: r) := by
      cases x with
      | nil =>
        simp only [List.nil_append]
        rw [items]
        intro b' rest e
        injection e with e _
        apply hx
        rw [e]; simp
      | cons y x =>
        simp only [List.cons_append]
        rw [items]
        intro b' rest e
        injection e with e _
        apply hx
        rw [e]; simp
    rw [List.cons_append, h2, ih (fun hm => hx (List.mem_of_mem_drop hm))]
    rfl

theorem items_range (a e : Nat) (s : Str) : items (a :: pc! '-' :: e :: s) = (a, e) :: items s := by
  simp [items]

theorem items_dash_end (a : Nat) : items [a, pc! '-'] = [(a, a), (pc! '-', pc! '-')] := by
  simp [items]

theorem inItems_append (l l' : List (Nat × Nat)) (c : Nat) :
    (∃ r ∈ l ++ l', r.1 ≤ c ∧ c ≤ r.2) ↔ (∃ r ∈ l, r.1 ≤ c ∧ c ≤ r.2) ∨ ∃ r ∈ l', r.1 ≤ c ∧ c ≤ r.2 := by
  simp only [List.mem_append]
  constructor
  · rintro ⟨r, h | h, h2⟩
    · exact Or.inl ⟨r, h, h2⟩
    · exact Or.inr ⟨r, h, h2⟩
  · rintro (⟨r, h, h2⟩ | ⟨r, h, h2⟩)
    · exact ⟨r, Or.inl h, h2⟩
    · exact ⟨r, Or.inr h, h2⟩

theorem inItems_singles (x : Str) (c : Nat) :
    (∃ r ∈ x.map fun c => (c, c), r.1 ≤ c ∧ c ≤ r.2) ↔ c ∈ x := by
  constructor
  · rintro ⟨r, h, h2⟩
    obtain ⟨d, hd, rfl⟩ := List.mem_map.mp h
    have : c = d := by simp only at h2; omega
    rw [this]; exact hd
  · intro h
    exact ⟨(c, c), List.mem_map.mpr ⟨c, h, rfl⟩, by simp⟩

theorem inChunks_append (c : Nat) (x t : Str) (ds : List Str) (h : ds ≠ [] → t ≠ []) :
    inChunks c ((x ++ t) :: ds) = true ↔ c ∈ x ∨ inChunks c (t :: ds) = true := by
  cases ds with
  | nil => simp [inChunks]
  | cons d ds =>
    obtain ⟨y, ys, rfl⟩ := List.exists_cons_of_ne_nil (h (by simp))
    have : (x ++ y :: ys).getLastD 0 = (y :: ys).getLastD 0 := by
      simp [List.getLastD_eq_getLast?, List.getLast?_append, List.getLast?_cons]
    simp only [inChunks, this]
    simp [or_assoc]

/-- The chunks of a set describe the same characters as its ranges. -/
theorem F_spec : ∀ (n : Nat) (s : Str), s.length ≤ n → ∃ t ds, F s = t :: ds ∧ (ds ≠ [] → t ≠ []) ∧
    (∀ c, inChunks c (t :: ds) = true ↔ InItems s c) ∧ t.head? = (skipEmpty s).head? := by
  intro n
  induction n with
  | zero =>
    intro s hs
    have : s = [] := List.eq_nil_of_length_eq_zero (by omega)
    subst this
    exact ⟨[], [], by rw [F_single (by simp)], by simp, by simp [inChunks, InItems, items], by simp [skipEmpty]⟩
  | succ n ih =>
    intro s hs
    cases hf : findDash 1 s with
    | none =>
      have hd := findDash_none hf
      refine ⟨s, [], F_single hd, by simp, ?_, ?_⟩
      · intro c
        rw [InItems, items_plain hd, inItems_singles]
        simp [inChunks]
      · cases s with
        | nil => simp [skipEmpty]
        | cons a s =>
          cases s with
          | nil => simp [skipEmpty]
          | cons b s =>
            have hb : b ≠ 45 := by intro e; apply hd; rw [e]; simp
            rw [skipEmpty]
            intro a' b' rest e
            injection e with _ e
            injection e with e _
            exact absurd e hb
    | some i =>
      obtain ⟨y, r, hs2, hy, hi, hdash⟩ := findDash_some hf
      obtain ⟨x, a, rfl⟩ : ∃ x a, y = x ++ [a] := by
        have : y ≠ [] := by rintro rfl; simp at hy; omega
        exact ⟨y.dropLast, y.getLast this, (List.dropLast_concat_getLast this).symm⟩
      have hskip : ∀ r, x ≠ [] → (skipEmpty (x ++ [a] ++ r)).head? = x.head? := by
        intro r hx
        obtain ⟨c, x', rfl⟩ := List.exists_cons_of_ne_nil hx
        have hx2 : pc! '-' ∉ x' ++ [a] := by simpa using hdash
        have : skipEmpty (c :: x' ++ [a] ++ r) = c :: x' ++ [a] ++ r := by
          cases x' with
          | nil =>
            simp only [List.cons_append, List.nil_append]
            rw [skipEmpty]
            intro a' b' rest e
            injection e with _ e
            injection e with e _
            exfalso; apply hx2; rw [e]; simp
          | cons z x' =>
            simp only [List.cons_append]
            rw [skipEmpty]
            intro a' b' rest e
            injection e with _ e
            injection e with e _
            exfalso; apply hx2; rw [e]; simp
        rw [this]; rfl
      cases r with
      | nil =>
        subst hs2
        refine ⟨_, _, F_dash_end hdash, by simp, ?_, ?_⟩
        · intro c
          rw [InItems, show x ++ [a] ++ [pc! '-'] = x ++ a :: [pc! '-'] from by simp, items_prefix hdash,
            items_dash_end, inItems_append, inItems_singles]
          have hd2 : ∀ d, (d ≤ c ∧ c ≤ d) ↔ c = d := by omega
          simp [inChunks, hd2]
        · by_cases hx : x = []
          · subst hx; simp [skipEmpty]
          · rw [hskip _ hx]
            obtain ⟨c, x', rfl⟩ := List.exists_cons_of_ne_nil hx
            simp
      | cons e s3 =>
        subst hs2
        obtain ⟨t, ds, hF, hne, hmem, hhead⟩ := ih s3 (by simp at hs; omega)
        have hitems : ∀ c, InItems (x ++ [a] ++ pc! '-' :: e :: s3) c ↔
            c ∈ x ∨ (a ≤ c ∧ c ≤ e) ∨ InItems s3 c := by
          intro c
          rw [InItems, show x ++ [a] ++ pc! '-' :: e :: s3 = x ++ a :: pc! '-' :: e :: s3 from by simp,
            items_prefix hdash, items_range, inItems_append, inItems_singles]
          simp [InItems]
        by_cases hae : a > e
        · refine ⟨x ++ t, ds, by rw [F_range hdash hF, if_pos hae], ?_, ?_, ?_⟩
          · intro h; have := hne h; simp [this]
          · intro c
            rw [inChunks_append c x t ds hne, hmem, hitems]
            constructor
            · rintro (h | h)
              · exact Or.inl h
              · exact Or.inr (Or.inr h)
            · rintro (h | h | h)
              · exact Or.inl h
              · omega
              · exact Or.inr h
          · by_cases hx : x = []
            · subst hx
              simp only [List.nil_append]
              rw [hhead]
              simp [skipEmpty, hae]
            · rw [hskip _ hx]
              obtain ⟨c, x', rfl⟩ := List.exists_cons_of_ne_nil hx
              simp
        · refine ⟨x ++ [a], (e :: t) :: ds, by rw [F_range hdash hF, if_neg hae], by simp, ?_, ?_⟩
          · intro c
            rw [hitems]
            have h1 : inChunks c ((e :: t) :: ds) = true ↔ c = e ∨ inChunks c (t :: ds) = true := by
              have := inChunks_append c [e] t ds hne
              simpa using this
            have h2 : inChunks c ((x ++ [a]) :: (e :: t) :: ds) = true ↔
                c ∈ x ++ [a] ∨ (a ≤ c ∧ c ≤ e) ∨ inChunks c ((e :: t) :: ds) = true := by
              simp [inChunks, or_assoc]
            rw [h2, h1, hmem]
            simp only [List.mem_append, List.mem_singleton]
            constructor
            · rintro ((h | h) | h | h | h)
              · exact Or.inl h
              · exact Or.inr (Or.inl (by omega))
              · exact Or.inr (Or.inl h)
              · exact Or.inr (Or.inl (by omega))
              · exact Or.inr (Or.inr h)
            · rintro (h | h | h)
              · exact Or.inl (Or.inl h)
              · exact Or.inr (Or.inl h)
              · exact Or.inr (Or.inr (Or.inr h))
          · by_cases hx : x = []
            · subst hx
              simp [skipEmpty, hae]
            · rw [hskip _ hx]
              obtain ⟨c, x', rfl⟩ := List.exists_cons_of_ne_nil hx
              simp

theorem setTok_spec {stuff : Str} (h0 : stuff ≠ []) (htame : Tame stuff) (c : Nat) :
    (setTok stuff).test c = true ↔ InSet stuff c := by
  have hchunks : (if stuff.contains (pc! '-') then
      mergeEmpty (fixLast (splitChunks stuff.length (if stuff[0]? = some (pc! '!') then 2 else 1) stuff))
      else [stuff]) = if stuff.head? = some (pc! '!') then consHead (pc! '!') (F stuff.tail) else F stuff := by
    obtain ⟨a, s, rfl⟩ := List.exists_cons_of_ne_nil h0
    by_cases ha : a = pc! '!'
    · subst ha
      by_cases hd : (pc! '!' :: s).contains (pc! '-') = true
      · rw [if_pos hd]
        simp only [List.getElem?_cons_zero, if_true, List.head?_cons, List.tail_cons]
        exact F_cons _ s
      · rw [if_neg hd]
        have : pc! '-' ∉ s := by
          intro hm; apply hd; simp [hm]
        simp only [List.head?_cons, if_true, List.tail_cons]
        rw [F_single (fun hm => this (List.mem_of_mem_drop hm))]
        rfl
    · have h1 : ¬ ((a :: s)[0]? = some (pc! '!')) := by simpa using ha
      have h2 : ¬ ((a :: s).head? = some (pc! '!')) := by simpa using ha
      rw [if_neg h1, if_neg h2]
      by_cases hd : (a :: s).contains (pc! '-') = true
      · rw [if_pos hd]; rfl
      · rw [if_neg hd]
        have : pc! '-' ∉ a :: s := by
          intro hm; apply hd; simpa using hm
        rw [F_single (fun hm => this (List.mem_of_mem_drop hm))]
  unfold setTok
  simp only [hchunks]
  by_cases hb : stuff.head? = some (pc! '!')
  · rw [if_pos hb]
    obtain ⟨body, rfl⟩ : ∃ body, stuff = pc! '!' :: body := by
      obtain ⟨a, s, rfl⟩ := List.exists_cons_of_ne_nil h0
      simp at hb; exact ⟨s, by rw [hb]⟩
    obtain ⟨t, ds, hF, hne, hmem, _⟩ := F_spec _ body (Nat.le_refl _)
    simp only [List.tail_cons, hF, consHead, InSet]
    have := hmem c
    cases t with
    | nil =>
      have hds : ds = [] := by
        cases ds with
        | nil => rfl
        | cons d ds => exact absurd rfl (hne (by simp))
      subst hds
      simp [Tok.test, inChunks] at this ⊢
      exact this
    | cons y ys =>
      simp [Tok.test, ← this]
  · rw [if_neg hb]
    obtain ⟨t, ds, hF, hne, hmem, hhead⟩ := F_spec _ stuff (Nat.le_refl _)
    rw [hF]
    have hset : InSet stuff c ↔ InItems stuff c := by
      obtain ⟨a, s, rfl⟩ := List.exists_cons_of_ne_nil h0
      have ha : a ≠ 33 := by simpa using hb
      rw [InSet]
      intro body e
      injection e with e _
      exact ha e
    rw [hset, ← hmem c]
    have hne33 : t.head? ≠ some (pc! '!') := by
      rw [hhead]
      rcases htame with h | h
      · exact absurd h hb
      · exact h
    cases t with
    | nil =>
      have hds : ds = [] := by
        cases ds with
        | nil => rfl
        | cons d ds => exact absurd rfl (hne (by simp))
      subst hds
      simp [Tok.test, inChunks]
    | cons y ys =>
      have hy : y ≠ 33 := by simpa using hne33
      cases ys with
      | nil =>
        cases ds with
        | nil => simp [hy, Tok.test]
        | cons d ds => simp [hy, Tok.test]
      | cons z zs => simp [hy, Tok.test]

theorem tame_tail {c : Nat} {p : Str} (h : TamePattern (c :: p)) : TamePattern p := by
  intro pre q stuff rest e hs
  exact h (c :: pre) q stuff rest (by rw [e]; rfl) hs

theorem tame_suffix {a p : Str} (h : TamePattern (a ++ p)) : TamePattern p := by
  intro pre q stuff rest e hs
  exact h (a ++ pre) q stuff rest (by rw [e]; simp) hs

theorem isSet_length {p stuff rest : Str} (h : IsSet p stuff rest) :
    stuff ≠ [] ∧ ∃ a, p = a ++ rest ∧ a ≠ [] := by
  obtain ⟨neg, b, bs, rfl, rfl, _, _⟩ := h
  refine ⟨by simp, (neg ++ b :: bs) ++ [pc! ']'], by simp, by simp⟩

theorem setTok_ne_star (stuff : Str) : setTok stuff ≠ .star := by
  unfold setTok
  have hite : ∀ (p : Prop) [Decidable p] (a b : Tok), a ≠ .star → b ≠ .star → (if p then a else b) ≠ .star := by
    intro p _ a b ha hb; split <;> assumption
  simp only
  split <;> first | (intro h; cases h; done) | (apply hite <;> intro h <;> cases h)

theorem toks_spec : ∀ (n : Nat) (p : Str), p.length ≤ n → TamePattern p → ∀ s, GlobT (toks n p) s ↔ Glob p s := by
  intro n
  induction n with
  | zero =>
    intro p hp _ s
    have : p = [] := List.eq_nil_of_length_eq_zero (by omega)
    subst this
    simp only [toks, GlobT]
    constructor
    · rintro rfl; exact .nil
    · intro h; cases h; rfl
  | succ n ih =>
    intro p hp ht s
    cases p with
    | nil =>
      simp only [toks, GlobT]
      constructor
      · rintro rfl; exact .nil
      · intro h; cases h; rfl
    | cons c p =>
      have hlen : p.length ≤ n := by simp at hp; omega
      have ih' := ih p hlen (tame_tail ht)
      simp only [toks]
      by_cases h1 : c = pc! '*'
      · subst h1
        rw [if_pos rfl]
        constructor
        · rintro ⟨a, b, rfl, h⟩
          exact .star a ((ih' b).mp h)
        · intro h
          cases h with
          | star a h => exact ⟨a, _, rfl, (ih' _).mpr h⟩
          | lit _ h => exact absurd rfl h
      · rw [if_neg h1]
        by_cases h2 : c = pc! '?'
        · subst h2
          rw [if_pos rfl, globT_cons (by simp)]
          constructor
          · rintro ⟨d, s', rfl, _, h⟩
            exact .any d ((ih' _).mp h)
          · intro h
            cases h with
            | any d h => exact ⟨d, _, rfl, rfl, (ih' _).mpr h⟩
            | lit _ _ h => exact absurd rfl h
        · rw [if_neg h2]
          by_cases h3 : c = pc! '['
          · subst h3
            rw [if_pos rfl]
            cases hts : takeSet p with
            | none =>
              rw [takeSet_none] at hts
              simp only
              rw [globT_cons (by simp)]
              constructor
              · rintro ⟨d, s', rfl, hd, h⟩
                simp only [Tok.test, beq_iff_eq] at hd
                subst hd
                exact .unclosed hts ((ih' _).mp h)
              · intro h
                cases h with
                | set d hs _ _ => exact absurd hs (hts _ _)
                | unclosed _ h => exact ⟨_, _, rfl, by simp [Tok.test], (ih' _).mpr h⟩
                | lit _ _ _ h => exact absurd rfl h
            | some x =>
              obtain ⟨stuff, rest⟩ := x
              have hset := (takeSet_iff p stuff rest).mp hts
              obtain ⟨hne, a, ha, hane⟩ := isSet_length hset
              have htame : Tame stuff := ht [] p stuff rest rfl hset
              have hrest : rest.length ≤ n := by
                have := congrArg List.length ha
                simp at this; omega
              have htr : TamePattern rest := tame_suffix (a := a) (by rw [← ha]; exact tame_tail ht)
              have ihr := ih rest hrest htr
              simp only
              rw [globT_cons (setTok_ne_star stuff)]
              constructor
              · rintro ⟨d, s', rfl, hd, h⟩
                exact .set d hset ((setTok_spec hne htame d).mp hd) ((ihr _).mp h)
              · intro h
                cases h with
                | set d hs hin hg =>
                  have := (takeSet_iff _ _ _).mpr hs
                  rw [hts] at this
                  injection this with this
                  injection this with e1 e2
                  subst e1 e2
                  exact ⟨d, _, rfl, (setTok_spec hne htame d).mpr hin, (ihr _).mpr hg⟩
                | unclosed hno _ => exact absurd hset (hno _ _)
                | lit _ _ _ h => exact absurd rfl h
          · rw [if_neg h3, globT_cons (by simp)]
            constructor
            · rintro ⟨d, s', rfl, hd, h⟩
              simp only [Tok.test, beq_iff_eq] at hd
              subst hd
              exact .lit _ h1 h2 h3 ((ih' _).mp h)
            · intro h
              cases h with
              | star => exact absurd rfl h1
              | any => exact absurd rfl h2
              | set => exact absurd rfl h3
              | unclosed => exact absurd rfl h3
              | lit _ _ _ _ h => exact ⟨_, _, rfl, by simp [Tok.test], (ih' _).mpr h⟩

theorem matchPat_spec {pat : Str} (h : TamePattern pat) (s : Str) : matchPat pat s = true ↔ Glob pat s := by
  rw [matchPat, matchToks_spec, compress_spec, toks_spec _ _ (Nat.le_refl _) h]

/-! ## splitting -/

theorem splitOn_ne_nil (sep : Nat) (s : Str) : Py.splitOn sep s ≠ [] := by
  cases s with
  | nil => simp [Py.splitOn]
  | cons c s =>
    simp only [Py.splitOn]
    split
    · simp
    · split <;> simp

theorem join_cons_char (sep : Str) (c : Nat) (t : Str) (ts : List Str) :
    Py.join sep ((c :: t) :: ts) = c :: Py.join sep (t :: ts) := by
  cases ts <;> simp [Py.join]

theorem splitOn_parts (sep : Nat) (s : Str) : Parts sep s (Py.splitOn sep s) := by
  refine ⟨splitOn_ne_nil sep s, ?_, ?_⟩
  · induction s with
    | nil => simp [Py.splitOn]
    | cons c s ih =>
      simp only [Py.splitOn]
      split
      · intro t ht
        rcases List.mem_cons.mp ht with rfl | ht
        · simp
        · exact ih t ht
      · rename_i hc
        split
        · intro t ht; simp at ht; subst ht; simp [Ne.symm hc]
        · rename_i t ts hts
          rw [hts] at ih
          intro u hu
          rcases List.mem_cons.mp hu with rfl | hu
          · have := ih t List.mem_cons_self
            simp [this, Ne.symm hc]
          · exact ih u (List.mem_cons_of_mem _ hu)
  · induction s with
    | nil => simp [Py.splitOn, Py.join]
    | cons c s ih =>
      simp only [Py.splitOn]
      split
      · rename_i hc
        subst hc
        obtain ⟨t, ts, hts⟩ := List.exists_cons_of_ne_nil (splitOn_ne_nil c s)
        rw [hts] at ih ⊢
        simp only [Py.join]
        rw [← ih]; simp
      · split
        · rename_i hts; exact absurd hts (splitOn_ne_nil _ _)
        · rename_i t ts hts
          rw [hts] at ih
          rw [join_cons_char, ← ih]

theorem parts_unique (sep : Nat) : ∀ (ts us : List Str) (s : Str), Parts sep s ts → Parts sep s us → ts = us := by
  intro ts
  induction ts with
  | nil => intro us s h; exact absurd rfl h.1
  | cons t ts ih =>
    intro us s h1 h2
    cases us with
    | nil => exact absurd rfl h2.1
    | cons u us =>
      -- compare the first parts
      have key : ∀ (t u x y : Str), sep ∉ t → sep ∉ u → (x = [] ∨ ∃ x', x = sep :: x') → (y = [] ∨ ∃ y', y = sep :: y') →
          t ++ x = u ++ y → t = u ∧ x = y := by
        intro t
        induction t with
        | nil =>
          intro u x y _ hu hx _ e
          cases u with
          | nil => exact ⟨rfl, by simpa using e⟩
          | cons c u =>
            rcases hx with rfl | ⟨x', rfl⟩
            · simp at e
            · simp at e; exact absurd (by simp [e.1]) hu
        | cons c t iht =>
          intro u x y ht hu hx hy e
          cases u with
          | nil =>
            rcases hy with rfl | ⟨y', rfl⟩
            · simp at e
            · simp at e; exact absurd (by simp [e.1]) ht
          | cons d u =>
            simp at e
            have := iht u x y (fun h => ht (List.mem_cons_of_mem _ h)) (fun h => hu (List.mem_cons_of_mem _ h)) hx hy e.2
            exact ⟨by rw [e.1, this.1], this.2⟩
      have hjoin : ∀ (t : Str) (ts : List Str), ∃ x, Py.join [sep] (t :: ts) = t ++ x ∧
          ((ts = [] ∧ x = []) ∨ (ts ≠ [] ∧ x = sep :: Py.join [sep] ts)) := by
        intro t ts
        cases ts with
        | nil => exact ⟨[], by simp [Py.join], Or.inl ⟨rfl, rfl⟩⟩
        | cons v vs => exact ⟨sep :: Py.join [sep] (v :: vs), by simp [Py.join], Or.inr ⟨by simp, rfl⟩⟩
      obtain ⟨x, ex, hx⟩ := hjoin t ts
      obtain ⟨y, ey, hy⟩ := hjoin u us
      have e : t ++ x = u ++ y := by rw [← ex, ← ey, ← h1.2.2, ← h2.2.2]
      have := key t u x y (h1.2.1 t List.mem_cons_self) (h2.2.1 u List.mem_cons_self)
        (by rcases hx with ⟨_, h⟩ | ⟨_, h⟩ <;> simp [h]) (by rcases hy with ⟨_, h⟩ | ⟨_, h⟩ <;> simp [h]) e
      obtain ⟨rfl, rfl⟩ := this
      congr 1
      rcases hx with ⟨rfl, hx⟩ | ⟨hts, hx⟩ <;> rcases hy with ⟨rfl, hy⟩ | ⟨hus, hy⟩
      · rfl
      · rw [hx] at hy; cases hy
      · rw [hx] at hy; cases hy
      · rw [hx] at hy
        injection hy with _ hy
        refine ih us _ ⟨hts, fun t ht => h1.2.1 t (List.mem_cons_of_mem _ ht), rfl⟩
          ⟨hus, fun t ht => h2.2.1 t (List.mem_cons_of_mem _ ht), hy⟩

theorem strip_isEmpty (s : Str) : (Py.strip s).isEmpty = true ↔ Blank s := by
  have h1 : ∀ s : Str, s.dropWhile Py.isSpace = [] ↔ Blank s := by
    intro s
    induction s with
    | nil => simp [Blank]
    | cons c s ih =>
      rw [List.dropWhile_cons]
      by_cases hc : Py.isSpace c = true
      · rw [if_pos hc, ih]; simp [Blank, hc]
      · rw [if_neg hc]; simp [Blank, hc]
  have h2 : ∀ s : Str, Blank s.reverse ↔ Blank s := by intro s; simp [Blank]
  have h3 : ∀ s : Str, (Blank (s.dropWhile Py.isSpace) ↔ Blank s) := by
    intro s
    constructor
    · intro h c hc
      by_cases hd : c ∈ s.dropWhile Py.isSpace
      · exact h c hd
      · have : s = s.takeWhile Py.isSpace ++ s.dropWhile Py.isSpace := (List.takeWhile_append_dropWhile).symm
        rw [this, List.mem_append] at hc
        rcases hc with hc | hc
        · exact List.all_eq_true.mp List.all_takeWhile c hc
        · exact absurd hc hd
    · intro h
      have := (h1 s).mpr h
      rw [this]; intro c hc; cases hc
  rw [List.isEmpty_iff, Py.strip, Py.rstrip, Py.lstrip, List.reverse_eq_nil_iff, h1, h2, h3]

end Verif.Config
