import Verif.Spec.Generate
import Verif.HttpLemmas
import Verif.ContextLemmas

/-! # Helper lemmas about the generation of negative tests -/

namespace Verif.Generate
open Verif Verif.Parse Verif.Http Verif.Spec Verif.Spec.Generate Verif.Spec

theorem flatten_map_len (l : Str) (f : Nat → List Nat) (n : Nat) (h : ∀ c, (f c).length = n) : ((l.map f).flatten).length = n * l.length := by
  induction l with
  | nil => rfl
  | cons c l ih => simp [h, ih, Nat.mul_add]; omega

/-- base64 digits of whole bytes: their number is never one more than a multiple of four -/
theorem base64_length {t : Str} {bs : List Nat} (h : Base64Of t bs) : t.length % 4 ≠ 1 := by
  obtain ⟨_, k, hk, h⟩ := h
  have hl := congrArg List.length h
  rw [List.length_append, flatten_map_len t _ 6 (fun _ => rfl), flatten_map_len bs _ 8 (fun _ => rfl), List.length_replicate] at hl
  omega

theorem digits_of_padded {digits rest : Str} {k m : Nat} (hd : ∀ c ∈ digits, c ∈ base64url) (hr : ∀ c ∈ rest, c ∈ base64url)
    (h : rest ++ List.replicate m (pc! '=') = digits ++ List.replicate k (pc! '=')) : digits = rest := by
  induction digits generalizing rest with
  | nil =>
    cases rest with
    | nil => rfl
    | cons c rest =>
      exfalso
      have : c ∈ List.replicate k (pc! '=') := by
        rw [List.nil_append] at h; rw [← h]; simp
      exact base64url_eq c (hr c (by simp)) (List.eq_of_mem_replicate this)
  | cons d ds ih =>
    cases rest with
    | nil =>
      exfalso
      have : d ∈ List.replicate m (pc! '=') := by
        rw [List.nil_append] at h; rw [h]; simp
      exact base64url_eq d (hd d (by simp)) (List.eq_of_mem_replicate this)
    | cons c rest =>
      simp only [List.cons_append, List.cons.injEq] at h
      rw [h.1, ih (fun x hx => hd x (List.mem_cons_of_mem _ hx)) (fun x hx => hr x (List.mem_cons_of_mem _ hx)) h.2]

theorem invalid_not_decodable : ¬ Decodable invalidBase64url := by
  rintro ⟨digits, k, bytes, h, -, hb⟩
  have hs : invalidBase64url = py!"invalid-base64url" ++ List.replicate 5 (pc! '=') := by decide
  rw [hs] at h
  have := digits_of_padded hb.1 (by decide +kernel) h
  rw [this] at hb
  exact base64_length hb (by decide)

theorem foldl_max (ss : List Str) : ∀ m, m ≤ ss.foldl (fun m t => max m t.length) m ∧
    ∀ t ∈ ss, t.length ≤ ss.foldl (fun m t => max m t.length) m := by
  induction ss with
  | nil => intro m; exact ⟨Nat.le_refl _, by simp⟩
  | cons s ss ih =>
    intro m
    obtain ⟨h1, h2⟩ := ih (max m s.length)
    simp only [List.foldl_cons, List.mem_cons]
    refine ⟨by omega, ?_⟩
    rintro t (rfl | ht)
    · omega
    · exact h2 t ht

theorem maxLen_spec {ss : List Str} {n : Nat} (h : maxLen ss = some n) : ∀ t ∈ ss, t.length ≤ n := by
  cases ss with
  | nil => cases h
  | cons s ss =>
    simp only [maxLen, Option.some.injEq] at h
    subst h
    obtain ⟨h1, h2⟩ := foldl_max ss s.length
    intro t ht
    rcases List.mem_cons.mp ht with rfl | ht
    · exact h1
    · exact h2 t ht

theorem natStrF_head (f n : Nat) (h : 0 < f) : ∃ c s, Py.natStrF f n = c :: s := by
  cases f with
  | zero => omega
  | succ f =>
    unfold Py.natStrF
    split
    · exact ⟨_, _, rfl⟩
    · cases Py.natStrF f (n / 10) <;> exact ⟨_, _, rfl⟩

theorem natStrF_digits (f n : Nat) : ∀ c ∈ Py.natStrF f n, 48 ≤ c := by
  induction f generalizing n with
  | zero => simp [Py.natStrF]
  | succ f ih =>
    unfold Py.natStrF
    split
    · simp
    · intro c hc
      rcases List.mem_append.mp hc with h | h
      · exact ih _ c h
      · simp at h; omega

theorem natStr_neg (n : Nat) (s : Str) : Py.natStr n ≠ pc! '-' :: s := by
  intro h
  have := natStrF_digits (n + 1) n (pc! '-') (by rw [show Py.natStrF (n+1) n = Py.natStr n from rfl, h]; simp)
  revert this; decide

/-! ## keyword arguments -/

theorem set_keys (name : Str) (v : ArgVal) (kw : Kwargs) :
    (Kwargs.set name v kw).map (·.1) = if name ∈ kw.map (·.1) then kw.map (·.1) else kw.map (·.1) ++ [name] := by
  induction kw with
  | nil => simp [Kwargs.set]
  | cons p kw ih =>
    obtain ⟨n, w⟩ := p
    rw [Kwargs.set]
    split
    · rename_i h; subst h; simp
    · rename_i h
      simp only [List.map_cons, ih, List.mem_cons, show (name = n) = False from eq_false (fun e => h e.symm), false_or]
      split <;> rfl

theorem set_mem (name : Str) (v : ArgVal) (kw : Kwargs) (hd : (kw.map (·.1)).Nodup) (n : Str) (w : ArgVal) :
    (n, w) ∈ Kwargs.set name v kw ↔ (n = name ∧ w = v) ∨ (n ≠ name ∧ (n, w) ∈ kw) := by
  induction kw with
  | nil => simp [Kwargs.set]
  | cons p kw ih =>
    obtain ⟨m, u⟩ := p
    rw [List.map_cons, List.nodup_cons] at hd
    rw [Kwargs.set]
    split
    · rename_i h
      subst h
      simp only [List.mem_cons, Prod.mk.injEq]
      constructor
      · rintro (h | h)
        · exact .inl h
        · refine .inr ⟨?_, .inr h⟩
          rintro rfl
          exact hd.1 (List.mem_map.mpr ⟨_, h, rfl⟩)
      · rintro (h | ⟨h1, h2 | h2⟩)
        · exact .inl h
        · exact absurd h2.1 h1
        · exact .inr h2
    · rename_i h
      simp only [List.mem_cons, Prod.mk.injEq, ih hd.2]
      constructor
      · rintro (⟨rfl, rfl⟩ | h' | ⟨h1, h2⟩)
        · exact .inr ⟨h, .inl ⟨rfl, rfl⟩⟩
        · exact .inl h'
        · exact .inr ⟨h1, .inr h2⟩
      · rintro (h' | ⟨h1, h2 | h2⟩)
        · exact .inr (.inl h')
        · exact .inl h2
        · exact .inr (.inr ⟨h1, h2⟩)

theorem set_only (name : Str) (v : ArgVal) (kw : Kwargs) (hd : (kw.map (·.1)).Nodup) : OnlyChanged kw (Kwargs.set name v kw) name v where
  changed w := by simp [Value, set_mem name v kw hd]
  others n hn w := by simp [Value, set_mem name v kw hd, hn]
  distinct := by
    rw [set_keys]
    split
    · exact hd
    · rename_i h
      rw [List.nodup_append]
      refine ⟨hd, by simp, ?_⟩
      intro a ha b hb
      simp at hb
      subst hb
      rintro rfl
      exact h ha

end Verif.Generate
