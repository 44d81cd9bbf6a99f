import Verif.ConfigLemmas
import Verif.ResultLemmas
import Verif.Spec.Opc

/-! # Lemmas about paths and package scanning -/

namespace Verif.Opc
open Verif Spec

/-! ## paths -/

theorem walk_normLoop (ss : List Str) : ∀ pos, Walk pos ss (normLoop pos ss) := by
  induction ss with
  | nil => intro pos; exact .done
  | cons s ss ih =>
    intro pos
    unfold normLoop
    split
    · rename_i h
      simp only [Bool.or_eq_true, beq_iff_eq] at h
      exact .stay (h.imp (Config.strip_isEmpty s).mp id) (ih pos)
    · rename_i h
      simp only [Bool.or_eq_true, beq_iff_eq, not_or] at h
      split
      · rename_i h2
        have h2 : s = py!".." := by simpa using h2
        subst h2
        cases hp : pos.isEmpty with
        | true =>
          rw [List.isEmpty_iff] at hp; subst hp
          exact .top (ih _)
        | false =>
          have hne : pos ≠ [] := by intro e; subst e; cases hp
          simp only [Bool.false_eq_true, if_false]
          have := List.dropLast_concat_getLast hne
          conv => arg 1; rw [← this]
          exact .up (ih _)
      · rename_i h2
        have h2 : s ≠ py!".." := by simpa using h2
        exact .down (fun hb => h.1 ((Config.strip_isEmpty s).mpr hb)) h.2 h2 (ih _)

theorem not_blank_dotdot : ¬ Blank py!".." := by intro h; have := h 46 (by simp); revert this; decide

theorem walk_unique {pos ss res res' : List Str} (h : Walk pos ss res) (h' : Walk pos ss res') : res = res' := by
  induction h generalizing res' with
  | done => cases h'; rfl
  | stay hs _ ih =>
    cases h' with
    | stay _ h2 => exact ih h2
    | top _ => rcases hs with hs | hs; exact absurd hs not_blank_dotdot; cases hs
    | up _ => rcases hs with hs | hs; exact absurd hs not_blank_dotdot; cases hs
    | down h1 h2 _ _ => rcases hs with hs | hs; exact absurd hs h1; exact absurd hs h2
  | top _ ih =>
    generalize hp : ([] : List Str) = p at h'
    cases h' with
    | stay hs h2 => rcases hs with hs | hs; exact absurd hs not_blank_dotdot; cases hs
    | top h2 => exact ih h2
    | up _ => simp at hp
    | down _ _ h3 _ => exact absurd rfl h3
  | @up pos x ss res _ ih =>
    generalize hp : pos ++ [x] = p at h'
    cases h' with
    | stay hs h2 => rcases hs with hs | hs; exact absurd hs not_blank_dotdot; cases hs
    | top h2 => simp at hp
    | up h2 => have := List.append_inj' hp rfl; rw [← this.1] at h2; exact ih h2
    | down _ _ h3 _ => exact absurd rfl h3
  | down h1 h2 h3 _ ih =>
    cases h' with
    | stay hs _ => rcases hs with hs | hs; exact absurd hs h1; exact absurd hs h2
    | top _ => exact absurd rfl h3
    | up _ => exact absurd rfl h3
    | down _ _ _ h4 => exact ih h4

theorem dropWhile_split (p : Nat → Bool) (s : Str) : s = s.takeWhile p ++ s.dropWhile p := (List.takeWhile_append_dropWhile).symm

theorem head_dropWhile (p : Nat → Bool) (s : Str) (c : Nat) (h : (s.dropWhile p).head? = some c) : p c = false := by
  induction s with
  | nil => simp at h
  | cons d s ih =>
    rw [List.dropWhile_cons] at h
    split at h
    · exact ih h
    · rename_i hd; cases h; simpa using hd

theorem takeWhile_all (p : Nat → Bool) (s : Str) : ∀ c ∈ s.takeWhile p, p c = true := by
  induction s with
  | nil => simp
  | cons d s ih =>
    rw [List.takeWhile_cons]
    split
    · rename_i hd; intro c hc
      rcases List.mem_cons.mp hc with rfl | hc
      · exact hd
      · exact ih c hc
    · simp

theorem trimmed_strip (s : Str) : Trimmed s (Py.strip s) := by
  unfold Py.strip Py.rstrip Py.lstrip
  generalize ht : s.dropWhile Py.isSpace = t
  have h1 := dropWhile_split Py.isSpace s
  rw [ht] at h1
  have h2 := dropWhile_split Py.isSpace t.reverse
  have h3 : t = (t.reverse.dropWhile Py.isSpace).reverse ++ (t.reverse.takeWhile Py.isSpace).reverse := by
    rw [← List.reverse_append, ← h2, List.reverse_reverse]
  refine ⟨_, _, by rw [List.append_assoc, ← h3]; exact h1, takeWhile_all _ _, ?_, ?_, ?_⟩
  · intro c hc; exact takeWhile_all Py.isSpace t.reverse c (List.mem_reverse.mp hc)
  · intro c hc
    apply head_dropWhile Py.isSpace s c
    rw [ht, h3, List.head?_append, hc]; rfl
  · intro c hc
    rw [List.getLast?_reverse] at hc
    exact head_dropWhile Py.isSpace _ c hc

theorem blank_prefix {a a' t t' : Str} (h : a ++ t = a' ++ t') (hb : Blank a) (hb' : Blank a')
    (h1 : ∀ c, t.head? = some c → Py.isSpace c = false) (h2 : ∀ c, t'.head? = some c → Py.isSpace c = false)
    (hne : t ≠ [] ∨ t' ≠ []) (hne2 : t ≠ [] ↔ t' ≠ []) : a = a' ∧ t = t' := by
  have n1 : t ≠ [] := by rcases hne with h | h; exact h; exact hne2.mpr h
  have n2 := hne2.mp n1
  induction a generalizing a' with
  | nil =>
    cases a' with
    | nil => exact ⟨rfl, h⟩
    | cons c a' =>
      exfalso
      have : t.head? = some c := by rw [List.nil_append] at h; rw [h]; rfl
      have := h1 c this
      rw [hb' c (by simp)] at this; cases this
  | cons c a ih =>
    cases a' with
    | nil =>
      exfalso
      have : t'.head? = some c := by rw [List.nil_append] at h; rw [← h]; rfl
      have := h2 c this
      rw [hb c (by simp)] at this; cases this
    | cons d a' =>
      simp only [List.cons_append, List.cons.injEq] at h
      have := ih h.2 (fun x hx => hb x (by simp [hx])) (fun x hx => hb' x (by simp [hx]))
      rw [h.1, this.1]; exact ⟨rfl, this.2⟩

theorem blank_append {a b : Str} : Blank (a ++ b) ↔ Blank a ∧ Blank b := by
  unfold Blank; simp only [List.mem_append]; constructor
  · intro h; exact ⟨fun c hc => h c (.inl hc), fun c hc => h c (.inr hc)⟩
  · rintro ⟨h1, h2⟩ c (hc | hc); exact h1 c hc; exact h2 c hc

theorem trimmed_unique {s t t' : Str} (h : Trimmed s t) (h' : Trimmed s t') : t = t' := by
  obtain ⟨a, b, e, ha, hb, h1, h2⟩ := h
  obtain ⟨a', b', e', ha', hb', h1', h2'⟩ := h'
  have key : ∀ {a b t : Str}, s = a ++ t ++ b → Blank a → Blank b → (∀ c, t.head? = some c → Py.isSpace c = false) → (t = [] ↔ Blank s) := by
    intro a b t e ha hb h1
    rw [e, blank_append, blank_append]
    constructor
    · rintro rfl; exact ⟨⟨ha, by intro c hc; cases hc⟩, hb⟩
    · rintro ⟨⟨_, ht⟩, _⟩
      cases t with
      | nil => rfl
      | cons c t => have := h1 c rfl; rw [ht c (by simp)] at this; cases this
  have k1 := key e ha hb h1
  have k2 := key e' ha' hb' h1'
  by_cases hs : Blank s
  · rw [k1.mpr hs, k2.mpr hs]
  · have n1 : t ≠ [] := fun x => hs (k1.mp x)
    have n2 : t' ≠ [] := fun x => hs (k2.mp x)
    have e2 : a ++ (t ++ b) = a' ++ (t' ++ b') := by rw [← List.append_assoc, ← List.append_assoc, ← e, ← e']
    have hh : ∀ {t b : Str}, t ≠ [] → (∀ c, t.head? = some c → Py.isSpace c = false) → ∀ c, (t ++ b).head? = some c → Py.isSpace c = false := by
      intro t b hn h c hc
      cases t with
      | nil => exact absurd rfl hn
      | cons d t => exact h c hc
    have := (blank_prefix e2 ha ha' (hh n1 h1) (hh n2 h1') (.inl (by simp [n1])) (by simp [n1, n2])).2
    have e3 : b.reverse ++ t.reverse = b'.reverse ++ t'.reverse := by
      rw [← List.reverse_append, ← List.reverse_append, this]
    have hbr : ∀ {b : Str}, Blank b → Blank b.reverse := fun h c hc => h c (List.mem_reverse.mp hc)
    have := (blank_prefix e3 (hbr hb) (hbr hb') (by simpa using h2) (by simpa using h2') (.inl (by simpa using n1))
      (by simp [n1, n2])).2
    simpa using this

theorem absolute_iff (s : Str) : Absolute s ↔ Py.startsWith s py!"/" = true := by
  unfold Absolute Py.startsWith
  rw [List.isPrefixOf_iff_prefix]
  constructor
  · rintro ⟨u, rfl⟩; exact ⟨u, rfl⟩
  · rintro ⟨u, h⟩; exact ⟨u, h.symm⟩

theorem normal_normpath (p : Str) : Normal p (normpath p) := by
  refine ⟨Py.strip p, trimmed_strip p, ?_⟩
  unfold normpath
  generalize Py.strip p = t
  simp only [List.length_eq_zero_iff]
  split
  · rename_i h; exact .inl ⟨h, rfl⟩
  · rename_i h
    refine .inr ⟨h, _, _, Config.splitOn_parts _ _, walk_normLoop _ _, ?_⟩
    rw [absolute_iff]
    split
    · rename_i ha; exact .inl ⟨ha, rfl⟩
    · rename_i ha; exact .inr ⟨ha, rfl⟩

theorem normal_unique {p q q' : Str} (h : Normal p q) (h' : Normal p q') : q = q' := by
  obtain ⟨t, ht, h⟩ := h
  obtain ⟨t', ht', h'⟩ := h'
  have := trimmed_unique ht ht'; subst this
  rcases h with ⟨h0, h⟩ | ⟨h0, segs, pos, h1, h2, h3⟩
  · rcases h' with ⟨_, h'⟩ | ⟨h0', _⟩
    · rw [h, h']
    · exact absurd h0 h0'
  · rcases h' with ⟨h0', _⟩ | ⟨_, segs', pos', h1', h2', h3'⟩
    · exact absurd h0' h0
    · have := Config.parts_unique _ _ _ _ h1 h1'; subst this
      have := walk_unique h2 h2'; subst this
      rcases h3 with ⟨ha, h3⟩ | ⟨ha, h3⟩ <;> rcases h3' with ⟨ha', h3'⟩ | ⟨ha', h3'⟩
      · rw [h3, h3']
      · exact absurd ha ha'
      · exact absurd ha' ha
      · rw [h3, h3']

theorem normal_iff (p q : Str) : Normal p q ↔ normpath p = q :=
  ⟨fun h => normal_unique (normal_normpath p) h, fun h => h ▸ normal_normpath p⟩

theorem resolved_iff (dir target q : Str) : Resolved dir target q ↔ resolve dir target = q := by
  unfold Resolved resolve
  by_cases ha : Absolute target
  · have hs := (absolute_iff target).mp ha
    obtain ⟨t, rfl⟩ := ha
    rw [hs, if_pos rfl]
    rw [← normal_iff]
    constructor
    · rintro (⟨t', e, h⟩ | ⟨h, _⟩)
      · cases e; exact h
      · exact absurd ⟨t, rfl⟩ h
    · intro h; exact .inl ⟨t, rfl, h⟩
  · rw [if_neg (fun h => ha ((absolute_iff target).mpr h)), ← normal_iff]
    constructor
    · rintro (⟨t', e, h⟩ | ⟨_, h⟩)
      · exact absurd ⟨t', e⟩ ha
      · exact h
    · intro h; exact .inr ⟨ha, h⟩

/-- walking never meets improper names if there are none at the beginning -/
theorem walk_proper {pos ss res : List Str} (h : Walk pos ss res) (hp : ∀ s ∈ pos, ProperName s) (hs : ∀ s ∈ ss, pc! '/' ∉ s) :
    ∀ s ∈ res, ProperName s := by
  induction h with
  | done => exact hp
  | stay _ _ ih => exact ih hp fun s h => hs s (by simp [h])
  | top _ ih => exact ih hp fun s h => hs s (by simp [h])
  | up _ ih => exact ih (fun s h => hp s (by simp [h])) fun s h => hs s (by simp [h])
  | down h1 h2 h3 _ ih =>
    refine ih (fun s h => ?_) fun s h => hs s (by simp [h])
    rcases List.mem_append.mp h with h | h
    · exact hp s h
    · rw [List.mem_singleton.mp h]; exact ⟨h1, h2, h3, hs _ (by simp)⟩

/-- proper names are walked down -/
theorem walk_down (ss : List Str) (h : ∀ s ∈ ss, ProperName s) : ∀ pos, Walk pos ss (pos ++ ss) := by
  induction ss with
  | nil => intro pos; rw [List.append_nil]; exact .done
  | cons s ss ih =>
    intro pos
    have hs := h s (by simp)
    refine .down hs.1 hs.2.1 hs.2.2.1 ?_
    have := ih (fun s h' => h s (by simp [h'])) (pos ++ [s])
    rw [List.append_assoc] at this
    exact this

theorem walk_append {pos ss mid ss' res : List Str} (h : Walk pos ss mid) (h' : Walk mid ss' res) : Walk pos (ss ++ ss') res := by
  induction h with
  | done => exact h'
  | stay hs _ ih => exact .stay hs (ih h')
  | top _ ih => exact .top (ih h')
  | up _ ih => exact .up (ih h')
  | down h1 h2 h3 _ ih => exact .down h1 h2 h3 (ih h')

/-! ## splitpath -/

theorem splitpath_some (d file : Str) (h : pc! '/' ∉ file) : splitpath (d ++ py!"/" ++ file) = (d, file) := by
  unfold splitpath Py.rpartition
  rw [if_pos (by simp)]
  have e : (d ++ py!"/" ++ file).reverse = file.reverse ++ (pc! '/' :: d.reverse) := by simp
  have ht : ∀ x ∈ file.reverse, decide (x ≠ pc! '/') = true := by
    intro x hx; simp only [decide_eq_true_eq]; rintro rfl; exact h (List.mem_reverse.mp hx)
  simp only [e]
  rw [List.takeWhile_append_of_pos ht, List.dropWhile_append_of_pos ht]
  simp

theorem splitpath_none (q : Str) (h : pc! '/' ∉ q) : splitpath q = ([], q) := by
  unfold splitpath Py.rpartition; rw [if_neg h]

/-- every text with a slash has a last slash -/
theorem last_slash (q : Str) (h : pc! '/' ∈ q) : ∃ d file, q = d ++ py!"/" ++ file ∧ pc! '/' ∉ file := by
  induction q with
  | nil => cases h
  | cons c q ih =>
    by_cases hq : pc! '/' ∈ q
    · obtain ⟨d, f, e, hf⟩ := ih hq
      exact ⟨c :: d, f, by rw [e]; simp, hf⟩
    · rcases List.mem_cons.mp h with rfl | h
      · exact ⟨[], q, rfl, hq⟩
      · exact absurd h hq

/-- folder and name of a part, as the code has them -/
def place (q : Str) : Str × Str := ((splitpath q).1 ++ py!"/", (splitpath q).2)

theorem located_iff (q d f : Str) : Located py!"/" q d f ↔ place q = (d, f) := by
  unfold Located place
  by_cases h : pc! '/' ∈ q
  · obtain ⟨d', f', rfl, hf⟩ := last_slash q h
    rw [splitpath_some d' f' hf]
    constructor
    · rintro (⟨d2, e, h2, h3⟩ | ⟨h2, _⟩)
      · have := splitpath_some d2 f h2
        rw [← e, splitpath_some d' f' hf] at this
        cases this; rw [h3]
      · exact absurd h h2
    · intro e; cases e; exact .inl ⟨d', rfl, hf, rfl⟩
  · rw [splitpath_none q h]
    constructor
    · rintro (⟨d2, rfl, _⟩ | ⟨_, h2, h3⟩)
      · exact absurd (by simp) h
      · rw [h2, h3]; rfl
    · intro e; cases e; exact .inr ⟨h, rfl, rfl⟩

end Verif.Opc
