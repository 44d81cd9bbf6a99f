import Verif.UriLemmas3

/-! # The IRI pattern, component by component: paths and the whole reference -/

namespace Verif.DataTypes.Uri
open Verif Re Spec

/-- characters of a whole path -/
def PathOrSlash (c : Nat) : Prop := PathChar c ∨ c = 47

theorem unreserved_ne {x : Nat} (h : IsUnreserved x) : x ≠ 47 ∧ x ≠ 58 := by
  simp only [IsUnreserved, IsAlnum, IsAlpha, IsUpper, IsLower, IsNum, List.mem_cons, List.not_mem_nil, or_false] at h
  rcases h with h | h | h
  · omega
  · omega
  · rcases h with h | h | h | ⟨p, h⟩ | h <;> omega

theorem regChar_ne {x : Nat} (h : RegChar x) : x ≠ 47 ∧ x ≠ 58 := by
  rcases h with h | h
  · exact unreserved_ne h
  · simp only [IsSubDelim, List.mem_cons, List.not_mem_nil, or_false] at h; omega

theorem pathChar_ne {x : Nat} (h : PathChar x) : x ≠ 47 := by
  rcases h with h | h
  · exact (regChar_ne h).1
  · simp only [List.mem_cons, List.not_mem_nil, or_false] at h; omega

theorem hex_ne {x : Nat} (h : IsHex x) : x ≠ 47 ∧ x ≠ 58 := by
  simp only [IsHex, IsNum] at h; omega

theorem enc_not_mem {P : Nat → Prop} {x : Nat} (hP : ∀ c, P c → c ≠ x) (hx : x ≠ 37) (hh : ∀ c, IsHex c → c ≠ x) {s : Str}
    (h : Enc P s) : x ∉ s := by
  induction h with
  | nil => simp
  | char hc _ ih => simp [ih, (hP _ hc).symm]
  | pct ha hb _ ih => simp [ih, (hh _ ha).symm, (hh _ hb).symm, hx]

theorem seg_no_slash {s : Str} (h : Enc PathChar s) : 47 ∉ s :=
  enc_not_mem (fun _ h => pathChar_ne h) (by decide) (fun _ h => (hex_ne h).1) h

theorem pathOf_nil : pathOf [] = [] := rfl
theorem pathOf_cons (s : Str) (ss : List Str) : pathOf (s :: ss) = 47 :: s ++ pathOf ss := by simp [pathOf]

/-- a path is a segment and further segments after slashes -/
theorem path_split (p : Str) : Enc PathOrSlash p ↔
    ∃ seg segs, p = seg ++ pathOf segs ∧ Enc PathChar seg ∧ ∀ s ∈ segs, Enc PathChar s := by
  constructor
  · intro h
    induction h with
    | nil => exact ⟨[], [], rfl, .nil, by simp⟩
    | @char c s hc _ ih =>
      obtain ⟨seg, segs, rfl, h1, h2⟩ := ih
      rcases hc with hc | rfl
      · exact ⟨c :: seg, segs, rfl, .char hc h1, h2⟩
      · refine ⟨[], seg :: segs, by simp [pathOf_cons], .nil, ?_⟩
        intro t ht
        rcases List.mem_cons.mp ht with rfl | ht
        · exact h1
        · exact h2 t ht
    | @pct a b s ha hb _ ih =>
      obtain ⟨seg, segs, rfl, h1, h2⟩ := ih
      exact ⟨37 :: a :: b :: seg, segs, rfl, .pct ha hb h1, h2⟩
  · rintro ⟨seg, segs, rfl, h1, h2⟩
    refine enc_append (enc_mono (fun _ h => Or.inl h) h1) ?_
    clear h1
    induction segs with
    | nil => exact .nil
    | cons s ss ih =>
      rw [pathOf_cons, List.cons_append]
      exact .char (Or.inr rfl) (enc_append (enc_mono (fun _ h => Or.inl h) (h2 s List.mem_cons_self))
        (ih fun t ht => h2 t (List.mem_cons_of_mem _ ht)))

theorem m_abempty (s : Str) : Matches rAbempty s ↔ ∃ segs, s = pathOf segs ∧ ∀ t ∈ segs, Enc PathChar t := by
  have h : ∀ t, Matches (seqs [lit 47, .star rPchar]) t ↔ ∃ u, t = 47 :: u ∧ Enc PathChar u := by
    intro t
    rw [matches_seqs_cons]
    simp only [matches_seqs_one, matches_lit, m_enc m_pchar]
    constructor
    · rintro ⟨_, u, rfl, rfl, hu⟩; exact ⟨u, rfl, hu⟩
    · rintro ⟨u, rfl, hu⟩; exact ⟨_, u, rfl, rfl, hu⟩
  rw [rAbempty, matches_star]
  simp only [h]
  constructor
  · rintro ⟨ts, rfl, hts⟩
    clear h
    induction ts with
    | nil => exact ⟨[], rfl, by simp⟩
    | cons t ts ih =>
      obtain ⟨u, rfl, hu⟩ := hts t List.mem_cons_self
      obtain ⟨segs, e, hs⟩ := ih fun x hx => hts x (List.mem_cons_of_mem _ hx)
      refine ⟨u :: segs, by rw [List.flatten_cons, e, pathOf_cons], ?_⟩
      intro t ht
      rcases List.mem_cons.mp ht with rfl | ht
      · exact hu
      · exact hs t ht
  · rintro ⟨segs, rfl, hs⟩
    refine ⟨segs.map (47 :: ·), rfl, ?_⟩
    intro t ht
    obtain ⟨u, hu, rfl⟩ := List.mem_map.mp ht
    exact ⟨u, rfl, hs u hu⟩

theorem abempty_iff (p : Str) : Matches rAbempty p ↔ Enc PathOrSlash p ∧ (p = [] ∨ ∃ q, p = 47 :: q) := by
  rw [m_abempty, path_split]
  constructor
  · rintro ⟨segs, rfl, h⟩
    refine ⟨⟨[], segs, rfl, .nil, h⟩, ?_⟩
    cases segs with
    | nil => exact Or.inl rfl
    | cons s ss => exact Or.inr ⟨_, by rw [pathOf_cons]; rfl⟩
  · rintro ⟨⟨seg, segs, rfl, h1, h2⟩, h⟩
    have : seg = [] := by
      cases seg with
      | nil => rfl
      | cons c seg =>
        rcases h with h | ⟨q, h⟩
        · cases h
        · cases h; exact absurd List.mem_cons_self (seg_no_slash h1)
    subst this
    exact ⟨segs, rfl, h2⟩

theorem m_absolute (p : Str) : Matches rAbsolute p ↔ p = [47] ∨ ∃ seg segs, p = 47 :: seg ++ pathOf segs ∧ seg ≠ [] ∧
    Enc PathChar seg ∧ ∀ t ∈ segs, Enc PathChar t := by
  rw [rAbsolute, matches_seqs_cons]
  simp only [matches_seqs_one, matches_lit, matches_opt, matches_seqs_cons, m_enc_plus m_pchar, m_abempty]
  constructor
  · rintro ⟨_, _, rfl, rfl, rfl | ⟨seg, _, rfl, ⟨h1, h2⟩, segs, rfl, h3⟩⟩
    · exact Or.inl rfl
    · exact Or.inr ⟨seg, segs, rfl, h2, h1, h3⟩
  · rintro (rfl | ⟨seg, segs, rfl, h2, h1, h3⟩)
    · exact ⟨[47], [], rfl, rfl, Or.inl rfl⟩
    · exact ⟨[47], seg ++ pathOf segs, rfl, rfl, Or.inr ⟨seg, _, rfl, ⟨h1, h2⟩, segs, rfl, h3⟩⟩

theorem absolute_or (p : Str) : (Matches rAbsolute p ∨ p = []) ↔
    Enc PathOrSlash p ∧ (p = [] ∨ ∃ q, p = 47 :: q) ∧ ¬ ∃ q, p = py!"//" ++ q := by
  rw [m_absolute]
  constructor
  · rintro ((rfl | ⟨seg, segs, rfl, h1, h2, h3⟩) | rfl)
    · exact ⟨.char (Or.inr rfl) .nil, Or.inr ⟨[], rfl⟩, by rintro ⟨q, h⟩; simp at h⟩
    · refine ⟨?_, Or.inr ⟨_, rfl⟩, ?_⟩
      · rw [path_split]
        refine ⟨[], seg :: segs, by simp [pathOf_cons], .nil, ?_⟩
        intro t ht
        rcases List.mem_cons.mp ht with rfl | ht
        · exact h2
        · exact h3 t ht
      · rintro ⟨q, h⟩
        cases seg with
        | nil => exact h1 rfl
        | cons c seg =>
          simp at h
          exact seg_no_slash h2 (by simp [h.1])
    · exact ⟨.nil, Or.inl rfl, by rintro ⟨q, h⟩; simp at h⟩
  · rintro ⟨h1, h2, h3⟩
    obtain ⟨segs, rfl, h⟩ := (m_abempty p).mp ((abempty_iff p).mpr ⟨h1, h2⟩)
    match segs with
    | [] => exact Or.inr rfl
    | [[]] => exact Or.inl (Or.inl rfl)
    | [] :: t :: ss => exact absurd ⟨t ++ pathOf ss, by simp [pathOf_cons]⟩ h3
    | (c :: s) :: ss =>
      exact Or.inl (Or.inr ⟨c :: s, ss, pathOf_cons _ _, by simp, h _ List.mem_cons_self,
        fun t ht => h t (List.mem_cons_of_mem _ ht)⟩)

theorem m_rootless (p : Str) : Matches rRootless p ↔ Enc PathOrSlash p ∧ p ≠ [] ∧ ¬ ∃ q, p = 47 :: q := by
  rw [rRootless, matches_seqs_cons, path_split]
  simp only [matches_seqs_one, m_enc_plus m_pchar, m_abempty]
  constructor
  · rintro ⟨seg, _, rfl, ⟨h1, h2⟩, segs, rfl, h3⟩
    refine ⟨⟨seg, segs, rfl, h1, h3⟩, by simp [h2], ?_⟩
    rintro ⟨q, e⟩
    cases seg with
    | nil => exact h2 rfl
    | cons c seg => simp at e; exact seg_no_slash h1 (by simp [e.1])
  · rintro ⟨⟨seg, segs, rfl, h1, h3⟩, h4, h5⟩
    refine ⟨seg, _, rfl, ⟨h1, ?_⟩, segs, rfl, h3⟩
    rintro rfl
    cases segs with
    | nil => exact h4 rfl
    | cons s ss => exact h5 ⟨s ++ pathOf ss, by simp [pathOf_cons]⟩

theorem enc_no_colon {s : Str} (h : Enc PathChar s) (hc : 58 ∉ s) : Enc (fun c => RegChar c ∨ c = 64) s := by
  induction h with
  | nil => exact .nil
  | char h _ ih =>
    simp only [List.mem_cons, not_or] at hc
    refine .char ?_ (ih hc.2)
    rcases h with h | h
    · exact Or.inl h
    · simp only [List.mem_cons, List.not_mem_nil, or_false] at h
      exact Or.inr (h.resolve_left fun h => hc.1 h.symm)
  | pct ha hb _ ih =>
    simp only [List.mem_cons, not_or] at hc
    exact .pct ha hb (ih hc.2.2.2)

theorem nc_no_colon {s : Str} (h : Enc (fun c => RegChar c ∨ c = 64) s) : 58 ∉ s :=
  enc_not_mem (fun c h => h.elim (fun h => (regChar_ne h).2) (fun h => by omega)) (by decide) (fun _ h => (hex_ne h).2) h

/-- the first segment has no colon -/
def NoColon (p : Str) : Prop := ¬ ∃ u v, p = u ++ 58 :: v ∧ 47 ∉ u

theorem m_noscheme (p : Str) : Matches rNoscheme p ↔ Matches rRootless p ∧ NoColon p := by
  rw [rRootless, rNoscheme, matches_seqs_cons, matches_seqs_cons]
  simp only [matches_seqs_one, m_enc_plus m_pchar, m_enc_plus m_nc, m_abempty]
  constructor
  · rintro ⟨seg, _, rfl, ⟨h1, h2⟩, segs, rfl, h3⟩
    refine ⟨⟨seg, _, rfl, ⟨enc_mono (fun c h => h.elim Or.inl fun h => Or.inr (by simp [h])) h1, h2⟩, segs, rfl, h3⟩, ?_⟩
    rintro ⟨u, v, e, hu⟩
    have hn := nc_no_colon h1
    rcases List.append_eq_append_iff.mp e with ⟨w, e1, e2⟩ | ⟨w, e1, e2⟩
    · cases w with
      | nil =>
        cases segs with
        | nil => simp [pathOf] at e2
        | cons s ss => simp [pathOf_cons] at e2
      | cons c w =>
        cases segs with
        | nil => simp [pathOf] at e2
        | cons s ss =>
          simp [pathOf_cons] at e2
          exact hu (by rw [e1, ← e2.1]; simp)
    · cases w with
      | nil =>
        cases segs with
        | nil => simp [pathOf] at e2
        | cons s ss => simp [pathOf_cons] at e2
      | cons c w => simp at e2; exact hn (by rw [e1, ← e2.1]; simp)
  · rintro ⟨⟨seg, _, rfl, ⟨h1, h2⟩, segs, rfl, h3⟩, hc⟩
    refine ⟨seg, _, rfl, ⟨enc_no_colon h1 ?_, h2⟩, segs, rfl, h3⟩
    intro hm
    obtain ⟨u, v, rfl⟩ := List.append_of_mem hm
    exact hc ⟨u, v ++ pathOf segs, by simp, fun h => seg_no_slash h1 (by simp [h])⟩

theorem m_netPath (t : Str) : Matches rNetPath t ↔ ∃ auth p, t = auth ++ p ∧ (∃ a, auth = py!"//" ++ a ∧ AuthorityText CodeGroups a) ∧
    Enc PathOrSlash p ∧ (p = [] ∨ ∃ q, p = 47 :: q) := by
  rw [rNetPath]
  simp only [matches_seqs_cons, matches_seqs_one, matches_lit, m_userAt, m_host, m_port, abempty_iff, AuthorityText]
  constructor
  · rintro ⟨_, _, rfl, rfl, _, _, rfl, rfl, us, _, rfl, h1, ho, _, rfl, h2, po, p, rfl, h3, h4⟩
    exact ⟨py!"//" ++ (us ++ ho ++ po), p, by simp, ⟨_, rfl, us, ho, po, rfl, h1, h2, h3⟩, h4⟩
  · rintro ⟨_, p, rfl, ⟨_, rfl, us, ho, po, rfl, h1, h2, h3⟩, h4⟩
    exact ⟨[47], 47 :: (us ++ ho ++ po ++ p), by simp, rfl, [47], us ++ ho ++ po ++ p, rfl, rfl, us, ho ++ po ++ p, by simp, h1,
      ho, po ++ p, by simp, h2, po, p, rfl, h3, h4⟩

/-- authority and path, with the condition for references without authority -/
def NetAndPath (auth p : Str) : Prop :=
  Part (AuthorityText CodeGroups) py!"//" [] auth ∧ Enc PathOrSlash p ∧ (auth ≠ [] → p = [] ∨ ∃ q, p = 47 :: q) ∧
    (auth = [] → ¬ ∃ q, p = py!"//" ++ q)

theorem slash_no_colon {p : Str} (h : p = [] ∨ ∃ q, p = 47 :: q) : NoColon p := by
  rintro ⟨u, v, e, hu⟩
  rcases h with rfl | ⟨q, rfl⟩
  · simp at e
  · cases u with
    | nil => simp at e
    | cons c u => simp at e; exact hu (by simp [e.1])

theorem not_slashes {p : Str} (h : ¬ ∃ q, p = 47 :: q) : ¬ ∃ q, p = py!"//" ++ q := by
  rintro ⟨q, rfl⟩; exact h ⟨47 :: q, rfl⟩

theorem m_hier (t : Str) : Matches rHier t ↔ ∃ auth p, t = auth ++ p ∧ NetAndPath auth p := by
  rw [rHier]
  simp only [alts, matches_alt, matches_eps, m_netPath, m_rootless]
  constructor
  · rintro (⟨auth, p, rfl, ⟨a, rfl, ha⟩, h1, h2⟩ | h | ⟨h1, h2, h3⟩ | rfl)
    · exact ⟨_, p, rfl, Or.inr ⟨a, by simp, ha⟩, h1, fun _ => h2, fun h => by simp at h⟩
    · obtain ⟨h1, _, h3⟩ := (absolute_or t).mp (Or.inl h)
      exact ⟨[], t, rfl, Or.inl rfl, h1, fun h => absurd rfl h, fun _ => h3⟩
    · exact ⟨[], t, rfl, Or.inl rfl, h1, fun h => absurd rfl h, fun _ => not_slashes h3⟩
    · exact ⟨[], [], rfl, Or.inl rfl, .nil, fun h => absurd rfl h, fun _ => by rintro ⟨q, h⟩; simp at h⟩
  · rintro ⟨auth, p, rfl, rfl | ⟨a, rfl, ha⟩, h1, h2, h3⟩
    · by_cases hs : p = [] ∨ ∃ q, p = 47 :: q
      · rcases (absolute_or p).mpr ⟨h1, hs, h3 rfl⟩ with h | h
        · exact Or.inr (Or.inl h)
        · exact Or.inr (Or.inr (Or.inr h))
      · rw [not_or] at hs
        exact Or.inr (Or.inr (Or.inl ⟨h1, hs⟩))
    · exact Or.inl ⟨_, p, rfl, ⟨a, by simp, ha⟩, h1, h2 (by simp)⟩

theorem m_rel (t : Str) : Matches rRel t ↔ ∃ auth p, t = auth ++ p ∧ NetAndPath auth p ∧ (auth = [] → NoColon p) := by
  rw [rRel]
  simp only [alts, matches_alt, matches_eps, m_netPath, m_noscheme, m_rootless]
  constructor
  · rintro (⟨auth, p, rfl, ⟨a, rfl, ha⟩, h1, h2⟩ | h | ⟨⟨h1, h2, h3⟩, h4⟩ | rfl)
    · exact ⟨_, p, rfl, ⟨Or.inr ⟨a, by simp, ha⟩, h1, fun _ => h2, fun h => by simp at h⟩, fun h => by simp at h⟩
    · obtain ⟨h1, h2, h3⟩ := (absolute_or t).mp (Or.inl h)
      exact ⟨[], t, rfl, ⟨Or.inl rfl, h1, fun h => absurd rfl h, fun _ => h3⟩, fun _ => slash_no_colon h2⟩
    · exact ⟨[], t, rfl, ⟨Or.inl rfl, h1, fun h => absurd rfl h, fun _ => not_slashes h3⟩, fun _ => h4⟩
    · exact ⟨[], [], rfl, ⟨Or.inl rfl, .nil, fun h => absurd rfl h, fun _ => by rintro ⟨q, h⟩; simp at h⟩,
        fun _ => slash_no_colon (Or.inl rfl)⟩
  · rintro ⟨auth, p, rfl, ⟨rfl | ⟨a, rfl, ha⟩, h1, h2, h3⟩, h4⟩
    · by_cases hs : p = [] ∨ ∃ q, p = 47 :: q
      · rcases (absolute_or p).mpr ⟨h1, hs, h3 rfl⟩ with h | h
        · exact Or.inr (Or.inl h)
        · exact Or.inr (Or.inr (Or.inr h))
      · rw [not_or] at hs
        exact Or.inr (Or.inr (Or.inl ⟨⟨h1, hs⟩, h4 rfl⟩))
    · exact Or.inl ⟨_, p, rfl, ⟨a, by simp, ha⟩, h1, h2 (by simp)⟩

theorem m_part {x : Nat} {r : Re} {P : Str → Prop} (h : ∀ t, Matches r t ↔ P t) (s : Str) :
    Matches (opt (seqs [lit x, r])) s ↔ Part P [x] [] s := by
  rw [matches_opt, matches_seqs_cons, Part]
  simp only [matches_seqs_one, matches_lit, h]
  apply or_congr Iff.rfl
  constructor
  · rintro ⟨_, u, rfl, rfl, hu⟩; exact ⟨u, by simp, hu⟩
  · rintro ⟨u, rfl, hu⟩; exact ⟨[x], u, by simp, rfl, hu⟩

theorem m_query (s : Str) : Matches (opt rQuery) s ↔ Part (Enc fun c => PathChar c ∨ IsPrivate c ∨ c ∈ py!"/?") py!"?" [] s := by
  refine m_part (fun t => ?_) s
  refine m_enc (fun t => ?_) t
  have hq : ∀ t, Matches (.alt rPrivate rSlashQ) t ↔ ∃ c, t = [c] ∧ (IsPrivate c ∨ c ∈ py!"/?") := by
    intro t
    rw [matches_alt, rPrivate, rSlashQ, m_cls_of in_private, m_cls_of (in_pair 47 63)]
    constructor
    · rintro (⟨c, rfl, h⟩ | ⟨c, rfl, h⟩)
      · exact ⟨c, rfl, Or.inl h⟩
      · exact ⟨c, rfl, Or.inr h⟩
    · rintro ⟨c, rfl, h | h⟩
      · exact Or.inl ⟨c, rfl, h⟩
      · exact Or.inr ⟨c, rfl, h⟩
  exact m_enc_alt m_pchar hq t

theorem m_frag (s : Str) : Matches (opt rFrag) s ↔ Part (Enc fun c => PathChar c ∨ c ∈ py!"/?") py!"#" [] s :=
  m_part (fun t => m_enc (fun t => m_enc_alt m_pchar (m_cls_of (in_pair 47 63)) t) t) s

theorem m_scheme (s : Str) : Matches (seqs [.cls false [(97, 122), (65, 90)],
    .star (.cls false [(97, 122), (65, 90), (48, 57), (43, 43), (45, 45), (46, 46)])]) s ↔ SchemeText s := by
  have h1 : ∀ c, inCls false [(97, 122), (65, 90)] c = true ↔ IsAlpha c := by
    simp [inCls, IsAlpha, IsLower, IsUpper]
  have h2 : ∀ c, inCls false [(97, 122), (65, 90), (48, 57), (43, 43), (45, 45), (46, 46)] c = true ↔ IsAlnum c ∨ c ∈ py!"+-." := by
    intro c
    simp only [inCls_pos, List.mem_cons, List.not_mem_nil, or_false, exists_eq_or_imp, exists_eq_left, IsAlnum, IsAlpha,
      IsUpper, IsLower, IsNum]
    omega
  rw [matches_seqs_cons]
  simp only [matches_seqs_one, matches_star_cls, h2, m_cls_of h1]
  constructor
  · rintro ⟨_, t, rfl, ⟨c, rfl, hc⟩, ht⟩; exact ⟨c, t, rfl, hc, ht⟩
  · rintro ⟨c, t, rfl, hc, ht⟩; exact ⟨[c], t, rfl, ⟨c, rfl, hc⟩, ht⟩

theorem m_iri (s : Str) : Matches rIri s ↔ ∃ sch auth p q f, s = sch ++ py!":" ++ auth ++ p ++ q ++ f ∧ SchemeText sch ∧
    NetAndPath auth p ∧ Matches (opt rQuery) q ∧ Matches (opt rFrag) f := by
  have := matches_seqs_append [.cls false [(97, 122), (65, 90)],
    .star (.cls false [(97, 122), (65, 90), (48, 57), (43, 43), (45, 45), (46, 46)])] [lit 58, rHier, opt rQuery, opt rFrag] s
  rw [List.cons_append, List.cons_append, List.nil_append] at this
  rw [rIri, this]
  simp only [m_scheme, matches_seqs_cons _ _ [_, _], matches_seqs_cons _ _ [_], matches_seqs_cons (opt rQuery), matches_seqs_one, matches_lit, m_hier]
  constructor
  · rintro ⟨sch, _, rfl, hs, _, _, rfl, rfl, _, _, rfl, ⟨auth, p, rfl, h1⟩, q, f, rfl, h2, h3⟩
    exact ⟨sch, auth, p, q, f, by simp, hs, h1, h2, h3⟩
  · rintro ⟨sch, auth, p, q, f, rfl, hs, h1, h2, h3⟩
    exact ⟨sch, 58 :: (auth ++ p ++ q ++ f), by simp, hs, [58], auth ++ p ++ q ++ f, rfl, rfl, auth ++ p, q ++ f, by simp,
      ⟨auth, p, rfl, h1⟩, q, f, rfl, h2, h3⟩

theorem m_relRef (s : Str) : Matches rRelRef s ↔ ∃ auth p q f, s = auth ++ p ++ q ++ f ∧ NetAndPath auth p ∧
    (auth = [] → NoColon p) ∧ Matches (opt rQuery) q ∧ Matches (opt rFrag) f := by
  rw [rRelRef]
  simp only [matches_seqs_cons _ _ [_], matches_seqs_cons (opt rQuery), matches_seqs_one, m_rel]
  constructor
  · rintro ⟨_, _, rfl, ⟨auth, p, rfl, h1, h2⟩, q, f, rfl, h3, h4⟩
    exact ⟨auth, p, q, f, by simp, h1, h2, h3, h4⟩
  · rintro ⟨auth, p, q, f, rfl, h1, h2, h3, h4⟩
    exact ⟨auth ++ p, q ++ f, by simp, ⟨auth, p, rfl, h1, h2⟩, q, f, rfl, h3, h4⟩

/-- the whole pattern -/
theorem m_anyUri (s : Str) : Matches anyUriRe s ↔ IriReference CodeGroups s := by
  rw [anyUriRe_eq]
  simp only [alts, matches_alt, m_iri, m_relRef, m_query, m_frag, IriReference]
  constructor
  · rintro (⟨sch, auth, p, q, f, rfl, hs, ⟨h1, h2, h3, h4⟩, h5, h6⟩ | ⟨auth, p, q, f, rfl, ⟨h1, h2, h3, h4⟩, hc, h5, h6⟩)
    · exact ⟨sch ++ py!":", auth, p, q, f, by simp, Or.inr ⟨sch, by simp, hs⟩, h1, h2, h5, h6, h3, h4, fun _ h => by simp at h⟩
    · exact ⟨[], auth, p, q, f, by simp, Or.inl rfl, h1, h2, h5, h6, h3, h4, fun h _ => hc h⟩
  · rintro ⟨sch, auth, p, q, f, rfl, hs, h1, h2, h5, h6, h3, h4, hc⟩
    rcases hs with rfl | ⟨sch, rfl, hs⟩
    · exact Or.inr ⟨auth, p, q, f, by simp, ⟨h1, h2, h3, h4⟩, fun h => hc h rfl, h5, h6⟩
    · exact Or.inl ⟨sch, auth, p, q, f, by simp, hs, ⟨h1, h2, h3, h4⟩, h5, h6⟩

end Verif.DataTypes.Uri
