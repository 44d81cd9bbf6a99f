import Verif.RegexLemmas
import Verif.DataTypes
import Verif.Spec.Text
import Verif.Spec.DataTypes

/-! # The language tag pattern as a description of subtags -/

namespace Verif.DataTypes
open Verif Re Spec

def rAlpha : Re := .cls false [(97, 122), (65, 90)]
def rNum : Re := .cls false [(48, 57)]
def rAlnum : Re := .cls false [(97, 122), (65, 90), (48, 57)]
def rSingle : Re := .cls false [(48, 57), (65, 87), (89, 90), (97, 119), (121, 122)]
def rep (r : Re) (lo k : Nat) : Re := .seq (pow r lo) (upTo r k)
def rExtlang : Re := seqs [lit 45, pow rAlpha 3, rep (seqs [lit 45, pow rAlpha 3]) 0 2]
def rLang : Re := alts [seqs [rep rAlpha 2 1, opt rExtlang], pow rAlpha 4, rep rAlpha 5 3]
def rScript : Re := seqs [lit 45, pow rAlpha 4]
def rRegion : Re := seqs [lit 45, alts [pow rAlpha 2, pow rNum 3]]
def rVariant : Re := seqs [lit 45, alts [rep rAlnum 5 3, seqs [rNum, pow rAlnum 3]]]
def rExtension : Re := seqs [lit 45, rSingle, plus (seqs [lit 45, rep rAlnum 2 6])]
def rX : Re := .cls false [(120, 120), (88, 88)]
def rPriv : Re := seqs [rX, plus (seqs [lit 45, rep rAlnum 1 7])]
def rPrivD : Re := seqs [lit 45, rX, plus (seqs [lit 45, rep rAlnum 1 7])]
def rLangtag : Re := seqs [rLang, opt rScript, opt rRegion, .star rVariant, .star rExtension, opt rPrivD]
def rGrand : Re := .alt (alts ((grandfatheredTags.take 17).map text)) (alts ((grandfatheredTags.drop 17).map text))

set_option maxRecDepth 10000 in
theorem bcp47Re_eq : bcp47Re = alts [rLangtag, rPriv, rGrand] := by decide +kernel

/-! ## subtags -/

/-- subtags, each preceded by a dash -/
def dashed (ts : List Str) : Str := (ts.map (45 :: ·)).flatten

theorem dashed_nil : dashed [] = [] := rfl
theorem dashed_cons (t : Str) (ts : List Str) : dashed (t :: ts) = 45 :: t ++ dashed ts := by simp [dashed]
theorem dashed_append (a b : List Str) : dashed (a ++ b) = dashed a ++ dashed b := by simp [dashed]
theorem dashed_flatten (es : List (List Str)) : dashed es.flatten = (es.map dashed).flatten := by
  induction es with
  | nil => rfl
  | cons e es ih => simp [dashed_append, ih]

theorem join_dashed (t : Str) (ts : List Str) : Py.join py!"-" (t :: ts) = t ++ dashed ts := by
  induction ts generalizing t with
  | nil => simp [Py.join, dashed]
  | cons u us ih => rw [Py.join, ih, dashed_cons]; simp; simp

theorem dashed_join {ts : List Str} (h : ts ≠ []) : dashed ts = 45 :: Py.join py!"-" ts := by
  cases ts with
  | nil => exact absurd rfl h
  | cons t ts => rw [join_dashed, dashed_cons]; rfl

theorem in_alpha (c : Nat) : inCls false [(97, 122), (65, 90)] c = true ↔ IsAlpha c := by
  simp [inCls, IsAlpha, IsLower, IsUpper]
theorem in_num (c : Nat) : inCls false [(48, 57)] c = true ↔ IsNum c := by simp [inCls, IsNum]
theorem in_alnum (c : Nat) : inCls false [(97, 122), (65, 90), (48, 57)] c = true ↔ IsAlnum c := by
  simp [inCls, IsAlnum, IsAlpha, IsLower, IsUpper, IsNum, or_assoc]
theorem in_single (c : Nat) : inCls false [(48, 57), (65, 87), (89, 90), (97, 119), (121, 122)] c = true ↔
    IsAlnum c ∧ c ≠ 120 ∧ c ≠ 88 := by
  simp [inCls, IsAlnum, IsAlpha, IsLower, IsUpper, IsNum]; omega

theorem m_run {P : Nat → Prop} {rs : List (Nat × Nat)} (h : ∀ c, inCls false rs c = true ↔ P c) (lo k : Nat) (s : Str) :
    Matches (rep (.cls false rs) lo k) s ↔ Run P lo (lo + k) s := by
  rw [rep, matches_rep_cls]; simp only [h, Run, and_assoc]

theorem m_exact {P : Nat → Prop} {rs : List (Nat × Nat)} (h : ∀ c, inCls false rs c = true ↔ P c) (n : Nat) (s : Str) :
    Matches (pow (.cls false rs) n) s ↔ Run P n n s := by
  rw [matches_pow_cls]; simp only [h, Run]
  constructor
  · rintro ⟨h1, h2⟩; exact ⟨by omega, by omega, h2⟩
  · rintro ⟨h1, h2, h3⟩; exact ⟨by omega, h3⟩

theorem m_dash (r : Re) (rs : List Re) (s : Str) :
    Matches (seqs (lit 45 :: r :: rs)) s ↔ ∃ t, s = 45 :: t ∧ Matches (seqs (r :: rs)) t := by
  rw [matches_seqs_cons]
  simp only [matches_lit]
  constructor
  · rintro ⟨u, v, rfl, rfl, h⟩; exact ⟨v, rfl, h⟩
  · rintro ⟨t, rfl, h⟩; exact ⟨[45], t, rfl, rfl, h⟩

/-- a repetition of dash and subtag -/
theorem dashed_of {P : Str → Prop} (ts : List Str) (h : ∀ t ∈ ts, ∃ u, t = 45 :: u ∧ P u) :
    ∃ us : List Str, ts.flatten = dashed us ∧ us.length = ts.length ∧ ∀ u ∈ us, P u := by
  induction ts with
  | nil => exact ⟨[], rfl, rfl, by simp⟩
  | cons t ts ih =>
    obtain ⟨u, rfl, hu⟩ := h t List.mem_cons_self
    obtain ⟨us, e, hl, hus⟩ := ih fun t ht => h t (List.mem_cons_of_mem _ ht)
    refine ⟨u :: us, by rw [dashed_cons, ← e]; rfl, by simp [hl], ?_⟩
    intro v hv
    rcases List.mem_cons.mp hv with rfl | hv
    · exact hu
    · exact hus v hv

theorem of_dashed {P : Str → Prop} (us : List Str) (h : ∀ u ∈ us, P u) :
    ∀ t ∈ us.map (45 :: ·), ∃ u, t = 45 :: u ∧ P u := by
  intro t ht
  obtain ⟨u, hu, rfl⟩ := List.mem_map.mp ht
  exact ⟨u, rfl, h u hu⟩

theorem m_star_dash {r : Re} {P : Str → Prop} (h : ∀ t, Matches r t ↔ ∃ u, t = 45 :: u ∧ P u) (s : Str) :
    Matches (.star r) s ↔ ∃ us : List Str, s = dashed us ∧ ∀ u ∈ us, P u := by
  rw [matches_star]
  simp only [h]
  constructor
  · rintro ⟨ts, rfl, h⟩
    obtain ⟨us, e, _, hus⟩ := dashed_of ts h
    exact ⟨us, e, hus⟩
  · rintro ⟨us, rfl, h⟩; exact ⟨_, rfl, of_dashed us h⟩

theorem m_plus_dash {r : Re} {P : Str → Prop} (h : ∀ t, Matches r t ↔ ∃ u, t = 45 :: u ∧ P u) (s : Str) :
    Matches (plus r) s ↔ ∃ us : List Str, s = dashed us ∧ us ≠ [] ∧ ∀ u ∈ us, P u := by
  rw [matches_plus]
  simp only [h]
  constructor
  · rintro ⟨ts, hne, rfl, h⟩
    obtain ⟨us, e, hl, hus⟩ := dashed_of ts h
    refine ⟨us, e, ?_, hus⟩
    rintro rfl
    exact hne (List.length_eq_zero_iff.mp hl.symm)
  · rintro ⟨us, rfl, hne, h⟩; exact ⟨_, by simpa using hne, rfl, of_dashed us h⟩

theorem m_upTo_dash {r : Re} {P : Str → Prop} (h : ∀ t, Matches r t ↔ ∃ u, t = 45 :: u ∧ P u) (n : Nat) (s : Str) :
    Matches (upTo r n) s ↔ ∃ us : List Str, s = dashed us ∧ us.length ≤ n ∧ ∀ u ∈ us, P u := by
  rw [matches_upTo]
  simp only [h]
  constructor
  · rintro ⟨ts, hn, rfl, h⟩
    obtain ⟨us, e, hl, hus⟩ := dashed_of ts h
    exact ⟨us, e, by omega, hus⟩
  · rintro ⟨us, rfl, hn, h⟩; exact ⟨_, by simpa using hn, rfl, of_dashed us h⟩

theorem m_sub {r : Re} {P : Str → Prop} (h : ∀ t, Matches r t ↔ P t) (s : Str) :
    Matches (seqs [lit 45, r]) s ↔ ∃ t, s = 45 :: t ∧ P t := by
  rw [m_dash]; simp only [matches_seqs_one, h]

theorem m_opt_dash {r : Re} {P : Str → Prop} (h : ∀ t, Matches r t ↔ ∃ u, t = 45 :: u ∧ P u) (s : Str) :
    Matches (opt r) s ↔ ∃ ts, s = dashed ts ∧ Optional P ts := by
  rw [matches_opt, h]
  constructor
  · rintro (rfl | ⟨u, rfl, hu⟩)
    · exact ⟨[], rfl, Or.inl rfl⟩
    · exact ⟨[u], by simp [dashed], Or.inr ⟨u, rfl, hu⟩⟩
  · rintro ⟨ts, rfl, rfl | ⟨u, rfl, hu⟩⟩
    · exact Or.inl rfl
    · exact Or.inr ⟨u, by simp [dashed], hu⟩

/-! ## the parts -/

theorem m_extlang (s : Str) : Matches rExtlang s ↔
    ∃ us : List Str, s = dashed us ∧ us ≠ [] ∧ us.length ≤ 3 ∧ ∀ u ∈ us, Run IsAlpha 3 3 u := by
  have hrep : ∀ v, Matches (rep (seqs [lit 45, pow rAlpha 3]) 0 2) v ↔
      ∃ us : List Str, v = dashed us ∧ us.length ≤ 2 ∧ ∀ u ∈ us, Run IsAlpha 3 3 u := by
    intro v
    rw [← m_upTo_dash (r := seqs [lit 45, pow rAlpha 3]) (m_sub (m_exact in_alpha 3)), rep, matches_seq]
    simp only [show pow (seqs [lit 45, pow rAlpha 3]) 0 = .eps from rfl, matches_eps]
    constructor
    · rintro ⟨_, w, rfl, rfl, h⟩; exact h
    · intro h; exact ⟨[], v, rfl, rfl, h⟩
  have h3 : ∀ t, Matches (pow rAlpha 3) t ↔ Run IsAlpha 3 3 t := m_exact in_alpha 3
  rw [rExtlang, m_dash]
  simp only [matches_seqs_cons, matches_seqs_one, hrep, h3]
  constructor
  · rintro ⟨t, rfl, u, v, rfl, hu, us, rfl, hl, hus⟩
    refine ⟨u :: us, by simp [dashed_cons], by simp, by simp; omega, ?_⟩
    intro x hx
    rcases List.mem_cons.mp hx with rfl | hx
    · exact hu
    · exact hus x hx
  · rintro ⟨us, rfl, hne, hl, hus⟩
    cases us with
    | nil => exact absurd rfl hne
    | cons u us =>
      refine ⟨u ++ dashed us, by simp [dashed_cons], u, dashed us, rfl, hus u List.mem_cons_self, us, rfl, ?_,
        fun x hx => hus x (List.mem_cons_of_mem _ hx)⟩
      simp at hl; omega

theorem m_lang (s : Str) : Matches rLang s ↔ ∃ ts, s = Py.join py!"-" ts ∧ LanguagePart ts := by
  rw [rLang, matches_alts]
  constructor
  · rintro ⟨r, hr, h⟩
    simp only [List.mem_cons, List.not_mem_nil, or_false] at hr
    rcases hr with rfl | rfl | rfl
    · rw [matches_seqs_cons, ] at h
      obtain ⟨u, v, rfl, hu, hv⟩ := h
      rw [matches_seqs_one, matches_opt, m_extlang] at hv
      have hu := (m_run in_alpha 2 1 u).mp hu
      rcases hv with rfl | ⟨us, rfl, hne, hl, hus⟩
      · exact ⟨[u], by simp [Py.join], Or.inl ⟨u, [], rfl, hu, by simp, by simp⟩⟩
      · exact ⟨u :: us, by rw [join_dashed], Or.inl ⟨u, us, rfl, hu, hl, hus⟩⟩
    · have h := (m_exact in_alpha 4 s).mp h
      exact ⟨[s], rfl, Or.inr ⟨s, rfl, h.1, by have := h.2.1; omega, h.2.2⟩⟩
    · have h := (m_run in_alpha 5 3 s).mp h
      exact ⟨[s], rfl, Or.inr ⟨s, rfl, by have := h.1; omega, h.2.1, h.2.2⟩⟩
  · rintro ⟨ts, rfl, ⟨l, exts, rfl, hl, he, hes⟩ | ⟨l, rfl, h⟩⟩
    · refine ⟨_, List.mem_cons_self, ?_⟩
      rw [matches_seqs_cons, join_dashed]
      refine ⟨l, dashed exts, rfl, (m_run in_alpha 2 1 l).mpr hl, ?_⟩
      rw [matches_seqs_one, matches_opt, m_extlang]
      by_cases hne : exts = []
      · exact Or.inl (by rw [hne]; rfl)
      · exact Or.inr ⟨exts, rfl, hne, he, hes⟩
    · by_cases h4 : l.length = 4
      · exact ⟨pow rAlpha 4, by simp, (m_exact in_alpha 4 l).mpr ⟨h.1, by omega, h.2.2⟩⟩
      · exact ⟨rep rAlpha 5 3, by simp, (m_run in_alpha 5 3 l).mpr ⟨by have := h.1; omega, h.2.1, h.2.2⟩⟩

theorem m_script (s : Str) : Matches rScript s ↔ ∃ t, s = 45 :: t ∧ ScriptSub t :=
  m_sub (m_exact in_alpha 4) s

theorem m_region (s : Str) : Matches rRegion s ↔ ∃ t, s = 45 :: t ∧ RegionSub t := by
  refine m_sub (fun t => ?_) s
  rw [matches_alts, RegionSub, ← m_exact in_alpha, ← m_exact in_num]
  simp [rAlpha, rNum]

theorem m_variant (s : Str) : Matches rVariant s ↔ ∃ t, s = 45 :: t ∧ VariantSub t := by
  refine m_sub (fun t => ?_) s
  have h1 : Matches (seqs [rNum, pow rAlnum 3]) t ↔ ∃ d u, t = d :: u ∧ IsNum d ∧ Run IsAlnum 3 3 u := by
    rw [matches_seqs_cons]
    simp only [matches_seqs_one, rNum, matches_cls, in_num]
    constructor
    · rintro ⟨u, v, rfl, ⟨c, rfl, hc⟩, h⟩; exact ⟨c, v, rfl, hc, (m_exact in_alnum 3 v).mp h⟩
    · rintro ⟨d, u, rfl, hd, hu⟩; exact ⟨[d], u, rfl, ⟨d, rfl, hd⟩, (m_exact in_alnum 3 u).mpr hu⟩
  rw [matches_alts, VariantSub, ← h1, ← m_run in_alnum 5 3]
  simp [rAlnum]

theorem join_sub (x : Str) (us : List Str) : 45 :: (x ++ dashed us) = dashed (x :: us) := by simp [dashed_cons]

theorem m_extension (s : Str) : Matches rExtension s ↔ ∃ ts, s = dashed ts ∧ ExtensionPart ts := by
  rw [rExtension, m_dash]
  simp only [matches_seqs_cons, matches_seqs_one, rSingle, matches_cls, in_single,
    m_plus_dash (m_sub (m_run in_alnum 2 6)), rAlnum]
  constructor
  · rintro ⟨t, rfl, u, v, rfl, ⟨c, rfl, hc⟩, us, rfl, hne, hus⟩
    exact ⟨[c] :: us, join_sub _ _, [c], us, rfl, ⟨c, rfl, hc⟩, hne, hus⟩
  · rintro ⟨ts, rfl, x, us, rfl, ⟨c, rfl, hc⟩, hne, hus⟩
    exact ⟨_, (join_sub _ _).symm, [c], dashed us, rfl, ⟨c, rfl, hc⟩, us, rfl, hne, hus⟩

theorem m_x (s : Str) : Matches rX s ↔ s = py!"x" ∨ s = py!"X" := by
  rw [rX, matches_cls]
  constructor
  · rintro ⟨c, rfl, h⟩
    simp [inCls] at h
    have : c = 120 ∨ c = 88 := by omega
    rcases this with rfl | rfl <;> simp
  · rintro (rfl | rfl)
    · exact ⟨120, rfl, rfl⟩
    · exact ⟨88, rfl, rfl⟩

theorem m_priv (s : Str) : Matches rPriv s ↔ ∃ ts, s = Py.join py!"-" ts ∧ PrivatePart ts := by
  rw [rPriv]
  simp only [matches_seqs_cons, matches_seqs_one, m_x, m_plus_dash (m_sub (m_run in_alnum 1 7)), rAlnum]
  constructor
  · rintro ⟨u, v, rfl, hu, us, rfl, hne, hus⟩
    exact ⟨u :: us, (join_dashed _ _).symm, u, us, rfl, hu, hne, hus⟩
  · rintro ⟨ts, rfl, x, us, rfl, hx, hne, hus⟩
    exact ⟨x, dashed us, join_dashed _ _, hx, us, rfl, hne, hus⟩

theorem m_privD (s : Str) : Matches rPrivD s ↔ ∃ ts, s = dashed ts ∧ PrivatePart ts := by
  have h := m_priv
  rw [rPriv] at h
  rw [rPrivD, m_dash]
  simp only [h]
  constructor
  · rintro ⟨t, rfl, ts, rfl, hts⟩
    exact ⟨ts, (dashed_join (by obtain ⟨x, us, rfl, _⟩ := hts; simp)).symm, hts⟩
  · rintro ⟨ts, rfl, hts⟩
    exact ⟨_, dashed_join (by obtain ⟨x, us, rfl, _⟩ := hts; simp), ts, rfl, hts⟩

theorem m_extensions (s : Str) : Matches (.star rExtension) s ↔
    ∃ es : List (List Str), s = dashed es.flatten ∧ ∀ e ∈ es, ExtensionPart e := by
  rw [matches_star]
  simp only [m_extension]
  constructor
  · rintro ⟨ts, rfl, h⟩
    induction ts with
    | nil => exact ⟨[], rfl, by simp⟩
    | cons t ts ih =>
      obtain ⟨e, he, hp⟩ := h t List.mem_cons_self
      obtain ⟨es, hes, hps⟩ := ih fun t ht => h t (List.mem_cons_of_mem _ ht)
      refine ⟨e :: es, ?_, ?_⟩
      · rw [List.flatten_cons, List.flatten_cons, dashed_append, he, hes]
      · intro x hx
        rcases List.mem_cons.mp hx with rfl | hx
        · exact hp
        · exact hps x hx
  · rintro ⟨es, rfl, h⟩
    refine ⟨es.map dashed, dashed_flatten es, ?_⟩
    intro t ht
    obtain ⟨e, he, rfl⟩ := List.mem_map.mp ht
    exact ⟨e, rfl, h e he⟩

theorem join_append {a b : List Str} (h : a ≠ []) : Py.join py!"-" (a ++ b) = Py.join py!"-" a ++ dashed b := by
  cases a with
  | nil => exact absurd rfl h
  | cons x a => rw [List.cons_append, join_dashed, join_dashed, dashed_append, List.append_assoc]

theorem m_langtag (s : Str) : Matches rLangtag s ↔ ∃ ts, s = Py.join py!"-" ts ∧ LangtagParts ts := by
  rw [rLangtag]
  simp only [matches_seqs_cons, matches_seqs_one, m_lang, m_opt_dash m_script, m_opt_dash m_region,
    m_star_dash m_variant, m_extensions, matches_opt, m_privD]
  have hne : ∀ {l}, LanguagePart l → l ≠ [] := by
    rintro l (⟨x, es, rfl, _⟩ | ⟨x, rfl, _⟩) <;> simp
  constructor
  · rintro ⟨_, _, rfl, ⟨l, rfl, hl⟩, _, _, rfl, ⟨sc, rfl, hs⟩, _, _, rfl, ⟨rg, rfl, hr⟩, _, _, rfl, ⟨vs, rfl, hv⟩, _, p, rfl,
      ⟨es, rfl, he⟩, hp⟩
    have hp : ∃ ps, p = dashed ps ∧ (ps = [] ∨ PrivatePart ps) := by
      rcases hp with rfl | ⟨ps, rfl, hps⟩
      · exact ⟨[], rfl, Or.inl rfl⟩
      · exact ⟨ps, rfl, Or.inr hps⟩
    obtain ⟨ps, rfl, hps⟩ := hp
    refine ⟨_, ?_, l, sc, rg, vs, es, ps, rfl, hl, hs, hr, hv, he, hps⟩
    simp only [List.append_assoc]
    rw [join_append (hne hl)]
    simp only [dashed_append]
  · rintro ⟨_, rfl, l, sc, rg, vs, es, ps, rfl, hl, hs, hr, hv, he, hp⟩
    refine ⟨_, _, ?_, ⟨l, rfl, hl⟩, _, _, rfl, ⟨sc, rfl, hs⟩, _, _, rfl, ⟨rg, rfl, hr⟩, _, _, rfl, ⟨vs, rfl, hv⟩, _,
      dashed ps, rfl, ⟨es, rfl, he⟩, ?_⟩
    · simp only [List.append_assoc]
      rw [join_append (hne hl)]
      simp only [dashed_append]
    · rcases hp with rfl | hp
      · exact Or.inl rfl
      · exact Or.inr ⟨ps, rfl, hp⟩

theorem m_grand (s : Str) : Matches rGrand s ↔ s ∈ grandfatheredTags := by
  rw [rGrand, matches_alt, matches_alts, matches_alts]
  have key : ∀ l : List Str, (∃ r ∈ l.map text, Matches r s) ↔ s ∈ l := by
    intro l
    constructor
    · rintro ⟨r, hr, h⟩
      obtain ⟨g, hg, rfl⟩ := List.mem_map.mp hr
      rw [(matches_text g s).mp h]; exact hg
    · intro h; exact ⟨text s, List.mem_map.mpr ⟨s, h, rfl⟩, (matches_text s s).mpr rfl⟩
  rw [key, key, ← List.mem_append, List.take_append_drop]

theorem m_bcp47 (s : Str) : Matches bcp47Re s ↔ LanguageTagExactCase s := by
  rw [bcp47Re_eq, matches_alts, LanguageTagExactCase]
  simp only [List.mem_cons, List.not_mem_nil, or_false]
  constructor
  · rintro ⟨r, rfl | rfl | rfl, h⟩
    · obtain ⟨ts, e, h⟩ := (m_langtag s).mp h; exact Or.inl ⟨ts, e, Or.inl h⟩
    · obtain ⟨ts, e, h⟩ := (m_priv s).mp h; exact Or.inl ⟨ts, e, Or.inr h⟩
    · exact Or.inr ((m_grand s).mp h)
  · rintro (⟨ts, e, h | h⟩ | h)
    · exact ⟨_, Or.inl rfl, (m_langtag s).mpr ⟨ts, e, h⟩⟩
    · exact ⟨_, Or.inr (Or.inl rfl), (m_priv s).mpr ⟨ts, e, h⟩⟩
    · exact ⟨_, Or.inr (Or.inr rfl), (m_grand s).mpr h⟩

end Verif.DataTypes
