import Verif.LangLemmas
import Verif.UriLemmas4

/-! # C25, C26: URIs and language tags -/

namespace Verif.Props
open Verif Re Spec DataTypes

/-! ## C25 -/

theorem ipv6_mono {A B : Nat → Nat → Prop} (h : ∀ m n, A m n → B m n) {t : Str} (ht : Ipv6 A t) : Ipv6 B t := by
  rcases ht with h8 | ⟨m, n, l, r, e, hl, hr, ho⟩
  · exact Or.inl h8
  · exact Or.inr ⟨m, n, l, r, e, hl, hr, h m n ho⟩

theorem authority_mono {A B : Nat → Nat → Prop} (h : ∀ m n, A m n → B m n) {t : Str} (ht : AuthorityText A t) :
    AuthorityText B t := by
  obtain ⟨u, ho, p, e, h1, h2, h3⟩ := ht
  refine ⟨u, ho, p, e, h1, ?_, h3⟩
  rcases h2 with h2 | ⟨ip, e2, h2 | h2⟩
  · exact Or.inl h2
  · exact Or.inr ⟨ip, e2, Or.inl (ipv6_mono h h2)⟩
  · exact Or.inr ⟨ip, e2, Or.inr h2⟩

theorem iri_mono {A B : Nat → Nat → Prop} (h : ∀ m n, A m n → B m n) {s : Str} (hs : IriReference A s) : IriReference B s := by
  obtain ⟨sch, au, p, q, f, e, h1, h2, h3⟩ := hs
  refine ⟨sch, au, p, q, f, e, h1, ?_, h3⟩
  rcases h2 with h2 | ⟨u, e2, h2⟩
  · exact Or.inl h2
  · exact Or.inr ⟨u, e2, authority_mono h h2⟩

theorem code_rfc (m n : Nat) (h : CodeGroups m n) : RfcGroups m n := by
  unfold CodeGroups at h; unfold RfcGroups; omega

/-- C25, exactly what `is_any_uri` accepts: IRI references of RFC 3987, but for IPv6 addresses only those with certain
numbers of groups around `::`, and with an optional final line feed. Missing for the full claim: the other IPv6 addresses
(`C25_ipv6_violated`), and the line feed (`C25_line_feed_violated`). -/
theorem C25_any_uri_partial (s : Str) : isAnyUri s = true ↔ OrLineFeed (IriReference CodeGroups) s := by
  rw [isAnyUri, anchoredMatch_iff, OrLineFeed]
  simp only [Uri.m_anyUri]

theorem part_no {P : Str → Prop} {b a t : Str} {x : Nat} (h : Part P b a t) (hb : x ∉ b) (ha : x ∉ a) (hP : ∀ u, P u → x ∉ u) : x ∉ t := by
  rcases h with rfl | ⟨u, rfl, hu⟩
  · simp
  · simp [hb, ha, hP u hu]

/-- C25: whatever is accepted and does not end in a line feed is an IRI reference of RFC 3987. -/
theorem C25_sound (s : Str) (h : isAnyUri s = true) (hl : s.getLast? ≠ some 10) : IriReference RfcGroups s := by
  rcases (C25_any_uri_partial s).mp h with h | ⟨t, rfl, _⟩
  · exact iri_mono code_rfc h
  · simp at hl

/-- C25: the characters of accepted values are those of RFC 3987, every % starts an escape sequence, and there is at most
one `#`, one `[` and one `]`. -/
theorem C25_characters (s : Str) (h : isAnyUri s = true) (hl : s.getLast? ≠ some 10) :
    (∀ c ∈ s, UriChar c ∨ c = pc! '%') ∧ Escaped s ∧ s.count (pc! '#') ≤ 1 ∧ s.count (pc! '[') ≤ 1 ∧ s.count (pc! ']') ≤ 1 := by
  have hm : Matches anyUriRe s := by
    rw [isAnyUri, anchoredMatch_iff] at h
    rcases h with h | ⟨t, rfl, _⟩
    · exact h
    · simp at hl
  have he := escRe_sound _ _ hm Uri.escRe_uri
  exact ⟨he.chars, he.escaped, most_sound _ _ _ hm 1 Uri.most_hash, most_sound _ _ _ hm 1 Uri.most_open, most_sound _ _ _ hm 1 Uri.most_close⟩

theorem enc_plain {P : Nat → Prop} {s : Str} (h : ∀ c ∈ s, P c) : Enc P s := by
  induction s with
  | nil => exact .nil
  | cons c s ih => exact .char (h c List.mem_cons_self) (ih fun d hd => h d (List.mem_cons_of_mem _ hd))

/-- C25: every URI of a scheme, an authority and path segments of unreserved characters is accepted. -/
theorem C25_accepts (sch host : Str) (segs : List Str) (hs : SchemeText sch) (hh : ∀ c ∈ host, IsUnreserved c)
    (hp : ∀ s ∈ segs, ∀ c ∈ s, IsUnreserved c) : isAnyUri (sch ++ py!"://" ++ host ++ pathOf segs) = true := by
  rw [C25_any_uri_partial]
  have hpath : Enc Uri.PathOrSlash (pathOf segs) :=
    (Uri.path_split _).mpr ⟨[], segs, rfl, .nil, fun s h => enc_plain fun c hc => Or.inl (Or.inl (hp s h c hc))⟩
  refine Or.inl ⟨sch ++ py!":", py!"//" ++ host, pathOf segs, [], [], ?_, Or.inr ⟨sch, by simp, hs⟩, Or.inr ⟨host, by simp, ?_⟩, hpath,
    Or.inl rfl, Or.inl rfl, ?_, ?_, ?_⟩
  · simp
  · exact ⟨[], host, [], by simp, Or.inl rfl, Or.inl (enc_plain fun c hc => Or.inl (hh c hc)), Or.inl rfl⟩
  · intro _
    cases segs with
    | nil => exact Or.inl rfl
    | cons s ss => exact Or.inr ⟨s ++ pathOf ss, by simp [pathOf]⟩
  · intro h; simp at h
  · intro h; simp at h

example : isAnyUri (py!"https" ++ py!"://" ++ py!"admin-shell.io" ++ pathOf [py!"aas", py!"3", py!""]) = true :=
  C25_accepts _ _ _ ⟨pc! 'h', py!"ttps", rfl, by decide, by decide⟩
    (by intro c hc; simp only [List.mem_cons, List.not_mem_nil, or_false] at hc
        simp only [IsUnreserved, IsAlnum, IsAlpha, IsUpper, IsLower, IsNum, List.mem_cons, List.not_mem_nil, or_false]; omega)
    (by intro s hs c hc
        simp only [List.mem_cons, List.not_mem_nil, or_false] at hs
        rcases hs with rfl | rfl | rfl <;> simp only [List.mem_cons, List.not_mem_nil, or_false] at hc
        all_goals simp only [IsUnreserved, IsAlnum, IsAlpha, IsUpper, IsLower, IsNum, List.mem_cons, List.not_mem_nil, or_false]; omega)

/-- C25 fails for a final line feed: `"a\\n"` is accepted. -/
theorem C25_line_feed_violated : isAnyUri py!"a\n" = true ∧ ¬ UriChar 10 := by
  constructor
  · rw [C25_any_uri_partial]
    refine Or.inr ⟨py!"a", rfl, [], [], py!"a", [], [], rfl, Or.inl rfl, Or.inl rfl, ?_, Or.inl rfl, Or.inl rfl, ?_, ?_, ?_⟩
    · exact .char (Or.inl (Or.inl (Or.inl (Or.inl (by decide))))) .nil
    · intro h; exact absurd rfl h
    · rintro _ ⟨p, h⟩; simp at h
    · rintro _ _ ⟨u, v, h, _⟩
      have : (58 : Nat) ∈ py!"a" := by rw [h]; simp
      simp at this
  · simp only [UriChar, IsUnreserved, IsAlnum, IsAlpha, IsUpper, IsLower, IsNum, IsSubDelim, IsGenDelim, IsPrivate,
      List.mem_cons, List.not_mem_nil, or_false, IsUcs]
    rintro ((h | h | h) | h | h | h)
    · omega
    · omega
    · rcases h with h | h | h | ⟨p, h⟩ | h <;> omega
    · omega
    · omega
    · omega

set_option maxRecDepth 100000 in
/-- C25 fails for IPv6 addresses: RFC 3986 allows up to 6 groups before `::` and one after it, the code exactly none or 6. -/
theorem C25_ipv6_violated : IriReference RfcGroups py!"http://[fe80::1]/" ∧ isAnyUri py!"http://[fe80::1]/" = false := by
  refine ⟨⟨py!"http:", py!"//[fe80::1]", py!"/", [], [], rfl, Or.inr ⟨py!"http", rfl, pc! 'h', py!"ttp", rfl, by decide, by decide⟩,
    Or.inr ⟨py!"[fe80::1]", rfl, [], py!"[fe80::1]", [], rfl, Or.inl rfl, Or.inr ⟨py!"fe80::1", rfl, Or.inl ?_⟩, Or.inl rfl⟩,
    .char (Or.inr rfl) .nil, Or.inl rfl, Or.inl rfl, fun _ => Or.inr ⟨[], rfl⟩, fun h => by simp at h, fun h => by simp at h⟩,
    by rw [isAnyUri, Uri.anyUriRe_eq]; decide +kernel⟩
  refine Or.inr ⟨1, 1, py!"fe80", py!"1", rfl, ⟨[py!"fe80"], rfl, ?_, rfl⟩, Or.inl ⟨[py!"1"], rfl, ?_, rfl⟩, ?_⟩
  · intro g h; rw [List.mem_singleton.mp h]; unfold Hextet; decide
  · intro g h; rw [List.mem_singleton.mp h]; unfold Hextet; decide
  · unfold RfcGroups; omega

/-! ## C26 -/

/-- C26, exactly what `is_bcp_lang_string` accepts. Missing for the full claim: grandfathered tags in another case
(`C26_grandfathered_case_violated`), and the final line feed (`C26_line_feed_violated`). -/
theorem C26_tag_partial (s : Str) : isBcpLangString s = true ↔ OrLineFeed LanguageTagExactCase s := by
  rw [isBcpLangString, anchoredMatch_iff, OrLineFeed]
  simp only [m_bcp47]

/-- C26: whatever is accepted and does not end in a line feed is a language tag of BCP 47. -/
theorem C26_sound (s : Str) (h : isBcpLangString s = true) (hl : s.getLast? ≠ some 10) : LanguageTag s := by
  rcases (C26_tag_partial s).mp h with (h | h) | ⟨t, rfl, _⟩
  · exact Or.inl h
  · exact Or.inr ⟨s, h, rfl⟩
  · simp at hl

/-- C26: every langtag and every private use tag is accepted. -/
theorem C26_accepts (ts : List Str) (h : LangtagParts ts ∨ PrivatePart ts) : isBcpLangString (Py.join py!"-" ts) = true :=
  (C26_tag_partial _).mpr (Or.inl (Or.inl ⟨ts, rfl, h⟩))

/-- C26: every grandfathered tag, as registered, is accepted. -/
theorem C26_accepts_grandfathered (s : Str) (h : s ∈ grandfatheredTags) : isBcpLangString s = true :=
  (C26_tag_partial _).mpr (Or.inl (Or.inr h))

/-- C26 fails for grandfathered tags in another case. -/
theorem C26_grandfathered_case_violated : LanguageTag py!"I-KLINGON" ∧ isBcpLangString py!"I-KLINGON" = false := by
  refine ⟨Or.inr ⟨py!"i-klingon", by decide, by unfold SameLetters; decide⟩, by rw [isBcpLangString, bcp47Re_eq]; decide +kernel⟩

theorem langtag_chars {ts : List Str} (h : LangtagParts ts ∨ PrivatePart ts) : ∀ t ∈ ts, ∀ c ∈ t, IsAlnum c := by
  have hx : ∀ {P : Nat → Prop} {lo hi : Nat} {t : Str}, (∀ c, P c → IsAlnum c) → Run P lo hi t → ∀ c ∈ t, IsAlnum c :=
    fun hP h c hc => hP c (h.2.2 c hc)
  have ha : ∀ c, IsAlpha c → IsAlnum c := fun c h => Or.inl h
  have hn : ∀ c, IsNum c → IsAlnum c := fun c h => Or.inr h
  have hpriv : ∀ ts, PrivatePart ts → ∀ t ∈ ts, ∀ c ∈ t, IsAlnum c := by
    rintro _ ⟨x, us, rfl, hx1, _, hus⟩ t ht c hc
    rcases List.mem_cons.mp ht with rfl | ht
    · rcases hx1 with rfl | rfl <;> (rw [List.mem_singleton.mp hc]; decide)
    · exact (hus t ht).2.2 c hc
  rcases h with ⟨lang, sc, rg, vs, es, pr, rfl, h1, h2, h3, h4, h5, h6⟩ | h
  · intro t ht c hc
    simp only [List.mem_append, List.mem_flatten] at ht
    rcases ht with ((((ht | ht) | ht) | ht) | ⟨e, he, ht⟩) | ht
    · rcases h1 with ⟨l, exts, rfl, hl, _, hes⟩ | ⟨l, rfl, hl⟩
      · rcases List.mem_cons.mp ht with rfl | ht
        · exact hx ha hl c hc
        · exact hx ha (hes t ht) c hc
      · rw [List.mem_singleton.mp ht] at hc; exact hx ha hl c hc
    · rcases h2 with rfl | ⟨l, rfl, hl⟩
      · cases ht
      · rw [List.mem_singleton.mp ht] at hc; exact hx ha hl c hc
    · rcases h3 with rfl | ⟨l, rfl, hl | hl⟩
      · cases ht
      · rw [List.mem_singleton.mp ht] at hc; exact hx ha hl c hc
      · rw [List.mem_singleton.mp ht] at hc; exact hx hn hl c hc
    · rcases h4 t ht with h | ⟨d, u, rfl, hd, hu⟩
      · exact h.2.2 c hc
      · rcases List.mem_cons.mp hc with rfl | hc
        · exact hn _ hd
        · exact hu.2.2 c hc
    · obtain ⟨x, us, rfl, ⟨k, rfl, hk, _⟩, _, hus⟩ := h5 e he
      rcases List.mem_cons.mp ht with rfl | ht
      · rw [List.mem_singleton.mp hc]; exact hk
      · exact (hus t ht).2.2 c hc
    · rcases h6 with rfl | h6
      · cases ht
      · exact hpriv _ h6 t ht c hc
  · exact hpriv _ h

/-- language tags consist of letters, digits and dashes -/
theorem languageTag_chars (s : Str) (h : LanguageTag s) : ∀ c ∈ s, c ≠ 10 := by
  rcases h with ⟨ts, rfl, h⟩ | ⟨g, hg, h⟩
  · have := langtag_chars h
    clear h
    intro c hc
    have hj : ∀ c ∈ Py.join py!"-" ts, c = 45 ∨ ∃ t ∈ ts, c ∈ t := by
      clear this hc
      induction ts with
      | nil => intro c hc; simp [Py.join] at hc
      | cons t ts ih =>
        intro c hc
        rw [join_dashed] at hc
        rcases List.mem_append.mp hc with hc | hc
        · exact Or.inr ⟨t, by simp, hc⟩
        · simp only [dashed, List.mem_flatten, List.mem_map] at hc
          obtain ⟨_, ⟨u, hu, rfl⟩, hc⟩ := hc
          rcases List.mem_cons.mp hc with rfl | hc
          · exact Or.inl rfl
          · exact Or.inr ⟨u, by simp [hu], hc⟩
    rcases hj c hc with rfl | ⟨t, ht, hct⟩
    · decide
    · have := this t ht c hct
      simp only [IsAlnum, IsAlpha, IsUpper, IsLower, IsNum] at this; omega
  · have hall : ∀ g ∈ grandfatheredTags, 10 ∉ g.map lowerCase := by decide
    intro c hc e
    subst e
    refine hall g hg ?_
    rw [← h]
    exact List.mem_map.mpr ⟨10, hc, rfl⟩

/-- C26 fails for a final line feed: `"en\\n"` is accepted and no language tag. -/
theorem C26_line_feed_violated : isBcpLangString py!"en\n" = true ∧ ¬ LanguageTag py!"en\n" :=
  ⟨by rw [isBcpLangString, bcp47Re_eq]; decide +kernel, fun h => languageTag_chars _ h 10 (by decide) rfl⟩

theorem englishRe_eq : englishRe = seqs [alts [text py!"en", text py!"EN"], opt (seqs [lit 45, .star (.cls true [(10, 10)])])] := by
  decide +kernel

/-- C26, exactly what `is_bcp_47_for_english` accepts: for texts without line feeds, `en` or `EN`, alone or followed by a dash
and anything. Missing for the full claim: texts with a line feed, where a final one is accepted and any other rejected. -/
theorem C26_english_partial (s : Str) :
    isBcp47ForEnglish s = true ↔ OrLineFeed (fun t => EnglishTag t ∧ 10 ∉ t) s := by
  have hn : ∀ c, inCls true [(10, 10)] c = true ↔ c ≠ 10 := by intro c; simp [inCls]; omega
  have key : ∀ t, Matches englishRe t ↔ EnglishTag t ∧ 10 ∉ t := by
    intro t
    rw [englishRe_eq, matches_seqs_cons]
    simp only [matches_seqs_one, matches_opt, matches_seqs_cons, matches_lit, matches_star_cls, alts, matches_alt, matches_text, hn]
    constructor
    · rintro ⟨l, _, rfl, hl, rfl | ⟨_, t, rfl, rfl, ht⟩⟩
      · refine ⟨⟨l, hl, Or.inl (by simp)⟩, ?_⟩
        rcases hl with rfl | rfl <;> decide
      · refine ⟨⟨l, hl, Or.inr ⟨t, by simp⟩⟩, ?_⟩
        simp only [List.mem_append, not_or]
        refine ⟨?_, by decide, fun h => ht 10 h rfl⟩
        rcases hl with rfl | rfl <;> decide
    · rintro ⟨⟨l, hl, rfl | ⟨t, rfl⟩⟩, h⟩
      · exact ⟨t, [], by simp, hl, Or.inl rfl⟩
      · exact ⟨l, py!"-" ++ t, by simp, hl, Or.inr ⟨_, t, rfl, rfl, fun c hc e => h (by rw [← e]; simp [hc])⟩⟩
  rw [isBcp47ForEnglish, anchoredMatch_iff, OrLineFeed]
  simp only [key]

/-- C26, the check for English on one line -/
theorem C26_english (s : Str) (h : 10 ∉ s) : isBcp47ForEnglish s = true ↔ EnglishTag s := by
  rw [C26_english_partial, OrLineFeed]
  constructor
  · rintro (h | ⟨t, rfl, _⟩)
    · exact h.1
    · simp at h
  · intro hs; exact Or.inl ⟨hs, h⟩

example : EnglishTag py!"en-GB" ∧ 10 ∉ py!"en-GB" := ⟨⟨py!"en", Or.inl rfl, Or.inr ⟨py!"GB", rfl⟩⟩, by decide⟩

/-- C26 fails for texts with line feeds. -/
theorem C26_english_violated : (isBcp47ForEnglish py!"en\n" = true ∧ ¬ EnglishTag py!"en\n") ∧
    (isBcp47ForEnglish py!"en-a\nb" = false ∧ EnglishTag py!"en-a\nb") := by
  refine ⟨⟨by decide +kernel, ?_⟩, by decide +kernel, py!"en", Or.inl rfl, Or.inr ⟨py!"a\nb", rfl⟩⟩
  rintro ⟨l, rfl | rfl, h | ⟨t, h⟩⟩ <;> simp at h

example : LangtagParts [py!"zh", py!"cmn", py!"Hans", py!"CN", py!"1996", py!"a", py!"bb", py!"x", py!"p"] := by
  refine ⟨[py!"zh", py!"cmn"], [py!"Hans"], [py!"CN"], [py!"1996"], [[py!"a", py!"bb"]], [py!"x", py!"p"], rfl,
    Or.inl ⟨_, _, rfl, by decide, by decide, by decide⟩, Or.inr ⟨_, rfl, ?_⟩, Or.inr ⟨_, rfl, Or.inl (by decide)⟩, ?_, ?_,
    Or.inr ⟨_, _, rfl, Or.inl rfl, by decide, by decide⟩⟩
  · unfold ScriptSub; decide
  · intro t ht; rw [List.mem_singleton.mp ht]; exact Or.inr ⟨_, _, rfl, by decide, by decide⟩
  · intro e he; rw [List.mem_singleton.mp he]
    exact ⟨_, _, rfl, ⟨_, rfl, by decide, by decide, by decide⟩, by decide, by decide⟩

end Verif.Props
