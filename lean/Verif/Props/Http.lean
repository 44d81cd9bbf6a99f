import Verif.HttpLemmas

/-! # C12-C16: identifiers in URLs, query parameters, the HTTP client -/

namespace Verif.Props
open Verif Spec Http

/-- no lone surrogates -/
def NoSurrogates (s : Str) : Prop := ∀ c ∈ s, ¬ (0xd800 ≤ c ∧ c ≤ 0xdfff)

/-! ## C12 -/

/-- C12: the encoding of a string stands for bytes that are the UTF-8 form of exactly this string, over the alphabet
of RFC 4648 without padding. -/
theorem C12_round_trip (s t : Str) (hs : CodePoints s) (h : base64Urlsafe s = .ok t) :
    (∀ c ∈ t, c ∈ base64url) ∧ ∃ bs, (∀ b ∈ bs, b < 256) ∧ Base64Of t bs ∧ utf8Decode bs = some s ∧
      ∀ bs', (∀ b ∈ bs', b < 256) → Base64Of t bs' → bs' = bs := by
  unfold base64Urlsafe at h
  cases hu : utf8 s with
  | error e => rw [hu] at h; cases h
  | ok bs =>
    rw [hu] at h
    obtain ⟨h1, h2⟩ := utf8_spec hu hs
    have ht : t = raw bs := by
      have := stripped bs h2
      cases h; exact this
    subst ht
    have h3 := raw_spec bs h2
    exact ⟨h3.1, bs, h2, h3, h1, fun bs' hb' h' => base64Of_unique hb' h2 h' h3⟩

/-- C12: distinct identifiers have distinct encodings. -/
theorem C12_injective (s s' t : Str) (hs : CodePoints s) (hs' : CodePoints s') (h : base64Urlsafe s = .ok t)
    (h' : base64Urlsafe s' = .ok t) : s = s' := by
  obtain ⟨_, bs, hb, h1, h2, _⟩ := C12_round_trip s t hs h
  obtain ⟨_, bs', _, h1', h2', h3'⟩ := C12_round_trip s' t hs' h'
  rw [h3' bs hb h1] at h2
  rw [h2] at h2'
  exact Option.some.inj h2'

/-- C12: only strings with lone surrogates have no encoding. -/
theorem C12_fails (s : Str) : ((∃ t, base64Urlsafe s = .ok t) ↔ NoSurrogates s) ∧
    ∀ e, base64Urlsafe s = .error e → e = .unicodeEncodeError := by
  unfold base64Urlsafe NoSurrogates
  rw [← utf8_ok]
  constructor
  · cases utf8 s with
    | error e => simp [bind, Except.bind]
    | ok b => simp [bind, Except.bind, pure, Except.pure]
  · intro e h
    cases hu : utf8 s with
    | error e' => rw [hu] at h; cases h; exact utf8_error s e hu
    | ok b => rw [hu] at h; cases h

example : base64Urlsafe py!"https://a.b/ä?c" = .ok py!"aHR0cHM6Ly9hLmIvw6Q_Yw" := by decide +kernel
example : CodePoints py!"https://a.b/ä?c" := by unfold CodePoints; decide
example : base64Urlsafe [0xd800] = .error .unicodeEncodeError := by decide +kernel

/-! ## C13 -/

theorem present_mem (ps : List (Str × Option Str)) (k v : Str) : (k, v) ∈ present ps ↔ (k, some v) ∈ ps := by
  induction ps with
  | nil => simp [present]
  | cons p ps ih =>
    obtain ⟨k', o⟩ := p
    cases o with
    | none => simp [present, ih]
    | some v' => simp [present, ih]

/-- C13: parameters without value are omitted, the others keep their order. -/
theorem C13_omits_none (ps : List (Str × Option Str)) :
    (present ps).map (fun p => (p.1, some p.2)) = ps.filter fun p => p.2.isSome := by
  induction ps with
  | nil => rfl
  | cons p ps ih =>
    obtain ⟨k, o⟩ := p
    cases o with
    | none => simp [present, ih]
    | some v => simp [present, ih]

/-- C13: without parameters the URL is the path. -/
theorem C13_no_parameters (r : Request) (h : ∀ p ∈ r.query, p.2 = none) : r.makeUrl = .ok r.path := by
  have : present r.query = [] := by
    apply List.eq_nil_iff_forall_not_mem.mpr
    rintro ⟨k, v⟩ hm
    have := h _ ((present_mem _ k v).mp hm)
    cases this
  unfold Request.makeUrl
  rw [this]

theorem makeUrl_some (r : Request) (hne : present r.query ≠ []) :
    r.makeUrl = (do let q ← urlencode (present r.query); return r.path ++ (py!"?" ++ q)) := by
  unfold Request.makeUrl
  cases h : present r.query with
  | nil => exact absurd h hne
  | cons p ps => rfl

/-- C13: otherwise the URL is the path, `?`, and a query that a receiver splits and decodes to exactly the given names and
values in order. The query is ASCII and contains neither `#` nor `?`. -/
theorem C13_round_trip (r : Request) (u : Str) (h : r.makeUrl = .ok u)
    (hs : ∀ k v, (k, some v) ∈ r.query → CodePoints k ∧ CodePoints v) (hne : ∃ p ∈ r.query, p.2.isSome) :
    ∃ q, u = r.path ++ py!"?" ++ q ∧ (parseQuery q).map (Option.map fun p => (p.1, some p.2)) = (r.query.filter fun p => p.2.isSome).map some ∧
      ∀ c ∈ q, c ≠ pc! '#' ∧ c ≠ pc! '?' ∧ c < 128 := by
  have hne' : present r.query ≠ [] := by
    obtain ⟨⟨k, o⟩, hm, ho⟩ := hne
    cases o with
    | none => cases ho
    | some v => intro e; have := (present_mem r.query k v).mpr hm; rw [e] at this; cases this
  rw [makeUrl_some r hne'] at h
  cases hq : urlencode (present r.query) with
  | error e => rw [hq] at h; cases h
  | ok q =>
    rw [hq] at h
    cases h
    have := urlencode_spec hq hne' fun p hp => hs p.1 p.2 ((present_mem _ _ _).mp hp)
    refine ⟨q, by simp, ?_, ?_⟩
    · rw [this.1, ← C13_omits_none, List.map_map, List.map_map]; rfl
    · intro c hc
      rcases this.2 c hc with h | rfl | rfl
      · have := quoted_ne h; exact ⟨this.2.2.1, this.2.2.2.1, this.2.2.2.2⟩
      · decide
      · decide

theorem _root_.Verif.Spec.NormalQuery.append {s t : Str} (hs : NormalQuery s) (ht : NormalQuery t) : NormalQuery (s ++ t) := by
  induction hs with
  | nil => exact ht
  | plain c rest hc _ ih => exact .plain c _ hc ih
  | form c rest hc _ ih => exact .form c _ hc ih
  | escape h l x y rest h1 h2 h3 h4 h5 h6 _ ih => exact .escape h l x y _ h1 h2 h3 h4 h5 h6 ih

theorem alwaysSafe_unreserved (c : Nat) : alwaysSafe c = true ↔ Unreserved c := by
  simp only [alwaysSafe, Unreserved, Bool.or_eq_true, Bool.and_eq_true, decide_eq_true_eq, beq_iff_eq]
  omega

theorem hexDigit_upper : ∀ n < 16, (48 ≤ hexDigit n ∧ hexDigit n ≤ 57) ∨ (65 ≤ hexDigit n ∧ hexDigit n ≤ 70) := by decide

theorem quoteByte_normal (b : Nat) (hb : b < 256) : NormalQuery (quoteByte b) := by
  unfold quoteByte
  split
  · rename_i h; exact .plain _ _ ((alwaysSafe_unreserved b).mp h) .nil
  · rename_i h
    split
    · exact .form _ _ (.inl rfl) .nil
    · rename_i hsp
      have e : 16 * (b / 16) + b % 16 = b := by omega
      exact .escape _ _ (b / 16) (b % 16) _ (hexDigit_upper _ (by omega)) (hexDigit_upper _ (by omega))
        (hexDigit_value _ (by omega)) (hexDigit_value _ (by omega))
        (by rw [e]; exact fun hu => h ((alwaysSafe_unreserved b).mpr hu)) (by rw [e]; exact hsp) .nil

theorem quotePlus_normal {s q : Str} (h : quotePlus s = .ok q) (hs : CodePoints s) : NormalQuery q := by
  unfold quotePlus at h
  cases hu : utf8 s with
  | error e => rw [hu] at h; cases h
  | ok bs =>
    rw [hu] at h
    cases h
    have h2 := (utf8_spec hu hs).2
    clear hu
    induction bs with
    | nil => exact .nil
    | cons b bs ih =>
      rw [List.map_cons, List.flatten_cons]
      exact (quoteByte_normal b (h2 b List.mem_cons_self)).append (ih fun x hx => h2 x (List.mem_cons_of_mem _ hx))

theorem join_normal : ∀ l : List Str, (∀ s ∈ l, NormalQuery s) → NormalQuery (Py.join py!"&" l)
  | [], _ => .nil
  | [s], h => h s List.mem_cons_self
  | s :: t :: l, h => by
    have ih := join_normal (t :: l) fun x hx => h x (List.mem_cons_of_mem _ hx)
    exact (NormalQuery.append (h s List.mem_cons_self) (.form _ _ (.inr (.inr rfl)) .nil)).append ih

theorem quotePairs_normal : ∀ (ps : List (Str × Str)) (l : List Str), quotePairs ps = .ok l →
    (∀ p ∈ ps, CodePoints p.1 ∧ CodePoints p.2) → ∀ s ∈ l, NormalQuery s
  | [], l, h, _ => by cases h; intro s hs; cases hs
  | (k, v) :: ps, l, h, hp => by
    have h' : (do let k ← quotePlus k; let v ← quotePlus v; let r ← quotePairs ps; return (k ++ py!"=" ++ v) :: r) =
      (Except.ok l : Except PyExc (List Str)) := h
    cases hk : quotePlus k with
    | error e => rw [hk] at h'; cases h'
    | ok qk =>
      cases hv : quotePlus v with
      | error e => rw [hk, hv] at h'; cases h'
      | ok qv =>
        cases hr : quotePairs ps with
        | error e => rw [hk, hv, hr] at h'; cases h'
        | ok r =>
          rw [hk, hv, hr] at h'
          cases h'
          intro s hs
          rcases List.mem_cons.mp hs with rfl | hs
          · have := hp (k, v) List.mem_cons_self
            exact ((quotePlus_normal hk this.1).append (.form _ _ (.inr (.inl rfl)) .nil)).append (quotePlus_normal hv this.2)
          · exact quotePairs_normal ps r hr (fun p h => hp p (List.mem_cons_of_mem _ h)) s hs

/-- C13: the query is in the normal form of RFC 3986: escapes have capital letters, and neither an unreserved character nor
a space is escaped. -/
theorem C13_normal (r : Request) (u : Str) (h : r.makeUrl = .ok u)
    (hs : ∀ k v, (k, some v) ∈ r.query → CodePoints k ∧ CodePoints v) (hne : ∃ p ∈ r.query, p.2.isSome) :
    ∃ q, u = r.path ++ py!"?" ++ q ∧ NormalQuery q := by
  have hne' : present r.query ≠ [] := by
    obtain ⟨⟨k, o⟩, hm, ho⟩ := hne
    cases o with
    | none => cases ho
    | some v => intro e; have := (present_mem r.query k v).mpr hm; rw [e] at this; cases this
  rw [makeUrl_some r hne', urlencode] at h
  cases hq : quotePairs (present r.query) with
  | error e => rw [hq] at h; cases h
  | ok l =>
    rw [hq] at h
    cases h
    exact ⟨_, by simp, join_normal l (quotePairs_normal _ l hq fun p hp => hs p.1 p.2 ((present_mem _ _ _).mp hp))⟩

/-- C13: building the URL fails only for names or values with lone surrogates. -/
theorem C13_fails (r : Request) : (∃ u, r.makeUrl = .ok u) ↔ ∀ k v, (k, some v) ∈ r.query → NoSurrogates k ∧ NoSurrogates v := by
  have hp := quotePairs_ok (present r.query)
  have key : (∃ u, r.makeUrl = .ok u) ↔ ∃ q, quotePairs (present r.query) = .ok q := by
    by_cases hne : present r.query = []
    · unfold Request.makeUrl; rw [hne]; simp [quotePairs]
    · rw [makeUrl_some r hne, urlencode]
      cases quotePairs (present r.query) with
      | error e => simp [bind, Except.bind]
      | ok q => simp [bind, Except.bind, pure, Except.pure]
  rw [key, hp]
  constructor
  · intro h k v hm; exact h (k, v) ((present_mem _ _ _).mpr hm)
  · intro h p hm; exact h p.1 p.2 ((present_mem _ _ _).mp hm)

example : (Request.mk py!"/shells" py!"get" none [(py!"limit", none), (py!"idShort", some py!"a&b=c #ä"), (py!"x", some py!"1")] []).makeUrl =
    .ok py!"/shells?idShort=a%26b%3Dc+%23%C3%A4&x=1" := by decide +kernel

/-! ## C14 -/

/-- `rest` is what remains of `url` if the prefix ends at a segment boundary -/
def AtBoundary (pre url rest : Str) : Prop := url = pre ++ rest ∧ (rest = [] ∨ ∃ t, rest = pc! '/' :: t)

/-- C14: exactly the prefix is removed if it ends at a segment boundary, nothing otherwise. -/
theorem C14_prefix (pre url : Str) :
    (∀ rest, AtBoundary pre url rest → removePrefix pre url = rest) ∧
    ((¬ ∃ rest, AtBoundary pre url rest) → removePrefix pre url = url) := by
  have hcond : (Py.startsWith url pre && (url.length == pre.length || url[pre.length]? == some (pc! '/'))) = true ↔
      ∃ rest, AtBoundary pre url rest := by
    simp only [Py.startsWith, Bool.and_eq_true, List.isPrefixOf_iff_prefix, Bool.or_eq_true, beq_iff_eq]
    constructor
    · rintro ⟨⟨rest, rfl⟩, h⟩
      refine ⟨rest, rfl, ?_⟩
      rcases h with h | h
      · left; simpa using h
      · right
        cases rest with
        | nil => simp at h
        | cons c t => simp at h; exact ⟨t, by rw [h]⟩
    · rintro ⟨rest, rfl, h | ⟨t, h⟩⟩
      · subst h; simp
      · subst h; simp
  constructor
  · intro rest h
    unfold removePrefix
    rw [if_pos (hcond.mpr ⟨rest, h⟩), h.1, List.drop_left]
  · intro h
    unfold removePrefix
    rw [if_neg fun hc => h (hcond.mp hc)]

/-- C14: the requested URL is the host without one final slash, followed by what remains of prefixes, path and query. -/
theorem C14_url (dumps : Json → Str) (c : Client) (r : Request) (s : Sent) (h : c.send dumps r = .ok s) :
    ∃ u, r.makeUrl = .ok u ∧ ∃ host url, s.url = host ++ url ∧
      (c.host = host ++ py!"/" ∨ (c.host = host ∧ ∀ x, c.host ≠ x ++ py!"/")) ∧
      (AtBoundary c.removePathPrefix (c.prefixes.flatten ++ u) url ∨
        ((¬ ∃ rest, AtBoundary c.removePathPrefix (c.prefixes.flatten ++ u) rest) ∧ url = c.prefixes.flatten ++ u)) := by
  unfold Client.send at h
  cases hu : r.makeUrl with
  | error e => rw [hu] at h; cases h
  | ok u =>
    rw [hu] at h
    cases h
    refine ⟨u, rfl, _, _, rfl, ?_, ?_⟩
    · unfold hostOf
      split
      · rename_i he
        left
        obtain ⟨t, ht⟩ := List.isSuffixOf_iff_suffix.mp he
        rw [← ht]; simp
      · rename_i he
        refine Or.inr ⟨rfl, ?_⟩
        rintro x hx
        exact he (List.isSuffixOf_iff_suffix.mpr ⟨x, hx.symm⟩)
    · by_cases hb : ∃ rest, AtBoundary c.removePathPrefix (c.prefixes.flatten ++ u) rest
      · obtain ⟨rest, hr⟩ := hb
        rw [(C14_prefix _ _).1 rest hr]; exact Or.inl hr
      · exact Or.inr ⟨hb, (C14_prefix _ _).2 hb⟩

/-- C14: an empty prefix removes nothing. -/
theorem C14_empty_prefix (url : Str) : removePrefix [] url = url := by
  by_cases h : ∃ rest, AtBoundary [] url rest
  · obtain ⟨rest, hr⟩ := h
    rw [(C14_prefix _ _).1 rest hr]; exact hr.1.symm
  · exact (C14_prefix _ _).2 h

/-- C14: method, body and certificate check are passed on as given. -/
theorem C14_arguments (dumps : Json → Str) (c : Client) (r : Request) (s : Sent) (h : c.send dumps r = .ok s) :
    s.method = r.method ∧ s.data = r.body.map dumps ∧ s.verify = c.verify := by
  unfold Client.send at h
  cases hu : r.makeUrl with
  | error e => rw [hu] at h; cases h
  | ok u => rw [hu] at h; cases h; exact ⟨rfl, rfl, rfl⟩

example : removePrefix py!"/api/v3" py!"/api/v3/shells" = py!"/shells" ∧ removePrefix py!"/api/v3" py!"/api/v30/shells" = py!"/api/v30/shells" ∧
    removePrefix py!"/api/v3" py!"/api/v3" = [] := by decide

/-! ## C15 -/

/-- C15, what holds: exactly the headers of the request are sent. Missing for the full claim: the additional headers of
the client, which are never sent (`C15_additional_headers_violated`). -/
theorem C15_request_headers_partial (dumps : Json → Str) (c : Client) (r : Request) (s : Sent) (h : c.send dumps r = .ok s) :
    s.headers = r.headers := by
  unfold Client.send at h
  cases hu : r.makeUrl with
  | error e => rw [hu] at h; cases h
  | ok u => rw [hu] at h; cases h; rfl

/-- C15 fails for every client with an additional header and every request without it: the header is not sent. -/
theorem C15_additional_headers_violated (dumps : Json → Str) (c : Client) (r : Request) (s : Sent) (hd : Str × Str)
    (h : c.send dumps r = .ok s) (_hc : hd ∈ c.additionalHeaders) (hr : hd ∉ r.headers) : hd ∉ s.headers := by
  rw [C15_request_headers_partial dumps c r s h]; exact hr

example : ∃ (c : Client) (r : Request) (s : Sent) (hd : Str × Str), c.send (fun _ => []) r = .ok s ∧ hd ∈ c.additionalHeaders ∧
    hd ∉ s.headers :=
  ⟨Client.init py!"http://localhost" true [] [(py!"Authorization", py!"x")], { path := py!"/shells" }, _, _, rfl, List.mem_cons_self, by simp⟩

/-! ## C16 -/

/-- `client.descend(p1).descend(p2)...` -/
def descendAll (c : Client) : List Str → Client
  | [] => c
  | p :: ps => descendAll (c.descend p) ps

/-- C16, what holds: one step down from a client at its root, and all settings but the position are kept by any chain of
steps. Missing for the full claim: every further step forgets the previous ones (`C16_violated`). -/
theorem C16_descend_partial (c : Client) (p : Str) (h : c.prefixes = []) (ps : List Str) :
    (c.descend p).prefixes.flatten = c.prefixes.flatten ++ p ∧
    (descendAll c ps).host = c.host ∧ (descendAll c ps).verify = c.verify ∧
    (descendAll c ps).removePathPrefix = c.removePathPrefix ∧ (descendAll c ps).additionalHeaders = c.additionalHeaders := by
  refine ⟨by rw [h]; simp [Client.descend, Client.init], ?_⟩
  clear h
  induction ps generalizing c with
  | nil => exact ⟨rfl, rfl, rfl, rfl⟩
  | cons p ps ih => exact ih (c.descend p)

/-- only the last step counts -/
theorem C16_last_step (c : Client) (ps : List Str) (p : Str) : (descendAll c (ps ++ [p])).prefixes = [p] := by
  induction ps generalizing c with
  | nil => rfl
  | cons q ps ih => exact ih (c.descend q)

/-- C16 fails whenever the client is not at its root: the position is forgotten. -/
theorem C16_violated (c : Client) (a b : Str) (ha : a ≠ []) :
    ((c.descend a).descend b).prefixes.flatten ≠ (c.descend a).prefixes.flatten ++ b := by
  intro h
  simp [Client.descend, Client.init] at h
  exact ha h

example : ((Client.init [] true [] []).descend py!"/a").prefixes = [py!"/a"] := rfl

end Verif.Props
