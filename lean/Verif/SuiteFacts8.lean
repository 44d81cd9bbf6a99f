import Verif.SuiteFacts7

/-! # The positive tests of the suites -/

namespace Verif.Api.Suites
open Verif Verif.Parse Verif.Aas Verif.Spec Verif.Spec.Parse Verif.Spec.Api Verif.Spec.Suites Verif.Spec.Routes Verif.Spec.Generate Verif.Generate Verif.Http Verif.Props
open Verif.Api hiding sane supported

variable {S : Setting} {text : Note → Str} {pre : Str} {base : List Seg}

/-- the tests, with their names -/
def runs {σ : Type} (S : Setting) (pre : Str) (st : σ) (ts : List (Test σ)) : List (Str × ApiM Unit) :=
  ts.map fun t => (t.name, t.run (S.client.descend pre) S.profile st)

theorem rows_append : ∀ {a b : List (Str × Positive)} {x y : List (Str × ApiM Unit)}, PositiveRows S a x → PositiveRows S b y → PositiveRows S (a ++ b) (x ++ y)
  | [], _, [], _, _, h => h
  | _ :: _, _, _ :: _, _, .cons h h', h'' => .cons h (rows_append h' h'')

theorem rows_runs {σ : Type} {st : σ} {a b : List (Str × Positive)} {ts us : List (Test σ)} (h : PositiveRows S a (runs S pre st ts)) (h' : PositiveRows S b (runs S pre st us)) :
    PositiveRows S (a ++ b) (runs S pre st (ts ++ us)) := by
  unfold runs at *
  rw [List.map_append]
  exact rows_append h h'

/-! ## requests with fixed parameters -/

theorem valid_such {ty : RTy} {lim : Option Nat} {r : Response} : such ty (fun _ => True) lim r ↔ valid ty lim r := by
  simp only [such, valid, and_true]

theorem Answers.congr {env : List Sent → Sent → Answer} {client : Client} {c : Call} {kw : Kwargs} {good full good' full' : Response → Prop} {p : ApiM Unit}
    (h : Answers env client c kw good full p) (hg : ∀ r, good r ↔ good' r) (hf : ∀ r, full r ↔ full' r) : Answers env client c kw good' full' p := by
  rwa [show good' = good from funext fun r => (propext (hg r)).symm, show full' = full from funext fun r => (propext (hf r)).symm]

theorem answer_valid (hs : Sound S.env) {c : Call} (hc : callOk c = true) {ty : RTy} (hm : c.mode = .decode ty) {kw : Kwargs} (hf : Fits c kw) {client : Client} (hr : Rooted client) :
    Answers S.env client c kw (valid ty S.lim) (valid ty S.lim) ((c.success ⟨S.lim, text⟩ client kw).bind fun _ => .pure ()) :=
  (answer hs (sane_of hc) hm hf hr fun _ _ => tail_pure).congr (fun _ => valid_such) fun _ => valid_such

/-- the entries of a page are counted -/
theorem tail_count {env : List Sent → Sent → Answer} {lim : Option Nat} {p : Page} {v : RVal} (hv : HasType (respSchema lim) (pageTy p) v) {k : Nat → ApiM Unit} {f : List RVal → Prop}
    (hk : ∀ l, Entries v l → Tail env (k l.length) (f l) (f l)) :
    Tail env ((lift (resultLen v)).bind k) (∃ l, Entries v l ∧ f l) (∃ l, Entries v l ∧ f l) := by
  obtain ⟨l, hl, -⟩ := page_entries hv
  have hn : resultLen v = .ok l.length := by
    unfold resultLen
    rw [hasAttr_iff.mp hl]
    rfl
  have hiff : f l ↔ ∃ l, Entries v l ∧ f l := ⟨fun h => ⟨l, hl, h⟩, fun ⟨l', h, h'⟩ => by rw [entries_unique hl h]; exact h'⟩
  exact tail_lift hn ((hk l hl).congr hiff hiff)

theorem skips {m : Str} {S : Setting} : Skips S (.abort (Res.new m .warning)) := fun h => ⟨by simp [sentBy, meaning], _, rfl, rfl, rfl⟩

theorem risNone_iff {v : RVal} : risNone v = true ↔ v = .none := by
  cases v <;> simp [risNone]

section
variable {c : Call} (hp : Placed S pre base c.route.path)
include hp

/-- a request with fixed parameters -/
theorem tests_fixed {kw : Kwargs} {params : List (Str × Str)} (hq : asks c kw = some params) (ha : asciiParams params = true)
    {good full : Demand} {p : ApiM Unit} (h : Answers S.env (S.client.descend pre) c kw (good S.lim) (full S.lim) p) : TestsAnswer S S.template params good full p :=
  tests_of h fun _ hs => asks_at hp hs hq (ascii_params ha)

theorem fetch_positive (hs : Sound S.env) (hc : callOk c = true) {ty : RTy} (hm : c.mode = .decode ty) {kw : Kwargs} (hf : fits c kw = true)
    (he : ∀ a ∈ kw, Encodable a.2) {params : List (Str × Str)} (hq : asks c kw = some params) (ha : asciiParams params = true) {σ : Type} {st : σ} {name line title} :
    Positive.IsTest S ((fetch (σ := σ) ⟨S.lim, text⟩ c name line title kw).run (S.client.descend pre) S.profile st) (.get params (valid ty)) :=
  tests_fixed hp hq ha (answer_valid hs hc hm ⟨hf, he⟩ (rooted_descend hp.slash))

theorem getOne_positive (hs : Sound S.env) (hc : callOk c = true) {p : Page} (hm : c.mode = .decode (pageTy p)) (hf : fits c limit1 = true)
    (hq : asks c limit1 = some [(py!"limit", py!"1")]) {message : Str} :
    TestsAnswer S S.template [(py!"limit", py!"1")] (page p (·.length = 1)) (page p (·.length = 1)) (getOne ⟨S.lim, text⟩ c (S.client.descend pre) message) := by
  refine tests_fixed hp hq rfl (answer hs (sane_of hc) hm ⟨hf, enc_limit1⟩ (rooted_descend hp.slash) fun v hv => ?_)
  obtain ⟨l, hl, -⟩ := page_entries hv
  refine tail_lift (hasAttr_iff.mp hl) (tail_lift (x := rlen (.list l)) rfl (tail_error ?_))
  rw [beq_iff_eq]
  exact ⟨fun h => ⟨l, hl, h⟩, fun ⟨l', h, h'⟩ => by rw [entries_unique hl h]; exact h'⟩

theorem pagination_positive (hs : Sound S.env) (hc : callOk c = true) {p : Page} (hm : c.mode = .decode (pageTy p)) (hf : fits c limit1 = true)
    (hq : asks c limit1 = some [(py!"limit", py!"1")]) {σ : Type} {st : σ} {cursor : σ → RVal} {cur : Setting → RVal → Prop} (hcur : cur S (cursor st)) :
    PositiveRows S [Spec.Suites.getOne p, secondPage cur p] (runs S pre st (paginationTests ⟨S.lim, text⟩ c cursor)) := by
  refine .cons (getOne_positive hp hs hc hm hf hq) (.cons ⟨_, hcur, fun h => ?_, fun h => ?_⟩ .nil)
  · dsimp only
    rw [if_pos (risNone_iff.mpr h)]
    exact skips
  · dsimp only
    rw [if_neg fun hn => h (risNone_iff.mp hn)]
    exact getOne_positive hp hs hc hm hf hq

/-- the setup that keeps the cursor -/
theorem cursor_found (hs : Sound S.env) (hc : callOk c = true) {p : Page} (hm : c.mode = .decode (pageTy p)) (hf : fits c limit1 = true)
    {template : List Seg} (hat : ∀ q, SendsWith (S.client.descend pre) c limit1 q → At S.client template [(py!"limit", py!"1")] q) {h : List Sent} {st : RVal}
    (ho : (meaning S.env ((c.success ⟨S.lim, text⟩ (S.client.descend pre) limit1).bind fun page => lift (pageCursor page)) true h).out = .val st) :
    ∃ v m, ServedOne S template p v ∧ HasAttr v .pagingMetadata m ∧ HasAttr m .cursor st := by
  obtain ⟨q, r, v, h1, h2, h3, h4⟩ := setup_val hs (sane_of hc) hm ⟨hf, enc_limit1⟩ (rooted_descend hp.slash) ho
  obtain ⟨m, h5, h6⟩ := pageCursor_iff.mp (lift_val h4)
  exact ⟨v, m, ⟨h, q, r, hat q h1, h2, h3⟩, h5, h6⟩

end

/-- a suite passes the positive tests of the table, after each successful setup -/
def SuitePositive (S : Setting) (text : Note → Str) (pre : Str) (rows : List (Str × Positive)) (suite : Cfg → Suite) : Prop :=
  ∀ h (st : (suite ⟨S.lim, text⟩).σ), (meaning S.env ((suite ⟨S.lim, text⟩).setup (S.client.descend pre)) true h).out = .val st →
    PositiveRows S rows (runs S pre st (suite ⟨S.lim, text⟩).tests)

/-! ## aas.py -/

theorem getShell_positive (hs : Sound S.env) (hp : Placed S pre base getShell.route.path) : SuitePositive S text pre (positivesOf py!"GetAssetAdministrationShell") getShellSuite :=
  fun _ _ _ => .cons (fetch_positive hp hs rfl rfl rfl enc_nil rfl rfl) .nil
theorem getShellReference_positive (hs : Sound S.env) (hp : Placed S pre base getShellReference.route.path) :
    SuitePositive S text pre (positivesOf py!"GetAssetAdministrationShell-Reference") getShellReferenceSuite :=
  fun _ _ _ => .cons (fetch_positive hp hs rfl rfl rfl enc_nil rfl rfl) .nil
theorem getAssetInformation_positive (hs : Sound S.env) (hp : Placed S pre base getAssetInformation.route.path) :
    SuitePositive S text pre (positivesOf py!"GetAssetInformation") getAssetInformationSuite :=
  fun _ _ _ => .cons (fetch_positive hp hs rfl rfl rfl enc_nil rfl rfl) .nil
theorem getThumbnail_positive (hp : Placed S pre base getThumbnail.route.path) : SuitePositive S text pre (positivesOf py!"GetThumbnail") getThumbnailSuite :=
  fun _ _ _ => .cons (tests_fixed hp (good := anything) (full := anything) (kw := []) rfl rfl (answer_raw (sane_of rfl) rfl ⟨rfl, enc_nil⟩ (rooted_descend hp.slash))) .nil

theorem getAllSubmodelReferences_positive (hs : Sound S.env) (hp : Placed S pre base getAllSubmodelReferences.route.path) :
    SuitePositive S text pre (positivesOf py!"GetAllSubmodelReferences") getAllSubmodelReferencesSuite :=
  fun _ _ ho => rows_runs (a := [_, _]) (pagination_positive hp hs rfl (p := .submodelRefs) rfl rfl rfl
      (cursor_found hp hs rfl (p := .submodelRefs) rfl rfl (fun _ h => asks_at hp h (kw := limit1) rfl (ascii_params rfl)) ho))
    (.cons (fetch_positive hp hs rfl rfl rfl enc_nil rfl rfl) .nil)

/-! ## aas_repo.py -/

theorem codePoints_ascii {s : Str} (h : (s.all fun c => decide (c < 128)) = true) : CodePoints s :=
  ascii_codePoints fun c hc => by simpa using List.all_eq_true.mp h c hc

/-- one query parameter -/
theorem one_param {k t : Str} (hk : (k.all fun c => decide (c < 128)) = true) (ht : CodePoints t) : ∀ p ∈ [(k, t)], CodePoints p.1 ∧ CodePoints p.2 := by
  intro p hp
  rw [List.mem_singleton.mp hp]
  exact ⟨codePoints_ascii hk, ht⟩

/-- the text of base64 is ASCII -/
theorem base64_codePoints {s t : Str} (h : base64Urlsafe s = .ok t) : CodePoints t := by
  obtain ⟨t', ht', ha⟩ := base64_ascii ((C12_fails s).1.mp ⟨t, h⟩)
  rw [h] at ht'
  cases ht'
  exact ascii_codePoints ha

theorem count_answer (hs : Sound S.env) {c : Call} (hc : callOk c = true) {p : Page} (hm : c.mode = .decode (pageTy p)) {kw : Kwargs} (hf : Fits c kw)
    {client : Client} (hr : Rooted client) {b : Nat → Bool} {m : Str} {f : List RVal → Prop} (hb : ∀ l : List RVal, b l.length = true ↔ f l) :
    Answers S.env client c kw (page p f S.lim) (page p f S.lim) ((c.success ⟨S.lim, text⟩ client kw).bind fun page => (lift (resultLen page)).bind fun n => assert_ (b n) m) :=
  answer hs (sane_of hc) hm hf hr fun _ hv => tail_count (k := fun n => assert_ (b n) m) hv fun l _ => tail_error (hb l)

theorem length_zero (l : List RVal) : (l.length == 0) = true ↔ l = [] := by simp
theorem length_nonzero (l : List RVal) : (l.length != 0) = true ↔ l ≠ [] := by simp
theorem length_pos (l : List RVal) : decide (0 < l.length) = true ↔ l ≠ [] := by simp [List.length_pos_iff]

/-- the setup of suites of shells -/
theorem shell_found (hs : Sound S.env) (hb : base = []) (hp : Slash pre) (hfill : Fills base pre) {h : List Sent} {st : ShellState}
    (ho : (meaning S.env (shellSetup ⟨S.lim, text⟩ (S.client.descend pre)) true h).out = .val st) :
    ShellOk st ∧ shellName S st.idShort ∧ (∃ g, st.assetId = .assetId py!"globalAssetId" g ∧ Re.fullmatch xmlRe g = true ∧ ∀ t, AssetText py!"globalAssetId" g t → shellAsset S t) ∧
      cursorOf (fun _ => [.text py!"/shells"]) .shells S st.cursor := by
  subst hb
  obtain ⟨q, r, v, h1, h2, h3, h4⟩ := setup_val hs (sane_of (c := getAllShells) rfl) (ty := pageTy .shells) rfl ⟨rfl, enc_limit1⟩ (rooted_descend hp) ho
  have hv := acceptable_typed h3
  have hst := lift_val h4
  obtain ⟨x, l, info, c, g, m, e1, e2, e3, e4, e5, e6, e7, e8⟩ := shellState_found hv hst
  have hat : At S.client [.text py!"/shells"] [(py!"limit", py!"1")] q := asks_base hfill h1 (kw := limit1) rfl (ascii_params rfl)
  have hserved : ServedOne S [.text py!"/shells"] .shells v := ⟨h, q, r, hat, h2, h3⟩
  have hfirst : FirstOf S [.text py!"/shells"] .shells x := ⟨v, l, hserved, e1⟩
  exact ⟨(shellState_ok hv).1 _ hst, ⟨x, hfirst, e2⟩, ⟨g, e5, e6, fun t ht => ⟨x, info, c, g, hfirst, e3, e4, ht⟩⟩, v, m, hserved, e7, e8⟩

theorem asks_shells {c : Call} (hp : c.params = shellParams) (hq : c.route.query = shellQuery) {v : ArgVal} {t : Str} (hv : v ≠ .none) (ht : v.pyStr = .ok t) :
    asks c [(py!"id_short", v)] = some [(py!"idShort", t)] ∧ asks c [(py!"asset_id", v)] = some [(py!"assetIds", t)] := by
  unfold asks
  rw [hp, hq]
  constructor
  · show (match queryOf (fun n => (List.find? (fun a : Str × ArgVal => a.1 == n) [(py!"id_short", v)]).elim .none (·.2)) shellQuery with | .error _ => none | .ok q => some (present q)) = _
    have : queryOf (fun n => (List.find? (fun a : Str × ArgVal => a.1 == n) [(py!"id_short", v)]).elim .none (·.2)) shellQuery =
      .ok [(py!"cursor", none), (py!"limit", none), (py!"idShort", some t), (py!"assetIds", none)] := by
      cases v <;> first | exact absurd rfl hv | simp [queryOf, shellQuery, paramOf, ht, bind, Except.bind, Except.map, cursorParam, limitParam, pure, Except.pure]
    rw [this]; rfl
  · show (match queryOf (fun n => (List.find? (fun a : Str × ArgVal => a.1 == n) [(py!"asset_id", v)]).elim .none (·.2)) shellQuery with | .error _ => none | .ok q => some (present q)) = _
    have : queryOf (fun n => (List.find? (fun a : Str × ArgVal => a.1 == n) [(py!"asset_id", v)]).elim .none (·.2)) shellQuery =
      .ok [(py!"cursor", none), (py!"limit", none), (py!"idShort", none), (py!"assetIds", some t)] := by
      cases v <;> first | exact absurd rfl hv | simp [queryOf, shellQuery, paramOf, ht, bind, Except.bind, Except.map, cursorParam, limitParam, pure, Except.pure]
    rw [this]; rfl

theorem shellTests_positive (hs : Sound S.env) {c : Call} (hp : Placed S pre base c.route.path) (hc : callOk c = true) {p : Page} (hm : c.mode = .decode (pageTy p))
    (hpar : c.params = shellParams) (hquery : c.route.query = shellQuery)
    (h1 : ∀ n v, fits c [(py!"asset_id", .assetId n v)] = true) (h2 : ∀ s, fits c [(py!"id_short", .str s)] = true) (h3 : fits c [] = true) (h4 : fits c limit1 = true)
    (h5 : asks c [] = some []) (h6 : asks c limit1 = some [(py!"limit", py!"1")])
    {st : ShellState} (ha : ∃ g, st.assetId = .assetId py!"globalAssetId" g ∧ Re.fullmatch xmlRe g = true ∧ ∀ t, AssetText py!"globalAssetId" g t → shellAsset S t)
    (hcur : cursorOf (fun _ => [.text py!"/shells"]) .shells S st.cursor)
    (hx : Re.fullmatch xmlRe st.idShort = true) (hn : shellName S st.idShort) {named : Str → List RVal → Prop} {t : Test ShellState} (hname : t.name = py!"test_filter_by_idshort")
    (ht : Answers S.env (S.client.descend pre) c [(py!"id_short", .str st.idShort)] (page p (named st.idShort) S.lim) (page p (named st.idShort) S.lim) (t.run (S.client.descend pre) S.profile st)) :
    PositiveRows S (shellFilters p named) (runs S pre st (shellTests ⟨S.lim, text⟩ c ++ paginationTests ⟨S.lim, text⟩ c ShellState.cursor ++ [t])) := by
  have hr := rooted_descend (client := S.client) hp.slash
  refine rows_runs (a := [_, _, _, _, _]) (rows_runs (a := [_, _, _]) (.cons ?_ (.cons ?_ (.cons (fetch_positive hp hs hc hm h3 enc_nil h5 rfl) .nil)))
    (pagination_positive hp hs hc hm h4 h6 hcur)) ?_
  · obtain ⟨g, hg, hgx, hga⟩ := ha
    obtain ⟨⟨t, ht, -⟩, -⟩ := enc_assetId py!"globalAssetId" g
    obtain ⟨s, hs1, hs2⟩ := asset_text hgx ht
    refine ⟨s, t, hga s hs1, hs2, tests_of (count_answer hs hc hm ⟨by rw [hg]; exact h1 _ _, enc_one (by rw [hg]; exact enc_assetId _ _)⟩ hr length_nonzero) fun q hq => ?_⟩
    exact asks_at hp hq (asks_shells hpar hquery (by rw [hg]; exact fun h => by cases h) (by rw [hg]; exact ht)).2 (one_param rfl (base64_codePoints ht))
  · refine tests_of (count_answer hs hc hm ⟨h2 _, enc_one (enc_str (by unfold NoSurrogates; decide))⟩ hr length_zero) fun q hq => ?_
    exact asks_at hp hq (asks_shells hpar hquery (fun h => by cases h) rfl).1 (ascii_params rfl)
  · have : PositiveRows S [(py!"test_filter_by_idshort", .filter py!"idShort" shellName fun s => page p (named s))] [(py!"test_filter_by_idshort", t.run (S.client.descend pre) S.profile st)] := by
      refine .cons ⟨st.idShort, hn, tests_of ht fun q hq => ?_⟩ .nil
      exact asks_at hp hq (asks_shells hpar hquery (fun h => by cases h) rfl).1 (one_param rfl (xml_codePoints hx))
    rw [runs, List.map_cons, List.map_nil, hname]
    exact this

theorem idShort_iff {v x : RVal} {l : List RVal} (hv : Entries v (x :: l)) {s : Str} :
    (do let shell ← firstResult v
        let i ← rattr shell (.model .idShort)
        rraw i) = .ok s ↔ HasIdShort x s := by
  simp only [bind_ok, rraw_iff]
  constructor
  · rintro ⟨y, h1, i, h2, c, rfl⟩
    obtain ⟨l', h1⟩ := firstResult_iff.mp h1
    cases entries_unique hv h1
    exact ⟨c, hasAttr_iff.mpr h2⟩
  · rintro ⟨c, h⟩
    exact ⟨x, firstResult_iff.mpr ⟨l, hv⟩, _, hasAttr_iff.mp h, c, rfl⟩

theorem getAllShells_positive (hs : Sound S.env) (hp : Placed S pre [] getAllShells.route.path) :
    SuitePositive S text pre (positivesOf py!"GetAllAssetAdministrationShells") getAllShellsSuite := by
  intro h st ho
  obtain ⟨h1, h2, h3, h4⟩ := shell_found hs rfl hp.slash hp.fills ho
  refine shellTests_positive hs hp rfl (p := .shells) rfl rfl rfl (fun _ _ => rfl) (fun _ => rfl) rfl rfl rfl rfl h3 h4 h1.1 h2 rfl ?_
  refine answer hs (sane_of rfl) rfl ⟨rfl, enc_one (enc_str (xml_noSurrogates h1.1))⟩ (rooted_descend hp.slash) fun v hv => ?_
  refine tail_count hv fun l hl => ?_
  cases l with
  | nil =>
    refine (tail_assert_bind (G := True) (F := True) fun h => by cases h).congr ?_ ?_ <;> simp
  | cons x l =>
    have hk : Tail S.env ((lift (do
        let shell ← firstResult v
        let i ← rattr shell (.model .idShort)
        rraw i)).bind fun idShort => assert_ (idShort == st.idShort) py!"Result has the requested idShort") (HasIdShort x st.idShort) (HasIdShort x st.idShort) := by
      cases hx : (do
        let shell ← firstResult v
        let i ← rattr shell (.model .idShort)
        rraw i) with
      | error e => exact tail_raise rfl fun hn => by rw [← idShort_iff hl, hx] at hn; cases hn
      | ok s =>
        refine tail_error ?_
        rw [beq_iff_eq, ← idShort_iff hl, hx]
        exact ⟨fun h => by rw [h], fun h => by cases h; rfl⟩
    refine (tail_assert_bind fun _ => hk).congr ?_ ?_ <;>
    · simp only [List.length_cons, Nat.zero_lt_succ, decide_true, true_and, List.cons.injEq]
      exact ⟨fun h => ⟨x, l, ⟨rfl, rfl⟩, h⟩, fun ⟨_, _, ⟨h1, h2⟩, h⟩ => by rw [h1]; exact h⟩

theorem getAllShellsReference_positive (hs : Sound S.env) (hp : Placed S pre [] getAllShellsReference.route.path) :
    SuitePositive S text pre (positivesOf py!"GetAllAssetAdministrationShells-Reference") getAllShellsReferenceSuite := by
  intro h st ho
  obtain ⟨h1, h2, h3, h4⟩ := shell_found hs rfl hp.slash hp.fills ho
  exact shellTests_positive hs hp rfl (p := .shellRefs) rfl rfl rfl (fun _ _ => rfl) (fun _ => rfl) rfl rfl rfl rfl h3 h4 h1.1 h2 rfl
    (count_answer hs rfl rfl ⟨rfl, enc_one (enc_str (xml_noSurrogates h1.1))⟩ (rooted_descend hp.slash) length_pos)

/-! ## ids -/

/-- a test for an id -/
theorem byId_positive {c : Call} {arg : Str} (hp : Placed S pre base c.route.path) (hq : ∀ s, asks c [(arg, .sfv true s)] = some [])
    (harg : ∀ s t, (ArgVal.sfv true s).pyStr = .ok t → pathArg? c [(arg, .sfv true s)] t) {i : Str} (hi : IdOk i) {k : RVal → ApiM Unit} {good : Demand}
    (h : Answers S.env (S.client.descend pre) c [(arg, .sfv true i)] (good S.lim) (good S.lim) ((c.success ⟨S.lim, text⟩ (S.client.descend pre) [(arg, .sfv true i)]).bind k)) :
    ∃ t, Encodes i t ∧ TestsAnswer S (replaced t S.template) [] good good
      ((lift (base64String i)).bind fun v => (c.success ⟨S.lim, text⟩ (S.client.descend pre) [(arg, v)]).bind k) := by
  obtain ⟨t, ht, -⟩ := encode_ok hi
  refine ⟨t, encodes_of (xml_codePoints hi.1) ht, ?_⟩
  rw [base64String_ok hi.1]
  exact tests_of h fun q hs => asks_path hp hs (hq i) (fun _ h => by cases h) (harg i t ht)

theorem answer_id (hs : Sound S.env) {c : Call} (hc : callOk c = true) {d : Cls} (hm : c.mode = .decode (modelTy d)) (hd : isAbstract d = false)
    (hid : slotOf d .id = some (.attr py!"id" (.sfv .identifierString) true)) {kw : Kwargs} (hf : Fits c kw) {client : Client} (hr : Rooted client) {i m : Str} :
    Answers S.env client c kw (sameId d i S.lim) (sameId d i S.lim) ((c.success ⟨S.lim, text⟩ client kw).bind fun r => (lift (idOf r)).bind fun j => assert_ (j == i) m) := by
  refine answer hs (sane_of hc) hm hf hr fun v hv => ?_
  obtain ⟨a, rfl, ha⟩ := model_obj hd hv
  obtain ⟨t, ht, -⟩ := id_ok hid ha
  refine tail_lift ht (tail_error ?_)
  rw [beq_iff_eq]
  exact ⟨fun h => by rw [← h]; exact idOf_iff.mp ht, fun h => hasId_unique (idOf_iff.mp ht) h⟩

theorem answer_key (hs : Sound S.env) {c : Call} (hc : callOk c = true) (hm : c.mode = .decode (modelTy .reference)) {kw : Kwargs} (hf : Fits c kw) {client : Client} (hr : Rooted client) {i m : Str} :
    Answers S.env client c kw (sameRef i S.lim) (sameRef i S.lim) ((c.success ⟨S.lim, text⟩ client kw).bind fun r => (lift (firstKey r)).bind fun j => assert_ (j == i) m) := by
  refine answer hs (sane_of hc) hm hf hr fun v hv => ?_
  obtain ⟨a, rfl, ha⟩ := model_obj rfl hv
  obtain ⟨t, ht, -⟩ := key_ok ha
  refine tail_lift ht (tail_error ?_)
  rw [beq_iff_eq]
  exact ⟨fun h => by rw [← h]; exact firstKey_iff.mp ht, fun h => refersTo_unique (firstKey_iff.mp ht) h⟩

/-- the first entry of a page of objects with ids -/
theorem firstId_found (hs : Sound S.env) (hp : Slash pre) (hfill : Fills base pre) {c : Call} (hc : callOk c = true) {p : Page} (hm : c.mode = .decode (pageTy p)) (hf : fits c limit1 = true)
    (hq : asks c limit1 = some [(py!"limit", py!"1")]) {h : List Sent} {α : Type} {st : α} {k : RVal → ApiM α}
    (ho : (meaning S.env ((c.success ⟨S.lim, text⟩ (S.client.descend pre) limit1).bind k) true h).out = .val st) :
    ∃ v h, ServedOne S (base ++ segs c.route.path) p v ∧ HasType (respSchema S.lim) (pageTy p) v ∧ (meaning S.env (k v) true h).out = .val st := by
  obtain ⟨q, r, v, h1, h2, h3, h4⟩ := setup_val hs (sane_of hc) hm ⟨hf, enc_limit1⟩ (rooted_descend hp) ho
  exact ⟨v, _, ⟨h, q, r, asks_base hfill h1 hq (ascii_params rfl), h2, h3⟩, acceptable_typed h3, h4⟩

theorem shellById_found (hs : Sound S.env) (hp : Slash pre) (hfill : Fills [] pre) {h : List Sent} {i : Str}
    (ho : (meaning S.env ((getAllShells.success ⟨S.lim, text⟩ (S.client.descend pre) limit1).bind fun page => lift (firstId page)) true h).out = .val i) : IdOk i ∧ shellId S i := by
  obtain ⟨v, h', h1, h2, h3⟩ := firstId_found hs hp hfill (p := .shells) rfl rfl rfl rfl ho
  have hi := lift_val h3
  obtain ⟨x, l, h4, h5⟩ := firstId_iff.mp hi
  exact ⟨(firstId_ok (c := .assetAdministrationShell) rfl rfl rfl h2).1 _ hi, x, ⟨v, l, h1, h4⟩, h5⟩

theorem getShellById_positive (hs : Sound S.env) (hp : Placed S pre [] getShellById.route.path) :
    SuitePositive S text pre (positivesOf py!"GetAssetAdministrationShellById") getShellByIdSuite := by
  intro h st ho
  obtain ⟨hi, hid⟩ := shellById_found hs hp.slash hp.fills ho
  obtain ⟨t, ht, h'⟩ := byId_positive (text := text) (arg := py!"aas_id") hp (fun _ => rfl)
    (fun s t ht => ⟨_, rfl, fun n hn => by simp [getShellById] at hn; subst hn; exact ht⟩) hi
    (answer_id (i := st) (m := py!"Returns the requested aas") hs rfl (d := .assetAdministrationShell) rfl rfl rfl ⟨rfl, enc_one hi.enc⟩ (rooted_descend hp.slash))
  exact .cons ⟨_, t, hid, ht, h'⟩ .nil

theorem getShellByIdReference_positive (hs : Sound S.env) (hp : Placed S pre [] getShellByIdReference.route.path) :
    SuitePositive S text pre (positivesOf py!"GetAssetAdministrationShellById-Reference") getShellByIdReferenceSuite := by
  intro h st ho
  obtain ⟨hi, hid⟩ := shellById_found hs hp.slash hp.fills ho
  obtain ⟨t, ht, h'⟩ := byId_positive (text := text) (arg := py!"aas_id") hp (fun _ => rfl)
    (fun s t ht => ⟨_, rfl, fun n hn => by simp [getShellByIdReference] at hn; subst hn; exact ht⟩) hi
    (answer_key (i := st) (m := py!"Returns the requested aas") hs rfl rfl ⟨rfl, enc_one hi.enc⟩ (rooted_descend hp.slash))
  exact .cons ⟨_, t, hid, ht, h'⟩ .nil

/-! ## description.py, serialization.py -/

theorem contains_iff {s : Str} {l : List RVal} {b : Bool} (h : rcontains s (.list l) = .ok b) : b = true ↔ .str s ∈ l := by
  unfold rcontains at h
  cases h
  rw [List.any_eq_true]
  constructor
  · rintro ⟨x, hx, h⟩
    split at h
    · rw [beq_iff_eq] at h; rw [← h]; exact hx
    · cases h
  · exact fun h => ⟨_, h, by simp⟩

theorem getDescription_positive (hs : Sound S.env) (hp : Placed S pre base getDescription.route.path) :
    SuitePositive S text pre (positivesOf py!"GetDescription") getDescriptionSuite := by
  intro h st ho
  refine .cons (tests_fixed hp (kw := []) (good := valid (.cls .serviceDescription)) (full := such (.cls .serviceDescription) fun v => ∃ l, HasAttr v .profiles (.list l) ∧ (.str S.profile : RVal) ∈ l) rfl rfl ?_) .nil
  refine (answer hs (sane_of rfl) rfl ⟨rfl, enc_nil⟩ (rooted_descend hp.slash) (G := fun _ => True) fun v hv => ?_).congr (fun _ => valid_such) fun _ => .rfl
  obtain ⟨l, rfl⟩ := description_shape hv
  refine tail_lift (a := (.list l : RVal)) rfl (tail_lift (x := rcontains S.profile (.list l)) rfl (tail_warning ?_))
  rw [contains_iff (s := S.profile) (l := l) rfl]
  constructor
  · exact fun h => ⟨l, hasAttr_iff.mpr rfl, h⟩
  · rintro ⟨l', h1, h2⟩
    cases hasAttr_iff.mp h1
    exact h2

theorem asks_serialization {v : ArgVal} {t : Str} (hv : v ≠ .none) (ht : v.pyStr = .ok t) :
    asks generateSerialization [(py!"aas_id", v)] = some [(py!"aasIds", t)] ∧ asks generateSerialization [(py!"submodel_id", v)] = some [(py!"submodelIds", t)] := by
  unfold asks
  constructor
  · show (match queryOf (fun n => (List.find? (fun a : Str × ArgVal => a.1 == n) [(py!"aas_id", v)]).elim .none (·.2)) generateSerialization.route.query with | .error _ => none | .ok q => some (present q)) = _
    have : queryOf (fun n => (List.find? (fun a : Str × ArgVal => a.1 == n) [(py!"aas_id", v)]).elim .none (·.2)) generateSerialization.route.query =
      .ok [(py!"aasIds", some t), (py!"submodelIds", none), (py!"includeConceptDescriptions", none)] := by
      cases v <;> first | exact absurd rfl hv | simp [queryOf, generateSerialization, paramOf, ht, bind, Except.bind, Except.map, pure, Except.pure]
    rw [this]; rfl
  · show (match queryOf (fun n => (List.find? (fun a : Str × ArgVal => a.1 == n) [(py!"submodel_id", v)]).elim .none (·.2)) generateSerialization.route.query with | .error _ => none | .ok q => some (present q)) = _
    have : queryOf (fun n => (List.find? (fun a : Str × ArgVal => a.1 == n) [(py!"submodel_id", v)]).elim .none (·.2)) generateSerialization.route.query =
      .ok [(py!"aasIds", none), (py!"submodelIds", some t), (py!"includeConceptDescriptions", none)] := by
      cases v <;> first | exact absurd rfl hv | simp [queryOf, generateSerialization, paramOf, ht, bind, Except.bind, Except.map, pure, Except.pure]
    rw [this]; rfl

/-- where the operation is -/
theorem Placed.form {path : List Piece} (hp : Placed S pre base path) : SameForm S.template (base ++ segs path) := fun s => by
  rw [← fills_norm S.template, ← hp.route, fills_norm]

theorem base64String_val {i : Str} {v : ArgVal} (h : base64String i = .ok v) : v = .sfv true i := by
  unfold base64String at h
  split at h
  · cases h; rfl
  · cases h

theorem serialization_found (hs : Sound S.env) (hp : Placed S pre base generateSerialization.route.path) {h : List Sent} {st : ArgVal × ArgVal}
    (ho : (meaning S.env ((generateSerializationSuite ⟨S.lim, text⟩).setup (S.client.descend pre)) true h).out = .val st) :
    ∃ a b, st = (.sfv true a, .sfv true b) ∧ IdOk a ∧ IdOk b ∧ serializedShell S a ∧ serializedSubmodel S b := by
  obtain ⟨v, h', h1, h2, h3⟩ := firstId_found hs hp.slash hp.fills (c := getAllShells) (p := .shells) rfl rfl rfl rfl ho
  have hst : serializationState v = .ok st := lift_val h3
  obtain ⟨a, b, rfl, ha, hb⟩ := (serializationState_ok h2).1 st hst
  refine ⟨a, b, rfl, ha, hb, ?_⟩
  unfold serializationState at hst
  simp only [bind_ok] at hst
  obtain ⟨x, h4, i, h5, vi, h6, s, h7, vs, h8, h9⟩ := hst
  obtain ⟨l, h4⟩ := firstResult_iff.mp h4
  obtain ⟨r, rs, h10, h11⟩ := firstSubmodel_iff.mp h7
  obtain rfl := base64String_val h6
  obtain rfl := base64String_val h8
  cases h9
  exact ⟨⟨base, x, hp.form, ⟨v, l, h1, h4⟩, idOf_iff.mp h5⟩, base, x, r, rs, hp.form, ⟨v, l, h1, h4⟩, h10, h11⟩

theorem generateSerialization_positive (hs : Sound S.env) (hp : Placed S pre base generateSerialization.route.path) :
    SuitePositive S text pre (positivesOf py!"GenerateSerializationByIds") generateSerializationSuite := by
  intro h st ho
  obtain ⟨a, b, rfl, ha, hb, hsa, hsb⟩ := serialization_found hs hp ho
  have hr := rooted_descend (client := S.client) hp.slash
  refine .cons ?_ (.cons ?_ (.cons ?_ (.cons (fetch_positive hp hs rfl rfl rfl enc_nil rfl rfl) .nil)))
  · obtain ⟨t, ht, -⟩ := encode_ok ha
    exact ⟨a, t, hsa, encodes_of (xml_codePoints ha.1) ht, tests_of (answer_valid hs rfl rfl ⟨rfl, enc_one ha.enc⟩ hr) fun q hq =>
      asks_at hp hq (asks_serialization (fun h => by cases h) ht).1 (one_param rfl (base64_codePoints ht))⟩
  · obtain ⟨t, ht, -⟩ := encode_ok hb
    exact ⟨b, t, hsb, encodes_of (xml_codePoints hb.1) ht, tests_of (answer_valid hs rfl rfl ⟨rfl, enc_one hb.enc⟩ hr) fun q hq =>
      asks_at hp hq (asks_serialization (fun h => by cases h) ht).2 (one_param rfl (base64_codePoints ht))⟩
  · refine tests_fixed hp (kw := [(py!"include_concept_descriptions", .bool true)]) (good := valid (obj .environment))
      (full := such (obj .environment) fun v => ∃ l, HasAttr v (.model .conceptDescriptions) l ∧ l ≠ .none) rfl rfl ?_
    refine (answer hs (sane_of rfl) rfl ⟨rfl, enc_one (enc_bool true)⟩ hr (G := fun _ => True) fun v hv => ?_).congr (fun _ => valid_such) fun _ => .rfl
    obtain ⟨a, rfl, ha⟩ := model_obj (c := .environment) rfl hv
    obtain ⟨h1, -⟩ := ha.field (f := .conceptDescriptions) (key := py!"conceptDescriptions") (ty := .list (.cls .conceptDescription) false) (req := false) rfl
    refine tail_lift (rattr_emb h1) (tail_warning ?_)
    rw [Bool.not_eq_true', ← Bool.not_eq_true, risNone_iff]
    constructor
    · exact fun h => ⟨_, hasAttr_iff.mpr (rattr_emb h1), h⟩
    · rintro ⟨l, h2, h3⟩
      have := hasAttr_iff.mp h2
      rw [rattr_emb h1] at this
      cases this
      exact h3

/-! ## submodel.py -/

theorem getSubmodel_positive (hs : Sound S.env) (hp : Placed S pre base getSubmodel.route.path) : SuitePositive S text pre (positivesOf py!"GetSubmodel") getSubmodelSuite :=
  fun _ _ _ => .cons (fetch_positive hp hs rfl rfl rfl enc_nil rfl rfl) .nil
theorem getSubmodelMeta_positive (hs : Sound S.env) (hp : Placed S pre base getSubmodelMeta.route.path) :
    SuitePositive S text pre (positivesOf py!"GetSubmodel-Metadata") getSubmodelMetaSuite :=
  fun _ _ _ => .cons (fetch_positive hp hs rfl rfl rfl enc_nil rfl rfl) .nil
theorem getSubmodelValue_positive (hp : Placed S pre base getSubmodelValue.route.path) : SuitePositive S text pre (positivesOf py!"GetSubmodel-ValueOnly") getSubmodelValueSuite :=
  fun _ _ _ => .cons (tests_fixed hp (good := anyJson) (full := anyJson) (kw := []) rfl rfl (answer_json (sane_of rfl) rfl ⟨rfl, enc_nil⟩ (rooted_descend hp.slash))) .nil
theorem getSubmodelReference_positive (hs : Sound S.env) (hp : Placed S pre base getSubmodelReference.route.path) :
    SuitePositive S text pre (positivesOf py!"GetSubmodel-Reference") getSubmodelReferenceSuite :=
  fun _ _ _ => .cons (fetch_positive hp hs rfl rfl rfl enc_nil rfl rfl) .nil
theorem getSubmodelPath_positive (hs : Sound S.env) (hp : Placed S pre base getSubmodelPath.route.path) :
    SuitePositive S text pre (positivesOf py!"GetSubmodel-Path") getSubmodelPathSuite :=
  fun _ _ _ => .cons (fetch_positive hp hs rfl rfl rfl enc_nil rfl rfl) .nil

/-- the cursor that a suite finds for its own operation -/
theorem own_cursor (hs : Sound S.env) {c : Call} (hp : Placed S pre base c.route.path) (hc : callOk c = true) {p : Page} (hm : c.mode = .decode (pageTy p)) (hf : fits c limit1 = true)
    (hq : asks c limit1 = some [(py!"limit", py!"1")]) {h : List Sent} {st : RVal}
    (ho : (meaning S.env ((c.success ⟨S.lim, text⟩ (S.client.descend pre) limit1).bind fun page => lift (pageCursor page)) true h).out = .val st) : own p S st :=
  cursor_found hp hs hc hm hf (fun _ h => asks_at hp h hq (ascii_params rfl)) ho

theorem getAllSubmodelElements_positive (hs : Sound S.env) (hp : Placed S pre base getAllSubmodelElements.route.path) :
    SuitePositive S text pre (positivesOf py!"GetAllSubmodelElements") getAllSubmodelElementsSuite :=
  fun _ _ ho => rows_runs (rows_runs (a := levelExtentTests (.cls (.page .elements)))
    (.cons (fetch_positive hp hs rfl rfl rfl (enc_levelExtent enc_deep enc_withBlob) rfl rfl) <|
     .cons (fetch_positive hp hs rfl rfl rfl (enc_levelExtent enc_core enc_withoutBlob) rfl rfl) <|
     .cons (fetch_positive hp hs rfl rfl rfl (enc_levelExtent enc_deep enc_withoutBlob) rfl rfl) <|
     .cons (fetch_positive hp hs rfl rfl rfl (enc_levelExtent enc_deep enc_withoutBlob) rfl rfl) <|
     .cons (fetch_positive hp hs rfl rfl rfl (enc_one enc_withBlob) rfl rfl) <|
     .cons (fetch_positive hp hs rfl rfl rfl (enc_one enc_withoutBlob) rfl rfl) .nil)
    (pagination_positive hp hs rfl (p := .elements) rfl rfl rfl (own_cursor hs hp rfl (p := .elements) rfl rfl rfl ho)))
    (.cons (fetch_positive hp hs rfl rfl rfl (enc_one enc_core) rfl rfl) <| .cons (fetch_positive hp hs rfl rfl rfl (enc_one enc_deep) rfl rfl) <|
     .cons (fetch_positive hp hs rfl rfl rfl enc_nil rfl rfl) .nil)

theorem getAllSubmodelElementsMeta_positive (hs : Sound S.env) (hp : Placed S pre base getAllSubmodelElementsMeta.route.path) :
    SuitePositive S text pre (positivesOf py!"GetAllSubmodelElements-Metadata") getAllSubmodelElementsMetaSuite :=
  fun _ _ ho => rows_runs (a := [_, _]) (pagination_positive hp hs rfl (p := .elements) rfl rfl rfl (own_cursor hs hp rfl (p := .elements) rfl rfl rfl ho))
    (.cons (fetch_positive hp hs rfl rfl rfl enc_nil rfl rfl) .nil)

theorem levelTests_positive (hs : Sound S.env) {c : Call} (hp : Placed S pre base c.route.path) (hc : callOk c = true) {p : Page} (hm : c.mode = .decode (pageTy p)) (hf : fits c limit1 = true)
    (hq : asks c limit1 = some [(py!"limit", py!"1")]) (f1 : fits c (level core) = true) (q1 : asks c (level core) = some [(py!"level", py!"core")])
    (f2 : fits c (level deep) = true) (q2 : asks c (level deep) = some [(py!"level", py!"deep")]) (f3 : fits c [] = true) (q3 : asks c [] = some []) {st : RVal} (hcur : own p S st) :
    PositiveRows S ([Spec.Suites.getOne p, secondPage (own p) p] ++ Spec.Suites.levelTests p) (runs S pre st (levelTests ⟨S.lim, text⟩ c)) :=
  rows_runs (pagination_positive hp hs hc hm hf hq hcur)
    (.cons (fetch_positive hp hs hc hm f1 (enc_one enc_core) q1 rfl) <| .cons (fetch_positive hp hs hc hm f2 (enc_one enc_deep) q2 rfl) <|
     .cons (fetch_positive hp hs hc hm f3 enc_nil q3 rfl) .nil)

theorem getAllSubmodelElementsValue_positive (hs : Sound S.env) (hp : Placed S pre base getAllSubmodelElementsValue.route.path) :
    SuitePositive S text pre (positivesOf py!"GetAllSubmodelElements-ValueOnly") getAllSubmodelElementsValueSuite :=
  fun _ _ ho => levelTests_positive hs hp rfl (p := .elementValues) rfl rfl rfl rfl rfl rfl rfl rfl rfl (own_cursor hs hp rfl (p := .elementValues) rfl rfl rfl ho)

theorem getAllSubmodelElementsPath_positive (hs : Sound S.env) (hp : Placed S pre base getAllSubmodelElementsPath.route.path) :
    SuitePositive S text pre (positivesOf py!"GetAllSubmodelElements-Path") getAllSubmodelElementsPathSuite :=
  fun _ _ ho => levelTests_positive hs hp rfl (p := .elementPaths) rfl rfl rfl rfl rfl rfl rfl rfl rfl (own_cursor hs hp rfl (p := .elementPaths) rfl rfl rfl ho)

theorem getAllSubmodelElementsReference_positive (hs : Sound S.env) (hp : Placed S pre base getAllSubmodelElementsReference.route.path) :
    SuitePositive S text pre (positivesOf py!"GetAllSubmodelElements-Reference") getAllSubmodelElementsReferenceSuite :=
  fun _ _ _ => rows_runs (a := [_, _]) (pagination_positive hp hs rfl (p := .elementRefs) rfl rfl rfl rfl)
    (.cons (fetch_positive hp hs rfl rfl rfl enc_nil rfl rfl) .nil)

/-! ## submodel_repo.py -/

theorem allSubmodels_positive (hs : Sound S.env) {c : Call} (hp : Placed S pre [] c.route.path) (hc : callOk c = true) {p : Page} (hm : c.mode = .decode (pageTy p)) (hf : fits c limit1 = true)
    (hq : asks c limit1 = some [(py!"limit", py!"1")]) (h0 : fits c [] = true) (q0 : asks c [] = some []) {operation : Str} {line : Nat} :
    SuitePositive S text pre [Spec.Suites.getOne p, secondPage firstSubmodels p, plain py!"test_no_params" (.cls (.page p))] fun cfg => allSubmodelsSuite cfg operation c line := by
  intro h st ho
  have hplaced : Placed { S with template := [.text py!"/submodels"] } pre [] getAllSubmodels.route.path := ⟨hp.slash, hp.fills, hp.fixed, rfl⟩
  exact rows_runs (a := [_, _]) (pagination_positive hp hs hc hm hf hq (own_cursor (S := { S with template := [.text py!"/submodels"] }) hs hplaced rfl (p := .submodels) rfl rfl rfl ho))
    (.cons (fetch_positive hp hs hc hm h0 enc_nil q0 rfl) .nil)

theorem getAllSubmodels_positive (hs : Sound S.env) (hp : Placed S pre [] getAllSubmodels.route.path) : SuitePositive S text pre (positivesOf py!"GetAllSubmodels") getAllSubmodelsSuite :=
  allSubmodels_positive hs hp rfl (p := .submodels) rfl rfl rfl rfl rfl
theorem getAllSubmodelsMeta_positive (hs : Sound S.env) (hp : Placed S pre [] getAllSubmodelsMeta.route.path) :
    SuitePositive S text pre (positivesOf py!"GetAllSubmodels-Metadata") getAllSubmodelsMetaSuite :=
  allSubmodels_positive hs hp rfl (p := .submodels) rfl rfl rfl rfl rfl
theorem getAllSubmodelsValue_positive (hs : Sound S.env) (hp : Placed S pre [] getAllSubmodelsValue.route.path) :
    SuitePositive S text pre (positivesOf py!"GetAllSubmodels-ValueOnly") getAllSubmodelsValueSuite :=
  allSubmodels_positive hs hp rfl (p := .submodelValues) rfl rfl rfl rfl rfl
theorem getAllSubmodelsReference_positive (hs : Sound S.env) (hp : Placed S pre [] getAllSubmodelsReference.route.path) :
    SuitePositive S text pre (positivesOf py!"GetAllSubmodels-Reference") getAllSubmodelsReferenceSuite :=
  allSubmodels_positive hs hp rfl (p := .submodelRefs) rfl rfl rfl rfl rfl
theorem getAllSubmodelsPath_positive (hs : Sound S.env) (hp : Placed S pre [] getAllSubmodelsPath.route.path) :
    SuitePositive S text pre (positivesOf py!"GetAllSubmodels-Path") getAllSubmodelsPathSuite :=
  allSubmodels_positive hs hp rfl (p := .submodelPaths) rfl rfl rfl rfl rfl

end Verif.Api.Suites
