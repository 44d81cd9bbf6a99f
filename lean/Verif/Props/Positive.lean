import Verif.SuiteFacts11
import Verif.Props.SuiteSamples
import Verif.Spec.Titles

/-!
# C73: the positive tests

For every server: what the positive tests of each operation send, and which responses they accept. The table is in `Spec/Positive.lean`.
-/

namespace Verif.Props
open Verif Verif.Parse Verif.Aas Verif.Spec Verif.Spec.Parse Verif.Spec.Api Verif.Spec.Suites Verif.Spec.Routes Verif.Spec.Generate Verif.Generate Verif.Http
open Verif.Api hiding sane supported
open Verif.Api.Suites

variable (env : List Sent → Sent → Answer) (cfg : Cfg)

theorem entry_pos (hs : Sound env) {service : Str} {e : Str × List Seg} {op : Op} (h : Entry cfg service e op) : PosOk env cfg.lim e op := by
  obtain ⟨⟨⟨n, es⟩, m, ops⟩, hm, rfl, hz⟩ := h
  have hm : _ ∈ [_, _, _, _] := hm
  simp only [List.mem_cons, List.not_mem_nil, or_false] at hm
  rcases hm with hm | hm | hm | hm <;> cases hm
  · exact PosOps.zip (shellRepoOps_pos hs) e op hz
  · exact PosOps.zip (submodelRepoOps_pos hs) e op hz
  · exact PosOps.zip (shellOps_pos hs) e op hz
  · exact PosOps.zip (submodelOps_pos hs) e op hz

/-- C73: the positive tests of every operation are those of the table: what they send is built from what the server has answered during the
setup, and they pass iff the response is as demanded. -/
theorem C73_positive (hs : Sound env) {service : Str} {e : Str × List Seg} {op : Op} (hop : Entry cfg service e op) (client : Client)
    (hp : client.prefixes = []) (h : List Sent) (c : Client) (st : op.suite.σ) (hu : SetUp env client op h (c, st)) (profile : Str) :
    PositiveRows ⟨env, cfg.lim, client, sentTo e, profile⟩ (positivesOf e.1) (op.suite.tests.map fun t => (t.name, t.run c profile st)) := by
  obtain ⟨-, base, call, S, S', T, ok, hf⟩ := entry_ok env cfg hs hop
  have hpos := entry_pos env cfg hs hop
  have hr : Rooted client := by rw [Rooted, hp]; exact .inl rfl
  unfold SetUp setupOp at hu
  obtain ⟨pre, h1, hu⟩ := meaning_bind_val hu
  obtain ⟨st', h2, hu⟩ := meaning_bind_val hu
  have h3 := (hf.pre client hr h).2
  rw [h1] at h3
  cases pure_val hu
  have := hpos client profile pre [] h3.1 (by rw [put_nil, ← hf.place]; exact h3.2) _ st h2
  rwa [put_nil] at this

/-! ## results -/

theorem rows_length {S : Setting} {rows : List (Str × Positive)} {ps : List (Str × ApiM Unit)} (h : PositiveRows S rows ps) : ps.length = rows.length := by
  induction h with
  | nil => rfl
  | cons _ _ ih => simp [ih]

theorem rows_left {S : Setting} {rows : List (Str × Positive)} {ps : List (Str × ApiM Unit)} (h : PositiveRows S rows ps) :
    ∀ r ∈ rows, ∃ p, (r.1, p) ∈ ps ∧ Positive.IsTest S p r.2 := by
  induction h with
  | nil => exact fun r hr => by cases hr
  | cons h1 _ ih =>
    intro r hr
    rcases List.mem_cons.mp hr with rfl | hr
    · exact ⟨_, List.mem_cons_self, h1⟩
    · obtain ⟨p, hp, hi⟩ := ih r hr
      exact ⟨p, List.mem_cons_of_mem _ hp, hi⟩

theorem rows_right {S : Setting} {rows : List (Str × Positive)} {ps : List (Str × ApiM Unit)} (h : PositiveRows S rows ps) :
    ∀ x ∈ ps, ∃ t, (x.1, t) ∈ rows ∧ Positive.IsTest S x.2 t := by
  induction h with
  | nil => exact fun r hr => by cases hr
  | cons h1 _ ih =>
    intro r hr
    rcases List.mem_cons.mp hr with rfl | hr
    · exact ⟨_, List.mem_cons_self, h1⟩
    · obtain ⟨p, hp, hi⟩ := ih r hr
      exact ⟨p, List.mem_cons_of_mem _ hp, hi⟩

variable {env}

theorem ran_length {ps : List (Str × ApiM Unit)} {h h' : List Sent} {rs : List (Res Str)} (hr : Ran env ps h rs h') : rs.length = ps.length := by
  induction hr with
  | nil => rfl
  | cons _ _ ih => simp [ih]

theorem ran_left {ps : List (Str × ApiM Unit)} {h h' : List Sent} {rs : List (Res Str)} (hr : Ran env ps h rs h') :
    ∀ x ∈ ps, ∃ r ∈ rs, ∃ h1 v h2, Ends env x.1 x.2 h1 v r h2 := by
  induction hr with
  | nil => exact fun r hr => by cases hr
  | cons h1 _ ih =>
    intro x hx
    rcases List.mem_cons.mp hx with rfl | hx
    · exact ⟨_, List.mem_cons_self, _, _, _, h1⟩
    · obtain ⟨r, hr, h2⟩ := ih x hx
      exact ⟨r, List.mem_cons_of_mem _ hr, h2⟩

theorem ran_right {ps : List (Str × ApiM Unit)} {h h' : List Sent} {rs : List (Res Str)} (hr : Ran env ps h rs h') :
    ∀ r ∈ rs, ∃ x ∈ ps, ∃ h1 v h2, Ends env x.1 x.2 h1 v r h2 := by
  induction hr with
  | nil => exact fun r hr => by cases hr
  | cons h1 _ ih =>
    intro x hx
    rcases List.mem_cons.mp hx with rfl | hx
    · exact ⟨_, List.mem_cons_self, _, _, _, h1⟩
    · obtain ⟨r, hr, h2⟩ := ih x hx
      exact ⟨r, List.mem_cons_of_mem _ hr, h2⟩

theorem passed_failed (l : List (Res Str)) : passed l + failed l = l.length := by
  unfold passed failed
  induction l with
  | nil => rfl
  | cons r l ih =>
    rw [List.countP_cons, List.countP_cons, List.length_cons, ← ih]
    cases r.ok <;> simp <;> omega

theorem neg_length {cfg : Cfg} {client : Client} {template : List Seg} {bs : List Bad} {ps : List (Str × ApiM Unit)} (h : Rows env cfg client template bs ps) : ps.length = bs.length := by
  induction h with
  | nil => rfl
  | cons _ _ ih => simp [ih]

theorem generated_unique {C E S : Type} {k : Classes C E S} {args : List (Argument C E S)} {a b : List (List ArgVal)} (ha : Generated k args a) (hb : Generated k args b) : a = b := by
  induction ha generalizing b with
  | nil => cases hb; rfl
  | cons h1 _ ih =>
    cases hb with
    | cons h2 hb =>
      rw [h1] at h2
      cases h2
      rw [ih hb]

variable (env)

/-- C73: the results of an operation whose setup succeeds: one for each of its negative tests, and one for each of its positive tests, which
is the result of such a test. -/
theorem C73_results (hs : Sound env) {service : Str} {e : Str × List Seg} {op : Op} (hop : Entry cfg service e op) (client : Client)
    (hp : client.prefixes = []) (conf : Conf) (h h' : List Sent) (s n p : Res Str) (m : Mat) (hr : Parts env conf client op h [s, n, p] m h') :
    n.subs.length = (negativesOf e.1).length ∧ p.subs.length = (positivesOf e.1).length ∧
    m.validAccepted + m.validRejected = (positivesOf e.1).length ∧ m.invalidAccepted + m.invalidRejected = (negativesOf e.1).length ∧
    (∀ t ∈ positivesOf e.1, ∃ r ∈ p.subs, ∃ q h1 v h2, Positive.IsTest ⟨env, cfg.lim, client, sentTo e, conf.suite⟩ q t.2 ∧ Ends env r.msg q h1 v r h2) ∧
    ∀ r ∈ p.subs, ∃ t ∈ positivesOf e.1, ∃ q h1 v h2, Positive.IsTest ⟨env, cfg.lim, client, sentTo e, conf.suite⟩ q t.2 ∧ Ends env r.msg q h1 v r h2 := by
  cases hr with
  | tested hd he hok hg hn hnb hperm hsort hps hpb =>
  rename_i c st h1 invalid ns h2 ts ps
  have hu : SetUp env client op h (c, st) := by
    obtain ⟨-, ⟨a, h1, h2, -⟩ | ⟨x, -, h2, -⟩⟩ := he
    · cases h2; exact h1
    · cases h2
  have hrows := C73_positive env cfg hs hop client hp h c st hu conf.suite
  obtain ⟨invalid', hg', hneg⟩ := C70_negative env cfg hs hop client hp h c st hu
  cases generated_unique hg hg'
  have l1 : ns.length = (negativesOf e.1).length := by rw [ran_length hn, neg_length hneg]
  have l2 : ps.length = (positivesOf e.1).length := by
    rw [ran_length hps, positiveTests, List.length_map, hperm.length_eq, ← rows_length hrows, List.length_map]
  refine ⟨by rw [hnb.subs, l1], by rw [hpb.subs, l2], by rw [passed_failed, l2], by dsimp only; rw [Nat.add_comm, passed_failed, l1], ?_, ?_⟩
  · intro t ht
    obtain ⟨q, hq, hi⟩ := rows_left hrows t ht
    obtain ⟨u, hu', hq⟩ := List.mem_map.mp hq
    obtain ⟨-, rfl⟩ := Prod.mk.inj hq
    obtain ⟨r, hr, h3, v, h4, he'⟩ := ran_left hps (_, u.run c conf.suite st) (List.mem_map.mpr ⟨u, hperm.mem_iff.mpr hu', rfl⟩)
    refine ⟨r, by rw [hpb.subs]; exact hr, _, h3, v, h4, hi, ?_⟩
    rw [ends_msg he']
    exact he'
  · intro r hr
    rw [hpb.subs] at hr
    obtain ⟨x, hx, h3, v, h4, he'⟩ := ran_right hps r hr
    obtain ⟨u, hu', rfl⟩ := List.mem_map.mp hx
    obtain ⟨t, ht, hi⟩ := rows_right hrows (u.name, u.run c conf.suite st) (List.mem_map.mpr ⟨u, hperm.mem_iff.mp hu', rfl⟩)
    refine ⟨_, ht, _, h3, v, h4, hi, ?_⟩
    rw [ends_msg he']
    exact he'

/-! ## order and titles -/

set_option maxRecDepth 10000 in
theorem titles_services : (services.map fun s => s.2.map fun e => titlesOf e.1) =
    (availableSuites cfg).map fun s => s.2.map fun op => (sortTests op.suite.tests).map fun t => (t.name, t.title) := rfl

set_option maxRecDepth 10000 in
theorem distinct_services : ((availableSuites cfg).all fun s => s.2.all fun op => decide ((op.suite.tests.map (·.line)).Nodup) && decide ((op.suite.tests.map (·.name)).Nodup)) = true := rfl

theorem zip_map {A C : Type} {f : A → C} {B : Type 1} {g : B → C} : ∀ {l : List A} {l' : List B}, l.map f = l'.map g → ∀ a b, (a, b) ∈ l.zip l' → f a = g b
  | [], _, _, _, _, h => by cases h
  | _ :: _, [], _, _, _, h => by cases h
  | x :: l, y :: l', h, a, b, hm => by
    rw [List.map_cons, List.map_cons, List.cons.injEq] at h
    rcases List.mem_cons.mp hm with hm | hm
    · cases hm; exact h.1
    · exact zip_map h.2 a b hm

theorem entry_titles {service : Str} {e : Str × List Seg} {op : Op} (h : Entry cfg service e op) :
    titlesOf e.1 = (sortTests op.suite.tests).map (fun t => (t.name, t.title)) ∧ (op.suite.tests.map (·.line)).Nodup ∧ (op.suite.tests.map (·.name)).Nodup := by
  obtain ⟨s, hm, -, hz⟩ := h
  refine ⟨zip_map (zip_map (titles_services cfg) s.1 s.2 hm) e op hz, ?_⟩
  have h1 := List.all_eq_true.mp (distinct_services cfg) s.2 (List.of_mem_zip hm).2
  have h2 := List.all_eq_true.mp h1 op (List.of_mem_zip hz).2
  rw [Bool.and_eq_true] at h2
  exact ⟨of_decide_eq_true h2.1, of_decide_eq_true h2.2⟩

theorem lines_inj {A : Type 1} {f : A → Nat} : ∀ {l : List A}, (l.map f).Nodup → ∀ a b, a ∈ l → b ∈ l → f a = f b → a = b
  | x :: l, h, a, b, ha, hb, hab => by
    rw [List.map_cons, List.nodup_cons] at h
    rcases List.mem_cons.mp ha with ha | ha <;> rcases List.mem_cons.mp hb with hb | hb
    · rw [ha, hb]
    · exact absurd (List.mem_map.mpr ⟨b, hb, by rw [← hab, ha]⟩) h.1
    · exact absurd (List.mem_map.mpr ⟨a, ha, by rw [hab, hb]⟩) h.1
    · exact lines_inj h.2 a b ha hb hab

theorem in_order {S : Setting} {rows : List (Str × Positive)} {σ : Type} {ts : List (Test σ)} {c : Client} {profile : Str} {st : σ} :
    ∀ us : List (Test σ), (∀ u ∈ us, u ∈ ts) → PositiveRows S rows (ts.map fun t => (t.name, t.run c profile st)) →
    InOrder S rows (us.map fun t => (t.name, t.title)) (us.map fun t => (t.title, t.run c profile st))
  | [], _, _ => .nil
  | u :: us, h, hr => by
    obtain ⟨t, ht, hi⟩ := rows_right hr (u.name, u.run c profile st) (List.mem_map.mpr ⟨u, h u List.mem_cons_self, rfl⟩)
    exact .cons ht hi (in_order us (fun v hv => h v (List.mem_cons_of_mem _ hv)) hr)

theorem rows_names {S : Setting} {rows : List (Str × Positive)} {ps : List (Str × ApiM Unit)} (h : PositiveRows S rows ps) : rows.map (·.1) = ps.map (·.1) := by
  induction h with
  | nil => rfl
  | cons _ _ ih => simp [ih]

/-- C73: the positive tests run one after the other, in the order and with the titles of the table, each test once. -/
theorem C73_order (hs : Sound env) {service : Str} {e : Str × List Seg} {op : Op} (hop : Entry cfg service e op) (client : Client)
    (hp : client.prefixes = []) (conf : Conf) (h h' : List Sent) (s n p : Res Str) (m : Mat) (hr : Parts env conf client op h [s, n, p] m h') :
    (∃ ps h1, InOrder ⟨env, cfg.lim, client, sentTo e, conf.suite⟩ (positivesOf e.1) (titlesOf e.1) ps ∧ Ran env ps h1 p.subs h') ∧
    p.subs.map (·.msg) = (titlesOf e.1).map (·.2) ∧
    ((titlesOf e.1).map (·.1)).Perm ((positivesOf e.1).map (·.1)) ∧ ((positivesOf e.1).map (·.1)).Nodup := by
  cases hr with
  | tested hd he hok hg hn hnb hperm hsort hps hpb =>
  rename_i c st h1 invalid ns h2 ts ps
  have hu : SetUp env client op h (c, st) := by
    obtain ⟨-, ⟨a, h1, h2, -⟩ | ⟨x, -, h2, -⟩⟩ := he
    · cases h2; exact h1
    · cases h2
  have hrows := C73_positive env cfg hs hop client hp h c st hu conf.suite
  obtain ⟨ht, hl, hname⟩ := entry_titles cfg hop
  have hts : ts = sortTests op.suite.tests := by
    refine List.Perm.eq_of_pairwise (le := fun t u => t.line ≤ u.line) ?_ hsort (sortTests_sorted _) (hperm.trans (sortTests_perm _).symm)
    intro a b ha hb h1 h2
    have hab : a.line = b.line := Nat.le_antisymm h1 h2
    have hb' : b ∈ op.suite.tests := (sortTests_perm op.suite.tests).mem_iff.mp hb
    exact lines_inj (f := fun t : Test op.suite.σ => t.line) hl a b (hperm.mem_iff.mp ha) hb' hab
  have hpt : positiveTests c conf.suite st ts = ts.map fun t => (t.title, t.run c conf.suite st) := by
    unfold positiveTests
    refine List.map_congr_left fun t _ => ?_
    unfold Test.title
    cases t.doc with
    | none => rfl
    | some d => cases d <;> rfl
  rw [hpt] at hps
  have hmsg : ∀ {qs : List (Str × ApiM Unit)} {a b : List Sent} {rs : List (Res Str)}, Ran env qs a rs b → rs.map (·.msg) = qs.map (·.1) := by
    intro qs a b rs hq
    induction hq with
    | nil => rfl
    | cons h1 _ ih => rw [List.map_cons, List.map_cons, ih, ends_msg h1]
  rw [hpb.subs, ht, ← hts]
  refine ⟨⟨_, h2, in_order ts (fun u hu => hperm.mem_iff.mp hu) hrows, hps⟩, ?_, ?_, ?_⟩
  · rw [hmsg hps, List.map_map, List.map_map]; rfl
  · rw [rows_names hrows, List.map_map, List.map_map]
    exact hperm.map _
  · rw [rows_names hrows, List.map_map]
    exact hname

example : titlesOf py!"GetDescription" = [(py!"test_contains_suite", docstring py!"Returned profiles must contain suite")] := by decide +kernel

/-! ## status -/

/-- only responses with status 200 satisfy the demand -/
def Strict (d : Demand) : Prop := ∀ lim r, d lim r → r.status = 200

/-- the test passes for responses with status 200 only -/
def Positive.Strict : Positive → Prop
  | .get _ good | .warn _ good _ | .next _ _ good | .types _ _ good | .file good => Props.Strict good
  | .filter _ _ good | .encoded _ _ good | .byId _ good => ∀ s, Props.Strict (good s)

/-- the operations whose tests do not look at the status -/
def anyStatus : List Str :=
  [py!"GetThumbnail", py!"GetSubmodel-ValueOnly", py!"GetSubmodelById-ValueOnly", py!"GetSubmodelElementByPath-Metadata", py!"GetSubmodelElementByPath-ValueOnly", py!"GetFileByPath"]

theorem strict_valid (ty : RTy) : Strict (valid ty) := fun _ _ ⟨_, h⟩ => h.2.1
theorem strict_such (ty : RTy) (f : RVal → Prop) : Strict (such ty f) := fun _ _ ⟨_, h, _⟩ => h.2.1
theorem strict_page (p : Page) (f : List RVal → Prop) : Strict (page p f) := strict_such _ _

/-- C73: the positive tests of these operations pass for responses with status 200 only. -/
theorem C73_status_partial : ∀ o ∈ positives, o.1 ∉ anyStatus → ∀ t ∈ o.2, Positive.Strict t.2 := by
  have hv := strict_valid
  have hs := strict_such
  have hp := strict_page
  simp only [positives, shellFilters, levelExtentTests, Spec.Suites.levelTests, Spec.Suites.elementTests, sameId, sameRef, Spec.Suites.plain, Spec.Suites.getOne, secondPage,
    List.forall_mem_cons, List.cons_append, List.nil_append, Positive.Strict, hv, hs, hp, List.not_mem_nil, false_implies, implies_true, and_true, true_and]
  refine ⟨?_, ?_, ?_, ?_, ?_, ?_⟩ <;> exact fun h => absurd (by decide +kernel) h

/-- the server answers requests whose URL contains this text with this -/
def except (part : Str) (a : Answer) : List Sent → Sent → Answer := fun h q => if has q.url part then a else server [] h q
def runWith (env : List Sent → Sent → Answer) (i : Nat) : Out (Res Str × Mat) × List Sent :=
  run env (executeTests (availableSuites plainCfg) sampleClient { suite := service i })

/-- C73 fails for other operations: all tests pass although the server answers with status 500. -/
theorem C73_status_violated :
    verdictOf (runWith (except py!"/thumbnail" (answer 500 .null)) 0) = some (true, ⟨78, 0, 0, 34⟩) ∧
    verdictOf (runWith (except py!"/submodel/$value" (answer 500 (.obj []))) 3) = some (true, ⟨59, 0, 0, 17⟩) := by
  decide +kernel

/-! ## parameters -/

/-- C73: no request of a test has a cursor, although the pages have one (`pageJson`); and the elements are never requested with
`level=core` and `extent=withBlobValue`. -/
theorem C73_parameters_violated :
    verdictOf (runOf [] 3) = some (true, ⟨59, 0, 0, 17⟩) ∧
    (runOf [] 3).2.all (fun q => !has q.url py!"cursor") = true ∧
    sentUrl (runOf [] 3) py!"http://h/submodel/submodel-elements?level=core&extent=withoutBlobValue" = true ∧
    sentUrl (runOf [] 3) py!"http://h/submodel/submodel-elements?level=core&extent=withBlobValue" = false := by
  decide +kernel

/-! ## paths of elements -/

/-- C73: the elements that are looked up by their paths: exactly those that can be reached through collections, each with its path. -/
theorem C73_paths_partial (lim : Option Nat) (r : Response) (v : RVal) (l : List RVal) (h : Good lim (.cls (.page .elements)) r v) (hl : Entries v l)
    (c : Cls) (p : Str) : Located l c p ↔ HasPath [.submodelElementCollection] l c p :=
  located_paths h hl c p

def unnamed : Json := .obj [(py!"modelType", .str py!"Property"), (py!"valueType", .str py!"xs:int")]
def listJson : Json := .obj [(py!"modelType", .str py!"SubmodelElementList"), (py!"idShort", .str py!"l"), (py!"typeValueListElement", .str py!"Property"),
  (py!"valueTypeListElement", .str py!"xs:int"), (py!"value", .arr [unnamed])]
example : (parseResponse none (.cls (.page .elements)) (pageJson [listJson])).map (fun x => x.1.ok) = .ok true := by decide +kernel

/-- C73 fails for elements of lists: the submodel has the property `l[0]`, but it is never requested. -/
theorem C73_paths_violated :
    let x := runOf [(py!"/submodel/submodel-elements", pageJson [listJson])] 3
    crash x = none ∧ sentUrl x py!"http://h/submodel/submodel-elements/l" = true ∧ x.2.all (fun q => !has q.url py!"l%5B" && !has q.url py!"l[") = true := by
  decide +kernel

/-! ## examples -/

example : Entry plainCfg (service 0) (py!"GetAllAssetAdministrationShells", [.text py!"/shells"]) ⟨noPrefix, getAllShellsSuite plainCfg⟩ :=
  ⟨(services[0], (availableSuites plainCfg)[0]'(by show 0 < 4; decide)), List.mem_of_getElem? (i := 0) rfl, rfl, List.mem_of_getElem? (i := 0) rfl⟩

example : (match (meaning (server []) (setupOp sampleClient ⟨noPrefix, getAllShellsSuite plainCfg⟩) true []).out with | .val x => x.2.idShort | _ => []) = py!"shell" := by
  decide +kernel

example : (positivesOf py!"GetAllAssetAdministrationShells").length = 6 ∧ (negativesOf py!"GetAllAssetAdministrationShells").length = 2 := by decide +kernel

end Verif.Props
