import Verif.SetupTable
import Verif.Props.Positive
import Verif.Props.SuiteSamples

/-!
# C75: the setups of the operations

For every server: what the engine asks for before the tests of an operation, what it needs, and which ids are in the paths of the tests. The
tables are in `Spec/Setups.lean`.
-/

namespace Verif.Props
open Verif Verif.Parse Verif.Aas Verif.Spec Verif.Spec.Parse Verif.Spec.Api Verif.Spec.Suites Verif.Spec.Routes Verif.Spec.Generate Verif.Generate Verif.Http
open Verif.Api hiding sane supported
open Verif.Api.Suites

variable (env : List Sent → Sent → Answer) (cfg : Cfg)

theorem entry_plan (hs : Sound env) {service : Str} {e : Str × List Seg} {op : Op} (h : Entry cfg service e op) : PlanOk env cfg.lim e op := by
  obtain ⟨⟨⟨n, es⟩, m, ops⟩, hm, rfl, hz⟩ := h
  have hm : _ ∈ [_, _, _, _] := hm
  simp only [List.mem_cons, List.not_mem_nil, or_false] at hm
  rcases hm with hm | hm | hm | hm <;> cases hm
  · exact PlanOps.zip (shellRepoOps_plan hs) e op hz
  · exact PlanOps.zip (submodelRepoOps_plan hs) e op hz
  · exact PlanOps.zip (shellOps_plan hs) e op hz
  · exact PlanOps.zip (submodelOps_plan hs) e op hz

theorem setup_core (hs : Sound env) {service : Str} {e : Str × List Seg} {op : Op} (hop : Entry cfg service e op) (client : Client)
    (hp : client.prefixes = []) (h : List Sent) : ∃ qs o, Follows env cfg.lim client (plan e) [] h qs o ∧
      (meaning env (setupOp client op) true h).hist = h ++ qs ∧ EndsAs o (meaning env (setupOp client op) true h) ∧
      ∀ c st, SetUp env client op h (c, st) → ∃ ids vs pre h', o = .ready ids ∧ Encoded ids vs ∧ c = client.descend pre ∧ Slash pre ∧ Fills (put vs (placeOf e.2)) pre ∧
        (meaning env (op.suite.setup (client.descend pre)) true h').out = .val st := by
  obtain ⟨asked, own, hplan, hpre, hsuite⟩ := entry_plan env cfg hs hop
  rw [hplan]
  obtain ⟨qs, o, f1, f2, f3, f4⟩ := hpre client hp h
  unfold SetUp setupOp
  rw [meaning_bind]
  unfold Meaning.andThen
  cases ho : (meaning env (op.prefixOf client) true h).out with
  | aborted x =>
    obtain ⟨e1, e2⟩ := ends_aborted (m' := ⟨(meaning env (op.prefixOf client) true h).ents, .aborted x, (meaning env (op.prefixOf client) true h).hist,
      (meaning env (op.prefixOf client) true h).log⟩) f3 ho rfl
    exact ⟨qs, o, follows_stop own f1 e2, f2, e1, fun c st hx => by cases hx⟩
  | raised x =>
    obtain ⟨e1, e2⟩ := ends_raised (m' := ⟨(meaning env (op.prefixOf client) true h).ents, .raised x, (meaning env (op.prefixOf client) true h).hist,
      (meaning env (op.prefixOf client) true h).log⟩) f3 ho rfl
    exact ⟨qs, o, follows_stop own f1 e2, f2, e1, fun c st hx => by cases hx⟩
  | val pre =>
    obtain ⟨⟨ids, rfl⟩, q1⟩ := ends_val f3 ho
    obtain ⟨p, vs, hv, henc, hsl, hfill⟩ := f4 ids rfl
    rw [ho] at hv
    cases hv
    obtain ⟨qs', o', g1, g2, g3, g4⟩ := hsuite client pre ids vs hsl henc hfill (h ++ qs)
    dsimp only
    rw [f2, meaning_bind]
    unfold Meaning.andThen
    cases ho' : (meaning env (op.suite.setup (client.descend pre)) true (h ++ qs)).out with
    | aborted x => exact ⟨qs ++ qs', o', follows_append f1 rfl g1, by dsimp only [Meaning.after]; rw [g2, List.append_assoc], (ends_aborted g3 ho' rfl).1, fun c st hx => by cases hx⟩
    | raised x => exact ⟨qs ++ qs', o', follows_append f1 rfl g1, by dsimp only [Meaning.after]; rw [g2, List.append_assoc], (ends_raised g3 ho' rfl).1, fun c st hx => by cases hx⟩
    | val st =>
      obtain ⟨⟨ids', rfl⟩, q2⟩ := ends_val g3 ho'
      obtain rfl := g4 ids' rfl
      refine ⟨qs ++ qs', _, follows_append f1 rfl g1, ?_, ends_ready (a := (client.descend pre, st)) rfl fun s hx => ?_, fun c st' hx => ?_⟩
      · dsimp only [Meaning.after, meaning]
        rw [g2, List.append_assoc]
      · simp only [Meaning.after, meaning, toResL_append, List.mem_append, List.append_nil] at hx
        exact hx.elim (q1 s) (q2 s)
      · cases hx
        exact ⟨ids', vs, pre, h ++ qs, rfl, henc, rfl, hsl, hfill, ho'⟩

/-- C75: the setup of every operation sends the requests of the table, in this order, and ends as the table says: with what the tests need,
or with an exception of its own if a valid response does not have it. -/
theorem C75_setup (hs : Sound env) {service : Str} {e : Str × List Seg} {op : Op} (hop : Entry cfg service e op) (client : Client)
    (hp : client.prefixes = []) (h : List Sent) :
    ∃ o, Follows env cfg.lim client (plan e) [] h (sentBy env (setupOp client op) h) o ∧ EndsAs o (meaning env (setupOp client op) true h) := by
  obtain ⟨qs, o, h1, h2, h3, -⟩ := setup_core env cfg hs hop client hp h
  refine ⟨o, ?_, h3⟩
  rw [sentBy, h2, List.drop_left]
  exact h1

/-- C75: after the setup, the tests of every operation are those of the tables, and all their requests go to the path of the operation with the
ids that the server has answered: the id of its first shell or submodel, or that of the first submodel of this shell. -/
theorem C75_tests (hs : Sound env) {service : Str} {e : Str × List Seg} {op : Op} (hop : Entry cfg service e op) (client : Client)
    (hp : client.prefixes = []) (h : List Sent) (c : Client) (st : op.suite.σ) (hu : SetUp env client op h (c, st)) :
    ∃ ids vs, Follows env cfg.lim client (plan e) [] h (sentBy env (setupOp client op) h) (.ready ids) ∧ Encoded ids vs ∧
      (∀ profile h', ∀ q ∈ sentBy env (execute op.suite c profile st) h', To client (put vs (sentTo e)) q) ∧
      (∃ invalid, Generated argClasses op.suite.errorArgs invalid ∧
        Rows env cfg client (put vs (sentTo e)) (negativesOf e.1) (negativeTests op.suite c st invalid)) ∧
      ∀ profile, PositiveRows ⟨env, cfg.lim, client, put vs (sentTo e), profile⟩ (positivesOf e.1) (op.suite.tests.map fun t => (t.name, t.run c profile st)) := by
  obtain ⟨qs, o, h1, h2, h3, h4⟩ := setup_core env cfg hs hop client hp h
  obtain ⟨ids, vs, pre, hist, rfl, henc, rfl, hsl, hfill, hst⟩ := h4 c st hu
  obtain ⟨-, base, call, S, S', T, ok, hf⟩ := entry_ok env cfg hs hop
  obtain ⟨-, -, -, -, hok⟩ := setUp_state env cfg hf hp hu
  have hroute : norm (put vs (placeOf e.2) ++ segs call.route.path) = norm (put vs (sentTo e)) := by
    rw [← put_append vs _ (segs_noIds _), ← hf.place]
    exact put_congr vs hf.route
  refine ⟨ids, vs, ?_, henc, fun profile h' q hq => ?_, ?_, fun profile => entry_pos env cfg hs hop client profile pre vs hsl hfill _ _ hst⟩
  · rw [sentBy, h2, List.drop_left]
    exact h1
  · obtain ⟨⟨qs, he, hqs⟩, -⟩ := execute_sat hs hf.checked (E := T) (fun _ h => h) (rooted_descend (client := client) hsl) (profile := profile) hok h'
    rw [sentBy, he, List.drop_left] at hq
    obtain ⟨path, query, h5, h6, h7⟩ := sends_url (hqs q hq)
    refine ⟨pre ++ path, query, ?_, h6, ?_⟩
    · rw [← fills_norm, ← hroute, fills_norm]
      exact fills_append hfill h5
    · rw [h7]
      simp [Client.descend, Client.init]
  · obtain ⟨invalid, hg⟩ := hf.checked.generated
    refine ⟨invalid, hg, ?_⟩
    unfold negativeTests
    have hx : expectedCalls (op.suite.valid st) ((op.suite.errorArgs.map (·.name)).zip invalid) = callsOf call (op.suite.valid st) := by
      rw [expected_calls hg, hf.checked.args]
      rfl
    rw [hx]
    exact rows_of hs hf hsl hfill (fixed_put vs (hf.place ▸ hf.inPath)) hroute hok _ _ (hf.rows st) fun _ h => h

/-! ## the table leaves no choice -/

theorem content_unique {lim : Option Nat} {ty : RTy} (hty : ResponseTy ty) {r : Response} (hw : ∀ j, r.json = .ok j → WF j) {j j' : Json} {v v' : RVal}
    (h : Content lim ty r j v) (h' : Content lim ty r j' v') : v = v' := by
  have : j = j' := by
    have := h.json
    rw [h'.json] at this
    cases this; rfl
  subst this
  obtain ⟨w, -, hu, -⟩ := (C57_content lim ty hty j (hw j h.json)).2 h.conforms
  rw [hu v h.reads, hu v' h'.reads]

theorem good_unique {lim : Option Nat} {ty : RTy} (hty : ResponseTy ty) {r : Response} (hw : ∀ j, r.json = .ok j → WF j) {v v' : RVal}
    (h : Good lim ty r v) (h' : Good lim ty r v') : v = v' := by
  obtain ⟨-, -, j, hc, -⟩ := h
  obtain ⟨-, -, j', hc', -⟩ := h'
  exact content_unique hty hw hc hc'

theorem good_failing {lim : Option Nat} {ty : RTy} (hty : ResponseTy ty) {r : Response} (hw : ∀ j, r.json = .ok j → WF j) {v : RVal}
    (h : Good lim ty r v) : ¬ Failing lim ty (· = 200) r := by
  obtain ⟨-, -, j, hc, hn, -⟩ := h
  rintro ⟨-, -, ⟨e, he⟩ | ⟨j', w, hc', hr⟩⟩
  · rw [hc.json] at he; cases he
  · rw [content_unique hty hw hc' hc] at hr
    exact hn hr

/-- what is found or missing depends on the content only -/
structure Clear (a : Ask) : Prop where
  type : ResponseTy a.type
  finds : ∀ v ids ids', a.finds v ids → a.finds v ids' → ids = ids'
  lacks : ∀ v k k', a.lacks v k → a.lacks v k' → k = k'
  either : ∀ v ids k, a.finds v ids → ¬ a.lacks v k

theorem attr_unique {v : RVal} {f : RFld} {w w' : RVal} (h : HasAttr v f w) (h' : HasAttr v f w') : w = w' := by
  have := hasAttr_iff.mp h
  rw [hasAttr_iff.mp h'] at this
  cases this; rfl

theorem clear_first (path : List Seg) (p : Page) {finds : RVal → List Str → Prop} {lacks : RVal → PyExc → Prop} (ht : ResponseTy (.cls (.page p)))
    (h1 : ∀ v ids ids', finds v ids → finds v ids' → ids = ids') (h2 : ∀ v k k', lacks v k → lacks v k' → k = k')
    (h3 : ∀ v ids k, finds v ids → ¬ lacks v k) : Clear (firstEntry path p finds lacks) where
  type := ht
  finds := by
    rintro v ids ids' ⟨x, l, he, hf⟩ ⟨x', l', he', hf'⟩
    cases entries_unique he he'
    exact h1 _ _ _ hf hf'
  lacks := by
    rintro v k k' (⟨he, rfl⟩ | ⟨x, l, he, hf⟩) (⟨he', rfl⟩ | ⟨x', l', he', hf'⟩)
    · rfl
    · cases entries_unique he he'
    · cases entries_unique he he'
    · cases entries_unique he he'
      exact h2 _ _ _ hf hf'
  either := by
    rintro v ids k ⟨x, l, he, hf⟩ (⟨he', -⟩ | ⟨x', l', he', hf'⟩)
    · cases entries_unique he he'
    · cases entries_unique he he'
      exact h3 _ _ _ hf hf'

theorem page_type (p : Page) : ResponseTy (.cls (.page p)) := by
  cases p <;> exact ⟨rfl, trivial⟩

theorem clear_plain (path : List Seg) (p : Page) : Clear (firstEntry path p) :=
  clear_first path p (page_type p) (fun _ _ _ h h' => h.trans h'.symm) (fun _ _ _ h => h.elim) fun _ _ _ _ h => h

theorem clear_cursor (path : List Seg) (p : Page) : Clear (cursorAsk path p) where
  type := page_type p
  finds := fun _ _ _ h h' => h.trans h'.symm
  lacks := fun _ _ _ h => h.elim
  either := fun _ _ _ _ h => h

theorem first_unique {x : RVal} {i j : Str} (h : FirstSubmodel x i) (h' : FirstSubmodel x j) : i = j := by
  obtain ⟨r, rs, h1, h2⟩ := h
  obtain ⟨r', rs', h1', h2'⟩ := h'
  cases attr_unique h1 h1'
  exact refersTo_unique h2 h2'

theorem first_none {x : RVal} {i : Str} {k : PyExc} (h : FirstSubmodel x i) : ¬ noSubmodels x k := by
  obtain ⟨r, rs, h1, h2⟩ := h
  rintro ⟨h1', -⟩
  cases attr_unique h1 h1'

theorem clear_elements (path : List Seg) : Clear (elementsAsk path) where
  type := page_type _
  finds := fun _ _ _ h h' => h.1.trans h'.1.symm
  lacks := by
    rintro v k k' ⟨l, he, h⟩ ⟨l', he', h'⟩
    cases entries_unique he he'
    rcases h with ⟨h, rfl⟩ | ⟨h, -, rfl⟩ <;> rcases h' with ⟨h', rfl⟩ | ⟨h', -, rfl⟩
    · rfl
    · exact absurd h h'
    · exact absurd h' h
    · rfl
  either := by
    rintro v ids k ⟨-, l, he, h, x, hx, s, hs⟩ ⟨l', he', h'⟩
    cases entries_unique he he'
    rcases h' with ⟨h', -⟩ | ⟨-, h', -⟩
    · exact h h'
    · exact h' x hx s hs

theorem clear_named (path : List Seg) : Clear (firstEntry path .shells Spec.Suites.named Spec.Suites.unnamed) :=
  clear_first path .shells (page_type _) (fun _ _ _ h h' => h.1.trans h'.1.symm) (fun _ _ _ h h' => h.1.trans h'.1.symm) (by
    rintro v ids k ⟨-, ⟨s, c, hs⟩, info, c', g, hi, hg⟩ ⟨-, h | ⟨info', hi', hg'⟩⟩
    · cases attr_unique hs h
    · cases attr_unique hi hi'
      cases attr_unique hg hg')

theorem clear_serialization (path : List Seg) : Clear (firstEntry path .shells (fun x ids => ids = [] ∧ ∃ s, FirstSubmodel x s) noSubmodels) :=
  clear_first path .shells (page_type _) (fun _ _ _ h h' => h.1.trans h'.1.symm) (fun _ _ _ h h' => h.2.trans h'.2.symm) fun _ _ _ h h' =>
    let ⟨_, _, hs⟩ := h; first_none hs h'

theorem clear_id (path : List Seg) (p : Page) : Clear (firstEntry path p theId) :=
  clear_first path p (page_type _) (by
    rintro v _ _ ⟨i, hi, rfl⟩ ⟨j, hj, rfl⟩
    rw [hasId_unique hi hj]) (fun _ _ _ h => h.elim) fun _ _ _ _ h => h

theorem clear_both (path : List Seg) : Clear (firstEntry path .shells (fun x ids => ∃ i s, HasId x i ∧ FirstSubmodel x s ∧ ids = [i, s]) noSubmodels) :=
  clear_first path .shells (page_type _) (by
    rintro v _ _ ⟨i, s, hi, hs, rfl⟩ ⟨j, t, hj, ht, rfl⟩
    rw [hasId_unique hi hj, first_unique hs ht]) (fun _ _ _ h h' => h.2.trans h'.2.symm) fun _ _ _ ⟨_, _, _, hs, _⟩ h' => first_none hs h'

theorem clear_ite {c : Prop} [Decidable c] {l m : List Ask} (hl : ∀ a ∈ l, Clear a) (hm : ∀ a ∈ m, Clear a) : ∀ a ∈ if c then l else m, Clear a := by
  by_cases h : c
  · rw [if_pos h]; exact hl
  · rw [if_neg h]; exact hm

theorem clear_one {a : Ask} (h : Clear a) : ∀ b ∈ [a], Clear b := fun _ hb => List.mem_singleton.mp hb ▸ h

theorem clear_own (base : List Seg) (e : Str × List Seg) : ∀ a ∈ ownAsks base e, Clear a :=
  clear_ite (clear_one (clear_named _)) <| clear_ite (clear_one (clear_plain _ _)) <| clear_ite (clear_one (clear_cursor _ _)) <|
  clear_ite (clear_one (clear_cursor _ _)) <| clear_ite (clear_ite (clear_one (clear_plain _ _)) (clear_one (clear_plain _ _))) <|
  clear_ite (clear_one (clear_cursor _ _)) <| clear_ite (clear_one (clear_cursor _ _)) <| clear_ite (clear_one (clear_cursor _ _)) <|
  clear_ite (clear_one (clear_cursor _ _)) <| clear_ite (clear_one (clear_elements _)) <| clear_ite (clear_one (clear_serialization _)) <|
  fun _ h => by cases h

theorem clear_bases : ∀ b ∈ Spec.Suites.bases, ∀ a ∈ b.2, Clear a := by
  intro b hb a ha
  simp only [Spec.Suites.bases, List.mem_cons, List.not_mem_nil, or_false] at hb
  rcases hb with rfl | rfl | rfl | rfl | rfl | rfl
  · cases List.mem_singleton.mp ha; exact clear_both _
  · cases List.mem_singleton.mp ha; exact clear_id _ _
  · cases List.mem_singleton.mp ha; exact clear_id _ _
  · cases List.mem_singleton.mp ha
    refine ⟨(sane_of (c := getShell) rfl).type _ rfl, ?_, fun _ _ _ h h' => h.2.trans h'.2.symm, fun _ _ _ ⟨_, hs, _⟩ h' => first_none hs h'⟩
    rintro v _ _ ⟨s, hs, rfl⟩ ⟨t, ht, rfl⟩
    rw [first_unique hs ht]
  · cases ha
  · cases ha

theorem clear_plan (e : Str × List Seg) : ∀ a ∈ plan e, Clear a := by
  intro a ha
  rcases List.mem_append.mp ha with ha | ha
  · unfold baseOf at ha
    cases hb : Spec.Suites.bases.find? fun b => b.1.isPrefixOf e.2 with
    | none => rw [hb] at ha; cases ha
    | some b =>
      rw [hb] at ha
      exact clear_bases b (List.mem_of_find?_eq_some hb) a ha
  · exact clear_own _ e a ha

theorem follows_unique (hs : Sound env) {lim : Option Nat} {client : Client} : ∀ {as : List Ask}, (∀ a ∈ as, Clear a) → ∀ {ids : List Str} {h qs : List Sent} {o o' : Outcome},
    Follows env lim client as ids h qs o → Follows env lim client as ids h qs o' → o = o'
  | [], _, _, _, _, _, _, .done, .done => rfl
  | a :: as, hc, _, h, _, _, _, h1, h2 => by
    have ha := hc a List.mem_cons_self
    cases h1 with
    | @found _ _ _ _ _ q _ _ r v _ _ _ hx hg hf hrest =>
      have hw : ∀ j, r.json = .ok j → WF j := fun j hj => hs _ _ _ _ hx hj
      cases h2 with
      | found _ _ hx' hg' hf' hrest' =>
        rw [hx] at hx'; cases hx'
        cases good_unique ha.type hw hg hg'
        cases ha.finds _ _ _ hf hf'
        exact follows_unique hs (fun b hb => hc b (List.mem_cons_of_mem _ hb)) hrest hrest'
      | lacking _ _ hx' hg' hl =>
        rw [hx] at hx'; cases hx'
        cases good_unique ha.type hw hg hg'
        exact absurd hl (ha.either _ _ _ hf)
      | rejected _ _ hx' hn _ =>
        rw [hx] at hx'; cases hx'
        exact absurd hg (hn _)
      | failing _ _ hx' hn =>
        rw [hx] at hx'; cases hx'
        exact absurd hn (good_failing ha.type hw hg)
      | unanswered _ _ hx' => exact absurd hx (hx' _)
    | @lacking _ _ _ _ _ q r v _ _ _ hx hg hl =>
      have hw : ∀ j, r.json = .ok j → WF j := fun j hj => hs _ _ _ _ hx hj
      cases h2 with
      | found _ _ hx' hg' hf' hrest' =>
        rw [hx] at hx'; cases hx'
        cases good_unique ha.type hw hg hg'
        exact absurd hl (ha.either _ _ _ hf')
      | lacking _ _ hx' hg' hl' =>
        rw [hx] at hx'; cases hx'
        cases good_unique ha.type hw hg hg'
        rw [ha.lacks _ _ _ hl hl']
      | rejected _ _ hx' hn _ =>
        rw [hx] at hx'; cases hx'
        exact absurd hg (hn _)
      | failing _ _ hx' hn =>
        rw [hx] at hx'; cases hx'
        exact absurd hn (good_failing ha.type hw hg)
      | unanswered _ _ hx' => exact absurd hx (hx' _)
    | rejected _ _ hx hn hnf =>
      cases h2 with
      | found _ _ hx' hg' => rw [hx] at hx'; cases hx'; exact absurd hg' (hn _)
      | lacking _ _ hx' hg' => rw [hx] at hx'; cases hx'; exact absurd hg' (hn _)
      | rejected => rfl
      | failing _ _ hx' hf => rw [hx] at hx'; cases hx'; exact absurd hf hnf
      | unanswered _ _ hx' => exact absurd hx (hx' _)
    | @failing _ _ _ _ _ q r _ _ hx hf =>
      have hw : ∀ j, r.json = .ok j → WF j := fun j hj => hs _ _ _ _ hx hj
      cases h2 with
      | found _ _ hx' hg' => rw [hx] at hx'; cases hx'; exact absurd hf (good_failing ha.type hw hg')
      | lacking _ _ hx' hg' => rw [hx] at hx'; cases hx'; exact absurd hf (good_failing ha.type hw hg')
      | rejected _ _ hx' _ hnf => rw [hx] at hx'; cases hx'; exact absurd hf hnf
      | failing => rfl
      | unanswered _ _ hx' => exact absurd hx (hx' _)
    | unanswered _ _ hx =>
      cases h2 with
      | found _ _ hx' => exact absurd hx' (hx _)
      | lacking _ _ hx' => exact absurd hx' (hx _)
      | rejected _ _ hx' => exact absurd hx' (hx _)
      | failing _ _ hx' => exact absurd hx' (hx _)
      | unanswered => rfl

/-- C75: the tables leave no choice: the responses to the requests decide how the setup ends, and which ids are found. -/
theorem C75_decided (hs : Sound env) {lim : Option Nat} {client : Client} {e : Str × List Seg} {ids : List Str} {h qs : List Sent} {o o' : Outcome}
    (h1 : Follows env lim client (plan e) ids h qs o) (h2 : Follows env lim client (plan e) ids h qs o') : o = o' :=
  follows_unique env hs (clear_plan e) h1 h2

/-! ## examples -/

/-- elements of the first submodel of the first shell -/
def elementsOp : Op := ⟨aasRepoSubmodelPrefix plainCfg, getAllSubmodelElementsSuite plainCfg⟩
def sampleEntry : Str × List Seg :=
  (py!"GetAllSubmodelElements", [.text py!"/shells/", .id, .text py!"/submodels/", .id, .text py!"/submodel-elements"])

example : Entry plainCfg (service 0) sampleEntry elementsOp :=
  ⟨(services[0], (availableSuites plainCfg)[0]'(by show 0 < 4; decide)), List.mem_of_getElem? (i := 0) rfl, rfl, List.mem_of_getElem? (i := 12) rfl⟩

example : Sound (server []) := server_sound rfl
example : sampleClient.prefixes = [] := rfl

/-- the shell is asked for, then the elements of its submodel; the ids `a` and `s` are encoded -/
example : (sentBy (server []) (setupOp sampleClient elementsOp) []).map (·.url) =
    [py!"http://h/shells?limit=1", py!"http://h/shells/YQ/submodels/cw/submodel-elements?limit=1"] := by decide +kernel

example : (match (meaning (server []) (setupOp sampleClient elementsOp) true []).out with | .val (c, _) => some c.prefixes | _ => none) =
    some [py!"/shells/YQ/submodels/cw"] := by decide +kernel

example : (plan sampleEntry).map (fun a => (a.path, a.params)) =
    [([.text py!"/shells"], [(py!"limit", py!"1")]),
     ([.text py!"/shells/", .id, .text py!"/submodels/", .id, .text py!"/submodel-elements"], [(py!"limit", py!"1")])] := by decide +kernel

example : put [py!"YQ", py!"cw"] sampleEntry.2 =
    [.text py!"/shells/", .text py!"YQ", .text py!"/submodels/", .text py!"cw", .text py!"/submodel-elements"] := by decide +kernel

/-- no shell, a shell without submodels, a response that is not valid, and the server above -/
example : ([[(py!"/shells", pageJson [])], [(py!"/shells", pageJson [shellWithout py!"submodels"])], [(py!"/shells", Json.null)], []].map fun changes =>
      match (meaning (server changes) (setupOp sampleClient elementsOp) true []).out with
      | .val _ => (0, none)
      | .aborted x => (if x.ok then 1 else 2, none)
      | .raised e => (3, some e.kind)) =
    [(3, some .indexError), (3, some .typeError), (2, none), (0, none)] := by decide +kernel

/-- the plans of all operations -/
example : services.map (fun s => (s.2.map fun e => (plan e).length).foldl (· + ·) 0) = [40, 32, 28, 11] := by decide +kernel

end Verif.Props
