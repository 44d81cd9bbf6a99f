import Verif.Props.Compliant

/-!
# C76: a server that complies

The hypotheses of `C76_complete` for a server that answers by the path and the query of a request, and for two operations: one with a setup
that finds an id, and with positive and negative tests, and one without.
-/

namespace Verif.Props
open Verif Verif.Parse Verif.Aas Verif.Spec Verif.Spec.Parse Verif.Spec.Api Verif.Spec.Suites Verif.Spec.Routes Verif.Spec.Generate Verif.Generate Verif.Http
open Verif.Api hiding sane supported
open Verif.Api.Suites

def descriptionJson : Json := .obj [(py!"profiles", .arr (services.map fun s => .str s.1))]

/-- the answer to a request with this path and these query parameters -/
def lookup (path : Str) (params : List (Option (Str × Str))) : Answer :=
  if some (py!"limit", py!"-1") ∈ params then answer 400 errorJson
  else if path = py!"/shells" then answer 200 (pageJson [shellJson])
  else if py!"/submodel-refs".isSuffixOf path then answer 200 (pageJson [submodelRef])
  else answer 200 descriptionJson

/-- the query parameters -/
def paramsOf : Str → List (Option (Str × Str))
  | [] => []
  | _ :: t => parseQuery t

def smallServer : List Sent → Sent → Answer := fun _ q =>
  let url := q.url.drop 8
  lookup (url.takeWhile (· ≠ pc! '?')) (paramsOf (url.dropWhile (· ≠ pc! '?')))

def smallConf : Conf := { suite := service 0, filter := some ⟨[py!"GetAllSubmodelReferences", py!"GetDescription"], []⟩ }
def smallRun : Out (Res Str × Mat) × List Sent := run smallServer (executeTests (availableSuites plainCfg) sampleClient smallConf)

example : verdictOf smallRun = some (true, ⟨4, 0, 0, 1⟩) := by decide +kernel

def refsEntry : Str × List Seg := (py!"GetAllSubmodelReferences", [.text py!"/shells/", .id, .text py!"/submodel-refs"])
def descriptionEntry : Str × List Seg := (py!"GetDescription", [.text py!"/description"])

theorem small_chosen : chosen smallConf (services[0].2) = [refsEntry, descriptionEntry] := by decide +kernel

theorem small_sound : Sound smallServer := by
  have h1 : WF errorJson := wf_sound _ (by decide +kernel)
  have h2 : WF (pageJson [shellJson]) := wf_sound _ (by decide +kernel)
  have h3 : WF (pageJson [submodelRef]) := wf_sound _ (by decide +kernel)
  have h4 : WF descriptionJson := wf_sound _ (by decide +kernel)
  intro hist q r j hr hj
  unfold smallServer lookup at hr
  dsimp only at hr
  split at hr
  · cases hr; cases hj; exact h1
  split at hr
  · cases hr; cases hj; exact h2
  split at hr
  · cases hr; cases hj; exact h3
  · cases hr; cases hj; exact h4

theorem take_until {p : Nat → Bool} : ∀ {a b : Str}, (∀ c ∈ a, p c = true) → (b = [] ∨ ∃ c t, b = c :: t ∧ p c = false) → (a ++ b).takeWhile p = a ∧ (a ++ b).dropWhile p = b
  | [], b, _, hb => by
    rcases hb with rfl | ⟨c, t, rfl, hc⟩
    · exact ⟨rfl, rfl⟩
    · simp [hc]
  | x :: a, b, ha, hb => by
    obtain ⟨h1, h2⟩ := take_until (a := a) (fun c hc => ha c (List.mem_cons_of_mem _ hc)) hb
    have hx := ha x List.mem_cons_self
    simp [hx, h1, h2]

/-- the server sees the path and the parameters -/
theorem small_at {T : List Seg} {params : List (Str × Str)} {q : Sent} (h : At sampleClient T params q) (hno : ∀ path, Fills T path → pc! '?' ∉ path) :
    ∃ path, Fills T path ∧ ∀ h, smallServer h q = lookup path (params.map some) := by
  obtain ⟨path, query, hf, hu, hq⟩ := h
  refine ⟨path, hf, fun _ => ?_⟩
  have hr : removePrefix sampleClient.removePathPrefix (path ++ query) = path ++ query := by
    unfold removePrefix
    split <;> rfl
  have hu : q.url.drop 8 = path ++ query := by rw [hu, hr]; rfl
  have hne : ∀ c ∈ path, (decide (c ≠ pc! '?')) = true := fun c hc => decide_eq_true fun e => hno path hf (e ▸ hc)
  have hb : query = [] ∨ ∃ c t, query = c :: t ∧ (decide (c ≠ pc! '?')) = false := by
    rcases hq with ⟨-, rfl⟩ | ⟨t, rfl, -⟩
    · exact .inl rfl
    · exact .inr ⟨_, t, rfl, by decide⟩
  obtain ⟨h1, h2⟩ := take_until hne hb
  unfold smallServer
  dsimp only
  rw [hu, h1, h2]
  rcases hq with ⟨rfl, rfl⟩ | ⟨t, rfl, ht⟩
  · rfl
  · show lookup path (parseQuery t) = _
    rw [ht]

theorem observed_answered {lim : Option Nat} {profile : Str} {T₀ T₁ T T' : List Seg} {params : List (Str × Str)} {good : Demand} {sent : List Sent} {a : Answer}
    (hno : ∀ path, Fills T path → pc! '?' ∉ path) (ha : ∀ path, Fills T path → lookup path (params.map some) = a)
    (hno' : ∀ path, Fills T' path → pc! '?' ∉ path) (ha' : ∀ path, Fills T' path → lookup path (params.map some) = a)
    (h : Observed ⟨smallServer, lim, sampleClient, T₀, profile⟩ sent T params good) : Answered ⟨smallServer, lim, sampleClient, T₁, profile⟩ T' params good := by
  obtain ⟨h, q, r, -, hat, hr, hg⟩ := h
  obtain ⟨path, hf, he⟩ := small_at hat hno
  intro h' q' hat'
  obtain ⟨path', hf', he'⟩ := small_at hat' hno'
  refine ⟨r, ?_, hg⟩
  have h1 := he h
  have h2 := he' h'
  rw [ha path hf] at h1
  rw [ha' path' hf'] at h2
  dsimp only at hr ⊢
  rw [h2, ← h1, hr]

theorem fills_description {path : Str} : Fills [.text py!"/description"] path ↔ path = py!"/description" := by
  constructor
  · rintro ⟨r, rfl, rfl⟩; rfl
  · rintro rfl; exact ⟨[], rfl, rfl⟩

theorem fills_shells {path : Str} : Fills [.text py!"/shells"] path ↔ path = py!"/shells" := by
  constructor
  · rintro ⟨r, rfl, rfl⟩; rfl
  · rintro rfl; exact ⟨[], rfl, rfl⟩

theorem fills_refs {v path : Str} : Fills [.text py!"/shells/", .text v, .text py!"/submodel-refs"] path → path = py!"/shells/" ++ (v ++ py!"/submodel-refs") := by
  rintro ⟨_, rfl, _, rfl, _, rfl, rfl⟩
  rw [List.append_nil]

theorem encoded_one {i : Str} {vs : List Str} (h : Encoded [i] vs) : ∃ v, vs = [v] ∧ Encodes i v := by
  match vs, h with
  | [v], ⟨h, _⟩ => exact ⟨v, rfl, h⟩

theorem encodes_plain {i v : Str} (h : Encodes i v) : pc! '?' ∉ v := by
  obtain ⟨bs, -, ⟨hc, -⟩, -⟩ := h
  intro hm
  exact absurd (hc _ hm) (by decide)

theorem refs_plain {i v : Str} (h : Encodes i v) (path : Str) (hf : Fills [.text py!"/shells/", .text v, .text py!"/submodel-refs"] path) : pc! '?' ∉ path := by
  rw [fills_refs hf]
  simp only [List.mem_append, not_or]
  exact ⟨by decide, encodes_plain h, by decide⟩

theorem refs_lookup {v : Str} {params : List (Option (Str × Str))} (path : Str) (hf : Fills [.text py!"/shells/", .text v, .text py!"/submodel-refs"] path) :
    lookup path params = if some (py!"limit", py!"-1") ∈ params then answer 400 errorJson else answer 200 (pageJson [submodelRef]) := by
  rw [fills_refs hf]
  unfold lookup
  have h1 : py!"/shells/" ++ (v ++ py!"/submodel-refs") ≠ py!"/shells" := by
    intro h
    have := congrArg (·[7]?) h
    revert this
    show some _ = none → False
    exact fun h => by cases h
  have h2 : py!"/submodel-refs".isSuffixOf (py!"/shells/" ++ (v ++ py!"/submodel-refs")) = true := by
    rw [List.isSuffixOf_iff_suffix, ← List.append_assoc]
    exact List.suffix_append _ _
  rw [if_neg h1, h2, if_pos rfl]

theorem small_passed {root : Res Str} {mat : Mat} {sent : List Sent} (h : smallRun = (.val (root, mat), sent)) (hok : root.ok = true) :
    Passed smallServer none sampleClient (service 0) sent refsEntry ∧ Passed smallServer none sampleClient (service 0) sent descriptionEntry := by
  have := C76_sound (cfg := plainCfg) small_sound sampleClient rfl smallConf rfl (es := services[0].2) (List.mem_of_getElem? (i := 0) rfl) h hok
  rw [small_chosen] at this
  exact ⟨this _ (by simp), this _ (by simp)⟩

theorem description_complies {sent : List Sent} (h : Passed smallServer none sampleClient (service 0) sent descriptionEntry) :
    Complies smallServer none sampleClient (service 0) descriptionEntry where
  setup := trivial
  negative := fun _ _ _ _ _ _ b hb => by cases hb
  positive := by
    have hT : ∀ vs, put vs (sentTo descriptionEntry) = [.text py!"/description"] := fun vs => by cases vs <;> rfl
    obtain ⟨_, _, ids, vs, -, -, -, -, hpos⟩ := h
    have := hpos _ List.mem_cons_self
    intro h' qs' ids' vs' _ _ t ht
    cases List.mem_singleton.mp ht
    dsimp only [Positive.Observed, Positive.Fulfilled] at this ⊢
    rw [hT] at this ⊢
    have hno : ∀ path, Fills [.text py!"/description"] path → pc! '?' ∉ path := fun path hf => by rw [fills_description.mp hf]; decide
    exact observed_answered (a := answer 200 descriptionJson) hno (fun path hf => by rw [fills_description.mp hf]; rfl) hno (fun path hf => by rw [fills_description.mp hf]; rfl) this

theorem refs_plan : plan refsEntry = [firstEntry [.text py!"/shells"] .shells theId, cursorAsk [.text py!"/shells/", .id, .text py!"/submodel-refs"] .submodelRefs] := rfl

theorem refs_ready {h qs : List Sent} {ids vs : List Str} (hf : Follows smallServer none sampleClient (plan refsEntry) [] h qs (.ready ids)) (he : Encoded ids vs) :
    ∃ i v, ids = [i] ∧ vs = [v] ∧ Encodes i v := by
  rw [refs_plan] at hf
  cases hf with
  | found _ _ _ _ hfi hrest =>
    obtain ⟨x, l, -, i, -, rfl⟩ := hfi
    cases hrest with
    | found _ _ _ _ hfi hrest =>
      cases hfi
      cases hrest
      obtain ⟨v, rfl, hv⟩ := encoded_one he
      exact ⟨i, v, rfl, rfl, hv⟩

theorem refs_complies {sent : List Sent} (h : Passed smallServer none sampleClient (service 0) sent refsEntry) : Complies smallServer none sampleClient (service 0) refsEntry where
  setup := by
    obtain ⟨_, _, ids, vs, -, hf, -⟩ := h
    rw [refs_plan] at hf ⊢
    cases hf with
    | @found _ _ _ vs h q qs o r v new henc hat hx hg hfi hrest =>
      have hno : ∀ path, Fills [.text py!"/shells"] path → pc! '?' ∉ path := fun path hf => by rw [fills_shells.mp hf]; decide
      have hput : ∀ vs, put vs [.text py!"/shells"] = [.text py!"/shells"] := fun vs => by cases vs <;> rfl
      have key : ∀ vs h q, At sampleClient (put vs [.text py!"/shells"]) [(py!"limit", py!"1")] q → smallServer h q = answer 200 (pageJson [shellJson]) := by
        intro vs h q hq
        rw [hput] at hq
        obtain ⟨path, hp, he⟩ := small_at hq hno
        rw [he, fills_shells.mp hp]
        rfl
      have hr := hx.symm.trans (key _ _ _ hat)
      cases hr
      refine fun vs' h' q' _ hat' => ⟨_, v, key _ h' _ hat', hg, ⟨new, hfi⟩, fun new' hfi' => ?_⟩
      obtain ⟨x, l, -, i, -, rfl⟩ := hfi
      obtain ⟨x', l', -, i', -, rfl⟩ := hfi'
      cases hrest with
      | @found _ _ _ vs h q qs o r v new henc hat hx hg hfi hrest =>
        have key : ∀ i vs h q, Encoded [i] vs → At sampleClient (put vs [.text py!"/shells/", .id, .text py!"/submodel-refs"]) [(py!"limit", py!"1")] q →
            smallServer h q = answer 200 (pageJson [submodelRef]) := by
          intro i vs h q he hq
          obtain ⟨v, rfl, hv⟩ := encoded_one he
          obtain ⟨path, hp, he⟩ := small_at hq (refs_plain hv)
          rw [he, refs_lookup path hp]
          rfl
        have hr := hx.symm.trans (key _ _ _ _ henc hat)
        cases hr
        exact fun vs' h' q' henc' hat' => ⟨_, v, key _ _ h' _ henc' hat', hg, ⟨new, hfi⟩, fun _ _ => trivial⟩
  negative := by
    obtain ⟨_, _, ids, vs, -, hf, henc, hneg, -⟩ := h
    obtain ⟨i, v, rfl, rfl, hv⟩ := refs_ready hf henc
    intro h' qs' ids' vs' hf' henc' b hb
    obtain ⟨i', v', rfl, rfl, hv'⟩ := refs_ready hf' henc'
    obtain ⟨h₀, q, r, -, hc, hr, hrej⟩ := hneg b hb
    cases List.mem_singleton.mp hb
    have key : ∀ i v h q, Encodes i v → Carries sampleClient (put [v] (sentTo refsEntry)) badLimit q → smallServer h q = answer 400 errorJson := by
      intro i v h q he hq
      obtain ⟨path, hp, he⟩ := small_at (T := [.text py!"/shells/", .text v, .text py!"/submodel-refs"]) hq (refs_plain he)
      rw [he, refs_lookup path hp]
      rfl
    rw [key _ _ _ _ hv hc] at hr
    cases hr
    exact fun h q hq => ⟨_, key _ _ _ _ hv' hq, hrej⟩
  positive := by
    obtain ⟨_, _, ids, vs, -, hf, henc, -, hpos⟩ := h
    obtain ⟨i, v, rfl, rfl, hv⟩ := refs_ready hf henc
    intro h' qs' ids' vs' hf' henc' t ht
    obtain ⟨i', v', rfl, rfl, hv'⟩ := refs_ready hf' henc'
    have move : ∀ {params good}, some (py!"limit", py!"-1") ∉ params.map some →
        Observed ⟨smallServer, none, sampleClient, put [v] (sentTo refsEntry), service 0⟩ sent (put [v] (sentTo refsEntry)) params good →
        Answered ⟨smallServer, none, sampleClient, put [v'] (sentTo refsEntry), service 0⟩ (put [v'] (sentTo refsEntry)) params good := by
      intro params good hn ho
      refine observed_answered (a := answer 200 (pageJson [submodelRef])) (refs_plain hv) (fun path hp => ?_) (refs_plain hv') (fun path hp => ?_) ho
      · rw [refs_lookup path hp, if_neg hn]
      · rw [refs_lookup path hp, if_neg hn]
    have one := hpos (getOne .submodelRefs) List.mem_cons_self
    have ht : t ∈ [_, _, _] := ht
    simp only [List.mem_cons, List.not_mem_nil, or_false] at ht
    rcases ht with rfl | rfl | rfl
    · exact move (by decide) one
    · exact fun c _ _ => move (by decide) one
    · exact move (by decide) (hpos (plain py!"test_simple" (.cls (.page .submodelRefs))) (List.mem_cons_of_mem _ (List.mem_cons_of_mem _ List.mem_cons_self)))

/-- the hypotheses of `C76_complete` -/
theorem small_complies : ∀ e ∈ chosen smallConf services[0].2, Complies smallServer plainCfg.lim sampleClient smallConf.suite e := by
  have hv : verdictOf smallRun = some (true, ⟨4, 0, 0, 1⟩) := by decide +kernel
  obtain ⟨root, mat, sent, hrun, hok⟩ : ∃ root mat sent, smallRun = (.val (root, mat), sent) ∧ root.ok = true := by
    unfold verdictOf at hv
    split at hv
    · rename_i r m ho
      simp only [Option.some.injEq, Prod.mk.injEq] at hv
      exact ⟨r, m, smallRun.2, Prod.ext ho rfl, hv.1⟩
    · cases hv
  obtain ⟨h1, h2⟩ := small_passed hrun hok
  rw [small_chosen]
  intro e he
  simp only [List.mem_cons, List.not_mem_nil, or_false] at he
  rcases he with rfl | rfl
  · exact refs_complies h1
  · exact description_complies h2

example : ∃ root qs, run smallServer (executeTests (availableSuites plainCfg) sampleClient smallConf) = (.val (root, ⟨4, 0, 0, 1⟩), qs) ∧ root.ok = true :=
  C76_complete (cfg := plainCfg) small_sound sampleClient rfl smallConf rfl (.inl rfl) (es := services[0].2) (List.mem_of_getElem? (i := 0) rfl)
    ⟨_, _, rfl, rfl⟩ small_complies

/-- the server of the other samples passes all services; the numbers are those of the tables -/
example : [0, 1, 2, 3].map (fun i => verdictOf (runOf [] i)) =
    services.map fun s => some (true, ⟨positiveCount s.2, 0, 0, negativeCount s.2⟩) := by decide +kernel

end Verif.Props
