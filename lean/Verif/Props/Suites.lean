import Verif.SuiteArgs
import Verif.Props.Api

/-!
# C67–C70: the test suites of the services

For every server: what the suites send, which exceptions leave a run, which operations are tested, and what the negative tests decide.
-/

namespace Verif.Props
open Verif Verif.Parse Verif.Aas Verif.Spec Verif.Spec.Parse Verif.Spec.Api Verif.Spec.Suites Verif.Spec.Routes Verif.Spec.Generate Verif.Generate Verif.Http
open Verif.Api hiding sane supported
open Verif.Api.Suites

variable (env : List Sent → Sent → Answer) (cfg : Cfg)

/-! ## the table -/

theorem entry_ok (hs : Sound env) {service : Str} {e : Str × List Seg} {op : Op} (h : Entry cfg service e op) : OpOk env cfg (ownKinds service) e op := by
  obtain ⟨⟨⟨n, es⟩, m, ops⟩, hm, rfl, hz⟩ := h
  have hm : _ ∈ [_, _, _, _] := hm
  simp only [List.mem_cons, List.not_mem_nil, or_false] at hm
  rcases hm with hm | hm | hm | hm <;> cases hm
  · exact OpsOk.zip (shellRepoOps_ok hs) e op hz
  · exact OpsOk.zip (submodelRepoOps_ok hs) e op hz
  · exact OpsOk.zip (shellOps_ok hs) e op hz
  · exact OpsOk.zip (submodelOps_ok hs) e op hz

theorem suite_ok (hs : Sound env) {n : Str} {ops : List Op} (h : (n, ops) ∈ availableSuites cfg) : ∀ op ∈ ops, ∃ e, OpOk env cfg (ownKinds n) e op := by
  have h : _ ∈ [_, _, _, _] := h
  simp only [List.mem_cons, List.not_mem_nil, or_false] at h
  rcases h with h | h | h | h <;> cases h
  · exact OpsOk.mem (shellRepoOps_ok hs)
  · exact OpsOk.mem (submodelRepoOps_ok hs)
  · exact OpsOk.mem (shellOps_ok hs)
  · exact OpsOk.mem (submodelOps_ok hs)

/-- a run is refused, or it is that of the operations of a suite -/
theorem run_cases (client : Client) (conf : Conf) :
    (∃ text, (text = py!"Unknown suite" ∨ text = py!"Unknown version") ∧
      run env (executeTests (availableSuites cfg) client conf) = (.raised ⟨.generic, text⟩, [])) ∨
    ∃ ops, (conf.suite, ops) ∈ availableSuites cfg ∧ executeTests (availableSuites cfg) client conf = executeOps conf client ops := by
  have key : ∀ v : Str, (∃ text, (text = py!"Unknown suite" ∨ text = py!"Unknown version") ∧
      run env (if v ≠ py!"3.0" then .raise ⟨.generic, py!"Unknown version"⟩ else executeSuite (availableSuites cfg) client conf) = (.raised ⟨.generic, text⟩, [])) ∨
    ∃ ops, (conf.suite, ops) ∈ availableSuites cfg ∧
      (if v ≠ py!"3.0" then .raise ⟨.generic, py!"Unknown version"⟩ else executeSuite (availableSuites cfg) client conf) = executeOps conf client ops := by
    intro v
    split
    · exact .inl ⟨_, .inr rfl, by rw [run_eq]; rfl⟩
    · unfold executeSuite
      cases hf : (availableSuites cfg).find? (fun s => s.1 == conf.suite) with
      | none => exact .inl ⟨_, .inl rfl, by rw [run_eq]; rfl⟩
      | some x =>
        obtain ⟨n, ops⟩ := x
        have hn : n = conf.suite := by simpa using List.find?_some hf
        subst hn
        exact .inr ⟨ops, List.mem_of_find?_eq_some hf, rfl⟩
  exact key _

/-! ## C67 -/

/-- C67: whatever the server answers, a run only reads: all its requests are `GET` requests without a body, to the server that is tested. -/
theorem C67_read_only (hs : Sound env) (client : Client) (hp : client.prefixes = []) (conf : Conf) :
    ∀ q ∈ (run env (executeTests (availableSuites cfg) client conf)).2, ReadOnly client q := by
  rcases run_cases env cfg client conf with ⟨text, -, h⟩ | ⟨ops, hm, h⟩
  · rw [h]; exact fun q hq => by cases hq
  · rw [h]
    exact (executeOps_run hs (cfg := cfg) (E := ownKinds conf.suite) (by rw [Rooted, hp]; exact .inl rfl) (suite_ok env cfg hs hm)).1

/-! ## C68 -/

theorem leaves_foreign {E : List PyExc} {e : Exc} (h : Leaves env cfg E e) : Caused env cfg.lim e ∨ ∃ x ∈ E, e = excOf x := by
  have hk : ∀ e, Known env cfg.lim e → Caused env cfg.lim e := fun e h => h.elim .outside .check
  rcases h with h | ⟨scope, e', h, rfl⟩ | h
  · exact .inl (hk e h)
  · unfold onTypeError
    split
    · rename_i hk'; exact .inl (.renamed h hk')
    · exact .inl (hk _ h)
  · exact .inr h

/-- C68: the exceptions that leave a run come from the transport, from the JSON decoder or from the check of a constraint, apart from
those of a few classes that the engine raises itself (and those for unknown suites and versions). -/
theorem C68_exceptions_partial (hs : Sound env) (client : Client) (hp : client.prefixes = []) (conf : Conf) (e : Exc)
    (h : (run env (executeTests (availableSuites cfg) client conf)).1 = .raised e) :
    Caused env cfg.lim e ∨ (∃ x ∈ ownKinds conf.suite, e = excOf x) ∨ e = ⟨.generic, py!"Unknown suite"⟩ ∨ e = ⟨.generic, py!"Unknown version"⟩ := by
  rcases run_cases env cfg client conf with ⟨text, ht, hr⟩ | ⟨ops, hm, hr⟩
  · rw [hr] at h
    cases h
    rcases ht with rfl | rfl
    · exact .inr (.inr (.inl rfl))
    · exact .inr (.inr (.inr rfl))
  · rw [hr] at h
    rcases leaves_foreign env cfg ((executeOps_run hs (cfg := cfg) (E := ownKinds conf.suite) (by rw [Rooted, hp]; exact .inl rfl) (suite_ok env cfg hs hm)).2 e h)
      with h | h
    · exact .inl h
    · exact .inr (.inl h)

theorem setUp_state {E : List PyExc} {e : Str × List Seg} {op : Op} {base : List Seg} {c : Call} {S S' T : List PyExc} {ok : op.suite.σ → Prop}
    (hf : OpFacts env cfg E e op base c S S' T ok) {client : Client} (hp : client.prefixes = []) {h : List Sent} {c' : Client} {st : op.suite.σ}
    (hu : SetUp env client op h (c', st)) : ∃ pre, Slash pre ∧ Fills base pre ∧ c' = client.descend pre ∧ ok st := by
  have := ((setupOp_sat (E := E) (client := client) (by rw [Rooted, hp]; exact .inl rfl) hf.pre (fun x hx => hf.classes x (by simp at hx ⊢; rcases hx with h | h <;> simp [h])) hf.checked.setup) h).2
  rw [show (meaning env (setupOp client op) true h).out = .val (c', st) from hu] at this
  obtain ⟨⟨pre, h1, h2, h3⟩, h4⟩ := this
  exact ⟨pre, h1, h2, h3, h4⟩

/-- C68: after the setup, the tests of an operation raise no exceptions of their own, apart from those of `GetAllAssetAdministrationShells`
for a shell without `idShort`. -/
theorem C68_tests_partial (hs : Sound env) {service : Str} {e : Str × List Seg} {op : Op} (hop : Entry cfg service e op) (client : Client)
    (hp : client.prefixes = []) (h : List Sent) (c : Client) (st : op.suite.σ) (hu : SetUp env client op h (c, st)) (profile : Str) (h' : List Sent) (x : Exc)
    (hx : (meaning env (execute op.suite c profile st) true h').out = .raised x) :
    Caused env cfg.lim x ∨ (e.1 = py!"GetAllAssetAdministrationShells" ∧ x = excOf .attributeError) := by
  obtain ⟨-, base, call, S, S', T, ok, hf⟩ := entry_ok env cfg hs hop
  obtain ⟨pre, h1, h2, rfl, h4⟩ := setUp_state env cfg hf hp hu
  have := (execute_sat hs hf.checked (E := T) (fun _ h => h) (rooted_descend (client := client) h1) (profile := profile) h4 h').2
  rw [hx] at this
  rcases leaves_foreign env cfg this with h | ⟨y, hy, rfl⟩
  · exact .inl h
  · obtain ⟨h5, rfl⟩ := hf.ofTests y hy
    exact .inr ⟨h5, rfl⟩

/-! ## C69 -/

/-- C69: the table has exactly the services and operations of the specification, in this order. -/
theorem C69_table : (availableSuites cfg).map (fun s => (s.1, s.2.map fun op => op.suite.operation)) = services.map fun s => (s.1, s.2.map (·.1)) := rfl

/-- C69: all requests of the tests of an operation go to the path of this operation. Two operations are sent to a path with a slash at the
end (`sentTo`). -/
theorem C69_paths_partial (hs : Sound env) {service : Str} {e : Str × List Seg} {op : Op} (hop : Entry cfg service e op) (client : Client)
    (hp : client.prefixes = []) (h : List Sent) (c : Client) (st : op.suite.σ) (hu : SetUp env client op h (c, st)) (profile : Str) (h' : List Sent) :
    op.suite.operation = e.1 ∧ ∀ q ∈ sentBy env (execute op.suite c profile st) h', To client (sentTo e) q := by
  obtain ⟨hn, base, call, S, S', T, ok, hf⟩ := entry_ok env cfg hs hop
  refine ⟨hn, fun q hq => ?_⟩
  obtain ⟨pre, h1, h2, rfl, h4⟩ := setUp_state env cfg hf hp hu
  obtain ⟨⟨qs, he, hqs⟩, -⟩ := execute_sat hs hf.checked (E := T) (fun _ h => h) (rooted_descend (client := client) h1) (profile := profile) h4 h'
  rw [sentBy, he, List.drop_left] at hq
  obtain ⟨path, query, h5, h6, h7⟩ := sends_url (hqs q hq)
  refine ⟨pre ++ path, query, ?_, h6, ?_⟩
  · rw [← fills_norm, ← hf.route, fills_norm]
    exact fills_append h2 h5
  · rw [h7]
    simp [Client.descend, Client.init]

/-! ## C70 -/

/-- C70: the negative tests of every operation are those of the table: each sends exactly one request, which carries the invalid value, and
passes iff the response has a client error status and an error result as content. -/
theorem C70_negative (hs : Sound env) {service : Str} {e : Str × List Seg} {op : Op} (hop : Entry cfg service e op) (client : Client)
    (hp : client.prefixes = []) (h : List Sent) (c : Client) (st : op.suite.σ) (hu : SetUp env client op h (c, st)) :
    ∃ invalid, Generated argClasses op.suite.errorArgs invalid ∧
      Rows env cfg client (sentTo e) (negativesOf e.1) (negativeTests op.suite c st invalid) := by
  obtain ⟨hn, base, call, S, S', T, ok, hf⟩ := entry_ok env cfg hs hop
  obtain ⟨pre, h1, h2, rfl, h4⟩ := setUp_state env cfg hf hp hu
  obtain ⟨invalid, hg⟩ := hf.checked.generated
  refine ⟨invalid, hg, ?_⟩
  unfold negativeTests
  have hx : expectedCalls (op.suite.valid st) ((op.suite.errorArgs.map (·.name)).zip invalid) = callsOf call (op.suite.valid st) := by
    rw [expected_calls hg, hf.checked.args]
    rfl
  rw [hx]
  exact rows_of hs hf h1 h2 hf.inPath hf.route h4 _ _ (hf.rows st) fun _ h => h

theorem sameArgs_iff {C E S : Type} : ∀ a b : List (Argument C E S), sameArgs a b = true ↔ (a.map fun x => (x.name, x.required)) = b.map fun x => (x.name, x.required)
  | [], [] => by simp [sameArgs]
  | [], b :: bs => by simp [sameArgs]
  | a :: as, [] => by simp [sameArgs]
  | a :: as, b :: bs => by simp [sameArgs, Argument.sameAs, sameArgs_iff as bs]

/-- C70: for all suites, also those that are not in the table: the negative tests need that the methods for valid and for invalid calls have
the same parameters (names, order, optional or not); otherwise an assertion fails, and nothing is sent. -/
theorem C70_signatures (suite : Suite) (client : Client) (st : suite.σ) (h : List Sent) :
    ((suite.errorArgs.map fun x => (x.name, x.required)) = (suite.successArgs.map fun x => (x.name, x.required)) →
      executeSyntacticTests suite client st = generateCalls argClasses suite.operation (suite.invokeError client) (suite.valid st) suite.errorArgs) ∧
    ((suite.errorArgs.map fun x => (x.name, x.required)) ≠ (suite.successArgs.map fun x => (x.name, x.required)) →
      (meaning env (executeSyntacticTests suite client st) true h).out = .raised ⟨.generic, py!"AssertionError"⟩ ∧
      sentBy env (executeSyntacticTests suite client st) h = []) := by
  unfold executeSyntacticTests
  refine ⟨fun hh => if_pos ((sameArgs_iff _ _).mpr hh), fun hh => ?_⟩
  rw [if_neg (fun hx => hh ((sameArgs_iff _ _).mp hx))]
  exact ⟨rfl, by simp [sentBy, meaning]⟩

example : ((getAllShellsSuite cfg).errorArgs.map fun x => (x.name, x.required)) ≠ ((getAllShellsSuite cfg).errorArgs.map fun x => (x.name, !x.required)) := by
  simp [getAllShellsSuite, getAllShells, shellParams]

/-- the keyword arguments fit: all are parameters, and no required one is missing -/
def Binds (params : List Arg) (kw : Kwargs) : Prop := (∀ a ∈ kw, ∃ p ∈ params, p.name = a.1) ∧ ∀ p ∈ params, p.required = true → ∃ a ∈ kw, a.1 = p.name

theorem find_named {n : Str} {v : ArgVal} : ∀ {kw : Kwargs}, (kw.map (·.1)).Nodup → (n, v) ∈ kw → kw.find? (fun a => a.1 == n) = some (n, v)
  | [], _, hm => by cases hm
  | a :: kw, hnd, hm => by
    rw [List.find?_cons]
    simp only [List.map_cons, List.nodup_cons] at hnd
    rcases List.mem_cons.mp hm with rfl | hm
    · simp
    · have hne : (a.1 == n) = false := by
        rw [beq_eq_false_iff_ne]
        rintro rfl
        exact hnd.1 (List.mem_map_of_mem (f := (·.1)) hm)
      rw [hne]
      exact find_named hnd.2 hm

/-- C70: a method of a suite can be called with keyword arguments iff they fit; each parameter then has the value given for it, or `None`.
Otherwise `TypeError` is raised before anything is sent. -/
theorem C70_binding (c : Call) (kw : Kwargs) (client : Client) (h : List Sent) :
    (Binds c.params kw → ∃ args, bindArgs c.params kw = .ok args ∧
      (∀ n, (∀ v, (n, v) ∉ kw) → args n = .none) ∧ ((kw.map (·.1)).Nodup → ∀ n v, (n, v) ∈ kw → args n = v)) ∧
    (¬ Binds c.params kw → bindArgs c.params kw = .error .typeError ∧
      (meaning env (c.success cfg client kw) true h).out = .raised (excOf .typeError) ∧ sentBy env (c.success cfg client kw) h = [] ∧
      (meaning env (c.error cfg client kw) true h).out = .raised (excOf .typeError) ∧ sentBy env (c.error cfg client kw) h = []) := by
  have hc : (kw.all (fun a => c.params.any fun p => p.name == a.1) && c.params.all (fun p => !p.required || kw.any fun a => a.1 == p.name)) = true ↔
      Binds c.params kw := by
    simp only [Binds, Bool.and_eq_true, List.all_eq_true, List.any_eq_true, Bool.or_eq_true, Bool.not_eq_true', beq_iff_eq]
    refine and_congr_right fun _ => forall_congr' fun p => forall_congr' fun _ => ?_
    cases p.required <;> simp
  constructor
  · intro hf
    refine ⟨_, by unfold bindArgs; exact if_pos (hc.mpr hf), ?_, ?_⟩
    · intro n hn
      have : kw.find? (fun a => a.1 == n) = none := List.find?_eq_none.mpr fun a ha he => hn a.2 (by rw [← beq_iff_eq.mp he]; exact ha)
      simp only [this, Option.elim]
    · intro hnd n v hm
      have := find_named hnd hm
      simp only [this, Option.elim]
  · intro hf
    have hb : bindArgs c.params kw = .error .typeError := by
      unfold bindArgs
      exact if_neg fun hh => hf (hc.mp hh)
    have hr : c.request kw = .error .typeError := by rw [Call.request, hb]; rfl
    have hs : c.success cfg client kw = .raise (excOf .typeError) := by rw [Call.success, hr]; rfl
    have he : c.error cfg client kw = .raise (excOf .typeError) := by
      rw [Call.error, hr, hb]
      split <;> rfl
    rw [hs, he]
    exact ⟨hb, rfl, by simp [sentBy, meaning], rfl, by simp [sentBy, meaning]⟩

example : Binds getAllShells.params [(py!"limit", .none)] ∧ ¬ Binds getAllShells.params [(py!"no", .none)] := by
  constructor
  · constructor
    · intro a ha
      cases List.mem_singleton.mp ha
      exact ⟨limitArg, List.mem_cons_self, rfl⟩
    · simp [getAllShells, shellParams, limitArg, cursorArg, optStr, optInt]
  · rintro ⟨h, -⟩
    obtain ⟨p, hp, he⟩ := h _ (List.mem_singleton_self _)
    revert he
    replace hp : p ∈ shellParams := hp
    simp only [shellParams, List.mem_cons, List.not_mem_nil, or_false] at hp
    rcases hp with rfl | rfl | rfl | rfl <;> decide

/-- C70: every argument is sent. A call of `invoke_error` sends one request; in it, the argument for the path has its place there, and the
query has exactly the parameters that are given, under their names in the specification, with their texts. No parameter of the method is
left out. -/
theorem C70_arguments (hs : Sound env) {service : Str} {e : Str × List Seg} {op : Op} (hop : Entry cfg service e op) (client : Client)
    (hp : client.prefixes = []) (h : List Sent) (c : Client) (st : op.suite.σ) (hu : SetUp env client op h (c, st)) :
    (∀ p ∈ op.suite.errorArgs, (parametersOf e.1).path = some p.name ∨ ∃ k, (p.name, k) ∈ (parametersOf e.1).query) ∧
    ∀ kw, op.suite.errorArgs ≠ [] → Binds op.suite.errorArgs kw → (∀ a ∈ kw, ∀ p ∈ op.suite.errorArgs, p.name = a.1 → Suitable p a.2) → ∀ h',
      ∃ q, sentBy env (op.suite.invokeError c kw) h' = [q] ∧ WithArguments client (sentTo e) (parametersOf e.1) kw q := by
  obtain ⟨hn, base, call, S, S', T, ok, hf⟩ := entry_ok env cfg hs hop
  obtain ⟨pre, h1, h2, rfl, h4⟩ := setUp_state env cfg hf hp hu
  rw [hf.checked.args, hf.checked.invoke]
  have hps := hf.params
  unfold sendsParams at hps
  simp only [Bool.and_eq_true, decide_eq_true_eq, List.all_eq_true] at hps
  obtain ⟨⟨⟨⟨⟨hq1, hp1⟩, hfail⟩, hty⟩, hpth⟩, hall⟩ := hps
  refine ⟨fun p hp => ?_, fun kw hne hb hv h' => ?_⟩
  · have := hall p hp
    rw [List.contains_iff_mem, List.mem_append] at this
    rcases this with h | h
    · rw [Option.mem_toList] at h
      exact .inl h
    · obtain ⟨x, hx, hxn⟩ := List.mem_map.mp h
      exact .inr ⟨x.2, by rw [← hxn]; exact hx⟩
  · obtain ⟨args, ha, -⟩ := (C70_binding env cfg call kw client h).1 hb
    have hg := fun n => bind_given ha n
    have hcan : call.canFail = true := by
      simp only [Bool.or_eq_true, List.isEmpty_iff] at hfail
      exact hfail.resolve_left hne
    have hfits : Suites.Fits call kw := by
      refine ⟨?_, fun a hak => ?_⟩
      · unfold Suites.fits
        rw [ha]
        dsimp only
        rw [List.all_eq_true]
        intro x hx
        obtain ⟨k, x⟩ := x
        cases x with
        | plain n => rfl
        | unpacked n =>
          dsimp only
          rw [hg]
          rcases given_mem (kw := kw) (n := n) with h0 | ⟨a, ha1, ha2, ha3⟩
          · rw [h0]; rfl
          · obtain ⟨p, hp, hpn⟩ := hb.1 a ha1
            have h5 := hty _ hx p hp
            rw [hpn, ha2] at h5
            have h5 : (n != n || isEnum p.ty) = true := h5
            simp only [bne_self_eq_false, Bool.false_or] at h5
            have h6 := hv a ha1 p hp hpn
            rw [ha3]
            unfold Suitable at h6
            split at h6
            · rename_i h7; rw [h7]; rfl
            · rename_i h7; rw [h7]; rfl
            · rename_i h7; rw [h7]; rfl
            · rw [h5] at h6; cases h6.1
      · obtain ⟨p, hp, hpn⟩ := hb.1 a hak
        exact suitable_enc (hv a hak p hp hpn)
    obtain ⟨q, hq, hh, -⟩ := error_test (cfg := cfg) hs hf.checked.sane hcan hfits (rooted_descend (client := client) h1) h'
    exact ⟨q, sentBy_one hh, with_arguments hf.params hf.checked.sane.rooted h2 hf.inPath hf.route ha hv hb.1 hb.2 hq⟩

/-- arguments for the query and for the path -/
example : Suitable limitArg (.int 1) ∧ Suitable levelArg deep ∧ Suitable submodelIdArg (.sfv true py!"abc") ∧ ¬ Suitable submodelIdArg .none ∧
    ¬ Suitable levelArg (.str py!"deep") ∧ carried deep = some py!"deep" ∧
    (parametersOf py!"GetSubmodelById").query.filterMap (fun x => (carried (given [(py!"submodel_id", .sfv true py!"abc"), (py!"level", deep)] x.1)).map fun t => (x.2, t)) =
      [(py!"level", py!"deep")] := by
  refine ⟨⟨rfl, py!"1", rfl, by unfold Writable; decide⟩, ⟨rfl, by unfold Writable; decide, by unfold Writable; decide⟩,
    ⟨rfl, py!"YWJj", by decide +kernel, by unfold Writable; decide⟩, (by intro h; cases h), (by rintro ⟨h, -⟩; cases h), rfl, rfl⟩

/-- parameters of texts -/
def textParams : List Str := [py!"cursor", py!"id_short", py!"id_short_path"]

/-- C70: there is an invalid value for every parameter of every operation, except for texts. -/
theorem C70_parameters_partial {service : Str} {e : Str × List Seg} {op : Op} (hop : Entry cfg service e op) :
    ∀ a ∈ op.suite.errorArgs, (∃ b ∈ negativesOf e.1, b.name = a.name) ↔ a.name ∉ textParams := by
  have key : ((services.zip (availableSuites cfg)).all fun s => (s.1.2.zip s.2.2).all fun x => x.2.suite.errorArgs.all fun a =>
      ((negativesOf x.1.1).any fun b => b.name == a.name) == !textParams.contains a.name) = true := rfl
  obtain ⟨s, hm, -, hz⟩ := hop
  intro a ha
  have := List.all_eq_true.mp (List.all_eq_true.mp (List.all_eq_true.mp key s hm) (e, op) hz) a ha
  rw [beq_iff_eq, Bool.eq_iff_iff] at this
  simpa [List.any_eq_true] using this

/-- C70 fails for texts: this operation has a parameter, but no negative tests. -/
theorem C70_parameters_violated : ∃ service e op, Entry cfg service e op ∧ op.suite.errorArgs ≠ [] ∧ negativesOf e.1 = [] :=
  ⟨_, (py!"GetFileByPath", [.text py!"/submodel", .text py!"/submodel-elements/", .value, .text py!"/attachment"]), ⟨submodelPrefix, getFileSuite cfg⟩,
   ⟨(services[3], (availableSuites cfg)[3]'(by show 3 < 4; decide)), List.mem_of_getElem? (i := 3) rfl, rfl, List.mem_of_getElem? (i := 15) rfl⟩,
   by simp [getFileSuite, elementSuite, getFile], rfl⟩

end Verif.Props
