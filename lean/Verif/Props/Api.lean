import Verif.ApiLemmas

/-!
# C54, C55, C56: runs of the API tests

`executeOps` (`execute_tests` of v3_0/api.py) for all lists of operations, all their setups and tests, and all behaviours of the server.
-/

namespace Verif.Props
open Verif Verif.Spec Verif.Spec.Api Verif.Spec.Generate Verif.Generate Verif.Api
open Verif.Http (Client Request Sent)

variable (env : List Sent → Sent → Answer) (conf : Conf) (client : Client) (ops : List Op)

/-! ## C54 -/

/-- A run ends with an exception that left it, or with the complete report: the connection, one result per selected operation with its
setup and each of its tests executed once and in order, the summary, and the counters. -/
theorem C54_report :
    (∃ x, (run env (executeOps conf client ops)).1 = .raised x) ∨
    ∃ root mat, (run env (executeOps conf client ops)).1 = .val (root, mat) ∧
      Complete env conf client ops [] root mat (run env (executeOps conf client ops)).2 := by
  rw [run_eq]
  exact executeOps_meaning env conf client ops false []

variable {env conf client ops}

theorem passed_append (a b : List (Res Str)) : passed (a ++ b) = passed a + passed b := by simp [passed]
theorem failed_append (a b : List (Res Str)) : failed (a ++ b) = failed a + failed b := by simp [failed]

/-- the tests of this title in the result of an operation -/
def testsOf (title : Str) (op : Res Str) : List (Res Str) := op.subs.flatMap fun part => if part.msg = title then part.subs else []

theorem testsIn_eq (title : Str) (root : Res Str) : testsIn title root = root.subs.flatMap (testsOf title) := rfl

theorem ends_msg {α : Type} {title : Str} {p : ApiM α} {h v r h'} (he : Ends env title p h v r h') : r.msg = title := by
  obtain ⟨-, ⟨_, -, -, hb⟩ | ⟨_, -, -, hb⟩⟩ := he <;> exact hb.msg

theorem parts_tests {op : Op} {h parts m h' title r} (hp : Parts env conf client op h parts m h') (hb : IsBlock title parts r) :
    m = ⟨passed (testsOf py!"Positive Tests" r), failed (testsOf py!"Positive Tests" r),
      failed (testsOf py!"Negative Tests" r), passed (testsOf py!"Negative Tests" r)⟩ := by
  cases hp with
  | dry _ => simp [testsOf, hb.subs, passed, failed]
  | setupFailed _ he _ =>
    have := ends_msg he
    simp [testsOf, hb.subs, this, passed, failed]
  | tested _ he _ _ _ hn _ _ _ hp =>
    have := ends_msg he
    simp [testsOf, hb.subs, this, hn.msg, hn.subs, hp.msg, hp.subs]

theorem reports_tests {ops : List Op} {h rs m h'} (hr : Reports env conf client ops h rs m h') :
    m = ⟨passed (rs.flatMap (testsOf py!"Positive Tests")), failed (rs.flatMap (testsOf py!"Positive Tests")),
      failed (rs.flatMap (testsOf py!"Negative Tests")), passed (rs.flatMap (testsOf py!"Negative Tests"))⟩ := by
  induction hr with
  | nil h => rfl
  | cons hp hb _ ih =>
    rename_i ms _ _
    rw [List.flatMap_cons, List.flatMap_cons, passed_append, passed_append, failed_append, failed_append]
    rw [parts_tests hp hb]
    simp only [Mat.mk.injEq]
    rw [ih]
    simp

theorem leaves_tests {title t : Str} {l : List (Res Str)} {r : Res Str} (hb : IsBlock t l r) (hl : ∀ s ∈ l, s.subs = []) : testsOf title r = [] := by
  simp only [testsOf, hb.subs, List.flatMap_eq_nil_iff]
  intro s hs
  split
  · exact hl s hs
  · rfl

theorem reached_tests {title : Str} {h server h'} (hr : Reached env conf client h server h') : testsOf title server = [] := by
  cases hr with
  | dry _ hb => exact leaves_tests hb (by simp [Res.new, Res.subs])
  | answer _ _ _ hb => exact leaves_tests hb (by simp [Res.new, Res.subs])

/-- The counters are the numbers of passed and failed tests in the report; together they count every test exactly once. -/
theorem C54_counts {h root mat h'} (hc : Complete env conf client ops h root mat h') :
    mat.validAccepted = passed (testsIn py!"Positive Tests" root) ∧ mat.validRejected = failed (testsIn py!"Positive Tests" root) ∧
    mat.invalidRejected = passed (testsIn py!"Negative Tests" root) ∧ mat.invalidAccepted = failed (testsIn py!"Negative Tests" root) ∧
    mat.validAccepted + mat.validRejected + mat.invalidAccepted + mat.invalidRejected =
      (testsIn py!"Positive Tests" root).length + (testsIn py!"Negative Tests" root).length := by
  have key : mat = ⟨passed (testsIn py!"Positive Tests" root), failed (testsIn py!"Positive Tests" root),
      failed (testsIn py!"Negative Tests" root), passed (testsIn py!"Negative Tests" root)⟩ := by
    cases hc with
    | unreachable _ _ _ hs hb =>
      have : ∀ title, testsOf title _ = [] := fun title => leaves_tests (title := title) hs (by simp [Res.new, Res.subs])
      simp [testsIn_eq, hb.subs, this, passed, failed]
    | reached hr hrep hl hb =>
      have hl' : ∀ title, testsOf title _ = [] := fun title => leaves_tests (title := title) hl (by simp [summaryLines, Res.new, Res.subs])
      have hr' : ∀ title, testsOf title _ = [] := fun title => reached_tests (title := title) hr
      rw [reports_tests hrep]
      simp [testsIn_eq, hb.subs, hl', hr']
  have h1 := passed_failed (testsIn py!"Positive Tests" root)
  have h2 := passed_failed (testsIn py!"Negative Tests" root)
  subst key
  exact ⟨rfl, rfl, rfl, rfl, by dsimp only; omega⟩

/-- If the server was reached the report ends with the summary of these counters. -/
theorem C54_summary {h root mat h'} (hc : Complete env conf client ops h root mat h') :
    (∃ q e, probe client = .ok q ∧ env h q = .failed e) ∨
    ∃ rest last, root.subs = rest ++ [last] ∧ last.msg = py!"Summary:" ∧ last.subs.map (·.msg) =
      [py!"Negative tests passed: " ++ Py.natStr (passed (testsIn py!"Negative Tests" root)) ++ py!" / " ++
          Py.natStr (testsIn py!"Negative Tests" root).length,
       py!"Positive tests passed: " ++ Py.natStr (passed (testsIn py!"Positive Tests" root)) ++ py!" / " ++
          Py.natStr (testsIn py!"Positive Tests" root).length] := by
  obtain ⟨c1, c2, c3, c4, -⟩ := C54_counts hc
  cases hc with
  | unreachable _ hp he _ _ => exact .inl ⟨_, _, hp, he⟩
  | reached hr hrep hl hb =>
    refine .inr ⟨_, _, hb.subs, hl.msg, ?_⟩
    rw [hl.subs, ← passed_failed, ← passed_failed, ← c1, ← c2, ← c3, ← c4, Nat.add_comm (Mat.invalidRejected _)]
    rfl

/-- An unknown suite or version is refused before anything is sent. -/
theorem C54_unknown (suites : List (Str × List Op)) :
    ((∀ s ∈ suites, s.1 ≠ conf.suite) → ∃ x, run env (executeTests suites client conf) = (.raised x, [])) ∧
    (∀ v, conf.version = some v → v ≠ [] → v ≠ py!"3.0" → ∃ x, run env (executeTests suites client conf) = (.raised x, [])) := by
  constructor
  · intro hs
    have : suites.find? (fun s => s.1 == conf.suite) = none := by
      rw [List.find?_eq_none]
      intro s h
      simpa using hs s h
    rw [run_eq]
    unfold executeTests executeSuite
    simp only [this]
    split <;> split <;> exact ⟨_, rfl⟩
  · intro v hv hne h3
    rw [run_eq]
    unfold executeTests
    rw [hv]
    cases v with
    | nil => exact absurd rfl hne
    | cons c v =>
      simp only
      rw [if_pos h3]
      exact ⟨_, rfl⟩

/-! ## C55 -/

/-- The messages of the report: one entry for each selected operation, in order, and for no other operation. -/
theorem C55_reported {h root mat h'} (hc : Complete env conf client ops h root mat h') :
    (∃ q e, conf.dry = false ∧ probe client = .ok q ∧ env h q = .failed e ∧ root.subs.map (·.msg) = [py!"Trying to reach " ++ client.host]) ∨
    root.subs.map (·.msg) =
      (py!"Trying to reach " ++ client.host) :: (selected conf ops).map (fun op => py!"Checking " ++ op.suite.operation) ++ [py!"Summary:"] := by
  cases hc with
  | unreachable hd hp he hs hb => exact .inl ⟨_, _, hd, hp, he, by rw [hb.subs, List.map_cons, hs.msg]; rfl⟩
  | reached hr hrep hl hb =>
    right
    have hserver : ∀ {server h1}, Reached env conf client h server h1 → server.msg = py!"Trying to reach " ++ client.host := by
      intro server h1 hr
      cases hr with
      | dry _ hb => exact hb.msg
      | answer _ _ _ hb => exact hb.msg
    have hreps : ∀ {os h1 rs m h2}, Reports env conf client os h1 rs m h2 →
        rs.map (·.msg) = os.map (fun op => py!"Checking " ++ op.suite.operation) := by
      intro os h1 rs m h2 hr
      induction hr with
      | nil => rfl
      | cons _ hb _ ih => rw [List.map_cons, List.map_cons, ih, hb.msg]
    rw [hb.subs]
    simp only [List.map_append, List.map_cons, List.map_nil, hserver hr, hreps hrep, hl.msg]

theorem runOps_selected (mat : Mat) :
    runOps conf client ops mat = runOps { conf with filter := none } client (selected conf ops) mat := by
  induction ops generalizing mat with
  | nil => rfl
  | cons op ops ih =>
    have hk : (fun sub => runOps conf client ops (mat.add sub)) = fun sub => runOps { conf with filter := none } client (selected conf ops) (mat.add sub) :=
      funext fun sub => ih (mat.add sub)
    have hop : ∀ k, runOp { conf with filter := none } client op k = runOp conf client op k := fun _ => rfl
    rw [runOps, hk, ih]
    have hsk : skipped conf op = true ∧ selected conf (op :: ops) = selected conf ops ∨
        skipped conf op = false ∧ selected conf (op :: ops) = op :: selected conf ops := by
      unfold skipped selected
      cases hf : conf.filter with
      | none => simp
      | some f => cases hs : f.selects op.suite.operation <;> simp [hs]
    rcases hsk with ⟨h1, h2⟩ | ⟨h1, h2⟩
    · rw [h1, h2]; rfl
    · rw [h1, h2, runOps, hop]; rfl

/-- A filter is the same as leaving the other operations out: they cause no request, no entry and no count. -/
theorem C55_filter : executeOps conf client ops = executeOps { conf with filter := none } client (selected conf ops) := by
  unfold executeOps
  rw [runOps_selected]

theorem runOps_dry (hd : conf.dry = true) : ∀ (ops : List Op) (mat : Mat) (h : List Sent),
    ∃ m, (meaning env (runOps conf client ops mat) true h).out = .val m
  | [], mat, _ => ⟨mat, rfl⟩
  | op :: ops, mat, h => by
    rw [runOps]
    split
    · exact runOps_dry hd ops mat h
    · obtain ⟨m, hm⟩ := runOps_dry hd ops (mat.add Mat.zero) h
      refine ⟨m, ?_⟩
      simp only [runOp, hd, if_true, meaning, Meaning.after, Option.getD]
      exact hm

/-- A dry run sends nothing, and reports all selected operations without tests. -/
theorem C55_dry (hd : conf.dry = true) :
    ∃ root rs server last, run env (executeOps conf client ops) = (.val (root, ⟨0, 0, 0, 0⟩), []) ∧ root.ok = true ∧
      root.subs = server :: rs ++ [last] ∧
      rs.map (fun r => (r.msg, r.subs.map (·.msg))) = (selected conf ops).map fun op => (py!"Checking " ++ op.suite.operation, []) := by
  have hreps : ∀ {os h1 rs m h2}, Reports env conf client os h1 rs m h2 → m = ⟨0, 0, 0, 0⟩ ∧ h2 = h1 ∧ (∀ r ∈ rs, r.ok = true) ∧
      rs.map (fun r => (r.msg, r.subs.map (·.msg))) = os.map fun op => (py!"Checking " ++ op.suite.operation, []) := by
    intro os h1 rs m h2 hr
    induction hr with
    | nil => exact ⟨rfl, rfl, by simp, rfl⟩
    | cons hp hb _ ih =>
      obtain ⟨rfl, rfl, i3, i4⟩ := ih
      cases hp with
      | dry _ =>
        refine ⟨rfl, rfl, ?_, ?_⟩
        · intro r hr
          rcases List.mem_cons.mp hr with rfl | hr
          · exact hb.ok.mpr (by simp)
          · exact i3 r hr
        · rw [List.map_cons, List.map_cons, i4, hb.msg, hb.subs]
          rfl
      | setupFailed h => rw [hd] at h; cases h
      | tested h => rw [hd] at h; cases h
  have hne : ∀ x, (run env (executeOps conf client ops)).1 ≠ .raised x := by
    intro x hx
    rw [run_eq] at hx
    unfold executeOps checkServer at hx
    obtain ⟨m, hm⟩ := runOps_dry (env := env) (client := client) hd ops Mat.zero []
    obtain ⟨last, e, log, he, hs, -⟩ := summary_meaning env m (meaning env (runOps conf client ops Mat.zero) true []).hist
    simp only [hd, if_true, meaning, Meaning.after, Option.getD, Bool.not_true, Bool.false_eq_true, if_false, meaning_bind,
      Meaning.andThen, hm, hs] at hx
    cases hx
  rcases C54_report env conf client ops with ⟨x, hx⟩ | ⟨root, mat, ho, hc⟩
  · exact absurd hx (hne x)
  · cases hc' : (run env (executeOps conf client ops)) with
    | mk o h' =>
      rw [hc'] at ho hc
      cases ho
      cases hc with
      | unreachable h => rw [hd] at h; cases h
      | reached hr hrep hl hb =>
        obtain ⟨rfl, rfl, h3, h4⟩ := hreps hrep
        cases hr with
        | answer h => rw [hd] at h; cases h
        | dry _ hs =>
          refine ⟨root, _, _, _, rfl, ?_, hb.subs, h4⟩
          refine hb.ok.mpr fun s hs' => ?_
          rcases List.mem_append.mp hs' with hs' | hs'
          · rcases List.mem_cons.mp hs' with rfl | hs'
            · exact hs.ok.mpr (by simp [Res.ok, Res.new, Res.level])
            · exact h3 s hs'
          · rcases List.mem_singleton.mp hs' with rfl
            exact hl.ok.mpr (by simp [summaryLines, Res.ok, Res.new, Res.level])

/-! ## C56 -/

/-- A server that cannot be reached: the result is critical, nothing but the probe is sent, no operation is reported or counted. -/
theorem C56_unreachable (hd : conf.dry = false) (q : Sent) (hq : probe client = .ok q) (t : Str) (ht : env [] q = .failed t) :
    ∃ root, run env (executeOps conf client ops) = (.val (root, ⟨0, 0, 0, 0⟩), [q]) ∧ root.level = .critical ∧ root.ok = false ∧
      root.subs.map (·.msg) = [py!"Trying to reach " ++ client.host] := by
  have hne : ∀ x, (run env (executeOps conf client ops)).1 ≠ .raised x := by
    intro x hx
    rw [run_eq] at hx
    unfold probe at hq
    simp only [executeOps, checkServer, hd, Bool.false_eq_true, if_false, Api.send, hq, Prog.bind, meaning, ht, Meaning.after, Option.getD,
      Bool.not_false, if_true] at hx
    cases hx
  rcases C54_report env conf client ops with ⟨x, hx⟩ | ⟨root, mat, ho, hc⟩
  · exact absurd hx (hne x)
  · cases hc' : (run env (executeOps conf client ops)) with
    | mk o h' =>
      rw [hc'] at ho hc
      cases ho
      cases hc with
      | reached hr =>
        cases hr with
        | dry h => rw [hd] at h; cases h
        | answer _ hp ha =>
          rw [hq] at hp
          cases hp
          rw [ht] at ha
          cases ha
      | unreachable _ hp _ hs hb =>
        rw [hq] at hp
        cases hp
        have hcrit : root.level = .critical := hb.critical ⟨_, List.mem_cons_self, hs.critical ⟨_, List.mem_cons_self, rfl⟩⟩
        refine ⟨root, rfl, hcrit, ?_, by rw [hb.subs, List.map_cons, hs.msg]; rfl⟩
        rw [Res.ok, hcrit]; rfl

/-- the parts of an operation whose setup and tests passed -/
def AllPassed (r : Res Str) : Prop :=
  ∃ s n p, r.subs = [s, n, p] ∧ s.ok = true ∧ (∀ t ∈ n.subs, t.ok = true) ∧ ∀ t ∈ p.subs, t.ok = true

theorem parts_ok {op : Op} {h parts m h' title r} (hd : conf.dry = false) (hp : Parts env conf client op h parts m h') (hb : IsBlock title parts r) :
    r.ok = true ↔ AllPassed r := by
  cases hp with
  | dry h => rw [hd] at h; cases h
  | setupFailed _ _ hs =>
    constructor
    · intro h
      have := hb.ok.mp h _ List.mem_cons_self
      rw [hs] at this; cases this
    · rintro ⟨s, n, p, h, -⟩
      rw [hb.subs] at h
      cases h
  | @tested _ _ s _ _ n _ _ _ p _ _ _ he hs _ _ hn _ _ _ hp =>
    rw [hb.ok]
    constructor
    · intro h
      exact ⟨s, n, p, hb.subs, hs, by rw [hn.subs]; exact hn.ok.mp (h n (by simp)), by rw [hp.subs]; exact hp.ok.mp (h p (by simp))⟩
    · rintro ⟨s', n', p', hsub, h1, h2, h3⟩
      rw [hb.subs] at hsub
      cases hsub
      rw [hn.subs] at h2
      rw [hp.subs] at h3
      intro t ht
      simp only [List.mem_cons, List.not_mem_nil, or_false] at ht
      rcases ht with rfl | rfl | rfl
      · exact h1
      · exact hn.ok.mpr h2
      · exact hp.ok.mpr h3

/-- The verdict: the result is ok iff the server answered, and for every selected operation the setup and all tests passed. Whether or not
a setup fails, every selected operation has its own report. -/
theorem C56_verdict (hd : conf.dry = false) {h root mat h'} (hc : Complete env conf client ops h root mat h') :
    root.ok = true ↔ ∃ server rs last, root.subs = server :: rs ++ [last] ∧
      rs.map (·.msg) = (selected conf ops).map (fun op => py!"Checking " ++ op.suite.operation) ∧ ∀ r ∈ rs, AllPassed r := by
  cases hc with
  | unreachable _ _ _ hs hb =>
    constructor
    · intro h
      have := hs.ok.mp (hb.ok.mp h _ List.mem_cons_self) _ List.mem_cons_self
      simp [Res.ok, Res.new, Res.level] at this
    · rintro ⟨server, rs, last, hsub, -⟩
      rw [hb.subs] at hsub
      simp at hsub
  | @reached server _ rs _ _ last _ hr hrep hl hb =>
    have hserver : server.ok = true := by
      cases hr with
      | dry h => rw [hd] at h; cases h
      | answer _ _ _ hb => exact hb.ok.mpr (by simp [Res.ok, Res.new, Res.level])
    have hlast : last.ok = true := hl.ok.mpr (by simp [summaryLines, Res.ok, Res.new, Res.level])
    have hreps : ∀ {os h1 rs m h2}, Reports env conf client os h1 rs m h2 →
        rs.map (·.msg) = os.map (fun op => py!"Checking " ++ op.suite.operation) ∧ ∀ r ∈ rs, (r.ok = true ↔ AllPassed r) := by
      intro os h1 rs m h2 hr
      induction hr with
      | nil => exact ⟨rfl, by simp⟩
      | cons hp hb _ ih =>
        refine ⟨by rw [List.map_cons, List.map_cons, ih.1, hb.msg], fun r hr => ?_⟩
        rcases List.mem_cons.mp hr with rfl | hr
        · exact parts_ok hd hp hb
        · exact ih.2 r hr
    obtain ⟨hmsg, hall⟩ := hreps hrep
    rw [hb.ok]
    constructor
    · intro h
      exact ⟨server, rs, last, hb.subs, hmsg, fun r hr => (hall r hr).mp (h r (by simp [hr]))⟩
    · rintro ⟨server', rs', last', hsub, -, hp⟩
      rw [hb.subs] at hsub
      simp only [List.cons_append, List.cons.injEq] at hsub
      obtain ⟨rfl, hsub⟩ := hsub
      obtain ⟨rfl, hl'⟩ := List.append_inj' hsub rfl
      intro s hs
      simp only [List.cons_append, List.mem_cons, List.mem_append, List.not_mem_nil, or_false] at hs
      rcases hs with rfl | hs | rfl
      · exact hserver
      · exact (hall s hs).mpr (hp s hs)
      · exact hlast

/-- An operation whose setup is aborted: none of its tests run, its result is not ok. Missing: setups that end with another exception, see
`C56_setup_exception_violated`. -/
theorem C56_setup_partial {op : Op} {h parts m h' title r} (hd : conf.dry = false) (hp : Parts env conf client op h parts m h') (hb : IsBlock title parts r)
    (x : Res Str) (hx : (meaning env (setupOp client op) true h).out = .aborted x) :
    r.ok = false ∧ m = ⟨0, 0, 0, 0⟩ ∧ h' = (meaning env (setupOp client op) true h).hist ∧
      ∃ s, r.subs = [s] ∧ s.msg = py!"Setup" ∧ x ∈ s.subs := by
  cases hp with
  | dry h => rw [hd] at h; cases h
  | setupFailed _ he hs =>
    have hmsg := ends_msg he
    obtain ⟨rfl, ⟨a, ha, -⟩ | ⟨y, hy, -, hbs⟩⟩ := he
    · rw [hx] at ha; cases ha
    · rw [hx] at hy
      cases hy
      refine ⟨?_, rfl, rfl, _, hb.subs, hmsg, by rw [hbs.subs]; simp⟩
      rw [← Bool.not_eq_true, hb.ok]
      intro h
      rw [h _ List.mem_cons_self] at hs
      cases hs
  | tested _ he hs =>
    obtain ⟨rfl, ⟨a, ha, -⟩ | ⟨y, hy, hv, -⟩⟩ := he
    · rw [hx] at ha; cases ha
    · cases hv

/-- The remaining operations are not tested if the setup of an operation ends with an exception that is no failed check: the exception
leaves the whole run and nothing is reported. -/
theorem C56_setup_exception_violated {op : Op} (hd : conf.dry = false) (hf : conf.filter = none) (q : Sent) (hq : probe client = .ok q)
    (a : Response) (ha : env [] q = .response a) (x : Exc) (hx : (meaning env (setupOp client op) true [q]).out = .raised x) :
    run env (executeOps conf client (op :: ops)) = (.raised x, (meaning env (setupOp client op) true [q]).hist) := by
  rw [run_eq]
  unfold probe at hq
  simp only [executeOps, checkServer, hd, Bool.false_eq_true, if_false, Api.send, hq, Prog.bind, meaning, ha, Meaning.after, Option.getD,
    Bool.not_true, Prog.writeMsg, meaning_bind, runOps, skipped, hf, runOp, List.nil_append, Meaning.andThen, hx]

/-! ## examples -/

/-- an operation with an argument `limit` and one test -/
def sampleOp (operation : Str) (setup : ApiM Unit) : Op where
  prefixOf _ := .pure []
  suite := {
    operation := operation
    errorArgs := [⟨py!"limit", .number, false⟩]
    successArgs := [⟨py!"limit", .number, false⟩]
    σ := Unit
    setup := fun _ => setup
    valid := fun _ => []
    invokeError := fun c _ => (invokeAndDecode ⟨none, fun _ => []⟩ c { path := py!"/x", query := [(py!"limit", some py!"-1")] }
      (.cls .errorResult) clientError).bind fun _ => .pure ()
    tests := [⟨py!"test_simple", 10, some py!"Fetch", fun c _ _ =>
      (invokeAndDecode ⟨none, fun _ => []⟩ c { path := py!"/x" } (.cls .serviceDescription) success).bind fun _ => .pure ()⟩] }

/-- a server that is always happy -/
def happy : List Sent → Sent → Answer := fun _ _ =>
  .response { status := 200, content := none, json := .ok (.obj [(py!"profiles", .arr [])]) }

def sampleClient : Client := { host := py!"http://h", verify := true, removePathPrefix := [], prefixes := [], additionalHeaders := [] }

def sampleConf (dry : Bool) : Conf := { suite := py!"S", version := none, dry := dry, filter := none }

/-- verdict, counters and number of requests -/
def outcome (env : List Sent → Sent → Answer) (p : ApiM (Res Str × Mat)) : Option (Bool × Mat) × Nat :=
  match run env p with
  | (.val (r, m), h) => (some (r.ok, m), h.length)
  | (_, h) => (none, h.length)

/-- the first operation fails in its setup, the second one is tested: its negative test fails, its positive one passes -/
example : outcome happy (executeOps (sampleConf false) sampleClient
    [sampleOp py!"A" (.abort (Res.new py!"no shells" .error)), sampleOp py!"B" (.pure ())]) = (some (false, ⟨1, 0, 1, 0⟩), 3) := by
  decide +kernel
example : outcome happy (executeOps (sampleConf true) sampleClient [sampleOp py!"A" (.pure ())]) = (some (true, ⟨0, 0, 0, 0⟩), 0) := by
  decide +kernel
example : outcome (fun _ _ => .failed py!"refused") (executeOps (sampleConf false) sampleClient [sampleOp py!"A" (.pure ())]) =
    (some (false, ⟨0, 0, 0, 0⟩), 1) := by
  decide +kernel
example : outcome happy (executeOps (sampleConf false) sampleClient
    [sampleOp py!"A" (.raise ⟨.indexError, []⟩), sampleOp py!"B" (.pure ())]) = (none, 1) := by
  decide +kernel

end Verif.Props
