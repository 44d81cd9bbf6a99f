import Verif.AloneLemmas
import Verif.Props.Api
import Verif.Props.Compliant

/-!
# C106: operations are tested independently of each other
-/

namespace Verif.Props
open Verif Verif.Spec Verif.Spec.Api Verif.Spec.Alone Verif.Api Verif.Api.Suites Verif.Http

variable {env : List Sent → Sent → Answer}

theorem connection_false {conf : Conf} {client : Client} (h : (connection env conf.dry client).out = .val false) :
    ∃ q e, conf.dry = false ∧ probe client = .ok q ∧ env [] q = .failed e ∧ (connection env conf.dry client).hist = [q] := by
  unfold connection at h ⊢
  rcases checkServer_meaning env conf client .pure [] with ⟨x, hx⟩ | ⟨_, h', log, e, b, _, hm, hc⟩
  · rw [hx] at h; cases h
  · rw [hm] at h ⊢
    simp only [meaning, Meaning.after] at h ⊢
    cases h
    rcases hc with ⟨hb, _⟩ | ⟨_, q, t, h1, h2, h3, h4, _⟩
    · cases hb
    · exact ⟨q, t, h1, h2, h3, h4⟩

/-- the run for one operation -/
theorem alone_of {conf : Conf} {client : Client} (hs : Stateless env) {e : Ent} (h : (connection env conf.dry client).out = .val true)
    (he : (connection env conf.dry client).ents = [e]) (op : Op) (hv : ∃ m, (opMeaning env { conf with filter := none } client op).out = .val m) :
    RunsAlone env conf client e.toRes (connection env conf.dry client).hist op (shareOf env { conf with filter := none } client op) := by
  obtain ⟨root, last, h1, h2⟩ := run_val (conf := { conf with filter := none }) hs rfl h he [op] (by simpa using hv)
  refine ⟨root, last, ?_, ?_⟩
  · rw [h1]; simp [total]
  · rw [h2]; rfl

/-- C106: the report of a run is put together from the reports of runs for the single operations: the results in the order of the operations,
the sums of the counters, the requests one after the other. Only if the server can not be reached there are no operations in the report. -/
theorem C106_shares (hs : Stateless env) (conf : Conf) (client : Client) (ops : List Op) {root : Res Str} {mat : Mat} {sent : List Sent}
    (hrun : run env (executeOps conf client ops) = (.val (root, mat), sent)) :
    ((∃ q e, conf.dry = false ∧ probe client = .ok q ∧ env [] q = .failed e ∧ sent = [q]) ∧
      ∀ ops', run env (executeOps conf client ops') = (.val (root, mat), sent)) ∨
    ∃ (server : Res Str) (start : List Sent) (last : Res Str) (share : Op → Share),
      (∀ op ∈ selected conf ops, RunsAlone env conf client server start op (share op)) ∧
      root.subs = server :: ((selected conf ops).map fun op => (share op).result) ++ [last] ∧
      mat = total ((selected conf ops).map fun op => (share op).counters) ∧
      sent = start ++ (selected conf ops).flatMap fun op => (share op).sent := by
  rcases connection_cases (env := env) conf client with ⟨x, hx⟩ | ⟨e, b, hb, he⟩
  · rw [run_raised_connection hx] at hrun; cases hrun
  cases b with
  | false =>
    left
    obtain ⟨r, h1, h2⟩ := run_unreachable hb he ops
    rw [hrun] at h1
    cases h1
    obtain ⟨q, t, h3, h4, h5, h6⟩ := connection_false hb
    refine ⟨⟨q, t, h3, h4, h5, h6⟩, fun ops' => ?_⟩
    obtain ⟨r', h1', h2'⟩ := run_unreachable hb he ops'
    rw [h1', h2', h2]
  | true =>
    right
    rw [C55_filter] at hrun
    rcases ops_cases (env := env) { conf with filter := none } client (selected conf ops) with hv | ⟨x, hx⟩
    · obtain ⟨root', last, h1, h2⟩ := run_val (conf := { conf with filter := none }) hs rfl hb he (selected conf ops) hv
      rw [hrun] at h1
      cases h1
      exact ⟨e.toRes, _, last, shareOf env { conf with filter := none } client, fun op ho => alone_of hs hb he op (hv op ho), h2, rfl, rfl⟩
    · have := run_raised (conf := { conf with filter := none }) hs rfl hb _ x hx
      rw [hrun] at this; cases this

/-- C106: a run is left by an exception iff the check of the connection is, or the run for one of the operations alone; it is the first of them. -/
theorem C106_raises (hs : Stateless env) (conf : Conf) (client : Client) (ops : List Op) (x : Exc) :
    (run env (executeOps conf client ops)).1 = .raised x ↔
      (run env (executeOps conf client [])).1 = .raised x ∨
      ∃ pre op post, selected conf ops = pre ++ op :: post ∧
        (∀ o ∈ pre, ∃ v, (run env (executeOps { conf with filter := none } client [o])).1 = .val v) ∧
        (run env (executeOps { conf with filter := none } client [op])).1 = .raised x := by
  rcases connection_cases (env := env) conf client with ⟨y, hy⟩ | ⟨e, b, hb, he⟩
  · have h1 := run_raised_connection (conf := conf) hy
    have h2 := run_raised_connection (conf := { conf with filter := none }) hy
    simp only [h1, h2]
    constructor
    · exact .inl
    · rintro (h | ⟨pre, op, post, _, _, h⟩) <;> exact h
  cases b with
  | false =>
    have h1 : ∀ ops, ∃ v, (run env (executeOps conf client ops)).1 = .val v := fun ops => by
      obtain ⟨r, h, _⟩ := run_unreachable hb he ops
      exact ⟨_, by rw [h]⟩
    have h2 : ∀ ops, ∃ v, (run env (executeOps { conf with filter := none } client ops)).1 = .val v := fun ops => by
      obtain ⟨r, h, _⟩ := run_unreachable (conf := { conf with filter := none }) hb he ops
      exact ⟨_, by rw [h]⟩
    constructor
    · intro h; obtain ⟨v, hv⟩ := h1 ops; rw [hv] at h; cases h
    · rintro (h | ⟨pre, op, post, _, _, h⟩)
      · obtain ⟨v, hv⟩ := h1 []; rw [hv] at h; cases h
      · obtain ⟨v, hv⟩ := h2 [op]; rw [hv] at h; cases h
  | true =>
    have hval : ∀ ops : List Op, (∀ op ∈ ops, ∃ m, (opMeaning env { conf with filter := none } client op).out = .val m) →
        ∃ v, (run env (executeOps { conf with filter := none } client ops)).1 = .val v := fun ops hv => by
      obtain ⟨root', last, h, _⟩ := run_val (conf := { conf with filter := none }) hs rfl hb he ops hv
      exact ⟨_, by rw [h]⟩
    have hone : ∀ op y, (opMeaning env { conf with filter := none } client op).out = .raised y →
        (run env (executeOps { conf with filter := none } client [op])).1 = .raised y := fun op y h =>
      run_raised (conf := { conf with filter := none }) hs rfl hb [op] y ⟨[], op, [], rfl, by simp, h⟩
    have hback : ∀ op y, (run env (executeOps { conf with filter := none } client [op])).1 = .raised y →
        (opMeaning env { conf with filter := none } client op).out = .raised y := fun op y h => by
      rcases opMeaning_cases (env := env) { conf with filter := none } client op with ⟨z, hz⟩ | ⟨_, m, hm, _⟩
      · have := hone op z hz; rw [h] at this; cases this; exact hz
      · obtain ⟨v, hv⟩ := hval [op] (by simpa using ⟨m, hm⟩)
        rw [hv] at h; cases h
    have hfront : ∀ op v, (run env (executeOps { conf with filter := none } client [op])).1 = .val v →
        ∃ m, (opMeaning env { conf with filter := none } client op).out = .val m := fun op v h => by
      rcases opMeaning_cases (env := env) { conf with filter := none } client op with ⟨z, hz⟩ | ⟨_, m, hm, _⟩
      · have := hone op z hz; rw [h] at this; cases this
      · exact ⟨m, hm⟩
    constructor
    · intro h
      rw [C55_filter] at h
      right
      rcases ops_cases (env := env) { conf with filter := none } client (selected conf ops) with hv | ⟨y, pre, op, post, h1, h2, h3⟩
      · obtain ⟨v, hv⟩ := hval _ hv; rw [hv] at h; cases h
      · have := run_raised (conf := { conf with filter := none }) hs rfl hb _ y ⟨pre, op, post, h1, h2, h3⟩
        rw [h] at this; cases this
        exact ⟨pre, op, post, h1, fun o ho => hval [o] (by simpa using h2 o ho), hone op _ h3⟩
    · rintro (h | ⟨pre, op, post, h1, h2, h3⟩)
      · rw [C55_filter] at h
        obtain ⟨v, hv⟩ := hval (selected conf []) (by simp [selected])
        rw [hv] at h; cases h
      · rw [C55_filter]
        exact run_raised (conf := { conf with filter := none }) hs rfl hb _ x ⟨pre, op, post, h1, fun o ho => by
          obtain ⟨v, hv⟩ := h2 o ho; exact hfront o v hv, hback op x h3⟩

/-- the heading of the result of an operation -/
theorem share_msg {conf : Conf} {client : Client} {server : Res Str} {start : List Sent} {op : Op} {s : Share}
    (h : RunsAlone env conf client server start op s) : s.result.msg = py!"Checking " ++ op.suite.operation ∧ server.msg = py!"Trying to reach " ++ client.host := by
  obtain ⟨root, last, h1, h2⟩ := h
  rcases C54_report env { conf with filter := none } client [op] with ⟨x, hx⟩ | ⟨root', mat, hr, hc⟩
  · rw [h1] at hx; cases hx
  · rw [h1] at hr; cases hr
    rcases C55_reported hc with ⟨_, _, _, _, _, hm⟩ | hm
    · rw [h2] at hm; simp at hm
    · rw [h2] at hm
      simp only [selected, List.filter_cons, List.filter_nil, if_true, List.map_cons, List.map_nil, List.cons_append, List.nil_append,
        List.cons.injEq] at hm
      exact ⟨hm.2.1, hm.1⟩

theorem share_unique {conf : Conf} {client : Client} {server server' : Res Str} {start start' : List Sent} {op : Op} {s s' : Share}
    (h : RunsAlone env conf client server start op s) (h' : RunsAlone env conf client server' start' op s') : s.result = s'.result ∧ s.counters = s'.counters := by
  obtain ⟨root, last, h1, h2⟩ := h
  obtain ⟨root', last', h1', h2'⟩ := h'
  rw [h1] at h1'
  have e1 := congrArg (fun p => p.1) h1'
  simp only [Out.val.injEq, Prod.mk.injEq] at e1
  rw [← e1.1, h2] at h2'
  simp only [List.cons.injEq] at h2'
  exact ⟨h2'.2.1, e1.2⟩

/-- the operations of a service have different names -/
theorem names_differ (cfg : Cfg) {n : Str} {ops : List Op} (h : (n, ops) ∈ availableSuites cfg) : (ops.map fun op => op.suite.operation).Nodup := by
  have hm : (n, ops.map fun op => op.suite.operation) ∈ Spec.Routes.services.map fun s => (s.1, s.2.map (·.1)) := by
    rw [← C69_table (cfg := cfg)]
    exact List.mem_map.mpr ⟨_, h, rfl⟩
  have : ∀ p ∈ Spec.Routes.services.map fun s => (s.1, s.2.map (·.1)), p.2.Nodup := by decide +kernel
  exact this _ hm

theorem nodup_inj {α : Type _} {β : Type _} {f : α → β} : ∀ {l : List α}, (l.map f).Nodup → ∀ {a b}, a ∈ l → b ∈ l → f a = f b → a = b
  | [], _, _, _, h, _, _ => absurd h List.not_mem_nil
  | x :: l, hn, a, b, ha, hb, e => by
    rw [List.map_cons, List.nodup_cons] at hn
    rcases List.mem_cons.mp ha with rfl | ha <;> rcases List.mem_cons.mp hb with rfl | hb
    · rfl
    · have := List.mem_map_of_mem (f := f) hb
      rw [← e] at this; exact absurd this hn.1
    · rename_i ha'
      have := List.mem_map_of_mem (f := f) ha'
      rw [e] at this; exact absurd this hn.1
    · exact nodup_inj hn.2 ha hb e

/-- C106: a filter does not change the results of the operations it selects: in two runs for a service with different filters the results with the same
heading are the same, to the last line. -/
theorem C106_filters (cfg : Cfg) (hs : Stateless env) (client : Client) (conf : Conf) (f f' : Option Config.Filter) {root root' : Res Str} {mat mat' : Mat}
    {sent sent' : List Sent} (h : run env (executeTests (availableSuites cfg) client { conf with filter := f }) = (.val (root, mat), sent))
    (h' : run env (executeTests (availableSuites cfg) client { conf with filter := f' }) = (.val (root', mat'), sent')) (name : Str) :
    ∀ r ∈ root.subs, ∀ r' ∈ root'.subs, r.msg = py!"Checking " ++ name → r'.msg = py!"Checking " ++ name → r = r' := by
  intro r hr r' hr' hm hm'
  have hops : ∃ ops, (conf.suite, ops) ∈ availableSuites cfg ∧ ∀ f, executeTests (availableSuites cfg) client { conf with filter := f } = executeOps { conf with filter := f } client ops := by
    obtain ⟨version, hver⟩ : ∃ v : Str, v = (match conf.version with | some (c :: v) => c :: v | _ => py!"3.0") := ⟨_, rfl⟩
    have key : ∀ f, executeTests (availableSuites cfg) client { conf with filter := f } =
        if version ≠ py!"3.0" then .raise ⟨.generic, py!"Unknown version"⟩
        else match (availableSuites cfg).find? (fun s => s.1 == conf.suite) with
          | none => .raise ⟨.generic, py!"Unknown suite"⟩
          | some (_, ops) => executeOps { conf with filter := f } client ops := fun _ => by rw [hver]; rfl
    rw [key] at h
    split at h
    · rw [run_eq] at h; cases h
    · rename_i hv
      cases hf : (availableSuites cfg).find? (fun s => s.1 == conf.suite) with
      | none => rw [hf, run_eq] at h; cases h
      | some p =>
        obtain ⟨n, ops⟩ := p
        have hn : n = conf.suite := by simpa using List.find?_some hf
        refine ⟨ops, hn ▸ List.mem_of_find?_eq_some hf, fun f => ?_⟩
        rw [key, if_neg hv, hf]
  obtain ⟨ops, hmem, he⟩ := hops
  rw [he] at h h'
  have hmsg : ∀ {f : Option Config.Filter} {root : Res Str} {mat : Mat} {sent : List Sent}, run env (executeOps { conf with filter := f } client ops) = (.val (root, mat), sent) →
      ∀ r ∈ root.subs, r.msg = py!"Checking " ++ name →
        ∃ op ∈ ops, op.suite.operation = name ∧ ∃ server start s, RunsAlone env conf client server start op s ∧ s.result = r := by
    intro f root mat sent h r hr hm
    have hlast : ∀ x ∈ root.subs, x.msg = py!"Checking " ++ name → x.msg ≠ py!"Trying to reach " ++ client.host ∧ x.msg ≠ py!"Summary:" := by
      intro x _ hx; rw [hx]; exact ⟨(fun e => by cases e), (fun e => by cases e)⟩
    have hne := hlast r hr hm
    rcases C54_report env { conf with filter := f } client ops with ⟨x, hx⟩ | ⟨root2, mat2, hv, hc⟩
    · rw [h] at hx; cases hx
    rw [h] at hv
    cases hv
    have hrep := C55_reported hc
    rcases C106_shares hs _ client ops h with ⟨⟨q, e, _, hp, hq, _⟩, hall⟩ | ⟨server, start, last, share, h1, h2, h3, h4⟩
    · exfalso
      have hnil := hall []
      rcases C54_report env { conf with filter := f } client [] with ⟨x, hx⟩ | ⟨root2, mat2, hv, hc⟩
      · rw [hnil] at hx; cases hx
      rw [hnil] at hv
      cases hv
      have hin : r.msg ∈ root.subs.map (·.msg) := List.mem_map_of_mem hr
      rcases C55_reported hc with ⟨_, _, _, _, _, hr⟩ | hr <;> rw [hr] at hin
      · exact hne.1 (by simpa using hin)
      · simp only [selected, List.filter_nil, List.map_nil, List.cons_append, List.nil_append, List.mem_cons, List.not_mem_nil, or_false] at hin
        exact hin.elim hne.1 hne.2
    · rw [h2] at hr hrep
      have hserver : server.msg = py!"Trying to reach " ++ client.host ∧ last.msg = py!"Summary:" := by
        rcases hrep with ⟨_, _, _, _, _, hr⟩ | hr
        · simp at hr
        · simp only [List.map_cons, List.map_append, List.cons_append, List.cons.injEq, List.map_nil] at hr
          exact ⟨hr.1, by simpa using (List.append_inj' hr.2 rfl).2⟩
      rcases List.mem_append.mp hr with hr | hr
      · rcases List.mem_cons.mp hr with rfl | hr
        · exact absurd hserver.1 hne.1
        · obtain ⟨op, ho, rfl⟩ := List.mem_map.mp hr
          have ha : RunsAlone env conf client server start op (share op) := h1 op ho
          refine ⟨op, (List.mem_filter.mp ho).1, ?_, server, start, share op, ha, rfl⟩
          exact List.append_cancel_left ((share_msg ha).1.symm.trans hm)
      · rw [List.mem_singleton.mp hr] at hne
        exact absurd hserver.2 hne.2
  obtain ⟨op, ho, hn, _, _, s, hs1, rfl⟩ := hmsg h r hr hm
  obtain ⟨op', ho', hn', _, _, s', hs2, rfl⟩ := hmsg h' r' hr' hm'
  cases nodup_inj (names_differ cfg hmem) ho ho' (hn.trans hn'.symm)
  exact (share_unique hs1 hs2).1

/-! ## examples -/

example : Stateless happy := fun _ _ _ => rfl

/-- three operations, the second one fails in its setup -/
def threeOps : List Op := [sampleOp py!"A" (.pure ()), sampleOp py!"B" (.abort (Res.new py!"no shells" .error)), sampleOp py!"C" (.pure ())]

/-- with the filter for one of them -/
def onlyC : Conf := { sampleConf false with filter := some ⟨[py!"C"], []⟩ }

/-- the headings below the report, each with its verdict -/
def verdicts (env : List Sent → Sent → Answer) (p : ApiM (Res Str × Mat)) : List (Str × Bool) :=
  match run env p with
  | (.val (r, _), _) => r.subs.map fun s => (s.msg, s.ok)
  | _ => []

example : verdicts happy (executeOps (sampleConf false) sampleClient threeOps) =
    [(py!"Trying to reach http://h", true), (py!"Checking A", false), (py!"Checking B", false), (py!"Checking C", false), (py!"Summary:", true)] ∧
  verdicts happy (executeOps onlyC sampleClient threeOps) =
    [(py!"Trying to reach http://h", true), (py!"Checking C", false), (py!"Summary:", true)] := by decide +kernel

/-- the hypothesis is needed: a server that gets tired after three requests -/
def tired : List Sent → Sent → Answer := fun h q => if h.length < 3 then happy h q else .response { status := 500, content := none, json := .ok (.obj []) }

def testResults (env : List Sent → Sent → Answer) (p : ApiM (Res Str × Mat)) : Option Mat :=
  match run env p with
  | (.val (_, m), _) => some m
  | _ => none

example : testResults tired (executeOps (sampleConf false) sampleClient threeOps) = some ⟨1, 1, 2, 0⟩ ∧
    testResults tired (executeOps onlyC sampleClient threeOps) = some ⟨1, 0, 1, 0⟩ ∧ ¬ Stateless tired := by
  refine ⟨by decide +kernel, by decide +kernel, fun h => ?_⟩
  have := h [] (List.replicate 3 ⟨[], [], none, [], false⟩) ⟨[], [], none, [], false⟩
  simp [tired, happy] at this

end Verif.Props
