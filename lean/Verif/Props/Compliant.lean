import Verif.CompliantLemmas

/-!
# C76: which servers pass

A server that fulfils the demands passes, with the number of tests of the tables, and without an exception. If a server passes, its responses
to the requests of the run were as demanded. The demands are in `Spec/Compliant.lean`.
-/

namespace Verif.Props
open Verif Verif.Parse Verif.Aas Verif.Spec Verif.Spec.Parse Verif.Spec.Api Verif.Spec.Suites Verif.Spec.Routes Verif.Spec.Generate Verif.Generate Verif.Http
open Verif.Api hiding sane supported
open Verif.Api.Suites

variable {env : List Sent → Sent → Answer} {cfg : Cfg}

/-! ## the tables of a service -/

theorem linked {n : Str} {es : List (Str × List Seg)} {ops : List Op} (h1 : (n, es) ∈ services) (h2 : (n, ops) ∈ availableSuites cfg) :
    ((n, es), (n, ops)) ∈ services.zip (availableSuites cfg) ∧ es.length = ops.length := by
  have h1 : _ ∈ [_, _, _, _] := h1
  have h2 : _ ∈ [_, _, _, _] := h2
  simp only [List.mem_cons, List.not_mem_nil, or_false, Prod.mk.injEq] at h1 h2
  rcases h1 with ⟨n1, rfl⟩ | ⟨n1, rfl⟩ | ⟨n1, rfl⟩ | ⟨n1, rfl⟩ <;> rcases h2 with ⟨n2, rfl⟩ | ⟨n2, rfl⟩ | ⟨n2, rfl⟩ | ⟨n2, rfl⟩
  all_goals first
    | exact absurd (n1.symm.trans n2) (by decide +kernel)
    | skip
  · exact ⟨List.mem_of_getElem? (i := 0) (by rw [n1]; rfl), rfl⟩
  · exact ⟨List.mem_of_getElem? (i := 1) (by rw [n1]; rfl), rfl⟩
  · exact ⟨List.mem_of_getElem? (i := 2) (by rw [n1]; rfl), rfl⟩
  · exact ⟨List.mem_of_getElem? (i := 3) (by rw [n1]; rfl), rfl⟩

theorem offered {n : Str} {es : List (Str × List Seg)} (h : (n, es) ∈ services) : ∃ ops, (n, ops) ∈ availableSuites cfg ∧ (availableSuites cfg).find? (fun s => s.1 == n) = some (n, ops) := by
  have h : _ ∈ [_, _, _, _] := h
  simp only [List.mem_cons, List.not_mem_nil, or_false, Prod.mk.injEq] at h
  rcases h with ⟨rfl, -⟩ | ⟨rfl, -⟩ | ⟨rfl, -⟩ | ⟨rfl, -⟩
  · exact ⟨_, List.mem_of_getElem? (i := 0) rfl, rfl⟩
  · exact ⟨_, List.mem_of_getElem? (i := 1) rfl, rfl⟩
  · exact ⟨_, List.mem_of_getElem? (i := 2) rfl, rfl⟩
  · exact ⟨_, List.mem_of_getElem? (i := 3) rfl, rfl⟩

/-- the operations, with their entries in the tables -/
structure Linked (cfg : Cfg) (service : Str) (xs : List ((Str × List Seg) × Op)) : Prop where
  entry : ∀ x ∈ xs, Entry cfg service x.1 x.2
  name : ∀ x ∈ xs, x.2.suite.operation = x.1.1

theorem chosen_linked (hs : Sound env) {conf : Conf} {es : List (Str × List Seg)} {ops : List Op} (h1 : (conf.suite, es) ∈ services) (h2 : (conf.suite, ops) ∈ availableSuites cfg) :
    ∃ xs, Linked cfg conf.suite xs ∧ xs.map (·.1) = chosen conf es ∧ xs.map (·.2) = selected conf ops := by
  obtain ⟨hm, hl⟩ := linked h1 h2
  have he : ∀ x ∈ es.zip ops, Entry cfg conf.suite x.1 x.2 := fun x hx => ⟨_, hm, rfl, hx⟩
  have hn : ∀ x ∈ es.zip ops, x.2.suite.operation = x.1.1 := fun x hx => (entry_ok env cfg hs (he x hx)).name
  let keep : (Str × List Seg) × Op → Bool := fun x => match conf.filter with
    | none => true
    | some f => f.selects x.1.1
  refine ⟨(es.zip ops).filter keep, ⟨fun x hx => he x (List.mem_filter.mp hx).1, fun x hx => hn x (List.mem_filter.mp hx).1⟩, ?_, ?_⟩
  · unfold chosen
    conv => rhs; rw [← List.map_fst_zip (l₁ := es) (l₂ := ops) (Nat.le_of_eq hl), List.filter_map]
    rfl
  · unfold selected
    conv => rhs; rw [← List.map_snd_zip (l₁ := es) (l₂ := ops) (Nat.le_of_eq hl.symm), List.filter_map]
    congr 1
    refine List.filter_congr fun x hx => ?_
    cases hf : conf.filter with
    | none => simp [keep, hf]
    | some f => simp [keep, hf, hn x hx]

/-! ## servers that comply -/

theorem runOps_calm (hs : Sound env) {client : Client} (hp : client.prefixes = []) {conf : Conf} (hd : conf.dry = false) :
    ∀ (ops : List Op) (mat : Mat), (∀ op ∈ selected conf ops, ∃ e, Entry cfg conf.suite e op ∧ Complies env cfg.lim client conf.suite e) → ∀ h, ¬ Throws env (runOps conf client ops mat) h
  | [], _, _, _ => fun ⟨_, hx⟩ => by cases hx
  | op :: ops, mat, hc, h => by
    rw [runOps]
    cases hsk : skipped conf op with
    | true =>
      rw [if_pos rfl]
      have : selected conf (op :: ops) = selected conf ops := by
        unfold skipped at hsk
        unfold selected
        rw [List.filter_cons]
        cases hf : conf.filter <;> simp_all
      exact runOps_calm hs hp hd ops mat (this ▸ hc) h
    | false =>
      rw [if_neg (by simp)]
      have : selected conf (op :: ops) = op :: selected conf ops := by
        unfold skipped at hsk
        unfold selected
        rw [List.filter_cons]
        cases hf : conf.filter <;> simp_all
      rw [this] at hc
      obtain ⟨e, he, hce⟩ := hc op List.mem_cons_self
      exact runOp_calm hs he hp hd hce (fun m h => runOps_calm hs hp hd ops _ (fun o ho => hc o (List.mem_cons_of_mem _ ho)) h) h

theorem reports_good (hs : Sound env) {client : Client} (hp : client.prefixes = []) {conf : Conf} (hd : conf.dry = false) {ops : List Op} {h h' : List Sent} {rs : List (Res Str)} {m : Mat}
    (hr : Reports env conf client ops h rs m h') : ∀ xs : List ((Str × List Seg) × Op), xs.map (·.2) = ops → (∀ x ∈ xs, Entry cfg conf.suite x.1 x.2 ∧ Complies env cfg.lim client conf.suite x.1) →
    (∀ r ∈ rs, r.ok = true) ∧ m = ⟨positiveCount (xs.map (·.1)), 0, 0, negativeCount (xs.map (·.1))⟩ := by
  induction hr with
  | nil =>
    intro xs hx _
    cases List.map_eq_nil_iff.mp hx
    exact ⟨fun r hr => (by cases hr), rfl⟩
  | cons hparts hb _ ih =>
    intro xs hx hc
    cases xs with
    | nil => cases hx
    | cons x xs =>
      rw [List.map_cons, List.cons.injEq] at hx
      obtain ⟨rfl, hx⟩ := hx
      obtain ⟨h1, h2⟩ := hc x List.mem_cons_self
      obtain ⟨h3, rfl⟩ := parts_good hs h1 hp hd h2 hparts
      obtain ⟨h4, rfl⟩ := ih xs hx fun y hy => hc y (List.mem_cons_of_mem _ hy)
      refine ⟨fun r hr => ?_, ?_⟩
      · rcases List.mem_cons.mp hr with rfl | hr
        · exact hb.ok.mpr h3
        · exact h4 r hr
      · simp [positiveCount, negativeCount]

theorem checkServer_calm {α : Type} {client : Client} {k : Bool → ApiM α} {h : List Sent} {q : Sent} {r : Response} (hq : probe client = .ok q) (hr : env h q = .response r)
    (hk : ∀ b h, ¬ Throws env (k b) h) : ¬ Throws env (checkServer false client k) h := by
  refine calm_block' ?_ fun _ v h' _ => hk _ h'
  rintro ⟨x, hx⟩
  unfold probe at hq
  simp only [Bool.false_eq_true, if_false, send, hq, Prog.bind, meaning, hr, Prog.writeMsg, Meaning.after] at hx
  cases hx

/-- C76: a server that fulfils the demands of the tests of all chosen operations passes: the run ends without an exception, all tests pass,
and their numbers are those of the tables. -/
theorem C76_complete (hs : Sound env) (client : Client) (hp : client.prefixes = []) (conf : Conf) (hd : conf.dry = false)
    (hv : conf.version = none ∨ conf.version = some [] ∨ conf.version = some py!"3.0") {es : List (Str × List Seg)} (hes : (conf.suite, es) ∈ services)
    (hreach : ∃ q r, probe client = .ok q ∧ env [] q = .response r) (hc : ∀ e ∈ chosen conf es, Complies env cfg.lim client conf.suite e) :
    ∃ root qs, run env (executeTests (availableSuites cfg) client conf) = (.val (root, ⟨positiveCount (chosen conf es), 0, 0, negativeCount (chosen conf es)⟩), qs) ∧
      root.ok = true := by
  obtain ⟨ops, ho, hfind⟩ := offered (cfg := cfg) hes
  have hexec : executeTests (availableSuites cfg) client conf = executeOps conf client ops := by
    have key : executeSuite (availableSuites cfg) client conf = executeOps conf client ops := by unfold executeSuite; rw [hfind]
    unfold executeTests
    rcases hv with hv | hv | hv <;> rw [hv] <;> exact (if_neg (by simp)).trans key
  obtain ⟨xs, hl, h1, h2⟩ := chosen_linked hs hes ho
  have hx : ∀ x ∈ xs, Entry cfg conf.suite x.1 x.2 ∧ Complies env cfg.lim client conf.suite x.1 := fun x hx =>
    ⟨hl.entry x hx, hc _ (h1 ▸ List.mem_map.mpr ⟨x, hx, rfl⟩)⟩
  obtain ⟨q, r, hq, hr⟩ := hreach
  have hcalm : ¬ Throws env (checkServer conf.dry client fun reached => if !reached then .pure Mat.zero else (runOps conf client ops Mat.zero).bind summary) [] := by
    rw [hd]
    refine checkServer_calm hq hr fun b h => ?_
    cases b with
    | false => exact fun ⟨_, hx⟩ => by cases hx
    | true =>
      refine calm_bind (runOps_calm (cfg := cfg) hs hp hd ops Mat.zero (fun op hop => ?_) h) fun m h' => ?_
      · rw [← h2] at hop
        obtain ⟨x, hm, rfl⟩ := List.mem_map.mp hop
        exact ⟨x.1, hx x hm⟩
      · obtain ⟨_, _, _, _, hm, _⟩ := summary_meaning env m h'
        rintro ⟨x, hx⟩
        rw [hm] at hx
        cases hx
  rcases C54_report env conf client ops with ⟨x, hx⟩ | ⟨root, mat, hval, hcomp⟩
  · exfalso
    rw [run_eq] at hx
    rcases block_ends env (py!"Checking compliance to " ++ conf.suite) _ (fun root mat => (.pure (root, mat.getD Mat.zero) : ApiM (Res Str × Mat))) false [] with ⟨y, hy, -⟩ | ⟨_, _, _, _, _, -, -, hm⟩
    · exact hcalm ⟨y, hy⟩
    · have hx : (meaning env (executeOps conf client ops) false []).out = .raised x := hx
      unfold executeOps at hx
      rw [hm] at hx
      cases hx
  · rw [hexec]
    obtain ⟨sent, hsent⟩ : ∃ s, (run env (executeOps conf client ops)).2 = s := ⟨_, rfl⟩
    rw [hsent] at hcomp
    cases hcomp with
    | unreachable _ hq' hx' =>
      rw [hq] at hq'; cases hq'
      rw [hr] at hx'; cases hx'
    | reached hreach hrep hsum hroot =>
      obtain ⟨h3, rfl⟩ := reports_good hs hp hd hrep xs h2 hx
      rw [h1] at hval
      refine ⟨root, sent, Prod.ext hval hsent, hroot.ok.mpr fun s hs => ?_⟩
      rcases List.mem_append.mp hs with hs | hs
      · rcases List.mem_cons.mp hs with rfl | hs
        · cases hreach with
          | dry h => rw [hd] at h; cases h
          | answer _ _ _ hb => exact hb.ok.mpr fun t ht => (by cases List.mem_singleton.mp ht; rfl)
        · exact h3 s hs
      · cases List.mem_singleton.mp hs
        refine hsum.ok.mpr fun t ht => ?_
        simp only [summaryLines, List.mem_cons, List.not_mem_nil, or_false] at ht
        rcases ht with rfl | rfl <;> rfl

/-! ## servers that passed -/

theorem reports_op {client : Client} {conf : Conf} {ops : List Op} {h h' : List Sent} {rs : List (Res Str)} {m : Mat} (hr : Reports env conf client ops h rs m h') :
    ∀ op ∈ ops, ∃ h1 parts m h2 title r, Parts env conf client op h1 parts m h2 ∧ IsBlock title parts r ∧ r ∈ rs ∧ h2 <+: h' := by
  induction hr with
  | nil => exact fun _ h => by cases h
  | cons hp hb hrest ih =>
    intro op hop
    rcases List.mem_cons.mp hop with hop | hop
    · cases hop
      exact ⟨_, _, _, _, _, _, hp, hb, List.mem_cons_self, reports_prefix hrest⟩
    · obtain ⟨h1, parts, m, h2, t, r, hp', hb', hm, hpre⟩ := ih op hop
      exact ⟨h1, parts, m, h2, t, r, hp', hb', List.mem_cons_of_mem _ hm, hpre⟩

theorem parts_passed (hs : Sound env) {service : Str} {e : Str × List Seg} {op : Op} (hop : Entry cfg service e op) {client : Client}
    (hp : client.prefixes = []) {conf : Conf} (hd : conf.dry = false) {h h' : List Sent} {parts : List (Res Str)} {m : Mat}
    (hr : Parts env conf client op h parts m h') (hok : ∀ s ∈ parts, s.ok = true) {sent : List Sent} (hpre : h' <+: sent) : Passed env cfg.lim client conf.suite sent e := by
  cases hr with
  | dry h => rw [hd] at h; cases h
  | setupFailed _ he hn => rw [hok _ List.mem_cons_self] at hn; cases hn
  | tested hd2 he hsok hg hn hnb hperm hsort hps hpb =>
    rename_i c st s h1 invalid n ns h2 ts p ps
    have hu : SetUp env client op h (c, st) := by
      obtain ⟨-, ⟨a, h1, h2, -⟩ | ⟨x, -, h2, -⟩⟩ := he
      · cases h2; exact h1
      · cases h2
    obtain ⟨ids, vs, hf, henc, -, ⟨invalid', hg', hneg⟩, hpos⟩ := C75_tests env cfg hs hop client hp h c st hu
    cases generated_unique hg hg'
    have hpre2 : h2 <+: sent := (ran_prefix hps).trans hpre
    refine ⟨h, _, ids, vs, ?_, hf, henc, fun b hb => ?_, fun t ht => ?_⟩
    · rw [← ends_sent he rfl]
      exact (ran_prefix hn).trans hpre2
    · obtain ⟨x, hx, ht⟩ := rows_test hneg b hb
      obtain ⟨r, hr, h3, v, h4, he', hpre'⟩ := ran_within hn x hx
      exact rejection_observed ht he' (hnb.ok.mp (hok n (by simp)) r hr) (hpre'.trans hpre2)
    · obtain ⟨q, hq, hi⟩ := rows_left (hpos conf.suite) t ht
      obtain ⟨u, hu', hq⟩ := List.mem_map.mp hq
      obtain ⟨-, rfl⟩ := Prod.mk.inj hq
      obtain ⟨r, hr, h3, v, h4, he', hpre'⟩ := ran_within hps (_, u.run c conf.suite st) (List.mem_map.mpr ⟨u, hperm.mem_iff.mpr hu', rfl⟩)
      exact positive_observed hi he' (hpb.ok.mp (hok p (by simp)) r hr) (hpre'.trans hpre)

/-- C76: if a server passes, then during this run it has answered the requests of the setup of each chosen operation with what the tests need,
it has rejected all requests with invalid values, and its responses to the requests of the positive tests were as demanded. -/
theorem C76_sound (hs : Sound env) (client : Client) (hp : client.prefixes = []) (conf : Conf) (hd : conf.dry = false) {es : List (Str × List Seg)} (hes : (conf.suite, es) ∈ services)
    {root : Res Str} {mat : Mat} {sent : List Sent} (hrun : run env (executeTests (availableSuites cfg) client conf) = (.val (root, mat), sent)) (hok : root.ok = true) :
    ∀ e ∈ chosen conf es, Passed env cfg.lim client conf.suite sent e := by
  rcases run_cases env cfg client conf with ⟨text, -, hx⟩ | ⟨ops, ho, hexec⟩
  · rw [hrun] at hx; cases hx
  rw [hexec] at hrun
  obtain ⟨xs, hl, h1, h2⟩ := chosen_linked hs hes ho
  intro e he
  rw [← h1] at he
  obtain ⟨x, hx, rfl⟩ := List.mem_map.mp he
  rcases C54_report env conf client ops with ⟨y, hy⟩ | ⟨root', mat', hval, hcomp⟩
  · rw [hrun] at hy; cases hy
  · rw [hrun] at hval hcomp
    cases hval
    cases hcomp with
    | unreachable _ _ _ hb hroot =>
      have := hb.ok.mp (hroot.ok.mp hok _ (by simp)) _ List.mem_cons_self
      cases this
    | reached _ hrep _ hroot =>
      obtain ⟨h3, parts, m, h4, t, r, hparts, hb, hr, hpre⟩ := reports_op hrep x.2 (h2 ▸ List.mem_map.mpr ⟨x, hx, rfl⟩)
      refine parts_passed hs (hl.entry x hx) hp hd hparts (hb.ok.mp (hroot.ok.mp hok r ?_)) hpre
      exact List.mem_append_left _ (List.mem_cons_of_mem _ hr)

end Verif.Props
