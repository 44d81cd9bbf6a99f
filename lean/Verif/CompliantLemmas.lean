import Verif.Spec.Compliant
import Verif.Props.Setups

/-! # Runs without exceptions, and the requests of the tests that passed -/

namespace Verif.Props
open Verif Verif.Parse Verif.Aas Verif.Spec Verif.Spec.Parse Verif.Spec.Api Verif.Spec.Suites Verif.Spec.Routes Verif.Spec.Generate Verif.Generate Verif.Http
open Verif.Api hiding sane supported
open Verif.Api.Suites

/-! ## the requests that were sent before are kept -/

theorem meaning_prefix {Q A : Type} (env : List Q → Q → A) {α : Type} (p : Prog Q A α) : ∀ o h, h <+: (meaning env p o h).hist := by
  induction p with
  | pure a => exact fun _ h => List.prefix_rfl
  | abort r => exact fun _ h => List.prefix_rfl
  | raise e => exact fun _ h => List.prefix_rfl
  | write r k ih => exact fun o h => by cases o <;> first | exact List.prefix_rfl | exact ih true h
  | query q k ih => exact fun o h => List.IsPrefix.trans (List.prefix_append h [q]) (ih _ o (h ++ [q]))
  | block r c body k ihb ihk =>
    intro o h
    simp only [meaning]
    have hb := ihb true h
    split
    · exact hb.trans (ihk _ _ _ _)
    · exact hb.trans (ihk _ _ _ _)
    · split
      · exact hb.trans (ihk _ _ _ _)
      · exact hb

variable {env : List Sent → Sent → Answer}

theorem ends_prefix {α : Type} {title : Str} {p : ApiM α} {h h' : List Sent} {v : Option α} {r : Res Str} (he : Ends env title p h v r h') : h <+: h' := by
  obtain ⟨rfl, -⟩ := he
  exact meaning_prefix env p true h

theorem ends_sent {α : Type} {title : Str} {p : ApiM α} {h h' : List Sent} {v : Option α} {r : Res Str} {qs : List Sent} (he : Ends env title p h v r h')
    (hq : sentBy env p h = qs) : h' = h ++ qs := by
  obtain ⟨t, ht⟩ := ends_prefix he
  obtain ⟨rfl, -⟩ := he
  rw [sentBy, ← ht, List.drop_left] at hq
  rw [← ht, hq]

theorem ran_prefix {ps : List (Str × ApiM Unit)} {h h' : List Sent} {rs : List (Res Str)} (hr : Ran env ps h rs h') : h <+: h' := by
  induction hr with
  | nil => exact List.prefix_rfl
  | cons h1 _ ih => exact (ends_prefix h1).trans ih

theorem ran_within {ps : List (Str × ApiM Unit)} {h h' : List Sent} {rs : List (Res Str)} (hr : Ran env ps h rs h') :
    ∀ x ∈ ps, ∃ r ∈ rs, ∃ h1 v h2, Ends env x.1 x.2 h1 v r h2 ∧ h2 <+: h' := by
  induction hr with
  | nil => exact fun r hr => by cases hr
  | cons h1 hr ih =>
    intro x hx
    rcases List.mem_cons.mp hx with rfl | hx
    · exact ⟨_, List.mem_cons_self, _, _, _, h1, ran_prefix hr⟩
    · obtain ⟨r, hr, h2⟩ := ih x hx
      exact ⟨r, List.mem_cons_of_mem _ hr, h2⟩

theorem parts_prefix {conf : Conf} {client : Client} {op : Op} {h h' : List Sent} {parts : List (Res Str)} {m : Mat} (hp : Parts env conf client op h parts m h') : h <+: h' := by
  cases hp with
  | dry => exact List.prefix_rfl
  | setupFailed _ he => exact ends_prefix he
  | tested _ he _ _ hn _ _ _ hp => exact (ends_prefix he).trans ((ran_prefix hn).trans (ran_prefix hp))

theorem reports_prefix {conf : Conf} {client : Client} {ops : List Op} {h h' : List Sent} {rs : List (Res Str)} {m : Mat} (hr : Reports env conf client ops h rs m h') : h <+: h' := by
  induction hr with
  | nil => exact List.prefix_rfl
  | cons hp _ _ ih => exact (parts_prefix hp).trans ih

/-! ## the tests -/

theorem skips_ends {S : Setting} {p : ApiM Unit} (hk : Skips S p) {title : Str} {h h' : List Sent} {v : Option Unit} {r : Res Str} (he : Ends S.env title p h v r h') : r.ok = true := by
  obtain ⟨-, x, hx, hl, hn⟩ := hk h
  obtain ⟨-, ⟨a, ha, -⟩ | ⟨y, hy, -, hb⟩⟩ := he
  · rw [hx] at ha; cases ha
  · rw [hx] at hy; cases hy
    rw [hn] at hb
    refine hb.ok.mpr fun s hs => ?_
    cases List.mem_singleton.mp hs
    rw [Res.ok, hl]
    rfl

theorem skips_calm {S : Setting} {p : ApiM Unit} (hk : Skips S p) (h : List Sent) : ¬ Throws S.env p h := by
  obtain ⟨-, x, hx, -⟩ := hk h
  rintro ⟨e, he⟩
  rw [hx] at he; cases he

/-- the test raises no exception and passes, whatever was sent before -/
def Passes (env : List Sent → Sent → Answer) (p : ApiM Unit) : Prop :=
  (∀ h, ¬ Throws env p h) ∧ ∀ title h v r h', Ends env title p h v r h' → r.ok = true

theorem skips_passes {S : Setting} {p : ApiM Unit} (hk : Skips S p) : Passes S.env p := ⟨skips_calm hk, fun _ _ _ _ _ he => skips_ends hk he⟩

theorem answered_passes {S : Setting} {template : List Seg} {params : List (Str × Str)} {good full : Demand} {p : ApiM Unit} (ht : TestsAnswer S template params good full p)
    (ha : Answered S template params good) : Passes S.env p := by
  refine ⟨fun h => ?_, fun title h v r h' he => ?_⟩
  · obtain ⟨q, hq, -, -, hn⟩ := ht h
    obtain ⟨r, hr, hg⟩ := ha h q hq
    exact hn r hr hg
  · obtain ⟨q, hq, -, hd, -⟩ := ht h
    obtain ⟨r, hr, hg⟩ := ha h q hq
    obtain ⟨r', hr', hok, -⟩ := hd title v _ h' he
    rw [hr] at hr'; cases hr'
    exact hok.mpr hg

theorem rejected_passes {lim : Option Nat} {client : Client} {template : List Seg} {b : Bad} {p : ApiM Unit} (ht : TestsRejection env lim client template b p)
    (ha : Rejected env lim client template b) : Passes env p := by
  refine ⟨fun h => ?_, fun title h v r h' he => ?_⟩
  · obtain ⟨q, hq, -, -, hn⟩ := ht h
    obtain ⟨r, hr, hg⟩ := ha h q hq
    exact hn r hr hg
  · obtain ⟨q, hq, -, hd, -⟩ := ht h
    obtain ⟨r, hr, hg⟩ := ha h q hq
    obtain ⟨r', hr', hok⟩ := hd title v _ h' he
    rw [hr] at hr'; cases hr'
    exact hok.mpr hg

theorem element_passes {S : Setting} {l : List RVal} {c : Cls} {params : List (Str × Str)} {good : Demand} {p : ApiM Unit} (ht : TestsElement S l c params good p)
    (ha : ∀ path, Located l c path → Answered S (replaced path S.template) params good) : Passes S.env p := by
  rcases ht with ⟨-, hk⟩ | ⟨path, hl, ht⟩
  · exact skips_passes hk
  · exact answered_passes ht (ha path hl)

theorem zip_right {α : Type} {β : Type 1} : ∀ {l : List α} {l' : List β}, l'.length = l.length → ∀ b ∈ l', ∃ a, (a, b) ∈ l.zip l'
  | _, [], _, _, h => by cases h
  | [], _ :: _, hl, _, _ => by cases hl
  | a :: l, b' :: l', hl, b, h => by
    rcases List.mem_cons.mp h with h | h
    · exact ⟨a, by rw [h]; exact List.mem_cons_self⟩
    · obtain ⟨x, hx⟩ := zip_right (Nat.succ.inj hl) b h
      exact ⟨x, List.mem_cons_of_mem _ hx⟩

theorem zip_left {α : Type} {β : Type 1} : ∀ {l : List α} {l' : List β}, l'.length = l.length → ∀ a ∈ l, ∃ b, (a, b) ∈ l.zip l'
  | [], _, _, _, h => by cases h
  | _ :: _, [], hl, _, _ => by cases hl
  | a :: l, b' :: l', hl, b, h => by
    rcases List.mem_cons.mp h with h | h
    · exact ⟨b', by rw [h]; exact List.mem_cons_self⟩
    · obtain ⟨x, hx⟩ := zip_left (Nat.succ.inj hl) b h
      exact ⟨x, List.mem_cons_of_mem _ hx⟩

theorem zip_named {α γ : Type} {β : Type 1} {f : α → γ} : ∀ {l : List α} {l' : List β} {a : α} {b : β}, (a, b) ∈ l.zip l' → (f a, b) ∈ (l.map f).zip l'
  | [], _, _, _, h => by cases h
  | _ :: _, [], _, _, h => by cases h
  | x :: l, y :: l', a, b, h => by
    rcases List.mem_cons.mp h with h | h
    · cases h; exact List.mem_cons_self
    · exact List.mem_cons_of_mem _ (zip_named h)

theorem positive_passes {S : Setting} {p : ApiM Unit} {t : Positive} (ht : t.IsTest S p) (hf : t.Fulfilled S) : Passes S.env p := by
  cases t with
  | get params good => exact answered_passes ht hf
  | warn params good full => exact answered_passes ht hf
  | filter param value good =>
    obtain ⟨s, hs, ht⟩ := ht
    exact answered_passes ht (hf s hs)
  | encoded param value good =>
    obtain ⟨s, t, hs, he, ht⟩ := ht
    exact answered_passes ht (hf s t hs he)
  | byId value good =>
    obtain ⟨i, t, hs, he, ht⟩ := ht
    exact answered_passes ht (hf i t hs he)
  | next cursor params good =>
    obtain ⟨c, hc, h1, h2⟩ := ht
    by_cases hn : c = .none
    · exact skips_passes (h1 hn)
    · exact answered_passes (h2 hn) (hf c hc hn)
  | types params supported good =>
    obtain ⟨l, hl, ps, hlen, hall, hends, hcalm⟩ := ht
    have key : ∀ q ∈ ps, Passes S.env q := by
      intro q hq
      obtain ⟨c, hc⟩ := zip_right hlen q hq
      exact element_passes (hall (c, q) hc) (hf l hl c (List.of_mem_zip hc).1)
    refine ⟨hcalm fun q hq => (key q hq).1, fun title h v r h' he => ?_⟩
    obtain ⟨rs, hr, hb⟩ := hends h title v r h' he
    refine hb.ok.mpr fun s hs => ?_
    obtain ⟨x, hx, h1, v', h2, he'⟩ := ran_right hr s hs
    exact (key x.2 (List.of_mem_zip hx).2).2 _ _ _ _ _ he'
  | file good =>
    obtain ⟨l, hl, ht⟩ := ht
    exact element_passes ht (hf l hl)

/-! ## the requests of tests that passed -/

theorem answer_observed {S : Setting} {template : List Seg} {params : List (Str × Str)} {good full : Demand} {p : ApiM Unit} (ht : TestsAnswer S template params good full p)
    {title : Str} {h h' : List Sent} {v : Option Unit} {r : Res Str} (he : Ends S.env title p h v r h') (hok : r.ok = true) {sent : List Sent} (hp : h' <+: sent) :
    Observed S sent template params good := by
  obtain ⟨q, hq, hsent, hd, -⟩ := ht h
  obtain ⟨a, ha, hg, -⟩ := hd title v r h' he
  rw [ends_sent he hsent] at hp
  exact ⟨h, q, a, hp, hq, ha, hg.mp hok⟩

theorem rejection_observed {lim : Option Nat} {client : Client} {template : List Seg} {b : Bad} {p : ApiM Unit} (ht : TestsRejection env lim client template b p)
    {title : Str} {h h' : List Sent} {v : Option Unit} {r : Res Str} (he : Ends env title p h v r h') (hok : r.ok = true) {sent : List Sent} (hp : h' <+: sent) :
    ∃ h q r, h ++ [q] <+: sent ∧ Carries client template b q ∧ env h q = .response r ∧ Rejection lim r := by
  obtain ⟨q, hq, hsent, hd, -⟩ := ht h
  obtain ⟨a, ha, hg⟩ := hd title v r h' he
  rw [ends_sent he hsent] at hp
  exact ⟨h, q, a, hp, hq, ha, hg.mp hok⟩

theorem element_observed {S : Setting} {l : List RVal} {c : Cls} {params : List (Str × Str)} {good : Demand} {p : ApiM Unit} (ht : TestsElement S l c params good p)
    {title : Str} {h h' : List Sent} {v : Option Unit} {r : Res Str} (he : Ends S.env title p h v r h') (hok : r.ok = true) {sent : List Sent} (hp : h' <+: sent)
    (hex : ∃ path, Located l c path) : ∃ path, Located l c path ∧ Observed S sent (replaced path S.template) params good := by
  rcases ht with ⟨hno, -⟩ | ⟨path, hl, ht⟩
  · exact absurd hex hno
  · exact ⟨path, hl, answer_observed ht he hok hp⟩

theorem positive_observed {S : Setting} {p : ApiM Unit} {t : Positive} (ht : t.IsTest S p) {title : Str} {h h' : List Sent} {v : Option Unit} {r : Res Str}
    (he : Ends S.env title p h v r h') (hok : r.ok = true) {sent : List Sent} (hp : h' <+: sent) : t.Observed S sent := by
  cases t with
  | get params good => exact answer_observed ht he hok hp
  | warn params good full => exact answer_observed ht he hok hp
  | filter param value good =>
    obtain ⟨s, hs, ht⟩ := ht
    exact ⟨s, hs, answer_observed ht he hok hp⟩
  | encoded param value good =>
    obtain ⟨s, t, hs, hx, ht⟩ := ht
    exact ⟨s, t, hs, hx, answer_observed ht he hok hp⟩
  | byId value good =>
    obtain ⟨i, t, hs, hx, ht⟩ := ht
    exact ⟨i, t, hs, hx, answer_observed ht he hok hp⟩
  | next cursor params good =>
    obtain ⟨c, hc, -, h2⟩ := ht
    exact ⟨c, hc, fun hn => answer_observed (h2 hn) he hok hp⟩
  | types params supported good =>
    obtain ⟨l, hl, ps, hlen, hall, hends, -⟩ := ht
    refine ⟨l, hl, fun c hc hex => ?_⟩
    obtain ⟨q, hq⟩ := zip_left hlen c hc
    obtain ⟨rs, hr, hb⟩ := hends h title v r h' he
    obtain ⟨s, hs, h1, v', h2, he', hpre⟩ := ran_within hr (_, q) (zip_named hq)
    exact element_observed (hall (c, q) hq) he' (hb.ok.mp hok s hs) (hpre.trans hp) hex
  | file good =>
    obtain ⟨l, hl, ht⟩ := ht
    exact ⟨l, hl, fun hex => element_observed ht he hok hp hex⟩

/-! ## no exceptions -/

theorem calm_mapExc {f : Exc → Exc} {α : Type} {p : ApiM α} {h : List Sent} (hp : ¬ Throws env p h) : ¬ Throws env (mapExc f p) h := by
  rintro ⟨e, he⟩
  obtain ⟨-, -, h3⟩ := mapExc_meaning env f p h
  rw [h3] at he
  cases ho : (meaning env p true h).out with
  | raised x => exact hp ⟨x, ho⟩
  | val a => rw [ho] at he; cases he
  | aborted x => rw [ho] at he; cases he

/-- a block without exceptions, if the rest has none after how the block ends -/
theorem calm_block' {α β : Type} {title : Str} {body : ApiM β} {k : Res Str → Option β → ApiM α} {h : List Sent}
    (hb : ¬ Throws env body h) (hk : ∀ r v h', Ends env title body h v r h' → ¬ Throws env (k r v) h') : ¬ Throws env (.block (Res.new title) false body k) h := by
  rcases block_ends env title body k true h with ⟨x, hx, -⟩ | ⟨r, v, log, h', e, he, -, hm⟩
  · exact absurd ⟨x, hx⟩ hb
  · rintro ⟨x, hx⟩
    rw [hm] at hx
    exact hk r v h' he ⟨x, hx⟩

theorem calm_bind {α β : Type} {p : ApiM α} {f : α → ApiM β} {h : List Sent} (hp : ¬ Throws env p h) (hf : ∀ a h, ¬ Throws env (f a) h) : ¬ Throws env (p.bind f) h := by
  rintro ⟨e, he⟩
  rw [meaning_bind] at he
  unfold Meaning.andThen at he
  cases ho : (meaning env p true h).out with
  | raised x => exact hp ⟨x, ho⟩
  | val a => rw [ho] at he; exact hf a _ ⟨e, he⟩
  | aborted x => rw [ho] at he; cases he

theorem callAll_calm {scope : Str} {func : Kwargs → ApiM Unit} {valid : Kwargs} {name : Str} {rest : ApiM Unit} (hr : ∀ h, ¬ Throws env rest h) :
    ∀ (vs : List ArgVal), (∀ v ∈ vs, Encodable v) → (∀ v ∈ vs, ∀ h, ¬ Throws env (func (Kwargs.set name v valid)) h) → ∀ h, ¬ Throws env (callAll scope func valid name rest vs) h
  | [], _, _, h => hr h
  | v :: vs, he, hc, h => by
    obtain ⟨t, ht⟩ := pyStr_enc (he v List.mem_cons_self)
    rw [callAll, callWith, ht]
    exact calm_block (fun h => calm_mapExc (hc v List.mem_cons_self h))
      (fun _ _ => callAll_calm hr vs (fun w hw => he w (List.mem_cons_of_mem _ hw)) fun w hw => hc w (List.mem_cons_of_mem _ hw)) h

theorem generateCalls_calm {scope : Str} {func : Kwargs → ApiM Unit} {valid : Kwargs} {args : List Arg} {invalid : List (List ArgVal)} (hg : Generated argClasses args invalid) :
    (∀ x ∈ expectedCalls valid ((args.map (·.name)).zip invalid), ∀ h, ¬ Throws env (func x.2.2) h) → ∀ h, ¬ Throws env (generateCalls argClasses scope func valid args) h := by
  induction hg with
  | nil => exact fun _ h ⟨x, hx⟩ => by cases hx
  | @cons a as vs rest h hg ih =>
    intro hc hist
    rw [generateCalls, h]
    simp only [List.map_cons, List.zip_cons_cons, expectedCalls, List.mem_append] at hc
    exact callAll_calm (ih fun x hx => hc x (.inr hx)) vs (fun v hv => enc_generated h hv)
      (fun v hv => hc (a.name, v, Kwargs.set a.name v valid) (.inl (List.mem_map.mpr ⟨v, hv, rfl⟩))) hist

theorem runTests_calm {σ : Type} {client : Client} {profile : Str} {st : σ} : ∀ (ts : List (Test σ)), (∀ t ∈ ts, ∀ h, ¬ Throws env (t.run client profile st) h) →
    ∀ h, ¬ Throws env (runTests client profile st ts) h
  | [], _, h => fun ⟨_, hx⟩ => by cases hx
  | t :: ts, ht, h => calm_block (ht t List.mem_cons_self) (fun _ _ => runTests_calm ts fun u hu => ht u (List.mem_cons_of_mem _ hu)) h

theorem execute_calm {suite : Suite} {client : Client} {profile : Str} {st : suite.σ} {invalid : List (List ArgVal)} (hsame : sameArgs suite.errorArgs suite.successArgs = true)
    (hg : Generated argClasses suite.errorArgs invalid) (hn : ∀ x ∈ negativeTests suite client st invalid, ∀ h, ¬ Throws env x.2 h)
    (hp : ∀ t ∈ suite.tests, ∀ h, ¬ Throws env (t.run client profile st) h) (h : List Sent) : ¬ Throws env (execute suite client profile st) h := by
  refine calm_block (fun h => ?_) (fun _ _ h => calm_block (runTests_calm _ fun t ht => hp t ((sortTests_perm _).mem_iff.mp ht)) (fun _ _ _ ⟨_, hx⟩ => by cases hx) h) h
  unfold executeSyntacticTests
  rw [if_pos hsame]
  refine generateCalls_calm hg (fun x hx => ?_) h
  exact hn (_, suite.invokeError client x.2.2) (List.mem_map.mpr ⟨x, hx, rfl⟩)

/-! ## the setup -/

theorem follows_ready (hs : Sound env) {lim : Option Nat} {client : Client} {as : List Ask} {ids : List Str} {h qs : List Sent} {o : Outcome}
    (hf : Follows env lim client as ids h qs o) : (∀ a ∈ as, Clear a) → Supplies env lim client as ids → ∃ ids', o = .ready ids' := by
  induction hf with
  | done => exact fun _ _ => ⟨_, rfl⟩
  | @found a as ids vs h q qs o r v new he ha hx hg hfi _ ih =>
    intro hc hsup
    obtain ⟨r', v', hx', hg', -, hrest⟩ := hsup vs h q he ha
    rw [hx] at hx'; cases hx'
    cases good_unique (hc a List.mem_cons_self).type (fun j hj => hs _ _ _ _ hx hj) hg hg'
    exact ih (fun b hb => hc b (List.mem_cons_of_mem _ hb)) (hrest _ hfi)
  | @lacking a as ids vs h q r v k he ha hx hg hl =>
    intro hc hsup
    obtain ⟨r', v', hx', hg', ⟨new, hn⟩, -⟩ := hsup vs h q he ha
    rw [hx] at hx'; cases hx'
    cases good_unique (hc a List.mem_cons_self).type (fun j hj => hs _ _ _ _ hx hj) hg hg'
    exact absurd hl ((hc a List.mem_cons_self).either _ _ _ hn)
  | @rejected a as ids vs h q r he ha hx hg hl =>
    intro hc hsup
    obtain ⟨r', v', hx', hg', -⟩ := hsup vs h q he ha
    rw [hx] at hx'; cases hx'
    exact absurd hg' (hg _)
  | @failing a as ids vs h q r he ha hx hl =>
    intro hc hsup
    obtain ⟨r', v', hx', hg', -⟩ := hsup vs h q he ha
    rw [hx] at hx'; cases hx'
    exact absurd hl (good_failing (hc a List.mem_cons_self).type (fun j hj => hs _ _ _ _ hx hj) hg')
  | @unanswered a as ids vs h q he ha hx =>
    intro hc hsup
    obtain ⟨r', v', hx', -⟩ := hsup vs h q he ha
    exact absurd hx' (hx _)

variable {cfg : Cfg}

/-- the setup succeeds without reporting anything bad -/
theorem setup_succeeds (hs : Sound env) {service : Str} {e : Str × List Seg} {op : Op} (hop : Entry cfg service e op) (client : Client)
    (hp : client.prefixes = []) (h : List Sent) (hsup : Supplies env cfg.lim client (plan e) []) :
    ∃ c st, SetUp env client op h (c, st) ∧ ∀ v s h', Ends env py!"Setup" (setupOp client op) h v s h' → v = some (c, st) ∧ s.ok = true := by
  obtain ⟨o, hf, he⟩ := C75_setup env cfg hs hop client hp h
  obtain ⟨ids, rfl⟩ := follows_ready hs hf (clear_plan e) hsup
  unfold EndsAs at he
  cases ho : (meaning env (setupOp client op) true h).out with
  | raised x => rw [ho] at he; exact absurd he id
  | aborted x => rw [ho] at he; exact absurd he id
  | val x =>
    rw [ho] at he
    refine ⟨x.1, x.2, ho, fun v s h' hends => ?_⟩
    obtain ⟨-, ⟨a, ha, rfl, hb⟩ | ⟨y, hy, -⟩⟩ := hends
    · rw [ho] at ha; cases ha
      exact ⟨rfl, hb.ok.mpr he⟩
    · rw [ho] at hy; cases hy

theorem rows_bad {client : Client} {template : List Seg} {bs : List Bad} {ps : List (Str × ApiM Unit)} (h : Rows env cfg client template bs ps) :
    ∀ x ∈ ps, ∃ b ∈ bs, TestsRejection env cfg.lim client template b x.2 := by
  induction h with
  | nil => exact fun r hr => by cases hr
  | cons h1 _ ih =>
    intro x hx
    rcases List.mem_cons.mp hx with rfl | hx
    · exact ⟨_, List.mem_cons_self, h1⟩
    · obtain ⟨b, hb, ht⟩ := ih x hx
      exact ⟨b, List.mem_cons_of_mem _ hb, ht⟩

theorem rows_test {client : Client} {template : List Seg} {bs : List Bad} {ps : List (Str × ApiM Unit)} (h : Rows env cfg client template bs ps) :
    ∀ b ∈ bs, ∃ x ∈ ps, TestsRejection env cfg.lim client template b x.2 := by
  induction h with
  | nil => exact fun r hr => by cases hr
  | cons h1 _ ih =>
    intro x hx
    rcases List.mem_cons.mp hx with rfl | hx
    · exact ⟨_, List.mem_cons_self, h1⟩
    · obtain ⟨b, hb, ht⟩ := ih x hx
      exact ⟨b, List.mem_cons_of_mem _ hb, ht⟩

/-- all tests of the operation pass -/
theorem complies_tests (hs : Sound env) {service : Str} {e : Str × List Seg} {op : Op} (hop : Entry cfg service e op) {client : Client}
    (hp : client.prefixes = []) {profile : Str} (hc : Complies env cfg.lim client profile e) {h : List Sent} {c : Client} {st : op.suite.σ} (hu : SetUp env client op h (c, st)) :
    (∃ invalid, Generated argClasses op.suite.errorArgs invalid ∧ (negativeTests op.suite c st invalid).length = (negativesOf e.1).length ∧
      ∀ x ∈ negativeTests op.suite c st invalid, Passes env x.2) ∧
    op.suite.tests.length = (positivesOf e.1).length ∧ ∀ t ∈ op.suite.tests, Passes env (t.run c profile st) := by
  obtain ⟨ids, vs, hf, henc, -, ⟨invalid, hg, hneg⟩, hpos⟩ := C75_tests env cfg hs hop client hp h c st hu
  refine ⟨⟨invalid, hg, neg_length hneg, fun x hx => ?_⟩, ?_, fun t ht => ?_⟩
  · obtain ⟨b, hb, ht⟩ := rows_bad hneg x hx
    exact rejected_passes ht (hc.negative _ _ _ _ hf henc b hb)
  · have := rows_length (hpos profile)
    rwa [List.length_map] at this
  · obtain ⟨r, hr, hi⟩ := rows_right (hpos profile) (t.name, t.run c profile st) (List.mem_map.mpr ⟨t, ht, rfl⟩)
    exact positive_passes hi (hc.positive _ _ _ _ hf henc _ hr)

theorem passed_all {l : List (Res Str)} (h : ∀ r ∈ l, r.ok = true) : passed l = l.length ∧ failed l = 0 :=
  ⟨List.countP_eq_length.mpr h, List.countP_eq_zero.mpr fun r hr => by rw [h r hr]; decide⟩

/-- an operation of which all tests pass -/
theorem parts_good (hs : Sound env) {service : Str} {e : Str × List Seg} {op : Op} (hop : Entry cfg service e op) {client : Client}
    (hp : client.prefixes = []) {conf : Conf} (hd : conf.dry = false) (hc : Complies env cfg.lim client conf.suite e) {h h' : List Sent} {parts : List (Res Str)} {m : Mat}
    (hr : Parts env conf client op h parts m h') : (∀ s ∈ parts, s.ok = true) ∧ m = ⟨(positivesOf e.1).length, 0, 0, (negativesOf e.1).length⟩ := by
  obtain ⟨c, st, hu, hse⟩ := setup_succeeds hs hop client hp h hc.setup
  cases hr with
  | dry h => rw [hd] at h; cases h
  | setupFailed _ he hn => rw [(hse _ _ _ he).2] at hn; cases hn
  | tested hd2 he hok hg hn hnb hperm hsort hps hpb =>
    rename_i c' st' s h1 invalid n ns h2 ts p ps
    have := (hse _ _ _ he).1
    cases this
    obtain ⟨⟨invalid', hg', hl, hneg⟩, hl', hpos⟩ := complies_tests hs hop hp hc hu
    cases generated_unique hg hg'
    have h3 : ∀ r ∈ ns, r.ok = true := by
      intro r hr
      obtain ⟨x, hx, _, _, _, he'⟩ := ran_right hn r hr
      exact (hneg x hx).2 _ _ _ _ _ he'
    have h4 : ∀ r ∈ ps, r.ok = true := by
      intro r hr
      obtain ⟨x, hx, _, _, _, he'⟩ := ran_right hps r hr
      obtain ⟨t, ht, rfl⟩ := List.mem_map.mp hx
      exact (hpos t (hperm.mem_iff.mp ht)).2 _ _ _ _ _ he'
    refine ⟨fun r hr => ?_, ?_⟩
    · simp only [List.mem_cons, List.not_mem_nil, or_false] at hr
      rcases hr with rfl | rfl | rfl
      · exact hok
      · exact hnb.ok.mpr h3
      · exact hpb.ok.mpr h4
    · rw [(passed_all h3).1, (passed_all h3).2, (passed_all h4).1, (passed_all h4).2, ran_length hn, ran_length hps, hl, positiveTests, List.length_map, hperm.length_eq, hl']

/-- the block of an operation raises no exception -/
theorem runOp_calm (hs : Sound env) {service : Str} {e : Str × List Seg} {op : Op} (hop : Entry cfg service e op) {client : Client}
    (hp : client.prefixes = []) {conf : Conf} (hd : conf.dry = false) (hc : Complies env cfg.lim client conf.suite e) {k : Mat → ApiM Mat} (hk : ∀ m h, ¬ Throws env (k m) h)
    (h : List Sent) : ¬ Throws env (runOp conf client op k) h := by
  refine calm_block' ?_ fun _ m h' _ => hk _ h'
  rw [hd]
  obtain ⟨c, st, hu, hse⟩ := setup_succeeds hs hop client hp h hc.setup
  refine calm_block' (fun ⟨x, hx⟩ => ?_) fun r v h' he => ?_
  · rw [SetUp] at hu; rw [hu] at hx; cases hx
  · obtain ⟨rfl, hok⟩ := hse _ _ _ he
    unfold afterSetup
    rw [if_pos hok]
    obtain ⟨-, base, call, S, S', T, ok, hf⟩ := entry_ok env cfg hs hop
    obtain ⟨⟨invalid, hg, -, hneg⟩, -, hpos⟩ := complies_tests hs hop hp hc hu
    exact execute_calm hf.checked.same hg (fun x hx => (hneg x hx).1) (fun t ht => (hpos t ht).1) h'

end Verif.Props
