import Verif.Spec.Api

/-! # Runs of the API tests -/

namespace Verif.Api
open Verif Verif.Spec Verif.Spec.Api Verif.Spec.Generate Verif.Generate Verif.Http

section
variable {Q A : Type} (env : List Q → Q → A)

/-- how a block without `catch_all_exceptions` goes on -/
theorem block_cases {α β : Type} (r : Res Str) (body : Prog Q A β) (k : Res Str → Option β → Prog Q A α) (o : Bool) (h : List Q) :
    (∃ x, (meaning env body true h).out = .raised x ∧ (meaning env (.block r false body k) o h).out = .raised x ∧
      (meaning env (.block r false body k) o h).ents = [] ∧
      (meaning env (.block r false body k) o h).hist = (meaning env body true h).hist) ∨
    ∃ es v log, meaning env (.block r false body k) o h =
        (meaning env (k (Ent.blk r es).toRes v) o (meaning env body true h).hist).after [.blk r es] log ∧
      ((∃ a, (meaning env body true h).out = .val a ∧ v = some a ∧ es = (meaning env body true h).ents) ∨
       (∃ x, (meaning env body true h).out = .aborted x ∧ v = none ∧ es = (meaning env body true h).ents ++ [.leaf x])) := by
  simp only [meaning]
  cases ho : (meaning env body true h).out with
  | val a => exact .inr ⟨_, _, _, rfl, .inl ⟨a, rfl, rfl, rfl⟩⟩
  | aborted x => exact .inr ⟨_, _, _, rfl, .inr ⟨x, rfl, rfl, rfl⟩⟩
  | raised x => exact .inl ⟨x, rfl, rfl, rfl, rfl⟩

def mapOut {α : Type} (f : Exc → Exc) : Out α → Out α
  | .raised e => .raised (f e)
  | o => o

theorem mapExc_meaning (f : Exc → Exc) {α : Type} (p : Prog Q A α) : ∀ h,
    (meaning env (mapExc f p) true h).ents = (meaning env p true h).ents ∧ (meaning env (mapExc f p) true h).hist = (meaning env p true h).hist ∧
    (meaning env (mapExc f p) true h).out = mapOut f (meaning env p true h).out := by
  induction p with
  | pure a => intro h; exact ⟨rfl, rfl, rfl⟩
  | abort r => intro h; exact ⟨rfl, rfl, rfl⟩
  | raise e => intro h; exact ⟨rfl, rfl, rfl⟩
  | write r k ih => intro h; simp [mapExc, meaning, Meaning.after, ih h]
  | query q k ih => intro h; simp [mapExc, meaning, ih]
  | block r c body k ihb ihk =>
    intro h
    cases c with
    | true =>
      simp only [mapExc, meaning, if_true]
      cases (meaning env body true h).out <;> simp [Meaning.after, ihk]
    | false =>
      obtain ⟨he, hh, ho⟩ := ihb h
      simp only [mapExc, meaning, Bool.false_eq_true, if_false]
      rw [ho]
      cases hb : (meaning env body true h).out <;> simp [Meaning.after, ihk, mapOut, he, hh]

end

theorem toResL_snoc (es : List Ent) (x : Res Str) : Ent.toResL (es ++ [.leaf x]) = Ent.toResL es ++ [x] := by
  rw [toResL_append]; rfl

theorem isBlock (title : Str) (es : List Ent) : IsBlock title (Ent.toResL es) (Ent.blk (Res.new title) es).toRes where
  msg := by rw [Ent.toRes]; exact Res.appendAll_msg ..
  subs := by rw [Ent.toRes, Res.appendAll_subs]; rfl
  ok := by
    rw [Ent.toRes, Res.appendAll_ok]
    simp [Res.ok, Res.new, Res.level]
  critical := by
    rintro ⟨s, hs, hc⟩
    have := Res.sub_le_appendAll_level (Res.new title) (Ent.toResL es) s hs
    rw [Ent.toRes]
    rw [hc] at this
    revert this
    cases (Res.appendAll (Res.new title) (Ent.toResL es)).level <;> decide

variable (env : List Sent → Sent → Answer)

/-- a block is followed by the rest of the program, or an exception leaves it -/
theorem block_ends {α β : Type} (title : Str) (body : ApiM β) (k : Res Str → Option β → ApiM α) (o : Bool) (h : List Sent) :
    (∃ x, (meaning env body true h).out = .raised x ∧ (meaning env (.block (Res.new title) false body k) o h).out = .raised x) ∨
    ∃ r v log h' e, Ends env title body h v r h' ∧ Ent.toResL [e] = [r] ∧
      meaning env (.block (Res.new title) false body k) o h = (meaning env (k r v) o h').after [e] log := by
  rcases block_cases env (Res.new title) body k o h with ⟨x, hx, hy, -⟩ | ⟨es, v, log, he, hv⟩
  · exact .inl ⟨x, hx, hy⟩
  · refine .inr ⟨_, v, log, _, .blk (Res.new title) es, ⟨rfl, ?_⟩, rfl, he⟩
    rcases hv with ⟨a, ha, rfl, rfl⟩ | ⟨x, hx, rfl, rfl⟩
    · exact .inl ⟨a, ha, rfl, isBlock ..⟩
    · refine .inr ⟨x, hx, rfl, ?_⟩
      rw [← toResL_snoc]
      exact isBlock ..

theorem ends_mapExc {α : Type} {f : Exc → Exc} {title : Str} {p : ApiM α} {h : List Sent} {v : Option α} {r : Res Str} {h' : List Sent}
    (he : Ends env title (mapExc f p) h v r h') : Ends env title p h v r h' := by
  obtain ⟨h1, h2, h3⟩ := mapExc_meaning env f p h
  obtain ⟨hh, he⟩ := he
  refine ⟨h2 ▸ hh, ?_⟩
  simp only [h1, h3] at he
  rcases he with ⟨a, ha, hv, hb⟩ | ⟨x, hx, hv, hb⟩
  · refine .inl ⟨a, ?_, hv, hb⟩
    cases ho : (meaning env p true h).out <;> rw [ho] at ha <;> simp_all [mapOut]
  · refine .inr ⟨x, ?_, hv, hb⟩
    cases ho : (meaning env p true h).out <;> rw [ho] at hx <;> simp_all [mapOut]

/-- sequences of blocks: either an exception leaves them, or all of them end -/
def Blocks (ts : List (Str × ApiM Unit)) (h : List Sent) (m : Meaning Sent Unit) : Prop :=
  (∃ x, m.out = .raised x) ∨ (m.out = .val () ∧ Ran env ts h (Ent.toResL m.ents) m.hist)

theorem blocks_cons {title : Str} {p body : ApiM Unit} {ts : List (Str × ApiM Unit)} {k : ApiM Unit} {h : List Sent}
    (hp : ∀ v r h', Ends env title body h v r h' → Ends env title p h v r h')
    (hk : ∀ h, Blocks env ts h (meaning env k true h)) :
    Blocks env ((title, p) :: ts) h (meaning env (.block (Res.new title) false body fun _ _ => k) true h) := by
  rcases block_ends env title body (fun _ _ => k) true h with ⟨x, -, hx⟩ | ⟨r, v, log, h', e, he, hr, hm⟩
  · exact .inl ⟨x, hx⟩
  · rw [hm]
    rcases hk h' with ⟨x, hx⟩ | ⟨ha, ht⟩
    · exact .inl ⟨x, hx⟩
    · refine .inr ⟨ha, ?_⟩
      simp only [Meaning.after, toResL_append, hr]
      exact .cons (hp v r h' he) ht

theorem runTests_blocks {σ : Type} (client : Client) (profile : Str) (st : σ) : ∀ (ts : List (Test σ)) (h : List Sent),
    Blocks env (positiveTests client profile st ts) h (meaning env (runTests client profile st ts) true h)
  | [], h => .inr ⟨rfl, .nil h⟩
  | t :: ts, h => by
    have : positiveTests client profile st (t :: ts) = (t.title, t.run client profile st) :: positiveTests client profile st ts := by
      have ht : t.title = if t.doc.getD [] = [] then t.name else t.doc.getD [] := by
        unfold Test.title
        rcases t.doc with _ | _ | ⟨c, s⟩ <;> simp
      simp only [positiveTests, List.map_cons, ht]
    rw [this]
    exact blocks_cons env (fun _ _ _ h => h) (runTests_blocks client profile st ts)

/-- the tests for the invalid values of an argument -/
def callTests (func : Kwargs → ApiM Unit) (l : List (Str × ArgVal × Kwargs)) : List (Str × ApiM Unit) :=
  l.map fun (name, v, kw) =>
    (py!"Set " ++ name ++ py!" = '" ++ (match v.pyStr with | .ok t => t | .error _ => []) ++ py!"'", func kw)

theorem callAll_blocks {scope : Str} {func : Kwargs → ApiM Unit} {valid : Kwargs} {name : Str} {rest : ApiM Unit} {ts : List (Str × ApiM Unit)}
    (hr : ∀ h, Blocks env ts h (meaning env rest true h)) : ∀ (vs : List ArgVal) (h : List Sent),
    Blocks env (callTests func (vs.map fun v => (name, v, Kwargs.set name v valid)) ++ ts) h
      (meaning env (callAll scope func valid name rest vs) true h)
  | [], h => hr h
  | v :: vs, h => by
    rw [callAll, callWith]
    split
    · exact .inl ⟨_, rfl⟩
    · rename_i text ht
      have : py!"Set " ++ (name ++ (py!" = '" ++ (text ++ py!"'"))) = py!"Set " ++ name ++ py!" = '" ++ text ++ py!"'" := by simp
      rw [this]
      simp only [callTests, List.map_cons, List.cons_append, ht]
      exact blocks_cons env (fun _ _ _ h => ends_mapExc env h) (fun h => callAll_blocks hr vs h)

theorem generateCalls_blocks {scope : Str} {func : Kwargs → ApiM Unit} {valid : Kwargs}
    {args : List Arg} {invalid : List (List ArgVal)} (hg : Generated argClasses args invalid) : ∀ (h : List Sent),
    Blocks env (callTests func (expectedCalls valid ((args.map (·.name)).zip invalid))) h
      (meaning env (generateCalls argClasses scope func valid args) true h) := by
  induction hg with
  | nil => intro h; exact .inr ⟨rfl, .nil h⟩
  | @cons a as vs rest h hg ih =>
    intro hist
    rw [generateCalls, h]
    simp only [List.map_cons, List.zip_cons_cons, expectedCalls]
    have := callAll_blocks env (scope := scope) (func := func) (valid := valid) (name := a.name) ih vs hist
    simpa only [callTests, List.map_append] using this

/-- without all invalid values the generation ends with an exception -/
theorem generated_or {C E S : Type} (k : Classes C E S) : ∀ args : List (Argument C E S),
    (∃ invalid, Generated k args invalid) ∨ ∃ a ∈ args, ∃ e, generateInvalidValues k a = .error e
  | [] => .inl ⟨[], .nil⟩
  | a :: as => by
    cases hv : generateInvalidValues k a with
    | error e => exact .inr ⟨a, List.mem_cons_self, e, hv⟩
    | ok vs =>
      rcases generated_or k as with ⟨inv, hi⟩ | ⟨b, hb, e, he⟩
      · exact .inl ⟨vs :: inv, .cons hv hi⟩
      · exact .inr ⟨b, List.mem_cons_of_mem _ hb, e, he⟩

theorem callAll_raises {scope : Str} {func : Kwargs → ApiM Unit} {valid : Kwargs} {name : Str} {rest : ApiM Unit}
    (hr : ∀ h, ∃ x, (meaning env rest true h).out = .raised x) : ∀ (vs : List ArgVal) (h : List Sent),
    ∃ x, (meaning env (callAll scope func valid name rest vs) true h).out = .raised x
  | [], h => hr h
  | v :: vs, h => by
    rw [callAll, callWith]
    split
    · exact ⟨_, rfl⟩
    · rename_i text ht
      rcases block_cases env (Res.new (py!"Set " ++ (name ++ (py!" = '" ++ (text ++ py!"'")))))
        (mapExc (onTypeError scope) (func (Kwargs.set name v valid))) (fun _ _ => callAll scope func valid name rest vs) true h with
        ⟨x, -, hx, -⟩ | ⟨es, v, log, he, -⟩
      · exact ⟨x, hx⟩
      · rw [he]
        exact callAll_raises hr vs _

theorem generateCalls_raises {C E S : Type} (k : Classes C E S) {scope : Str} {func : Kwargs → ApiM Unit} {valid : Kwargs} :
    ∀ {args : List (Argument C E S)} (_ : ∃ a ∈ args, ∃ e, generateInvalidValues k a = .error e) (h : List Sent),
    ∃ x, (meaning env (generateCalls k scope func valid args) true h).out = .raised x
  | [], ha, _ => by obtain ⟨a, ha, -⟩ := ha; cases ha
  | a :: as, ha, h => by
    rw [generateCalls]
    cases hv : generateInvalidValues k a with
    | error e => exact ⟨_, rfl⟩
    | ok vs =>
      refine callAll_raises env (fun h => generateCalls_raises k ?_ h) vs h
      obtain ⟨b, hb, e, he⟩ := ha
      rcases List.mem_cons.mp hb with rfl | hb
      · rw [hv] at he; cases he
      · exact ⟨b, hb, e, he⟩

/-! ## the order of the tests -/

theorem insertTest_perm {σ : Type} (t : Test σ) : ∀ l : List (Test σ), (insertTest t l).Perm (t :: l)
  | [] => .refl _
  | u :: us => by
    rw [insertTest]
    split
    · exact ((insertTest_perm t us).cons u).trans (List.Perm.swap t u us)
    · exact .refl _

theorem insertTest_sorted {σ : Type} (t : Test σ) : ∀ l : List (Test σ), l.Pairwise (fun a b => a.line ≤ b.line) →
    (insertTest t l).Pairwise (fun a b => a.line ≤ b.line)
  | [], _ => List.pairwise_singleton ..
  | u :: us, h => by
    rw [List.pairwise_cons] at h
    rw [insertTest]
    split
    · rename_i hle
      refine List.pairwise_cons.mpr ⟨fun b hb => ?_, insertTest_sorted t us h.2⟩
      rcases List.mem_cons.mp ((insertTest_perm t us).mem_iff.mp hb) with rfl | hb
      · exact hle
      · exact h.1 b hb
    · rename_i hlt
      refine List.pairwise_cons.mpr ⟨fun b hb => ?_, List.pairwise_cons.mpr h⟩
      rcases List.mem_cons.mp hb with rfl | hb
      · omega
      · have := h.1 b hb; omega

theorem sortTests_aux {σ : Type} : ∀ (ts acc : List (Test σ)), acc.Pairwise (fun a b => a.line ≤ b.line) →
    (ts.foldl (fun acc t => insertTest t acc) acc).Perm (ts ++ acc) ∧
    (ts.foldl (fun acc t => insertTest t acc) acc).Pairwise (fun a b => a.line ≤ b.line)
  | [], acc, h => ⟨.refl _, h⟩
  | t :: ts, acc, h => by
    obtain ⟨hp, hs⟩ := sortTests_aux ts (insertTest t acc) (insertTest_sorted t acc h)
    refine ⟨hp.trans ?_, hs⟩
    exact ((insertTest_perm t acc).append_left ts).trans List.perm_middle

theorem sortTests_perm {σ : Type} (ts : List (Test σ)) : (sortTests ts).Perm ts := by
  have := (sortTests_aux ts [] .nil).1
  rwa [List.append_nil] at this

theorem sortTests_sorted {σ : Type} (ts : List (Test σ)) : (sortTests ts).Pairwise (fun a b => a.line ≤ b.line) :=
  (sortTests_aux ts [] .nil).2

/-! ## one operation -/

theorem filter_length_eq (l : List (Res Str)) : (l.filter (·.ok)).length = passed l := List.countP_eq_length_filter.symm

theorem passed_failed (l : List (Res Str)) : passed l + failed l = l.length := by
  unfold passed failed
  induction l with
  | nil => rfl
  | cons r l ih =>
    simp only [List.countP_cons, List.length_cons]
    cases r.ok <;> simp <;> omega

theorem rejected_eq (l : List (Res Str)) : l.length - (l.filter (·.ok)).length = failed l := by
  have := passed_failed l
  rw [filter_length_eq]; omega

theorem syntactic_blocks (suite : Suite) (client : Client) (st : suite.σ) (h : List Sent) :
    (∃ x, (meaning env (executeSyntacticTests suite client st) true h).out = .raised x) ∨
    ∃ invalid, Generated argClasses suite.errorArgs invalid ∧
      Blocks env (negativeTests suite client st invalid) h (meaning env (executeSyntacticTests suite client st) true h) := by
  unfold executeSyntacticTests
  split
  · rcases generated_or argClasses suite.errorArgs with ⟨inv, hi⟩ | hr
    · exact .inr ⟨inv, hi, generateCalls_blocks env hi h⟩
    · exact .inl (generateCalls_raises env argClasses hr h)
  · exact .inl ⟨_, rfl⟩

/-- a block around a sequence of blocks -/
theorem ends_blocks {ts : List (Str × ApiM Unit)} {title : Str} {p : ApiM Unit} {h h' : List Sent} {v : Option Unit} {r : Res Str}
    (he : Ends env title p h v r h') (hb : Blocks env ts h (meaning env p true h)) :
    ∃ rs, Ran env ts h rs h' ∧ IsBlock title rs r := by
  obtain ⟨rfl, he⟩ := he
  rcases hb with ⟨x, hx⟩ | ⟨ha, hr⟩
  · rcases he with ⟨a, ha, -⟩ | ⟨y, ha, -⟩ <;> rw [ha] at hx <;> cases hx
  · rcases he with ⟨a, -, -, hb⟩ | ⟨y, hy, -⟩
    · exact ⟨_, hr, hb⟩
    · rw [ha] at hy; cases hy

theorem execute_meaning (suite : Suite) (client : Client) (profile : Str) (st : suite.σ) (h : List Sent) :
    (∃ x, (meaning env (execute suite client profile st) true h).out = .raised x) ∨
    ∃ n p ns ps invalid ts h', Ent.toResL (meaning env (execute suite client profile st) true h).ents = [n, p] ∧
      Generated argClasses suite.errorArgs invalid ∧
      Ran env (negativeTests suite client st invalid) h ns h' ∧ IsBlock py!"Negative Tests" ns n ∧
      ts.Perm suite.tests ∧ ts.Pairwise (fun t u => t.line ≤ u.line) ∧
      Ran env (positiveTests client profile st ts) h' ps (meaning env (execute suite client profile st) true h).hist ∧
      IsBlock py!"Positive Tests" ps p ∧
      (meaning env (execute suite client profile st) true h).out = .val ⟨passed ps, failed ps, failed ns, passed ns⟩ := by
  have hex : execute suite client profile st = .block (Res.new py!"Negative Tests") false (executeSyntacticTests suite client st) fun neg _ =>
    .block (Res.new py!"Positive Tests") false (executeSemanticTests suite client profile st) fun pos _ =>
      .pure ⟨(pos.subs.filter (·.ok)).length, pos.subs.length - (pos.subs.filter (·.ok)).length,
        neg.subs.length - (neg.subs.filter (·.ok)).length, (neg.subs.filter (·.ok)).length⟩ := rfl
  rw [hex]
  rcases block_ends env py!"Negative Tests" (executeSyntacticTests suite client st) (fun neg _ =>
    (.block (Res.new py!"Positive Tests") false (executeSemanticTests suite client profile st) fun pos _ =>
      .pure ⟨(pos.subs.filter (·.ok)).length, pos.subs.length - (pos.subs.filter (·.ok)).length,
        neg.subs.length - (neg.subs.filter (·.ok)).length, (neg.subs.filter (·.ok)).length⟩ : ApiM Mat)) true h with
    ⟨x, -, hx⟩ | ⟨n, v, log, h1, en, hn, hen, hm⟩
  · exact .inl ⟨x, hx⟩
  · rw [hm]
    rcases block_ends env py!"Positive Tests" (executeSemanticTests suite client profile st) (fun pos _ =>
      (.pure ⟨(pos.subs.filter (·.ok)).length, pos.subs.length - (pos.subs.filter (·.ok)).length,
        n.subs.length - (n.subs.filter (·.ok)).length, (n.subs.filter (·.ok)).length⟩ : ApiM Mat)) true h1 with
      ⟨x, -, hx⟩ | ⟨p, v', log', h2, ep, hp, hep, hm'⟩
    · exact .inl ⟨x, hx⟩
    · right
      rw [hm']
      rcases syntactic_blocks env suite client st h with ⟨x, hx⟩ | ⟨inv, hi, hb⟩
      · rcases hn.2 with ⟨a, ha, -⟩ | ⟨y, ha, -⟩ <;> rw [ha] at hx <;> cases hx
      · obtain ⟨ns, hns, hn⟩ := ends_blocks env hn hb
        obtain ⟨ps, hps, hp⟩ := ends_blocks env hp (runTests_blocks env client profile st (sortTests suite.tests) h1)
        refine ⟨n, p, ns, ps, inv, _, h1, ?_, hi, hns, hn, sortTests_perm _, sortTests_sorted _, ?_, hp, ?_⟩
        · simp only [Meaning.after, meaning, toResL_append, hen, hep]
          rfl
        · simpa only [Meaning.after, meaning] using hps
        · simp only [Meaning.after, meaning, hn.subs, hp.subs]
          rw [rejected_eq, rejected_eq, filter_length_eq, filter_length_eq]

/-- an operation is reported and its counters are passed on, or an exception leaves the run -/
theorem runOp_meaning (conf : Conf) (client : Client) (op : Op) (k : Mat → ApiM Mat) (h : List Sent) :
    (∃ x, (meaning env (runOp conf client op k) true h).out = .raised x) ∨
    ∃ parts m h' r log e, Parts env conf client op h parts m h' ∧ IsBlock (py!"Checking " ++ op.suite.operation) parts r ∧
      Ent.toResL [e] = [r] ∧ meaning env (runOp conf client op k) true h = (meaning env (k m) true h').after [e] log := by
  unfold runOp
  rcases block_ends env (py!"Checking " ++ op.suite.operation) (if conf.dry then .pure Mat.zero
    else .block (Res.new py!"Setup") false (setupOp client op) (afterSetup conf op.suite)) (fun _ m => k (m.getD Mat.zero)) true h with ⟨x, -, hx⟩ | ⟨r, v, log, h1, e, he, hr, hm⟩
  · exact .inl ⟨x, hx⟩
  · right
    rw [hm]
    obtain ⟨rfl, he⟩ := he
    cases hd : conf.dry with
    | true =>
      simp only [hd, if_true, meaning] at he ⊢
      rcases he with ⟨a, ha, rfl, hb⟩ | ⟨x, hx, -⟩
      · cases ha
        exact ⟨[], _, _, r, log, e, .dry hd, hb, hr, rfl⟩
      · cases hx
    | false =>
      simp only [hd, Bool.false_eq_true, if_false] at he ⊢
      rcases block_ends env py!"Setup" (setupOp client op) (afterSetup conf op.suite) true h with ⟨x, -, hx⟩ | ⟨s, v', log', h2, e', he', hs, hm'⟩
      · rcases he with ⟨a, ha, -⟩ | ⟨y, ha, -⟩ <;> rw [hx] at ha <;> cases ha
      · rw [hm'] at he ⊢
        cases hok : s.ok with
        | false =>
          simp only [afterSetup, hok, Bool.false_eq_true, if_false, meaning, Meaning.after, List.append_nil, List.singleton_append] at he ⊢
          rcases he with ⟨a, ha, rfl, hb⟩ | ⟨x, hx, -⟩
          · cases ha
            rw [hs] at hb
            exact ⟨[s], _, _, r, log, e, .setupFailed hd he' hok, hb, hr, rfl⟩
          · cases hx
        | true =>
          simp only [afterSetup, hok, if_true] at he ⊢
          cases v' with
          | none => rcases he with ⟨a, ha, -⟩ | ⟨y, ha, -⟩ <;> cases ha
          | some cst =>
            obtain ⟨c, st⟩ := cst
            simp only at he ⊢
            rcases execute_meaning env op.suite c conf.suite st h2 with ⟨x, hx⟩ |
              ⟨n, p, ns, ps, inv, ts, h3, hents, hi, hns, hn, hperm, hsort, hps, hp, hout⟩
            · simp only [Meaning.after, hx] at he
              rcases he with ⟨a, ha, -⟩ | ⟨y, ha, -⟩ <;> cases ha
            · simp only [Meaning.after, hout] at he ⊢
              rcases he with ⟨a, ha, rfl, hb⟩ | ⟨x, hx, -⟩
              · cases ha
                rw [toResL_append, hs, hents] at hb
                exact ⟨_, _, _, r, log, e, .tested hd he' hok hi hns hn hperm hsort hps hp, hb, hr, rfl⟩
              · cases hx

theorem runOps_meaning (conf : Conf) (client : Client) : ∀ (ops : List Op) (mat : Mat) (h : List Sent),
    (∃ x, (meaning env (runOps conf client ops mat) true h).out = .raised x) ∨
    ∃ m rs, Reports env conf client (selected conf ops) h rs m (meaning env (runOps conf client ops mat) true h).hist ∧
      Ent.toResL (meaning env (runOps conf client ops mat) true h).ents = rs ∧
      (meaning env (runOps conf client ops mat) true h).out = .val (mat.add m)
  | [], mat, h => .inr ⟨_, _, .nil h, rfl, rfl⟩
  | op :: ops, mat, h => by
    rw [runOps]
    cases hsk : skipped conf op with
    | true =>
      rw [if_pos rfl]
      have : selected conf (op :: ops) = selected conf ops := by
        unfold skipped at hsk
        unfold selected
        rw [List.filter_cons]
        cases hf : conf.filter <;> simp_all
      rw [this]
      exact runOps_meaning conf client ops mat h
    | false =>
      rw [if_neg (by simp)]
      have : selected conf (op :: ops) = op :: selected conf ops := by
        unfold skipped at hsk
        unfold selected
        rw [List.filter_cons]
        cases hf : conf.filter <;> simp_all
      rw [this]
      rcases runOp_meaning env conf client op (fun sub => runOps conf client ops (mat.add sub)) h with ⟨x, hx⟩ |
        ⟨parts, m, h', r, log, e, hparts, hb, hr, hm⟩
      · exact .inl ⟨x, hx⟩
      · rw [hm]
        rcases runOps_meaning conf client ops (mat.add m) h' with ⟨x, hx⟩ | ⟨ms, rs, hrs, hents, hout⟩
        · exact .inl ⟨x, hx⟩
        · refine .inr ⟨_, r :: rs, .cons hparts hb hrs, ?_, ?_⟩
          · simp only [Meaning.after, toResL_append, hr, hents]; rfl
          · show (meaning env (runOps conf client ops (mat.add m)) true h').out = _
            rw [hout]
            simp only [Mat.add, Nat.add_assoc]

/-! ## the whole run -/

theorem checkServer_meaning {α : Type} (conf : Conf) (client : Client) (k : Bool → ApiM α) (h : List Sent) :
    (∃ x, (meaning env (checkServer conf.dry client k) true h).out = .raised x) ∨
    ∃ server h' log e b, Ent.toResL [e] = [server] ∧
      meaning env (checkServer conf.dry client k) true h = (meaning env (k b) true h').after [e] log ∧
      ((b = true ∧ Reached env conf client h server h') ∨
       (b = false ∧ ∃ q t, conf.dry = false ∧ probe client = .ok q ∧ env h q = .failed t ∧ h' = h ++ [q] ∧
        IsBlock (py!"Trying to reach " ++ client.host) [Res.new (py!"Failed to reach: " ++ t) .critical] server)) := by
  unfold checkServer
  rcases block_ends env (py!"Trying to reach " ++ client.host) _ _ true h with ⟨x, -, hx⟩ | ⟨r, v, log, h1, e, he, hr, hm⟩
  · exact .inl ⟨x, hx⟩
  · right
    rw [hm]
    obtain ⟨rfl, he⟩ := he
    cases hd : conf.dry with
    | true =>
      simp only [hd, if_true, meaning, Meaning.after] at he ⊢
      rcases he with ⟨a, ha, rfl, hb⟩ | ⟨x, hx, -⟩
      · cases ha
        exact ⟨r, _, log, e, true, hr, rfl, .inl ⟨rfl, .dry hd hb⟩⟩
      · cases hx
    | false =>
      simp only [hd, Bool.false_eq_true, if_false, send] at he ⊢
      cases hp : client.send (fun _ => []) { path := [] } with
      | error x =>
        simp only [hp, Prog.bind, meaning] at he
        rcases he with ⟨a, ha, -⟩ | ⟨y, ha, -⟩ <;> cases ha
      | ok q =>
        simp only [hp, Prog.bind, meaning] at he ⊢
        cases ha : env h q with
        | response a =>
          simp only [ha, Prog.writeMsg, meaning, Meaning.after] at he ⊢
          rcases he with ⟨a, hv, rfl, hb⟩ | ⟨x, hx, -⟩
          · cases hv
            exact ⟨r, _, log, e, true, hr, rfl, .inl ⟨rfl, .answer hd hp ha hb⟩⟩
          · cases hx
        | failed t =>
          simp only [ha, meaning, Meaning.after] at he ⊢
          rcases he with ⟨a, hv, rfl, hb⟩ | ⟨x, hx, -⟩
          · cases hv
            exact ⟨r, _, log, e, false, hr, rfl, .inr ⟨rfl, q, t, trivial, hp, ha, rfl, hb⟩⟩
          · cases hx
        | broken x =>
          simp only [ha, meaning] at he
          rcases he with ⟨a, ha, -⟩ | ⟨y, ha, -⟩ <;> cases ha

theorem summary_meaning (mat : Mat) (h : List Sent) :
    ∃ last e log, Ent.toResL [e] = [last] ∧ meaning env (summary mat) true h = ⟨[e], .val mat, h, log⟩ ∧
      IsBlock py!"Summary:" (summaryLines mat) last := by
  refine ⟨_, .blk (Res.new py!"Summary:") ((summaryLines mat).map .leaf), (meaning env (summary mat) true h).log, rfl, ?_, isBlock py!"Summary:" ((summaryLines mat).map .leaf)⟩
  simp only [summaryLines, List.append_assoc, summary, Prog.writeMsg, meaning, Meaning.after, List.append_nil]
  rfl

theorem zero_add (m : Mat) : Mat.zero.add m = m := by
  simp [Mat.add, Mat.zero]

theorem executeOps_meaning (conf : Conf) (client : Client) (ops : List Op) (o : Bool) (h : List Sent) :
    (∃ x, (meaning env (executeOps conf client ops) o h).out = .raised x) ∨
    ∃ root mat, (meaning env (executeOps conf client ops) o h).out = .val (root, mat) ∧
      Complete env conf client ops h root mat (meaning env (executeOps conf client ops) o h).hist := by
  unfold executeOps
  rcases block_ends env (py!"Checking compliance to " ++ conf.suite) _ _ o h with ⟨x, -, hx⟩ | ⟨root, v, log, h1, e, he, hr, hm⟩
  · exact .inl ⟨x, hx⟩
  · rw [hm]
    obtain ⟨rfl, he⟩ := he
    rcases checkServer_meaning env conf client (fun reached =>
      if !reached then .pure Mat.zero else (runOps conf client ops Mat.zero).bind summary) h with ⟨x, hx⟩ |
      ⟨server, h', log', e', b, hs, hm', hc⟩
    · rcases he with ⟨a, ha, -⟩ | ⟨y, ha, -⟩ <;> rw [hx] at ha <;> cases ha
    · right
      rw [hm'] at he ⊢
      rcases hc with ⟨rfl, hreach⟩ | ⟨rfl, q, t, hd, hp, ha, rfl, hb⟩
      · simp only [Bool.not_true, Bool.false_eq_true, if_false, meaning_bind] at he ⊢
        rcases runOps_meaning env conf client ops Mat.zero h' with ⟨x, hx⟩ | ⟨m, rs, hrep, hents, hout⟩
        · simp only [Meaning.andThen, hx, Meaning.after] at he
          rcases he with ⟨a, ha, -⟩ | ⟨y, ha, -⟩ <;> cases ha
        · rw [zero_add] at hout
          obtain ⟨last, el, ll, hl, hsum, hbl⟩ := summary_meaning env m (meaning env (runOps conf client ops Mat.zero) true h').hist
          simp only [Meaning.andThen, hout, hsum, Meaning.after] at he ⊢
          rcases he with ⟨a, ha, rfl, hb⟩ | ⟨x, hx, -⟩
          · cases ha
            refine ⟨root, m, rfl, ?_⟩
            simp only [toResL_append, hs, hents, hl] at hb
            simp only [meaning]
            exact .reached hreach hrep hbl hb
          · cases hx
      · simp only [Bool.not_false, if_true, meaning, Meaning.after, List.append_nil] at he ⊢
        rcases he with ⟨a, hv, rfl, hroot⟩ | ⟨x, hx, -⟩
        · cases hv
          rw [hs] at hroot
          exact ⟨root, _, rfl, .unreachable hd hp ha hb hroot⟩
        · cases hx

theorem run_eq {α : Type} (p : ApiM α) : run env p = ((meaning env p false []).out, (meaning env p false []).hist) := by
  unfold run
  obtain ⟨n, hn⟩ := exec_eq env p ⟨[], 0, []⟩
  rw [hn]
  rfl

end Verif.Api
