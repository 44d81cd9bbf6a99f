import Verif.Suites
import Verif.ProgLemmas
import Verif.ApiLemmas

/-! # Programs that send a limited number of requests -/

namespace Verif
open Verif.Spec

section
variable {Q A : Type}

/-- on every path the program asks at most so often -/
def AtMost : {α : Type} → Prog Q A α → Nat → Prop
  | _, .pure _, _ => True
  | _, .abort _, _ => True
  | _, .raise _, _ => True
  | _, .write _ k, n => AtMost k n
  | _, .query _ k, n => ∃ m, n = m + 1 ∧ ∀ a, AtMost (k a) m
  | _, .block _ _ body k, n => ∃ m m', n = m + m' ∧ AtMost body m ∧ ∀ x v, AtMost (k x v) m'

variable {α β : Type}

theorem AtMost.mono {p : Prog Q A α} : ∀ {n m : Nat}, AtMost p n → n ≤ m → AtMost p m := by
  induction p with
  | pure a => intros; trivial
  | abort r => intros; trivial
  | raise e => intros; trivial
  | write r k ih => intro n m h hm; exact ih (n := n) h hm
  | query q k ih =>
    rintro n m ⟨n', rfl, h⟩ hm
    obtain ⟨m', rfl⟩ : ∃ m', m = m' + 1 := ⟨m - 1, by omega⟩
    exact ⟨m', rfl, fun a => ih a (h a) (by omega)⟩
  | block r c body k ihb ihk =>
    rintro n m ⟨a, b, rfl, h1, h2⟩ hm
    exact ⟨a, m - a, by omega, h1, fun x v => ihk x v (h2 x v) (by omega)⟩

theorem AtMost.bind {p : Prog Q A α} {f : α → Prog Q A β} : ∀ {n m : Nat}, AtMost p n → (∀ a, AtMost (f a) m) → AtMost (p.bind f) (n + m) := by
  induction p with
  | pure a => intro n m _ h; exact (h a).mono (by omega)
  | abort r => intros; trivial
  | raise e => intros; trivial
  | write r k ih => intro n m h hf; exact ih (n := n) h hf
  | query q k ih =>
    rintro n m ⟨n', rfl, h⟩ hf
    exact ⟨n' + m, by omega, fun a => ih a (h a) hf⟩
  | block r c body k ihb ihk =>
    rintro n m ⟨a, b, rfl, h1, h2⟩ hf
    exact ⟨a, b + m, by omega, h1, fun x v => ihk x v (h2 x v) hf⟩

/-- the rest sends nothing -/
theorem AtMost.bind0 {p : Prog Q A α} {f : α → Prog Q A β} {n : Nat} (h : AtMost p n) (hf : ∀ a, AtMost (f a) 0) : AtMost (p.bind f) n := h.bind hf

/-- the first part sends nothing -/
theorem AtMost.bind1 {p : Prog Q A α} {f : α → Prog Q A β} {n : Nat} (h : AtMost p 0) (hf : ∀ a, AtMost (f a) n) : AtMost (p.bind f) n :=
  (h.bind hf).mono (by omega)

theorem AtMost.block {r : Res Str} {c : Bool} {body : Prog Q A β} {k : Res Str → Option β → Prog Q A α} {n m l : Nat} (h : AtMost body n)
    (hk : ∀ x v, AtMost (k x v) m) (hl : n + m ≤ l) : AtMost (.block r c body k) l :=
  AtMost.mono (p := .block r c body k) ⟨n, m, rfl, h, hk⟩ hl

theorem AtMost.mapExc {f : Exc → Exc} {p : Prog Q A α} : ∀ {n : Nat}, AtMost p n → AtMost (Generate.mapExc f p) n := by
  induction p with
  | pure a => intros; trivial
  | abort r => intros; trivial
  | raise e => intros; trivial
  | write r k ih => intro n h; exact ih (n := n) h
  | query q k ih => rintro n ⟨m, rfl, h⟩; exact ⟨m, rfl, fun a => ih a (h a)⟩
  | block r c body k ihb ihk =>
    rintro n ⟨a, b, rfl, h1, h2⟩
    refine ⟨a, b, rfl, ?_, fun x v => ihk x v (h2 x v)⟩
    split
    · exact h1
    · exact ihb h1

theorem AtMost.hist (env : List Q → Q → A) {p : Prog Q A α} : ∀ {n : Nat}, AtMost p n → ∀ (o : Bool) (h : List Q),
    (meaning env p o h).hist.length ≤ h.length + n := by
  induction p with
  | pure a => intro n _ o h; simp [meaning]
  | abort r => intro n _ o h; simp [meaning]
  | raise e => intro n _ o h; simp [meaning]
  | write r k ih =>
    intro n hp o h
    cases o with
    | true => exact ih (n := n) hp true h
    | false => simp [meaning]
  | query q k ih =>
    rintro n ⟨m, rfl, hk⟩ o h
    have := ih _ (hk (env h q)) o (h ++ [q])
    simp only [List.length_append, List.length_singleton] at this
    simp only [meaning]
    omega
  | block r c body k ihb ihk =>
    rintro n ⟨a, b, rfl, h1, h2⟩ o h
    have hb := ihb h1 true h
    simp only [meaning]
    cases ho : (meaning env body true h).out with
    | val v =>
      have := ihk _ _ (h2 (Ent.blk r (meaning env body true h).ents).toRes (some v)) o (meaning env body true h).hist
      simp only [Meaning.after]; omega
    | aborted x =>
      have := ihk _ _ (h2 (Ent.blk r ((meaning env body true h).ents ++ [.leaf x])).toRes none) o (meaning env body true h).hist
      simp only [Meaning.after]; omega
    | raised x =>
      cases c with
      | true =>
        have := ihk _ _ (h2 (Ent.blk r ((meaning env body true h).ents ++ [.leaf (Res.new (py!"Internal error: " ++ x.text) .critical)])).toRes none) o
          (meaning env body true h).hist
        simp only [if_true, Meaning.after]; omega
      | false => simp only [Bool.false_eq_true, if_false]; omega

end

namespace Api.Suites
open Verif.Parse Verif.Aas Verif.Http Verif.Generate Verif.Api
variable (cfg : Cfg)

theorem most_lift {α : Type} (e : Except PyExc α) : AtMost (lift e) 0 := by cases e <;> trivial

theorem most_assert (b : Bool) (m : Str) (l : Level) : AtMost (assert_ b m l) 0 := by unfold assert_; split <;> trivial

theorem most_extract (r : Response) : AtMost (extractJson r) 0 := by unfold extractJson; split <;> trivial

theorem most_received (a : Answer) : AtMost (received a) 0 := by cases a <;> trivial

theorem most_send (client : Client) (request : Request) : AtMost (send client request) 1 := by
  unfold send
  split
  · trivial
  · exact ⟨0, rfl, fun _ => trivial⟩

theorem most_invoke (client : Client) (request : Request) : AtMost (invoke client request) 1 := by
  unfold invoke
  split
  · trivial
  · exact (most_send client request).bind0 fun a => (most_received a).bind0 fun _ => trivial

theorem most_decode (r : Response) (ty : RTy) (e : Nat → Bool) : AtMost (decode cfg r ty e) 0 := by
  unfold decode
  split
  · trivial
  · split
    · trivial
    · refine (most_extract r).bind0 fun d => ?_
      split
      · trivial
      · split <;> trivial

theorem most_invokeAndDecode (client : Client) (request : Request) (ty : RTy) (e : Nat → Bool) : AtMost (invokeAndDecode cfg client request ty e) 1 :=
  (most_invoke _ _).bind0 fun _ => most_decode cfg _ _ _

theorem most_success (c : Call) (client : Client) (kw : Kwargs) : AtMost (c.success cfg client kw) 1 := by
  refine (most_lift _).bind1 fun r => ?_
  split
  · exact most_invokeAndDecode cfg _ _ _ _
  · exact (most_invoke _ _).bind0 fun _ => (most_extract _).bind0 fun _ => trivial
  · exact (most_invoke _ _).bind0 fun _ => trivial

theorem most_error (c : Call) (client : Client) (kw : Kwargs) : AtMost (c.error cfg client kw) 1 := by
  unfold Call.error
  split
  · exact (most_lift _).bind1 fun r => (most_invokeAndDecode cfg _ _ _ _).bind0 fun _ => trivial
  · exact (most_lift _).bind1 fun _ => trivial

/-! ## negative tests -/

/-- the number of invalid values -/
def invalidCount (args : List Arg) : Nat :=
  (args.map fun a => match generateInvalidValues argClasses a with
    | .ok vs => vs.length
    | .error _ => 0).sum

theorem most_callAll {f : Kwargs → ApiM Unit} (hf : ∀ kw, AtMost (f kw) 1) (scope : Str) (valid : Kwargs) (name : Str) {k : ApiM Unit} {n : Nat}
    (hk : AtMost k n) : ∀ vs : List ArgVal, AtMost (callAll scope f valid name k vs) (vs.length + n)
  | [] => hk.mono (by simp)
  | v :: vs => by
    unfold callAll callWith
    split
    · trivial
    · exact AtMost.block (hf _).mapExc (fun _ _ => most_callAll hf scope valid name hk vs) (by simp only [List.length_cons]; omega)

theorem most_generateCalls {f : Kwargs → ApiM Unit} (hf : ∀ kw, AtMost (f kw) 1) (scope : Str) (valid : Kwargs) : ∀ args : List Arg,
    AtMost (generateCalls argClasses scope f valid args) (invalidCount args)
  | [] => trivial
  | a :: args => by
    unfold generateCalls
    split
    · trivial
    · next vs h =>
      refine (most_callAll hf scope valid a.name (most_generateCalls hf scope valid args) vs).mono ?_
      simp only [invalidCount, List.map_cons, List.sum_cons, h]
      omega

/-! ## positive tests -/

theorem sum_insertTest {σ : Type} (w : Test σ → Nat) (t : Test σ) : ∀ ts : List (Test σ), ((insertTest t ts).map w).sum = w t + (ts.map w).sum
  | [] => by simp [insertTest]
  | u :: us => by
    unfold insertTest
    split
    · simp only [List.map_cons, List.sum_cons, sum_insertTest w t us]; omega
    · simp

theorem sum_sortTests {σ : Type} (w : Test σ → Nat) (ts : List (Test σ)) : ((sortTests ts).map w).sum = (ts.map w).sum := by
  have key : ∀ (ts acc : List (Test σ)), ((ts.foldl (fun acc t => insertTest t acc) acc).map w).sum = (ts.map w).sum + (acc.map w).sum := by
    intro ts
    induction ts with
    | nil => intro acc; simp
    | cons t ts ih => intro acc; rw [List.foldl_cons, ih, sum_insertTest]; simp only [List.map_cons, List.sum_cons]; omega
  rw [sortTests, key]; simp

theorem mem_insertTest {σ : Type} {t u : Test σ} : ∀ {ts : List (Test σ)}, u ∈ insertTest t ts → u = t ∨ u ∈ ts
  | [], h => by simpa [insertTest] using h
  | v :: vs, h => by
    unfold insertTest at h
    split at h
    · rcases List.mem_cons.mp h with rfl | h
      · exact Or.inr List.mem_cons_self
      · rcases mem_insertTest h with h | h
        · exact Or.inl h
        · exact Or.inr (List.mem_cons_of_mem _ h)
    · rcases List.mem_cons.mp h with h | h
      · exact Or.inl h
      · exact Or.inr h

theorem mem_sortTests' {σ : Type} {u : Test σ} {ts : List (Test σ)} (h : u ∈ sortTests ts) : u ∈ ts := by
  have key : ∀ (ts acc : List (Test σ)), u ∈ ts.foldl (fun acc t => insertTest t acc) acc → u ∈ ts ∨ u ∈ acc := by
    intro ts
    induction ts with
    | nil => intro acc h; exact Or.inr h
    | cons t ts ih =>
      intro acc h
      rcases ih _ h with h | h
      · exact Or.inl (List.mem_cons_of_mem _ h)
      · rcases mem_insertTest h with h | h
        · exact Or.inl (h ▸ List.mem_cons_self)
        · exact Or.inr h
  rcases key ts [] h with h | h
  · exact h
  · cases h

theorem most_runTests {σ : Type} (client : Client) (profile : Str) (st : σ) (w : Test σ → Nat) : ∀ ts : List (Test σ),
    (∀ t ∈ ts, AtMost (t.run client profile st) (w t)) → AtMost (runTests client profile st ts) (ts.map w).sum
  | [], _ => trivial
  | t :: ts, h => AtMost.block (h t List.mem_cons_self)
      (fun _ _ => most_runTests client profile st w ts fun u hu => h u (List.mem_cons_of_mem _ hu)) (by simp)

/-! ## operations -/

/-- the requests of an operation -/
structure Costs (op : Op) (pre setup neg pos : Nat) : Prop where
  pre : ∀ client, AtMost (op.prefixOf client) pre
  setup : ∀ client, AtMost (op.suite.setup client) setup
  error : ∀ client kw, AtMost (op.suite.invokeError client kw) 1
  neg : invalidCount op.suite.errorArgs = neg
  pos : ∃ w : Test op.suite.σ → Nat, (∀ t ∈ op.suite.tests, ∀ client profile st, AtMost (t.run client profile st) (w t)) ∧ (op.suite.tests.map w).sum = pos

theorem Costs.execute {op : Op} {pre setup neg pos : Nat} (h : Costs op pre setup neg pos) (client : Client) (profile : Str) (st : op.suite.σ) :
    AtMost (Api.execute op.suite client profile st) (neg + pos) := by
  obtain ⟨w, h1, h2⟩ := h.pos
  refine AtMost.block (n := neg) (m := pos) ?_ (fun _ _ => AtMost.block (n := pos) (m := 0) ?_ (fun _ _ => trivial) (by omega)) (by omega)
  · unfold executeSyntacticTests
    split
    · exact h.neg ▸ most_generateCalls (h.error client) _ _ _
    · trivial
  · have := most_runTests client profile st w (sortTests op.suite.tests) fun t ht => h1 t (mem_sortTests' ht) client profile st
    rw [sum_sortTests, h2] at this
    exact this

theorem Costs.runOp {op : Op} {pre setup neg pos : Nat} (h : Costs op pre setup neg pos) (conf : Conf) (client : Client) {k : Mat → ApiM Mat} {n : Nat}
    (hk : ∀ m, AtMost (k m) n) : AtMost (Api.runOp conf client op k) (pre + setup + neg + pos + n) := by
  refine AtMost.block (n := pre + setup + neg + pos) ?_ (fun _ _ => hk _) (by omega)
  split
  · trivial
  · refine AtMost.block (n := pre + setup) (m := neg + pos) ?_ (fun x v => ?_) (by omega)
    · exact (h.pre client).bind fun p => (h.setup _).bind0 fun _ => trivial
    · unfold afterSetup
      split
      · split
        · exact h.execute _ _ _
        · trivial
      · trivial

end Api.Suites
end Verif
