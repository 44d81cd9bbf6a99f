import Verif.Spec.Alone
import Verif.ApiLemmas

/-!
# Lemmas for C106
-/

namespace Verif.Api
open Verif Verif.Spec Verif.Spec.Api Verif.Spec.Alone Verif.Http

section
variable {Q A : Type} {env : List Q → Q → A}

/-- for a server without state the requests before do not matter -/
theorem meaning_shift (hs : ∀ h h' q, env h q = env h' q) {α : Type} (p : Prog Q A α) : ∀ (o : Bool) (h : List Q),
    meaning env p o h = ⟨(meaning env p o []).ents, (meaning env p o []).out, h ++ (meaning env p o []).hist, (meaning env p o []).log⟩ := by
  induction p with
  | pure a => intro o h; simp [meaning]
  | abort r => intro o h; simp [meaning]
  | raise e => intro o h; simp [meaning]
  | write r k ih =>
    intro o h
    cases o with
    | true => simp only [meaning, Meaning.after]; rw [ih true h]
    | false => simp [meaning]
  | query q k ih =>
    intro o h
    simp only [meaning]
    rw [hs h [] q, ih _ o (h ++ [q]), ih _ o ([] ++ [q])]
    simp
  | block r c body k ihb ihk =>
    intro o h
    simp only [meaning]
    rw [ihb true h]
    simp only
    generalize meaning env body true [] = b
    cases b.out with
    | val v =>
      simp only [Meaning.after]
      rw [ihk _ _ o (h ++ b.hist), ihk _ _ o b.hist]
      simp
    | aborted x =>
      simp only [Meaning.after]
      rw [ihk _ _ o (h ++ b.hist), ihk _ _ o b.hist]
      simp
    | raised x =>
      simp only
      split
      · simp only [Meaning.after]
        rw [ihk _ _ o (h ++ b.hist), ihk _ _ o b.hist]
        simp
      · rfl

end

variable {env : List Sent → Sent → Answer}

/-- the check of one operation -/
def opMeaning (env : List Sent → Sent → Answer) (conf : Conf) (client : Client) (op : Op) : Meaning Sent Mat :=
  meaning env (runOp conf client op .pure) true []

theorem runOp_bind (conf : Conf) (client : Client) (op : Op) (k : Mat → ApiM Mat) :
    runOp conf client op k = (runOp conf client op .pure).bind k := rfl

theorem opMeaning_cases (conf : Conf) (client : Client) (op : Op) :
    (∃ x, (opMeaning env conf client op).out = .raised x) ∨
    ∃ e m, (opMeaning env conf client op).out = .val m ∧ (opMeaning env conf client op).ents = [e] := by
  unfold opMeaning
  rcases runOp_meaning env conf client op .pure [] with h | ⟨_, m, h', r, log, e, _, _, _, hm⟩
  · exact .inl h
  · right; rw [hm]; exact ⟨e, m, rfl, rfl⟩

/-- the share of an operation -/
def shareOf (env : List Sent → Sent → Answer) (conf : Conf) (client : Client) (op : Op) : Share where
  result := match (opMeaning env conf client op).ents with
    | e :: _ => e.toRes
    | [] => Res.new []
  counters := match (opMeaning env conf client op).out with
    | .val m => m
    | _ => Mat.zero
  sent := (opMeaning env conf client op).hist

theorem total_cons (m : Mat) (l : List Mat) : total (m :: l) = m.add (total l) := by simp [total, Mat.add]

theorem add_assoc' (a b c : Mat) : (a.add b).add c = a.add (b.add c) := by simp [Mat.add, Nat.add_assoc]

/-- the loop over the operations if none raises -/
theorem runOps_val (hs : Stateless env) (conf : Conf) (client : Client) (hf : conf.filter = none) : ∀ (ops : List Op) (mat : Mat) (h : List Sent),
    (∀ op ∈ ops, ∃ m, (opMeaning env conf client op).out = .val m) →
    ∃ es log, meaning env (runOps conf client ops mat) true h =
        ⟨es, .val (mat.add (total (ops.map fun op => (shareOf env conf client op).counters))), h ++ ops.flatMap fun op => (shareOf env conf client op).sent, log⟩ ∧
      Ent.toResL es = ops.map fun op => (shareOf env conf client op).result
  | [], mat, h, _ => ⟨[], [], by simp [runOps, meaning, total, Mat.add], rfl⟩
  | op :: ops, mat, h, hv => by
    rw [runOps, if_neg (by simp [skipped, hf]), runOp_bind, meaning_bind, meaning_shift hs]
    rcases opMeaning_cases (env := env) conf client op with ⟨x, hx⟩ | ⟨e, m, hm, he⟩
    · obtain ⟨m, hm⟩ := hv op (by simp)
      rw [hx] at hm; cases hm
    · obtain ⟨es, log, h1, h2⟩ := runOps_val hs conf client hf ops (mat.add m) (h ++ (opMeaning env conf client op).hist) fun o ho => hv o (by simp [ho])
      have h0 : meaning env (runOp conf client op .pure) true [] = opMeaning env conf client op := rfl
      rw [h0]
      simp only [Meaning.andThen, hm, h1, Meaning.after, he]
      have hc : (shareOf env conf client op).counters = m := by simp only [shareOf, hm]
      have hr : (shareOf env conf client op).result = e.toRes := by simp only [shareOf, he]
      refine ⟨[e] ++ es, (opMeaning env conf client op).log ++ log, ?_, ?_⟩
      · rw [List.map_cons, total_cons, hc, add_assoc']
        simp [shareOf]
      · rw [toResL_append, h2, List.map_cons, hr]; rfl

/-- the loop raises what the first operation raises that does -/
theorem runOps_raised (hs : Stateless env) (conf : Conf) (client : Client) (hf : conf.filter = none) (x : Exc) : ∀ (ops : List Op) (mat : Mat) (h : List Sent),
    (meaning env (runOps conf client ops mat) true h).out = .raised x ↔
      ∃ pre op post, ops = pre ++ op :: post ∧ (∀ o ∈ pre, ∃ m, (opMeaning env conf client o).out = .val m) ∧ (opMeaning env conf client op).out = .raised x
  | [], mat, h => by
    simp only [runOps, meaning]
    constructor
    · intro e; cases e
    · rintro ⟨pre, op, post, e, _⟩; simp at e
  | op :: ops, mat, h => by
    rw [runOps, if_neg (by simp [skipped, hf]), runOp_bind, meaning_bind, meaning_shift hs]
    have h0 : meaning env (runOp conf client op .pure) true [] = opMeaning env conf client op := rfl
    rw [h0]
    rcases opMeaning_cases (env := env) conf client op with ⟨y, hy⟩ | ⟨e, m, hm, he⟩
    · simp only [Meaning.andThen, hy]
      constructor
      · intro e; cases e; exact ⟨[], op, ops, rfl, by simp, hy⟩
      · rintro ⟨pre, o, post, e, hp, ho⟩
        cases pre with
        | nil => cases e; rw [hy] at ho; exact ho
        | cons p pre =>
          cases e
          obtain ⟨m, hm⟩ := hp op (by simp)
          rw [hy] at hm; cases hm
    · simp only [Meaning.andThen, hm, Meaning.after]
      rw [runOps_raised hs conf client hf x ops]
      constructor
      · rintro ⟨pre, o, post, rfl, hp, ho⟩
        exact ⟨op :: pre, o, post, rfl, fun o' ho' => by
          rcases List.mem_cons.mp ho' with rfl | h'
          · exact ⟨m, hm⟩
          · exact hp _ h', ho⟩
      · rintro ⟨pre, o, post, e, hp, ho⟩
        cases pre with
        | nil => cases e; rw [hm] at ho; cases ho
        | cons p pre => cases e; exact ⟨pre, o, post, rfl, fun o' ho' => hp o' (by simp [ho']), ho⟩

/-- the loop ends with a value if no operation raises, and not otherwise -/
theorem ops_cases (conf : Conf) (client : Client) : ∀ (ops : List Op),
    (∀ op ∈ ops, ∃ m, (opMeaning env conf client op).out = .val m) ∨
    ∃ x pre op post, ops = pre ++ op :: post ∧ (∀ o ∈ pre, ∃ m, (opMeaning env conf client o).out = .val m) ∧ (opMeaning env conf client op).out = .raised x
  | [] => .inl (by simp)
  | op :: ops => by
    rcases opMeaning_cases (env := env) conf client op with ⟨y, hy⟩ | ⟨e, m, hm, he⟩
    · exact .inr ⟨y, [], op, ops, rfl, by simp, hy⟩
    · rcases ops_cases conf client ops with h | ⟨x, pre, o, post, rfl, hp, ho⟩
      · exact .inl fun o ho => by
          rcases List.mem_cons.mp ho with rfl | h'
          · exact ⟨m, hm⟩
          · exact h _ h'
      · exact .inr ⟨x, op :: pre, o, post, rfl, fun o' ho' => by
          rcases List.mem_cons.mp ho' with rfl | h'
          · exact ⟨m, hm⟩
          · exact hp _ h', ho⟩

/-! ## the whole run -/

/-- the check of the connection -/
def connection (env : List Sent → Sent → Answer) (dry : Bool) (client : Client) : Meaning Sent Bool :=
  meaning env (checkServer dry client .pure) true []

theorem connection_cases (conf : Conf) (client : Client) :
    (∃ x, (connection env conf.dry client).out = .raised x) ∨
    ∃ e b, (connection env conf.dry client).out = .val b ∧ (connection env conf.dry client).ents = [e] := by
  unfold connection
  rcases checkServer_meaning env conf client .pure [] with h | ⟨_, h', log, e, b, _, hm, _⟩
  · exact .inl h
  · right; rw [hm]; exact ⟨e, b, rfl, rfl⟩

theorem executeOps_bind (conf : Conf) (client : Client) (ops : List Op) : executeOps conf client ops =
    .block (Res.new (py!"Checking compliance to " ++ conf.suite)) false
      ((checkServer conf.dry client .pure).bind fun reached => if !reached then .pure Mat.zero else (runOps conf client ops Mat.zero).bind summary)
      fun root mat => .pure (root, mat.getD Mat.zero) := rfl

theorem run_raised_connection {conf : Conf} {client : Client} {x : Exc} (h : (connection env conf.dry client).out = .raised x) (ops : List Op) :
    run env (executeOps conf client ops) = (.raised x, (connection env conf.dry client).hist) := by
  have h0 : meaning env (checkServer conf.dry client .pure) true [] = connection env conf.dry client := rfl
  rw [run_eq, executeOps_bind]
  simp only [meaning, meaning_bind, h0, Meaning.andThen, h, Bool.false_eq_true, if_false]

theorem run_unreachable {conf : Conf} {client : Client} {e : Ent} (h : (connection env conf.dry client).out = .val false)
    (he : (connection env conf.dry client).ents = [e]) (ops : List Op) :
    ∃ root, run env (executeOps conf client ops) = (.val (root, Mat.zero), (connection env conf.dry client).hist) ∧
      root = (Ent.blk (Res.new (py!"Checking compliance to " ++ conf.suite)) [e]).toRes := by
  have h0 : meaning env (checkServer conf.dry client .pure) true [] = connection env conf.dry client := rfl
  refine ⟨_, ?_, rfl⟩
  rw [run_eq, executeOps_bind]
  simp only [meaning, meaning_bind, h0, Meaning.andThen, h, he, Bool.not_false, if_true, Meaning.after, List.append_nil, Option.getD_some]

theorem run_raised {conf : Conf} {client : Client} (hs : Stateless env) (hf : conf.filter = none) (h : (connection env conf.dry client).out = .val true)
    (ops : List Op) (x : Exc) (hx : ∃ pre op post, ops = pre ++ op :: post ∧ (∀ o ∈ pre, ∃ m, (opMeaning env conf client o).out = .val m) ∧ (opMeaning env conf client op).out = .raised x) :
    (run env (executeOps conf client ops)).1 = .raised x := by
  have h0 : meaning env (checkServer conf.dry client .pure) true [] = connection env conf.dry client := rfl
  have hr := (runOps_raised hs conf client hf x ops Mat.zero (connection env conf.dry client).hist).mpr hx
  rw [run_eq, executeOps_bind]
  simp only [meaning, meaning_bind, h0, Meaning.andThen, h, hr, Bool.not_true, Bool.false_eq_true, if_false, Meaning.after]

theorem run_val {conf : Conf} {client : Client} (hs : Stateless env) (hf : conf.filter = none) {e : Ent} (h : (connection env conf.dry client).out = .val true)
    (he : (connection env conf.dry client).ents = [e]) (ops : List Op) (hv : ∀ op ∈ ops, ∃ m, (opMeaning env conf client op).out = .val m) :
    ∃ root last, run env (executeOps conf client ops) = (.val (root, total (ops.map fun op => (shareOf env conf client op).counters)),
        (connection env conf.dry client).hist ++ ops.flatMap fun op => (shareOf env conf client op).sent) ∧
      root.subs = e.toRes :: (ops.map fun op => (shareOf env conf client op).result) ++ [last] := by
  have h0 : meaning env (checkServer conf.dry client .pure) true [] = connection env conf.dry client := rfl
  obtain ⟨es, log, h1, h2⟩ := runOps_val hs conf client hf ops Mat.zero (connection env conf.dry client).hist hv
  rw [zero_add] at h1
  obtain ⟨last, el, ll, hl, hsum, hbl⟩ := summary_meaning env (total (ops.map fun op => (shareOf env conf client op).counters))
    ((connection env conf.dry client).hist ++ ops.flatMap fun op => (shareOf env conf client op).sent)
  refine ⟨(Ent.blk (Res.new (py!"Checking compliance to " ++ conf.suite)) ([e] ++ (es ++ [el]))).toRes, last, ?_, ?_⟩
  · rw [run_eq, executeOps_bind]
    simp only [meaning, meaning_bind, h0, Meaning.andThen, h, he, h1, hsum, Bool.not_true, Bool.false_eq_true, if_false, Meaning.after, Option.getD_some]
  · rw [(isBlock _ _).subs, toResL_append, toResL_append, h2, hl]; rfl

end Verif.Api
