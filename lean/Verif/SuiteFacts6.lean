import Verif.SuiteFacts5
import Verif.Spec.Positive

/-! # Requests and outcomes of the positive tests -/

namespace Verif.Api.Suites
open Verif Verif.Parse Verif.Aas Verif.Spec Verif.Spec.Parse Verif.Spec.Api Verif.Spec.Suites Verif.Spec.Routes Verif.Spec.Generate Verif.Generate Verif.Http Verif.Props
open Verif.Api hiding sane supported

variable {env : List Sent → Sent → Answer}

/-! ## outcomes -/

/-- nothing that was written is a failure -/
def Passes {α : Type} (m : Meaning Sent α) : Prop := (∀ s ∈ Ent.toResL m.ents, s.ok = true) ∧ ∀ x, m.out = .aborted x → x.ok = true

theorem ends_iff {α : Type} {p : ApiM α} {title : Str} {h : List Sent} {v : Option α} {res : Res Str} {h' : List Sent} (he : Ends env title p h v res h') :
    (res.ok = true ↔ Passes (meaning env p true h)) ∧ (∀ a, v = some a ↔ (meaning env p true h).out = .val a) ∧ ∀ e, (meaning env p true h).out ≠ .raised e := by
  obtain ⟨-, ⟨a, ha, rfl, hb⟩ | ⟨x, hx, rfl, hb⟩⟩ := he
  · refine ⟨?_, fun b => ?_, fun e h => by rw [ha] at h; cases h⟩
    · rw [hb.ok]
      exact ⟨fun h => ⟨h, fun x h => by rw [ha] at h; cases h⟩, fun h => h.1⟩
    · rw [ha]
      exact ⟨fun h => by cases h; rfl, fun h => by cases h; rfl⟩
  · refine ⟨?_, fun b => ?_, fun e h => by rw [hx] at h; cases h⟩
    · rw [hb.ok]
      constructor
      · intro h
        refine ⟨fun s hs => h s (List.mem_append_left _ hs), fun y hy => ?_⟩
        rw [hx] at hy; cases hy
        exact h x (by simp)
      · rintro ⟨h1, h2⟩ s hs
        rcases List.mem_append.mp hs with hs | hs
        · exact h1 s hs
        · rw [List.mem_singleton.mp hs]; exact h2 x hx
    · rw [hx]
      exact ⟨fun h => (by cases h), fun h => (by cases h)⟩

/-- how the code behind a request ends: it sends nothing, passes iff `G` holds (then there is no exception), and is not aborted iff `F` holds -/
def Tail (env : List Sent → Sent → Answer) (p : ApiM Unit) (G F : Prop) : Prop :=
  ∀ h, (meaning env p true h).hist = h ∧ (G → ¬ Throws env p h) ∧
    ((∀ e, (meaning env p true h).out ≠ .raised e) → (Passes (meaning env p true h) ↔ G) ∧ ((meaning env p true h).out = .val () ↔ F))

theorem Tail.congr {p : ApiM Unit} {G F G' F' : Prop} (h : Tail env p G F) (hG : G ↔ G') (hF : F ↔ F') : Tail env p G' F' := by
  rw [← propext hG, ← propext hF]; exact h

theorem tail_pure : Tail env (.pure ()) True True := fun h =>
  ⟨rfl, fun _ ⟨_, h⟩ => (by cases h), fun _ => ⟨⟨fun _ => trivial, fun _ => ⟨fun _ h => (by cases h), fun _ h => (by cases h)⟩⟩, ⟨fun _ => trivial, fun _ => rfl⟩⟩⟩

theorem tail_assert {b : Bool} {m : Str} {l : Level} : Tail env (assert_ b m l) (b = true ∨ (l == .info || l == .warning) = true) (b = true) := by
  intro h
  unfold assert_
  split
  · rename_i hb
    refine ⟨rfl, fun _ ⟨_, h⟩ => (by cases h), fun _ => ⟨⟨fun _ => .inl hb, fun _ => ⟨fun s hs => ?_, fun _ h => (by cases h)⟩⟩, ⟨fun _ => hb, fun _ => rfl⟩⟩⟩
    simp only [Prog.writeMsg, meaning, Meaning.after, Ent.toResL, Ent.toRes, List.append_nil, List.mem_cons, List.not_mem_nil, or_false] at hs
    rw [hs]; rfl
  · rename_i hb
    refine ⟨rfl, fun _ ⟨_, h⟩ => (by cases h), fun _ => ⟨⟨fun hp => .inr (hp.2 _ rfl), fun hx => ?_⟩, ⟨fun h => (by cases h), fun h => absurd h hb⟩⟩⟩
    rcases hx with h | h
    · exact absurd h hb
    · exact ⟨fun s hs => (by cases hs), fun x hx => (by cases hx; exact h)⟩

/-- an assertion that is an error -/
theorem tail_error {b : Bool} {m : Str} {G : Prop} (hG : b = true ↔ G) : Tail env (assert_ b m) G G :=
  tail_assert.congr ⟨fun h => h.elim hG.mp fun h => (by cases h), fun h => .inl (hG.mpr h)⟩ hG

/-- an assertion that is a warning -/
theorem tail_warning {b : Bool} {m : Str} {F : Prop} (hF : b = true ↔ F) : Tail env (assert_ b m .warning) True F :=
  tail_assert.congr ⟨fun _ => trivial, fun _ => .inr rfl⟩ hF

theorem tail_lift {α : Type} {x : Except PyExc α} {a : α} (hx : x = .ok a) {k : α → ApiM Unit} {G F : Prop} (h : Tail env (k a) G F) :
    Tail env ((lift x).bind k) G F := by
  rw [hx]; exact h

theorem tail_raise {α : Type} {x : Except PyExc α} {e : PyExc} (hx : x = .error e) {k : α → ApiM Unit} {G F : Prop} (hG : ¬ G) :
    Tail env ((lift x).bind k) G F := by
  rw [hx]; exact fun h => ⟨rfl, fun hg => absurd hg hG, fun hr => absurd rfl (hr _)⟩

theorem tail_assert_bind {b : Bool} {m : Str} {k : ApiM Unit} {G F : Prop} (h : b = true → Tail env k G F) :
    Tail env ((assert_ b m).bind fun _ => k) (b = true ∧ G) (b = true ∧ F) := by
  unfold assert_
  cases b with
  | true =>
    intro hist
    obtain ⟨h1, hc, h2⟩ := h rfl hist
    unfold Throws at hc ⊢
    simp only [if_true, Prog.writeMsg, Prog.bind, meaning, Meaning.after, true_and]
    refine ⟨h1, hc, fun hr => ?_⟩
    obtain ⟨h3, h4⟩ := h2 hr
    refine ⟨?_, h4⟩
    rw [← h3]
    unfold Passes
    simp only [Ent.toResL, Ent.toRes, List.cons_append, List.nil_append, List.forall_mem_cons]
    exact ⟨fun h => ⟨h.1.2, h.2⟩, fun h => ⟨⟨rfl, h.1⟩, h.2⟩⟩
  | false =>
    intro hist
    simp only [Bool.false_eq_true, if_false, Prog.bind, meaning, false_and, iff_false]
    exact ⟨trivial, fun h => h.elim, fun _ => ⟨fun h => Bool.noConfusion (show false = true from h.2 _ rfl), fun h => (by cases h)⟩⟩

/-! ## requests -/

theorem bind_assoc {Q A α β γ : Type} (p : Prog Q A α) (f : α → Prog Q A β) (g : β → Prog Q A γ) : (p.bind f).bind g = p.bind fun a => (f a).bind g := by
  induction p with
  | pure a => rfl
  | abort r => rfl
  | raise e => rfl
  | write r k ih => exact congrArg (Prog.write r) (ih f)
  | query q k ih => exact congrArg (Prog.query q) (funext fun a => ih a f)
  | block r c body k _ ih => exact congrArg (Prog.block r c body) (funext fun x => funext fun v => ih x v f)

theorem good_iff {lim : Option Nat} {ty : RTy} {r : Response} {v : RVal} : Acceptable lim ty (Api.success · = true) r v ↔ Good lim ty r v := by
  unfold Good Acceptable Api.success
  simp only [beq_iff_eq]

theorem acceptable_typed {lim : Option Nat} {ty : RTy} {expected : Nat → Prop} {r : Response} {v : RVal} (h : Acceptable lim ty expected r v) :
    HasType (respSchema lim) ty v := by
  obtain ⟨-, -, j, hcont, -⟩ := h
  exact hcont.typed

/-- after an accepted response the rest decides -/
theorem bind_val {α : Type} {p : ApiM α} {k : α → ApiM Unit} {h : List Sent} {a : α} {G F : Prop} (ho : (meaning env p true h).out = .val a)
    (hq : ∀ s ∈ Ent.toResL (meaning env p true h).ents, s.ok = true) (hk : Tail env (k a) G F) :
    (meaning env (p.bind k) true h).hist = (meaning env p true h).hist ∧
    (∀ title v res h', Ends env title (p.bind k) h v res h' → (res.ok = true ↔ G) ∧ (v = some () ↔ F)) ∧ (G → ¬ Throws env (p.bind k) h) := by
  obtain ⟨h1, hc, h2⟩ := hk (meaning env p true h).hist
  have hm : meaning env (p.bind k) true h = (meaning env (k a) true (meaning env p true h).hist).after (meaning env p true h).ents (meaning env p true h).log := by
    rw [meaning_bind]
    unfold Meaning.andThen
    rw [ho]
  refine ⟨by rw [hm]; exact h1, fun title v res h' he => ?_, fun hg => by unfold Throws; rw [hm]; exact hc hg⟩
  obtain ⟨e1, e2, e3⟩ := ends_iff he
  rw [hm] at e1 e2 e3
  obtain ⟨h3, h4⟩ := h2 e3
  rw [e1, e2, ← h3, ← h4]
  refine ⟨?_, .rfl⟩
  unfold Passes
  simp only [Meaning.after, toResL_append, List.mem_append]
  exact ⟨fun h => ⟨fun s hs => h.1 s (.inr hs), h.2⟩, fun h => ⟨fun s hs => hs.elim (hq s) (h.1 s), h.2⟩⟩

/-- after a failure there is no rest -/
theorem bind_aborted {α : Type} {p : ApiM α} {k : α → ApiM Unit} {h : List Sent} {x : Res Str} (ho : (meaning env p true h).out = .aborted x) (hx : x.ok = false) :
    (meaning env (p.bind k) true h).hist = (meaning env p true h).hist ∧
    ∀ title v res h', Ends env title (p.bind k) h v res h' → res.ok ≠ true ∧ v ≠ some () := by
  have hm : (meaning env (p.bind k) true h).out = .aborted x ∧ (meaning env (p.bind k) true h).hist = (meaning env p true h).hist := by
    rw [meaning_bind]
    unfold Meaning.andThen
    rw [ho]
    exact ⟨rfl, rfl⟩
  refine ⟨hm.2, fun title v res h' he => ?_⟩
  obtain ⟨e1, e2, e3⟩ := ends_iff he
  rw [Ne, e1, Ne, e2, hm.1]
  exact ⟨fun hp => (by have := hp.2 x hm.1; rw [hx] at this; cases this), fun h => (by cases h)⟩

theorem bind_raised {α : Type} {p : ApiM α} {k : α → ApiM Unit} {h : List Sent} {e : Exc} (ho : (meaning env p true h).out = .raised e) :
    (meaning env (p.bind k) true h).hist = (meaning env p true h).hist ∧ (meaning env (p.bind k) true h).out = .raised e := by
  rw [meaning_bind]
  unfold Meaning.andThen
  rw [ho]
  exact ⟨rfl, rfl⟩

/-- a test that sends one request and decides on the response: it passes iff `good`, and is not aborted iff `full` -/
def Answers (env : List Sent → Sent → Answer) (client : Client) (c : Call) (kw : Kwargs) (good full : Response → Prop) (p : ApiM Unit) : Prop :=
  ∀ h, ∃ q, SendsWith client c kw q ∧ (meaning env p true h).hist = h ++ [q] ∧
    (∀ title v res h', Ends env title p h v res h' → ∃ r, env h q = .response r ∧ (res.ok = true ↔ good r) ∧ (v = some () ↔ full r)) ∧
    ∀ r, env h q = .response r → good r → ¬ Throws env p h

variable {lim : Option Nat} {text : Note → Str}

/-- a response that is decoded -/
theorem answer_core (hs : Sound env) {ty : RTy} (hty : ResponseTy ty) (expected : Nat → Bool) {client : Client} {r : Request} {q : Sent}
    (hq : client.send (fun _ => []) { r with headers := setHeader py!"content-type" py!"application/json" r.headers } = .ok q)
    {k : RVal → ApiM Unit} {G F : RVal → Prop} (hk : ∀ v, HasType (respSchema lim) ty v → Tail env (k v) (G v) (F v)) (h : List Sent) :
    (meaning env ((invokeAndDecode ⟨lim, text⟩ client r ty expected).bind k) true h).hist = h ++ [q] ∧
    (∀ title v res h', Ends env title ((invokeAndDecode ⟨lim, text⟩ client r ty expected).bind k) h v res h' →
      ∃ x, env h q = .response x ∧ (res.ok = true ↔ ∃ w, Acceptable lim ty (expected · = true) x w ∧ G w) ∧
        (v = some () ↔ ∃ w, Acceptable lim ty (expected · = true) x w ∧ F w)) ∧
    ∀ x, env h q = .response x → (∃ w, Acceptable lim ty (expected · = true) x w ∧ G w) →
      ¬ Throws env ((invokeAndDecode ⟨lim, text⟩ client r ty expected).bind k) h := by
  obtain ⟨s1, s2⟩ := C57_step lim env text ty hty expected client r q hq h
  have key : (∃ x, env h q = .response x) ∨ ∀ x, env h q ≠ .response x := by
    cases env h q with
    | response x => exact .inl ⟨x, rfl⟩
    | failed e => exact .inr fun _ h => by cases h
    | broken e => exact .inr fun _ h => by cases h
  rcases key with ⟨x, hx⟩ | hno
  · have hd := s1 x hx fun j hj => hs _ _ _ _ hx hj
    have hg := hd.accepted
    cases ho : (meaning env (invokeAndDecode ⟨lim, text⟩ client r ty expected) true h).out with
    | val a =>
      have ha := (hg a).mp ho
      have hu : ∀ w, Acceptable lim ty (expected · = true) x w → w = a := fun w hw => by
        have := (hg w).mpr hw
        rw [ho] at this; cases this; rfl
      obtain ⟨h1, h2, hc⟩ := bind_val ho (hd.quiet a ho) (hk a (acceptable_typed ha))
      refine ⟨h1.trans hd.hist, fun title v res h' he => ⟨x, hx, ?_⟩, fun y hy ⟨w, hw, hG⟩ => hc ?_⟩
      rotate_left
      · rw [hx] at hy; cases hy
        rw [← hu w hw]; exact hG
      obtain ⟨h3, h4⟩ := h2 title v res h' he
      rw [h3, h4]
      have hsuch : ∀ P : RVal → Prop, P a ↔ ∃ w, Acceptable lim ty (expected · = true) x w ∧ P w := fun P =>
        ⟨fun hp => ⟨a, ha, hp⟩, fun ⟨w, hw, hp⟩ => by rw [← hu w hw]; exact hp⟩
      exact ⟨hsuch G, hsuch F⟩
    | aborted y =>
      obtain ⟨h1, h2⟩ := bind_aborted (k := k) ho (hd.fails y ho)
      have hnone : ∀ P : RVal → Prop, ¬ ∃ w, Acceptable lim ty (expected · = true) x w ∧ P w := fun P ⟨w, hw, _⟩ => by
        have := (hg w).mpr hw
        rw [ho] at this; cases this
      refine ⟨h1.trans hd.hist, fun title v res h' he => ⟨x, hx, ?_⟩, fun y hy hw => ?_⟩
      rotate_left
      · rw [hx] at hy; cases hy
        exact absurd hw (hnone G)
      obtain ⟨h3, h4⟩ := h2 title v res h' he
      exact ⟨⟨fun h => absurd h h3, fun h => absurd h (hnone G)⟩, ⟨fun h => absurd h h4, fun h => absurd h (hnone F)⟩⟩
    | raised e =>
      obtain ⟨h1, h2⟩ := bind_raised (k := k) ho
      refine ⟨h1.trans hd.hist, fun title v res h' he => absurd he (no_ends h2), fun y hy ⟨w, hw, _⟩ => ?_⟩
      rw [hx] at hy; cases hy
      have := (hg w).mpr hw
      rw [ho] at this; cases this
  · obtain ⟨⟨e, ho⟩, hh⟩ := s2 hno
    obtain ⟨h1, h2⟩ := bind_raised (k := k) ho
    exact ⟨h1.trans hh, fun title v res h' he => absurd he (no_ends h2), fun y hy => absurd hy (hno y)⟩

/-- a call whose response is decoded -/
theorem answer (hs : Sound env) {c : Call} (hcall : Sane c) {ty : RTy} (hm : c.mode = .decode ty) {kw : Kwargs} (hf : Fits c kw) {client : Client} (hc : Rooted client)
    {k : RVal → ApiM Unit} {G F : RVal → Prop} (hk : ∀ v, HasType (respSchema lim) ty v → Tail env (k v) (G v) (F v)) :
    Answers env client c kw (such ty G lim) (such ty F lim) ((c.success ⟨lim, text⟩ client kw).bind k) := by
  intro h
  obtain ⟨r, hreq, hr⟩ := request_ok hcall.rooted hf
  obtain ⟨q, hq, hro⟩ := invoke_one hc hr.1 hr.2
  have hrw : c.success ⟨lim, text⟩ client kw = invokeAndDecode ⟨lim, text⟩ client r ty Api.success := by
    unfold Call.success
    rw [hreq, hm]
    rfl
  rw [hrw]
  obtain ⟨h1, h2, hc⟩ := answer_core (text := text) hs (hcall.type ty hm) Api.success hq hk h
  simp only [good_iff] at h2 hc
  exact ⟨q, ⟨hro, r, _, hreq, hq⟩, h1, h2, hc⟩

/-- a call that is to be rejected -/
theorem answer_error (hs : Sound env) {c : Call} (hcall : Sane c) (hfail : c.canFail = true) {kw : Kwargs} (hf : Fits c kw) {client : Client} (hc : Rooted client) :
    Answers env client c kw (Rejection lim) (Rejection lim) (c.error ⟨lim, text⟩ client kw) := by
  intro h
  obtain ⟨r, hreq, hr⟩ := request_ok hcall.rooted hf
  obtain ⟨q, hq, hro⟩ := invoke_one hc hr.1 hr.2
  have hrw : c.error ⟨lim, text⟩ client kw = (invokeAndDecode ⟨lim, text⟩ client r (.cls .errorResult) clientError).bind fun _ => .pure () := by
    unfold Call.error
    rw [if_pos hfail, hreq]
    rfl
  rw [hrw]
  obtain ⟨h1, h2, hc⟩ := answer_core (text := text) (lim := lim) (ty := .cls .errorResult) hs ⟨rfl, trivial⟩ clientError hq (fun _ _ => tail_pure) h
  have hrej : ∀ x, env h q = .response x → ((∃ w, Acceptable lim (.cls .errorResult) (clientError · = true) x w ∧ True) ↔ Rejection lim x) := fun x hx => by
    simp only [and_true]
    exact (C57_error lim x fun j hj => hs _ _ _ _ hx hj).1
  refine ⟨q, ⟨hro, r, _, hreq, hq⟩, h1, fun title v res h' he => ?_, fun x hx hr => hc x hx ((hrej x hx).mpr hr)⟩
  obtain ⟨x, hx, h3, h4⟩ := h2 title v res h' he
  exact ⟨x, hx, h3.trans (hrej x hx), h4.trans (hrej x hx)⟩

/-- what `invoke` does -/
theorem invoke_meaning {client : Client} {r : Request} {q : Sent} (hr : ∃ u, r.makeUrl = .ok u) (hq : client.send (fun _ => []) r = .ok q) (h : List Sent) :
    (meaning env (invoke client r) true h).hist = h ++ [q] ∧
    (∀ x, env h q = .response x → (meaning env (invoke client r) true h).out = .val x ∧ ∀ s ∈ Ent.toResL (meaning env (invoke client r) true h).ents, s.ok = true) ∧
    ((∀ x, env h q ≠ .response x) → ∃ e, (meaning env (invoke client r) true h).out = .raised e) := by
  obtain ⟨u, hu⟩ := hr
  cases ha : env h q with
  | response x =>
    simp only [invoke, hu, Api.send, hq, Prog.writeMsg, Prog.bind, meaning, ha, received, Meaning.after]
    refine ⟨trivial, fun y hy => ⟨by cases hy; rfl, fun s hs => ?_⟩, fun h => absurd rfl (h x)⟩
    simp only [Ent.toResL, Ent.toRes, List.cons_append, List.nil_append, List.append_nil, List.mem_cons, List.not_mem_nil, or_false] at hs
    rcases hs with rfl | rfl <;> rfl
  | failed t =>
    simp only [invoke, hu, Api.send, hq, Prog.writeMsg, Prog.bind, meaning, ha, received, Meaning.after]
    exact ⟨trivial, fun y hy => (by cases hy), fun _ => ⟨_, rfl⟩⟩
  | broken e =>
    simp only [invoke, hu, Api.send, hq, Prog.writeMsg, Prog.bind, meaning, ha, received, Meaning.after]
    exact ⟨trivial, fun y hy => (by cases hy), fun _ => ⟨_, rfl⟩⟩

/-- a call whose status is not checked -/
theorem answer_unchecked {c : Call} (hcall : Sane c) {kw : Kwargs} (hf : Fits c kw) {client : Client} (hc : Rooted client)
    {after : Response → ApiM RVal} (hrw : ∀ r, c.request kw = .ok r → c.success ⟨lim, text⟩ client kw = (invoke client r).bind after) {good : Response → Prop}
    (hafter : ∀ x, Tail env ((after x).bind fun _ => .pure ()) (good x) (good x)) :
    Answers env client c kw good good ((c.success ⟨lim, text⟩ client kw).bind fun _ => .pure ()) := by
  intro h
  obtain ⟨r, hreq, hr⟩ := request_ok hcall.rooted hf
  obtain ⟨q, hq, hro⟩ := send_plain hc hr.1
  obtain ⟨h1, h2, h3⟩ := invoke_meaning (env := env) (hr.1.path.imp fun _ h => h.1) hq h
  rw [hrw r hreq]
  have hassoc : ((invoke client r).bind after).bind (fun _ => .pure ()) = (invoke client r).bind fun x => (after x).bind fun _ => .pure () := bind_assoc ..
  rw [hassoc]
  have key : (∃ x, env h q = .response x) ∨ ∀ x, env h q ≠ .response x := by
    cases env h q with
    | response x => exact .inl ⟨x, rfl⟩
    | failed e => exact .inr fun _ h => by cases h
    | broken e => exact .inr fun _ h => by cases h
  rcases key with ⟨x, hx⟩ | hno
  · obtain ⟨ho, hquiet⟩ := h2 x hx
    obtain ⟨h4, h5, h6⟩ := bind_val (k := fun x => (after x).bind fun _ => .pure ()) ho hquiet (hafter x)
    exact ⟨q, ⟨hro, r, r.headers, hreq, hq⟩, h4.trans h1, fun title v res h' he => ⟨x, hx, h5 title v res h' he⟩, fun y hy hg => h6 (by rw [hx] at hy; cases hy; exact hg)⟩
  · obtain ⟨e, ho⟩ := h3 hno
    obtain ⟨h4, h5⟩ := bind_raised (k := fun x => (after x).bind fun _ => .pure ()) ho
    exact ⟨q, ⟨hro, r, r.headers, hreq, hq⟩, h4.trans h1, fun title v res h' he => absurd he (no_ends h5), fun y hy => absurd hy (hno y)⟩

theorem tail_json (x : Response) : Tail env (((extractJson x).bind fun _ => .pure (Parse.Val.foreign : RVal)).bind fun _ => .pure ()) (anyJson lim x) (anyJson lim x) := by
  have hneg : ∀ {m}, extractJson x = .abortMsg m → ¬ anyJson lim x → Tail env (((extractJson x).bind fun _ => .pure (Parse.Val.foreign : RVal)).bind fun _ => .pure ()) (anyJson lim x) (anyJson lim x) := by
    intro m hm hn h
    rw [hm]
    exact ⟨rfl, fun hg => absurd hg hn, fun _ => ⟨⟨fun hp => Bool.noConfusion (show false = true from hp.2 _ rfl), fun h => absurd h hn⟩, ⟨fun h => (by cases h), fun h => absurd h hn⟩⟩⟩
  cases hj : x.json with
  | error f =>
    have hn : ¬ anyJson lim x := fun ⟨j, h, _⟩ => by rw [hj] at h; cases h
    cases f with
    | decode e => exact hneg (by rw [extractJson, hj]) hn
    | other e =>
      intro h
      rw [extractJson, hj]
      exact ⟨rfl, fun hg => absurd hg hn, fun hr => absurd rfl (hr _)⟩
  | ok j =>
    rcases container_of (j := j) with hcont | ⟨e, he⟩
    · rw [extract_of_container hj hcont]
      exact tail_pure.congr ⟨fun _ => ⟨j, hj, hcont⟩, fun _ => trivial⟩ ⟨fun _ => ⟨j, hj, hcont⟩, fun _ => trivial⟩
    · refine hneg (he x hj) fun ⟨j', h, hcont⟩ => ?_
      have := extract_of_container h hcont
      rw [hj] at h; cases h
      rw [he x hj] at this; cases this

theorem answer_json {c : Call} (hcall : Sane c) (hm : c.mode = .json) {kw : Kwargs} (hf : Fits c kw) {client : Client} (hc : Rooted client) :
    Answers env client c kw (anyJson lim) (anyJson lim) ((c.success ⟨lim, text⟩ client kw).bind fun _ => .pure ()) :=
  answer_unchecked hcall hf hc (after := fun response => (extractJson response).bind fun _ => .pure .foreign)
    (fun r hreq => by unfold Call.success; rw [hreq, hm]; rfl) tail_json

theorem answer_raw {c : Call} (hcall : Sane c) (hm : c.mode = .raw) {kw : Kwargs} (hf : Fits c kw) {client : Client} (hc : Rooted client) :
    Answers env client c kw (anything lim) (anything lim) ((c.success ⟨lim, text⟩ client kw).bind fun _ => .pure ()) :=
  answer_unchecked hcall hf hc (after := fun _ => .pure .foreign)
    (fun r hreq => by unfold Call.success; rw [hreq, hm]; rfl) fun _ => tail_pure

/-- what a setup that ends with a value has received -/
theorem setup_val (hs : Sound env) {c : Call} (hcall : Sane c) {ty : RTy} (hm : c.mode = .decode ty) {kw : Kwargs} (hf : Fits c kw) {client : Client} (hc : Rooted client)
    {α : Type} {k : RVal → ApiM α} {h : List Sent} {st : α} (ho : (meaning env ((c.success ⟨lim, text⟩ client kw).bind k) true h).out = .val st) :
    ∃ q r v, SendsWith client c kw q ∧ env h q = .response r ∧ Good lim ty r v ∧ (meaning env (k v) true (h ++ [q])).out = .val st := by
  obtain ⟨r, hreq, hr⟩ := request_ok hcall.rooted hf
  obtain ⟨q, hq, hro⟩ := invoke_one hc hr.1 hr.2
  obtain ⟨s1, s2⟩ := C57_step lim env text ty (hcall.type ty hm) Api.success client r q hq h
  have hrw : c.success ⟨lim, text⟩ client kw = invokeAndDecode ⟨lim, text⟩ client r ty Api.success := by
    unfold Call.success
    rw [hreq, hm]
    rfl
  rw [hrw, meaning_bind] at ho
  unfold Meaning.andThen at ho
  have key : (∃ x, env h q = .response x) ∨ ∀ x, env h q ≠ .response x := by
    cases env h q with
    | response x => exact .inl ⟨x, rfl⟩
    | failed e => exact .inr fun _ h => by cases h
    | broken e => exact .inr fun _ h => by cases h
  rcases key with ⟨x, hx⟩ | hno
  · have hd := s1 x hx fun j hj => hs _ _ _ _ hx hj
    cases ho' : (meaning env (invokeAndDecode ⟨lim, text⟩ client r ty Api.success) true h).out with
    | val a =>
      rw [ho'] at ho
      refine ⟨q, x, a, ⟨hro, r, _, hreq, hq⟩, hx, good_iff.mp ((hd.accepted a).mp ho'), ?_⟩
      rw [← hd.hist]
      exact ho
    | aborted y => rw [ho'] at ho; cases ho
    | raised e => rw [ho'] at ho; cases ho
  · obtain ⟨⟨e, ho'⟩, -⟩ := s2 hno
    rw [ho'] at ho; cases ho

theorem lift_val {α : Type} {x : Except PyExc α} {h : List Sent} {a : α} (ho : (meaning env (lift x) true h).out = .val a) : x = .ok a := by
  cases x with
  | ok b => cases ho; rfl
  | error e => cases ho

/-! ## urls -/

/-- the query parameters of a call -/
def asks (c : Call) (kw : Kwargs) : Option (List (Str × Str)) :=
  match bindArgs c.params kw with
  | .error _ => none
  | .ok args =>
    match queryOf args c.route.query with
    | .error _ => none
    | .ok q => some (present q)

/-- where an operation is: below the prefix, which is of the form `base` -/
structure Placed (S : Setting) (pre : Str) (base : List Seg) (path : List Piece) : Prop where
  slash : Slash pre
  fills : Fills base pre
  fixed : fixed base = true
  route : norm (base ++ segs path) = norm S.template

theorem asks_base {client : Client} {pre : Str} {base : List Seg} (hb : Fills base pre) {c : Call} {kw : Kwargs} {s : Sent}
    (h : SendsWith (client.descend pre) c kw s) {params : List (Str × Str)} (hq : asks c kw = some params)
    (hcp : ∀ p ∈ params, CodePoints p.1 ∧ CodePoints p.2) : At client (base ++ segs c.route.path) params s := by
  unfold asks at hq
  split at hq
  · cases hq
  rename_i args ha
  split at hq
  · cases hq
  rename_i q hqs
  cases hq
  exact sends_at hb h ha hqs hcp fun p hp => pathOf_fills hp

theorem asks_at {S : Setting} {pre : Str} {base : List Seg} {c : Call} (hp : Placed S pre base c.route.path) {kw : Kwargs} {s : Sent}
    (h : SendsWith (S.client.descend pre) c kw s) {params : List (Str × Str)} (hq : asks c kw = some params)
    (hcp : ∀ p ∈ params, CodePoints p.1 ∧ CodePoints p.2) : At S.client S.template params s :=
  At.congr (fun p h => by rw [← fills_norm, hp.route, fills_norm] at h; exact h) (asks_base hp.fills h hq hcp)

/-- the text of the argument in the path -/
def pathArg? (c : Call) (kw : Kwargs) (t : Str) : Prop := ∃ args, bindArgs c.params kw = .ok args ∧ ∀ n, Piece.arg n ∈ c.route.path → (args n).pyStr = .ok t

theorem asks_path {S : Setting} {pre : Str} {base : List Seg} {c : Call} (hp : Placed S pre base c.route.path) {kw : Kwargs} {s : Sent}
    (h : SendsWith (S.client.descend pre) c kw s) {params : List (Str × Str)} (hq : asks c kw = some params)
    (hcp : ∀ p ∈ params, CodePoints p.1 ∧ CodePoints p.2) {t : Str} (ht : pathArg? c kw t) : At S.client (replaced t S.template) params s := by
  obtain ⟨args, ha, harg⟩ := ht
  unfold asks at hq
  rw [ha] at hq
  dsimp only at hq
  split at hq
  · cases hq
  rename_i q hqs
  cases hq
  refine At.congr (fun p h => ?_) (sends_at hp.fills h ha hqs hcp (template := replaced t (segs c.route.path)) fun p hp => pathOf_replaced hp harg)
  rw [← replaced_fixed t base hp.fixed, ← replaced_append, ← fills_replaced, hp.route, fills_replaced] at h
  exact h

/-- all characters are ASCII -/
def asciiParams (l : List (Str × Str)) : Bool := l.all fun p => (p.1 ++ p.2).all fun c => decide (c < 128)

theorem ascii_params {l : List (Str × Str)} (h : asciiParams l = true) : ∀ p ∈ l, CodePoints p.1 ∧ CodePoints p.2 := by
  intro p hp
  have := List.all_eq_true.mp (List.all_eq_true.mp h p hp)
  simp only [decide_eq_true_eq] at this
  exact ⟨ascii_codePoints fun c hc => this c (List.mem_append_left _ hc), ascii_codePoints fun c hc => this c (List.mem_append_right _ hc)⟩

/-! ## tests -/

variable {S : Setting} {pre : Str} {base : List Seg}

theorem TestsAnswer.congr {template : List Seg} {params : List (Str × Str)} {good full good' full' : Demand} {p : ApiM Unit}
    (h : TestsAnswer S template params good full p) (hg : ∀ lim r, good lim r ↔ good' lim r) (hf : ∀ lim r, full lim r ↔ full' lim r) :
    TestsAnswer S template params good' full' p := by
  intro hist
  obtain ⟨q, h1, h2, h3, hc⟩ := h hist
  refine ⟨q, h1, h2, fun title v res h' he => ?_, fun r hr hg' => hc r hr ((hg _ _).mpr hg')⟩
  obtain ⟨r, h4, h5, h6⟩ := h3 title v res h' he
  exact ⟨r, h4, by rw [h5, hg], by rw [h6, hf]⟩

/-- a test of the operation -/
theorem tests_of {c : Call} {kw : Kwargs} {good full : Demand} {p : ApiM Unit} {template : List Seg} {params : List (Str × Str)}
    (h : Answers S.env (S.client.descend pre) c kw (good S.lim) (full S.lim) p) (ha : ∀ q, SendsWith (S.client.descend pre) c kw q → At S.client template params q) :
    TestsAnswer S template params good full p := by
  intro hist
  obtain ⟨q, h1, h2, h3⟩ := h hist
  exact ⟨q, ha q h1, sentBy_one h2, h3⟩

end Verif.Api.Suites
