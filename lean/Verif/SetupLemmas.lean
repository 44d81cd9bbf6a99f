import Verif.SuiteFacts9
import Verif.Spec.Setups

/-! # Lemmas about setups -/

namespace Verif.Api.Suites
open Verif Verif.Parse Verif.Aas Verif.Spec Verif.Spec.Parse Verif.Spec.Api Verif.Spec.Suites Verif.Spec.Routes Verif.Spec.Generate Verif.Generate Verif.Http Verif.Props
open Verif.Api hiding sane supported

variable {env : List Sent → Sent → Answer} {lim : Option Nat} {text : Note → Str}

/-! ## paths with ids -/

theorem put_nil : ∀ l : List Seg, put [] l = l
  | [] => rfl
  | .text t :: l => by rw [put, put_nil l]
  | .value :: l => by rw [put, put_nil l]
  | .id :: l => by rw [put, put_nil l]

theorem norm_text (a b : Str) (l : List Seg) : norm (.text (a ++ b) :: l) = norm (.text a :: .text b :: l) := by
  rw [norm, norm]
  cases hn : norm l with
  | nil =>
    by_cases hb : b = []
    · subst hb; rw [norm, hn]; simp
    · rw [norm, hn]; simp [hb]
  | cons x xs =>
    cases x with
    | text c => rw [norm, hn]; simp
    | id =>
      by_cases hb : b = []
      · subst hb; rw [norm, hn]; simp
      · rw [norm, hn]; simp [hb]
    | value =>
      by_cases hb : b = []
      · subst hb; rw [norm, hn]; simp
      · rw [norm, hn]; simp [hb]

theorem norm_cons_text (a : Str) {l m : List Seg} (h : norm l = norm m) : norm (.text a :: l) = norm (.text a :: m) := by
  rw [norm, norm, h]

theorem norm_other {x : Seg} (h : ∀ s, x ≠ .text s) (l : List Seg) : norm (x :: l) = x :: norm l := by
  cases x with
  | text s => exact absurd rfl (h s)
  | id => rfl
  | value => rfl

theorem norm_empty (l : List Seg) : norm (.text [] :: l) = norm l := by
  rw [norm]
  cases norm l with
  | nil => rfl
  | cons y ys => cases y <;> rfl

theorem norm_put : ∀ (vs : List Str) (l : List Seg), norm (put vs (norm l)) = norm (put vs l)
  | vs, [] => rfl
  | [], .id :: l => by
    have ih := norm_put [] l
    rw [put_nil, put_nil] at ih
    rw [put_nil, put_nil, norm_other (fun _ h => by cases h), norm_other (fun _ h => by cases h), ih]
  | v :: vs, .id :: l => by
    rw [norm_other (fun _ h => by cases h), put, put]
    exact norm_cons_text v (norm_put vs l)
  | vs, .value :: l => by
    rw [norm_other (fun _ h => by cases h), put, put, norm_other (fun _ h => by cases h), norm_other (fun _ h => by cases h), norm_put vs l]
  | vs, .text t :: l => by
    have ih := norm_put vs l
    rw [put, norm_cons_text t ih.symm, norm]
    split
    · rename_i c xs hn
      rw [hn, put, put, norm_text]
    · split
      · rename_i ht
        subst ht
        rw [norm_empty]
      · rw [put]

theorem put_congr (vs : List Str) {l m : List Seg} (h : norm l = norm m) : norm (put vs l) = norm (put vs m) := by
  rw [← norm_put vs l, h, norm_put]

/-- no ids -/
def noIds (l : List Seg) : Bool := l.all fun s => decide (s ≠ .id)

theorem put_noIds (vs : List Str) : ∀ {l : List Seg}, noIds l = true → put vs l = l
  | [], _ => by cases vs <;> rfl
  | .id :: _, h => by cases h
  | .text t :: l, h => by rw [put, put_noIds vs (l := l) (by simpa [noIds] using h)]
  | .value :: l, h => by rw [put, put_noIds vs (l := l) (by simpa [noIds] using h)]

/-- ids do not reach the path of the call -/
theorem put_append : ∀ (vs : List Str) (b : List Seg) {l : List Seg}, noIds l = true → put vs (b ++ l) = put vs b ++ l
  | vs, [], l, h => by rw [List.nil_append, put_noIds _ h, show put vs [] = [] by cases vs <;> rfl]; rfl
  | [], .id :: b, l, h => by rw [List.cons_append, put, put, put_append [] b h]; rfl
  | v :: vs, .id :: b, l, h => by rw [List.cons_append, put, put, put_append vs b h]; rfl
  | vs, .text t :: b, l, h => by rw [List.cons_append, put, put, put_append vs b h]; rfl
  | vs, .value :: b, l, h => by rw [List.cons_append, put, put, put_append vs b h]; rfl

theorem segs_noIds : ∀ l : List Piece, noIds (segs l) = true
  | [] => rfl
  | .lit _ :: l => by have := segs_noIds l; simpa [noIds, segs] using this
  | .arg _ :: l => by have := segs_noIds l; simpa [noIds, segs] using this

theorem fixed_put : ∀ (vs : List Str) {b : List Seg}, fixed b = true → fixed (put vs b) = true
  | vs, [], _ => by cases vs <;> rfl
  | [], .id :: b, h => by rw [put_nil]; exact h
  | v :: vs, .id :: b, h => by
    have := fixed_put vs (b := b) (by simpa [fixed] using h)
    simpa [put, fixed] using this
  | vs, .text t :: b, h => by
    have := fixed_put vs (b := b) (by simpa [fixed] using h)
    rw [put]
    simpa [fixed] using this
  | vs, .value :: b, h => by simp [fixed] at h

/-! ## one request -/

theorem ends_ready {α : Type} {m : Meaning Sent α} {ids : List Str} {a : α} (ho : m.out = .val a) (hq : ∀ s ∈ Ent.toResL m.ents, s.ok = true) : EndsAs (.ready ids) m := by
  unfold EndsAs; rw [ho]; exact hq

theorem ends_aborted {α β : Type} {m : Meaning Sent α} {m' : Meaning Sent β} {o : Outcome} {x : Res Str} (h : EndsAs o m) (ho : m.out = .aborted x) (ho' : m'.out = .aborted x) :
    EndsAs o m' ∧ ∀ ids, o ≠ .ready ids := by
  unfold EndsAs at h ⊢
  rw [ho] at h; rw [ho']
  cases o <;> first | exact absurd h id | exact ⟨h, fun _ h => by cases h⟩

theorem ends_raised {α β : Type} {m : Meaning Sent α} {m' : Meaning Sent β} {o : Outcome} {x : Exc} (h : EndsAs o m) (ho : m.out = .raised x) (ho' : m'.out = .raised x) :
    EndsAs o m' ∧ ∀ ids, o ≠ .ready ids := by
  unfold EndsAs at h ⊢
  rw [ho] at h; rw [ho']
  cases o <;> first | exact absurd h id | exact ⟨h, fun _ h => by cases h⟩

theorem ends_val {α : Type} {m : Meaning Sent α} {o : Outcome} {a : α} (h : EndsAs o m) (ho : m.out = .val a) :
    (∃ ids, o = .ready ids) ∧ ∀ s ∈ Ent.toResL m.ents, s.ok = true := by
  unfold EndsAs at h
  rw [ho] at h
  cases o <;> first | exact ⟨⟨_, rfl⟩, h⟩ | cases h

/-- the program has this outcome, and sends nothing -/
def Does {α : Type} (env : List Sent → Sent → Answer) (p : ApiM α) (x : Except PyExc α) : Prop :=
  ∀ h, (meaning env p true h).hist = h ∧
    match x with
    | .ok a => (meaning env p true h).out = .val a ∧ ∀ s ∈ Ent.toResL (meaning env p true h).ents, s.ok = true
    | .error k => ∃ e, (meaning env p true h).out = .raised e ∧ e.kind = k

theorem does_pure {α : Type} (a : α) : Does env (.pure a) (.ok a) := fun _ => ⟨rfl, rfl, fun _ h => by cases h⟩

theorem does_lift {α : Type} (x : Except PyExc α) : Does env (lift x) x := by
  intro h
  cases x with
  | ok a => exact ⟨rfl, rfl, fun _ h => by cases h⟩
  | error e => exact ⟨rfl, _, rfl, rfl⟩

theorem does_bind {α β : Type} {p : ApiM α} {x : Except PyExc α} {k : α → ApiM β} {f : α → Except PyExc β} (hp : Does env p x) (hk : ∀ a, x = .ok a → Does env (k a) (f a)) :
    Does env (p.bind k) (x >>= f) := by
  intro h
  obtain ⟨h1, h2⟩ := hp h
  rw [meaning_bind]
  unfold Meaning.andThen
  cases x with
  | error e =>
    obtain ⟨y, hy, hk⟩ := h2
    rw [hy]
    exact ⟨h1, y, rfl, hk⟩
  | ok a =>
    dsimp only at h2
    rw [h2.1]
    obtain ⟨h3, h4⟩ := hk a rfl h
    simp only [bind, Except.bind]
    dsimp only [Meaning.after]
    rw [h1]
    refine ⟨h3, ?_⟩
    split
    · rename_i b hb
      rw [hb] at h4
      refine ⟨h4.1, fun s hs => ?_⟩
      rw [toResL_append] at hs
      exact (List.mem_append.mp hs).elim (h2.2 s) (h4.2 s)
    · rename_i b hb
      rw [hb] at h4
      exact h4

/-- one request, whose response is used -/
theorem ask_plan (hs : Sound env) {c : Call} (hcall : Sane c) {a : Ask} (hm : c.mode = .decode a.type) {kw : Kwargs} (hf : Fits c kw) {client client' : Client} (hc : Rooted client')
    {ids vs : List Str} (hv : Encoded ids vs) (hat : ∀ q, SendsWith client' c kw q → At client (put vs a.path) a.params q)
    {α : Type} {k : RVal → ApiM α} {f : RVal → Except PyExc α} (hk : ∀ v, HasType (respSchema lim) a.type v → Does env (k v) (f v)) {R : α → List Str → Prop}
    (hok : ∀ v x, HasType (respSchema lim) a.type v → f v = .ok x → ∃ new, a.finds v new ∧ R x new)
    (hno : ∀ v e, HasType (respSchema lim) a.type v → f v = .error e → a.lacks v e) (h : List Sent) :
    ∃ qs o, Follows env lim client [a] ids h qs o ∧ (meaning env ((c.success ⟨lim, text⟩ client' kw).bind k) true h).hist = h ++ qs ∧
      EndsAs o (meaning env ((c.success ⟨lim, text⟩ client' kw).bind k) true h) ∧
      ∀ ids', o = .ready ids' → ∃ new x, ids' = ids ++ new ∧ (meaning env ((c.success ⟨lim, text⟩ client' kw).bind k) true h).out = .val x ∧ R x new := by
  obtain ⟨r, hreq, hr⟩ := request_ok hcall.rooted hf
  obtain ⟨q, hq, hro⟩ := invoke_one hc hr.1 hr.2
  have hsend := hat q ⟨hro, r, _, hreq, hq⟩
  obtain ⟨s1, s2⟩ := C57_step lim env text a.type (hcall.type a.type hm) Api.success client' r q hq h
  have hrw : c.success ⟨lim, text⟩ client' kw = invokeAndDecode ⟨lim, text⟩ client' r a.type Api.success := by
    unfold Call.success
    rw [hreq, hm]
    rfl
  rw [hrw, meaning_bind]
  unfold Meaning.andThen
  have key : (∃ x, env h q = .response x) ∨ ∀ x, env h q ≠ .response x := by
    cases env h q with
    | response x => exact .inl ⟨x, rfl⟩
    | failed e => exact .inr fun _ h => by cases h
    | broken e => exact .inr fun _ h => by cases h
  rcases key with ⟨x, hx⟩ | hno'
  · have hd := s1 x hx fun j hj => hs _ _ _ _ hx hj
    have hfail : Failing lim a.type (Api.success · = true) x ↔ Failing lim a.type (· = 200) x := by
      simp [Failing, Api.success]
    cases ho : (meaning env (invokeAndDecode ⟨lim, text⟩ client' r a.type Api.success) true h).out with
    | val v =>
      have hg := good_iff.mp ((hd.accepted v).mp ho)
      have ht := acceptable_typed hg
      obtain ⟨k1, k2⟩ := hk v ht (h ++ [q])
      rw [← hd.hist] at k1 k2
      cases hfv : f v with
      | ok y =>
        rw [hfv] at k2
        obtain ⟨new, hn, hR⟩ := hok v y ht hfv
        refine ⟨[q], _, .found hv hsend hx hg hn .done, ?_, ?_, ?_⟩
        · exact k1.trans hd.hist
        · refine ends_ready (a := y) k2.1 fun s hs => ?_
          dsimp only [Meaning.after] at hs
          rw [toResL_append] at hs
          exact (List.mem_append.mp hs).elim (hd.quiet v ho s) (k2.2 s)
        · rintro _ ⟨⟩
          exact ⟨new, y, rfl, k2.1, hR⟩
      | error e =>
        rw [hfv] at k2
        obtain ⟨y, hy, hye⟩ := k2
        refine ⟨[q], _, .lacking hv hsend hx hg (hno v e ht hfv), k1.trans hd.hist, ?_, fun _ h => (by cases h)⟩
        unfold EndsAs
        dsimp only [Meaning.after]
        rw [hy]
        exact hye
    | aborted y =>
      have hn : ∀ v, ¬ Good lim a.type x v := fun v hg => by
        have := (hd.accepted v).mpr (good_iff.mpr hg)
        rw [ho] at this; cases this
      have hnf : ¬ Failing lim a.type (· = 200) x := fun hf => by
        obtain ⟨e, he⟩ := hd.raised.mpr (hfail.mpr hf)
        rw [ho] at he; cases he
      exact ⟨[q], _, .rejected hv hsend hx hn hnf, hd.hist, hd.fails y ho, fun _ h => (by cases h)⟩
    | raised e =>
      exact ⟨[q], _, .failing hv hsend hx (hfail.mp (hd.raised.mp ⟨e, ho⟩)), hd.hist, trivial, fun _ h => (by cases h)⟩
  · obtain ⟨⟨e, ho⟩, hh⟩ := s2 hno'
    rw [ho]
    dsimp only
    exact ⟨[q], _, .unanswered hv hsend hno', hh, trivial, fun _ h => (by cases h)⟩

theorem follows_append {client : Client} {as bs : List Ask} {ids ids' : List Str} {h qs qs' : List Sent} {o o' : Outcome}
    (h1 : Follows env lim client as ids h qs o) (ho : o = .ready ids') (h2 : Follows env lim client bs ids' (h ++ qs) qs' o') :
    Follows env lim client (as ++ bs) ids h (qs ++ qs') o' := by
  induction h1 with
  | done => cases ho; simpa using h2
  | found hv hat hx hg hf _ ih => exact .found hv hat hx hg hf (ih ho (by simpa using h2))
  | lacking => cases ho
  | rejected => cases ho
  | failing => cases ho
  | unanswered => cases ho

theorem follows_stop {client : Client} {as : List Ask} (bs : List Ask) {ids : List Str} {h qs : List Sent} {o : Outcome}
    (h1 : Follows env lim client as ids h qs o) (ho : ∀ ids', o ≠ .ready ids') : Follows env lim client (as ++ bs) ids h qs o := by
  induction h1 with
  | done => exact absurd rfl (ho _)
  | found hv hat hx hg hf _ ih => exact .found hv hat hx hg hf (ih ho)
  | lacking hv hat hx hg hl => exact .lacking hv hat hx hg hl
  | rejected hv hat hx hn hf => exact .rejected hv hat hx hn hf
  | failing hv hat hx hf => exact .failing hv hat hx hf
  | unanswered hv hat hx => exact .unanswered hv hat hx

end Verif.Api.Suites
