import Verif.SuiteFacts4
import Verif.Props.Http

/-! # Requests of the negative tests -/

namespace Verif.Api.Suites
open Verif Verif.Parse Verif.Aas Verif.Spec Verif.Spec.Parse Verif.Spec.Api Verif.Spec.Suites Verif.Spec.Routes Verif.Spec.Generate Verif.Generate Verif.Http Verif.Props
open Verif.Api hiding sane supported

variable {env : List Sent → Sent → Answer} {cfg : Cfg}

/-! ## URLs -/

theorem replaced_append (t : Str) : ∀ a b : List Seg, replaced t (a ++ b) = replaced t a ++ replaced t b
  | [], _ => rfl
  | .value :: a, b => by simp [replaced, replaced_append t a b]
  | .text _ :: a, b => by simp [replaced, replaced_append t a b]
  | .id :: a, b => by simp [replaced, replaced_append t a b]

theorem replaced_fixed (t : Str) : ∀ l : List Seg, fixed l = true → replaced t l = l
  | [], _ => rfl
  | .value :: l, h => by simp [fixed] at h
  | .text _ :: l, h => by simp [replaced, replaced_fixed t l (by simpa [fixed] using h)]
  | .id :: l, h => by simp [replaced, replaced_fixed t l (by simpa [fixed] using h)]

theorem fills_replaced (t : Str) : ∀ (l : List Seg) (s : Str), Fills (replaced t (norm l)) s ↔ Fills (replaced t l) s
  | [], s => by simp [norm]
  | .text a :: l, s => by
    have ih := fills_replaced t l
    rw [norm]
    split
    · rename_i u rest h
      rw [h] at ih
      simp only [replaced, Fills] at ih ⊢
      refine ⟨fun ⟨r, hs, hr⟩ => ⟨u ++ r, by rw [hs, List.append_assoc], (ih _).mp ⟨r, rfl, hr⟩⟩, fun ⟨r, hs, hr⟩ => ?_⟩
      obtain ⟨r', hr', hr⟩ := (ih _).mpr hr
      exact ⟨r', by rw [hs, hr', List.append_assoc], hr⟩
    · split
      · rename_i ha
        subst ha
        rw [ih]
        simp only [replaced, Fills]
        exact ⟨fun h => ⟨s, rfl, h⟩, fun ⟨r, hs, hr⟩ => by rw [show s = r from hs]; exact hr⟩
      · simp only [replaced, Fills, ih]
  | .id :: l, s => by
    have ih := fills_replaced t l
    simp only [norm, replaced, Fills, ih]
  | .value :: l, s => by
    have ih := fills_replaced t l
    simp only [norm, replaced, Fills, ih]

theorem pathOf_replaced {args : Str → ArgVal} {t : Str} : ∀ {l : List Piece} {p : Str}, pathOf args l = .ok p →
    (∀ n, Piece.arg n ∈ l → (args n).pyStr = .ok t) → Fills (replaced t (segs l)) p
  | [], p, h, _ => by cases h; rfl
  | .lit s :: l, p, h, ha => by
    rw [pathOf] at h
    cases hr : pathOf args l with
    | error e => rw [hr] at h; cases h
    | ok r =>
      rw [hr] at h
      cases h
      exact ⟨r, rfl, pathOf_replaced hr fun n hn => ha n (List.mem_cons_of_mem _ hn)⟩
  | .arg n :: l, p, h, ha => by
    rw [pathOf, ha n List.mem_cons_self] at h
    cases hr : pathOf args l with
    | error e => rw [hr] at h; cases h
    | ok r =>
      rw [hr] at h
      cases h
      exact ⟨r, rfl, pathOf_replaced hr fun n hn => ha n (List.mem_cons_of_mem _ hn)⟩

/-- where a request goes: the path below the prefix, and the query -/
theorem sends_at {client : Client} {pre : Str} {base : List Seg} (hb : Fills base pre) {c : Call} {kw : Kwargs} {s : Sent}
    (h : SendsWith (client.descend pre) c kw s) {args : Str → ArgVal} (ha : bindArgs c.params kw = .ok args) {q : List (Str × Option Str)}
    (hq : queryOf args c.route.query = .ok q) (hcp : ∀ p ∈ present q, CodePoints p.1 ∧ CodePoints p.2) {template : List Seg}
    (hp : ∀ p, pathOf args c.route.path = .ok p → Fills template p) : At client (base ++ template) (present q) s := by
  obtain ⟨-, r, headers, hr, hs⟩ := h
  simp only [Call.request, Route.request, bind, Except.bind, ha, hq] at hr
  cases hpath : pathOf args c.route.path with
  | error e => rw [hpath] at hr; cases hr
  | ok path =>
    rw [hpath] at hr
    cases hr
    have hf := fills_append hb (hp path hpath)
    have hpre : (client.descend pre).prefixes.flatten = pre := by simp [Client.descend, Client.init]
    unfold Client.send Request.makeUrl at hs
    dsimp only at hs
    split at hs
    · rename_i hnil
      cases hs
      exact ⟨_, [], hf, by simp [Client.descend, Client.init], .inl ⟨hnil, rfl⟩⟩
    · rename_i hne
      simp only [bind, Except.bind] at hs
      cases hu : urlencode (present q) with
      | error e => rw [hu] at hs; cases hs
      | ok t =>
        rw [hu] at hs
        cases hs
        exact ⟨_, _, hf, by rw [hpre, List.append_assoc]; rfl, .inr ⟨t, rfl, (urlencode_spec hu (fun h => hne h) hcp).1⟩⟩

/-! ## negative tests -/

theorem ends_unit {α : Type} {p : ApiM α} {title : Str} {h : List Sent} {v : Option Unit} {res : Res Str} {h' : List Sent}
    (he : Ends env title (p.bind fun _ => .pure ()) h v res h') : ∃ v', Ends env title p h v' res h' := by
  unfold Ends at he ⊢
  rw [meaning_bind] at he
  unfold Meaning.andThen at he
  dsimp only at he ⊢
  cases ho : (meaning env p true h).out with
  | val a =>
    rw [ho] at he
    simp [Meaning.after, meaning] at he
    exact ⟨some a, he.1, .inl ⟨a, rfl, rfl, he.2.2⟩⟩
  | aborted x =>
    rw [ho] at he
    simp at he
    exact ⟨none, he.1, .inr ⟨x, rfl, rfl, he.2.2⟩⟩
  | raised e =>
    rw [ho] at he
    simp at he

theorem no_ends {α : Type} {p : ApiM α} {title : Str} {h : List Sent} {v : Option α} {res : Res Str} {h' : List Sent} {e : Exc}
    (hr : (meaning env p true h).out = .raised e) : ¬ Ends env title p h v res h' := by
  rintro ⟨-, ⟨a, ha, -⟩ | ⟨x, hx, -⟩⟩
  · rw [hr] at ha; cases ha
  · rw [hr] at hx; cases hx

/-- one request is sent -/
theorem invoke_one {client : Client} (hc : Rooted client) {r : Request} (hr : Plain r) (hh : r.headers = []) :
    ∃ q, client.send (fun _ => []) { r with headers := setHeader py!"content-type" py!"application/json" r.headers } = .ok q ∧ ReadOnly client q :=
  send_plain hc (hr.json hh)

theorem hist_bind {α β : Type} {p : ApiM α} {k : α → ApiM β} {h h' : List Sent} (hp : (meaning env p true h).hist = h')
    (hk : ∀ a, (meaning env p true h).out = .val a → ∀ h, (meaning env (k a) true h).hist = h) : (meaning env (p.bind k) true h).hist = h' := by
  rw [meaning_bind]
  unfold Meaning.andThen
  cases ho : (meaning env p true h).out with
  | val a => simp [Meaning.after, hk a ho, hp]
  | aborted x => exact hp
  | raised e => exact hp

/-- a negative test -/
theorem error_test (hs : Sound env) {c : Call} (hcall : Sane c) (hfail : c.canFail = true) {kw : Kwargs} (hf : Fits c kw) {client : Client}
    (hc : Rooted client) (h : List Sent) : ∃ q, SendsWith client c kw q ∧ (meaning env (c.error cfg client kw) true h).hist = h ++ [q] ∧
    (∀ title v res h', Ends env title (c.error cfg client kw) h v res h' → ∃ r, env h q = .response r ∧ (res.ok = true ↔ Rejection cfg.lim r)) ∧
    ∀ r, env h q = .response r → Rejection cfg.lim r → ¬ Throws env (c.error cfg client kw) h := by
  obtain ⟨r, hreq, hr⟩ := request_ok hcall.rooted hf
  obtain ⟨q, hq, hro⟩ := invoke_one hc hr.1 hr.2
  have hty : ResponseTy (.cls .errorResult) := ⟨rfl, trivial⟩
  obtain ⟨s1, s2⟩ := C57_step cfg.lim env cfg.text (.cls .errorResult) hty clientError client r q hq h
  have hrw : c.error cfg client kw = (invokeAndDecode cfg client r (.cls .errorResult) clientError).bind fun _ => .pure () := by
    unfold Call.error
    rw [if_pos hfail, hreq]
    rfl
  refine ⟨q, ⟨hro, r, _, hreq, hq⟩, ?_, ?_, fun x hx hrej => ?_⟩
  rotate_left 2
  · have hw : ∀ j, x.json = .ok j → WF j := fun j hj => hs _ _ _ _ hx hj
    obtain ⟨w, ha⟩ := (C57_error cfg.lim x hw).1.mpr hrej
    have ho := ((s1 x hx hw).accepted w).mpr ha
    rintro ⟨e, he⟩
    rw [hrw, meaning_bind] at he
    unfold Meaning.andThen at he
    rw [ho] at he
    cases he
  · rw [hrw]
    refine hist_bind ?_ fun _ _ _ => rfl
    cases ha : env h q with
    | response x => exact (s1 x ha fun j hj => hs _ _ _ _ ha hj).hist
    | failed e => exact (s2 fun x hx => by rw [ha] at hx; cases hx).2
    | broken e => exact (s2 fun x hx => by rw [ha] at hx; cases hx).2
  · intro title v res h' he
    rw [hrw] at he
    obtain ⟨v', he⟩ := ends_unit he
    cases ha : env h q with
    | response x =>
      have hw : ∀ j, x.json = .ok j → WF j := fun j hj => hs _ _ _ _ ha hj
      refine ⟨x, rfl, ?_⟩
      rw [(C57_test cfg.lim env cfg.text _ hty clientError client r q hq h x ha hw title v' res h' he).2.1, (C57_error cfg.lim x hw).1]
      rfl
    | failed e =>
      obtain ⟨⟨e, ho⟩, -⟩ := s2 fun x hx => by rw [ha] at hx; cases hx
      exact absurd he (no_ends ho)
    | broken e =>
      obtain ⟨⟨e, ho⟩, -⟩ := s2 fun x hx => by rw [ha] at hx; cases hx
      exact absurd he (no_ends ho)

/-! ## the invalid values -/

theorem expected_calls {valid : Kwargs} : ∀ {ps : List Arg} {invalid : List (List ArgVal)}, Generated argClasses ps invalid →
    expectedCalls valid ((ps.map (·.name)).zip invalid) = ps.flatMap fun a => match generateInvalidValues argClasses a with
      | .ok vs => vs.map fun v => (a.name, v, Kwargs.set a.name v valid)
      | .error _ => []
  | _, _, .nil => rfl
  | _, _, .cons h hg => by
    simp only [List.map_cons, List.zip_cons_cons, expectedCalls, List.flatMap_cons, expected_calls hg, h]

theorem calls_mem {c : Call} {valid : Kwargs} {x : Str × ArgVal × Kwargs} (h : x ∈ callsOf c valid) :
    ∃ a ∈ c.params, ∃ vs, generateInvalidValues argClasses a = .ok vs ∧ x.2.1 ∈ vs ∧ x = (a.name, x.2.1, Kwargs.set a.name x.2.1 valid) := by
  obtain ⟨a, ha, hx⟩ := List.mem_flatMap.mp h
  split at hx
  · rename_i vs hvs
    obtain ⟨v, hv, rfl⟩ := List.mem_map.mp hx
    exact ⟨a, ha, vs, hvs, hv, rfl⟩
  · cases hx

theorem ascii_codePoints {s : Str} (h : ∀ c ∈ s, c < 128) : CodePoints s := fun c hc => by have := h c hc; omega

theorem sentBy_one {p : ApiM Unit} {h : List Sent} {q : Sent} (hh : (meaning env p true h).hist = h ++ [q]) : sentBy env p h = [q] := by
  rw [sentBy, hh, List.drop_left]

theorem At.congr {client : Client} {a b : List Seg} {params : List (Str × Str)} {s : Sent} (h : ∀ p, Fills a p → Fills b p) : At client a params s → At client b params s
  | ⟨path, query, h1, h2⟩ => ⟨path, query, h path h1, h2⟩

/-- the request of a negative test -/
theorem row_carries {c : Call}
    {client : Client} {pre : Str} {base' template : List Seg} (hb : Fills base' pre) (hfix : fixed base' = true)
    (hroute : norm (base' ++ segs c.route.path) = norm template) {b : Bad} {name : Str} {v : ArgVal} {kw : Kwargs}
    (hrow : rowOk c b name v kw = true) {q : Sent} (hq : SendsWith (client.descend pre) c kw q) : Carries client template b q := by
  unfold rowOk at hrow
  rw [Bool.and_eq_true, Bool.and_eq_true] at hrow
  obtain ⟨-, hrow⟩ := hrow
  split at hrow
  · cases hrow
  rename_i args ha
  split at hrow
  · cases hrow
  rename_i qs hqs
  unfold Carries
  cases hp : b.place with
  | path =>
    rw [hp] at hrow
    simp only [Bool.and_eq_true, decide_eq_true_eq, List.all_eq_true] at hrow
    have := sends_at hb hq ha hqs (by rw [hrow.1]; exact fun _ h => by cases h) (template := replaced b.text (segs c.route.path))
      fun p hp => pathOf_replaced hp fun n hn => by simpa using hrow.2 _ hn
    rw [hrow.1] at this
    refine At.congr (fun p hp => ?_) this
    rw [← replaced_fixed b.text base' hfix, ← replaced_append, ← fills_replaced, hroute, fills_replaced] at hp
    exact hp
  | query k =>
    rw [hp] at hrow
    simp only [Bool.and_eq_true, decide_eq_true_eq, List.all_eq_true] at hrow
    have := sends_at hb hq ha hqs (by
      rw [hrow.1]
      intro p hp
      simp only [List.mem_cons, List.not_mem_nil, or_false] at hp
      subst hp
      exact ⟨ascii_codePoints fun c hc => hrow.2 c (List.mem_append_left _ hc), ascii_codePoints fun c hc => hrow.2 c (List.mem_append_right _ hc)⟩) (template := segs c.route.path)
      fun p hp => pathOf_fills hp
    rw [hrow.1] at this
    refine At.congr (fun p hp => ?_) this
    rw [← fills_norm, hroute, fills_norm] at hp
    exact hp

theorem rows_of (hs : Sound env) {E : List PyExc} {e : Str × List Seg} {op : Op} {base : List Seg} {c : Call} {S S' T : List PyExc} {ok : op.suite.σ → Prop}
    (hf : OpFacts env cfg E e op base c S S' T ok) {client : Client} {pre : Str} (hsl : Slash pre) {base' template : List Seg} (hb : Fills base' pre)
    (hfix : fixed base' = true) (hroute : norm (base' ++ segs c.route.path) = norm template) {st : op.suite.σ} (hst : ok st) :
    ∀ (bs : List Bad) (xs : List (Str × ArgVal × Kwargs)), rowsOk c bs xs = true → (∀ x ∈ xs, x ∈ callsOf c (op.suite.valid st)) →
    Rows env cfg client template bs (xs.map fun (name, v, kw) =>
      (py!"Set " ++ name ++ py!" = '" ++ (match v.pyStr with | .ok t => t | .error _ => []) ++ py!"'", op.suite.invokeError (client.descend pre) kw))
  | [], [], _, _ => .nil
  | b :: bs, (name, v, kw) :: xs, h, hm => by
    rw [rowsOk, Bool.and_eq_true] at h
    have ht := h.1
    unfold rowOk at ht
    rw [Bool.and_eq_true, Bool.and_eq_true, decide_eq_true_eq, decide_eq_true_eq] at ht
    obtain ⟨⟨rfl, htext⟩, -⟩ := ht
    rw [List.map_cons]
    dsimp only
    rw [htext]
    refine .cons ?_ (rows_of hs hf hsl hb hfix hroute hst bs xs h.2 fun x hx => hm x (List.mem_cons_of_mem _ hx))
    obtain ⟨a, ha, vs, hvs, hv, hx⟩ := calls_mem (hm _ List.mem_cons_self)
    dsimp only at hv hx
    rw [hf.checked.invoke]
    obtain ⟨h1, h2⟩ := hf.checked.negative st hst a ha vs hvs v hv
    injection hx with _ hx
    injection hx with _ hx
    rw [← hx] at h2
    intro hist
    obtain ⟨q, hq, hh, hend⟩ := error_test (cfg := cfg) hs hf.checked.sane h1 h2 (rooted_descend (client := client) hsl) hist
    exact ⟨q, row_carries hb hfix hroute h.1 hq, sentBy_one hh, hend⟩
  | [], _ :: _, h, _ => by cases h
  | _ :: _, [], h, _ => by cases h

end Verif.Api.Suites
