import Verif.Spec.Suites
import Verif.ProgSat
import Verif.Props.Responses
import Verif.Props.Http

/-! # Requests and outcomes of the test suites -/

namespace Verif.Api.Suites
open Verif Verif.Parse Verif.Aas Verif.Spec Verif.Spec.Parse Verif.Spec.Api Verif.Spec.Suites Verif.Generate Verif.Http Verif.Props
open Verif.Api hiding sane supported

variable {env : List Sent → Sent → Answer}

/-! ## requests -/

theorem quotePlus_ok {s : Str} (h : NoSurrogates s) : ∃ t, quotePlus s = .ok t := by
  obtain ⟨b, hb⟩ := (utf8_ok s).mpr h
  exact ⟨_, by rw [quotePlus, hb]; rfl⟩

theorem quotePairs_ok : ∀ {ps : List (Str × Str)}, (∀ p ∈ ps, NoSurrogates p.1 ∧ NoSurrogates p.2) → ∃ l, quotePairs ps = .ok l
  | [], _ => ⟨_, rfl⟩
  | (k, v) :: rest, h => by
    obtain ⟨h1, h2⟩ := h _ List.mem_cons_self
    obtain ⟨k', hk⟩ := quotePlus_ok h1
    obtain ⟨v', hv⟩ := quotePlus_ok h2
    obtain ⟨r, hr⟩ := quotePairs_ok fun p hp => h p (List.mem_cons_of_mem _ hp)
    exact ⟨_, by rw [quotePairs, hk, hv, hr]; rfl⟩

theorem makeUrl_ok (r : Request) (h : ∀ p ∈ present r.query, NoSurrogates p.1 ∧ NoSurrogates p.2) : ∃ rest, r.makeUrl = .ok (r.path ++ rest) := by
  unfold Request.makeUrl
  split
  · exact ⟨[], by simp⟩
  · obtain ⟨l, hl⟩ := quotePairs_ok h
    exact ⟨_, by rw [urlencode, hl]; rfl⟩

theorem present_mem : ∀ {q : List (Str × Option Str)} {k v : Str}, (k, v) ∈ present q → (k, some v) ∈ q
  | [], _, _, h => by cases h
  | (k', some v') :: rest, k, v, h => by
    rw [present] at h
    rcases List.mem_cons.mp h with h | h
    · cases h; exact List.mem_cons_self
    · exact List.mem_cons_of_mem _ (present_mem h)
  | (k', none) :: rest, k, v, h => List.mem_cons_of_mem _ (present_mem (by rwa [present] at h))

theorem ascii_ok {s : Str} (h : ∀ c ∈ s, c < 128) : NoSurrogates s := fun c hc => by have := h c hc; omega

theorem b64Char_ascii (n : Nat) : b64Char n < 128 := by
  unfold b64Char
  split
  · omega
  split
  · omega
  split
  · omega
  split <;> decide

theorem b64_ascii : ∀ (bs : List Nat), ∀ c ∈ b64 bs, c < 128
  | a :: b :: c :: rest, x, hx => by
    rw [b64] at hx
    simp only [List.mem_cons] at hx
    rcases hx with rfl | rfl | rfl | rfl | hx <;> first | exact b64Char_ascii _ | exact b64_ascii rest x hx
  | [a, b], x, hx => by
    rw [b64] at hx
    simp only [List.mem_cons, List.not_mem_nil, or_false] at hx
    rcases hx with rfl | rfl | rfl | rfl <;> first | exact b64Char_ascii _ | decide
  | [a], x, hx => by
    rw [b64] at hx
    simp only [List.mem_cons, List.not_mem_nil, or_false] at hx
    rcases hx with rfl | rfl | rfl | rfl <;> first | exact b64Char_ascii _ | decide
  | [], x, hx => by cases hx

theorem mem_stripChar {c x : Nat} {s : Str} (h : x ∈ stripChar c s) : x ∈ s := by
  unfold stripChar at h
  rw [List.mem_reverse] at h
  have := (List.dropWhile_sublist _).subset h
  rw [List.mem_reverse] at this
  exact (List.dropWhile_sublist _).subset this

/-- base64url encoded text is ASCII -/
theorem base64_ascii {s : Str} (h : NoSurrogates s) : ∃ t, base64Urlsafe s = .ok t ∧ ∀ c ∈ t, c < 128 := by
  obtain ⟨b, hb⟩ := (utf8_ok s).mpr h
  exact ⟨_, by rw [base64Urlsafe, hb]; rfl, fun c hc => b64_ascii b c (mem_stripChar hc)⟩

/-- the url is empty or starts with a slash -/
def Slash (s : Str) : Prop := s = [] ∨ s.head? = some (pc! '/')

theorem Slash.append {a b : Str} (ha : Slash a) (hb : Slash b) : Slash (a ++ b) := by
  rcases ha with rfl | ha
  · exact hb
  · right
    cases a with
    | nil => cases ha
    | cons c a => exact ha

theorem removePrefix_slash {pre url : Str} (h : Slash url) : Slash (removePrefix pre url) := by
  unfold removePrefix
  split
  · rename_i hc
    simp only [Bool.and_eq_true, Bool.or_eq_true, beq_iff_eq] at hc
    rcases hc.2 with hl | hl
    · exact .inl (by rw [List.drop_eq_nil_iff]; omega)
    · right
      rw [List.head?_drop, hl]
  · exact h

/-- requests that the tests build -/
structure Plain (r : Request) : Prop where
  method : r.method = py!"get"
  body : r.body = none
  path : ∃ rest, r.makeUrl = .ok rest ∧ Slash rest
  headers : r.headers = [] ∨ r.headers = [(py!"content-type", py!"application/json")]

/-- clients whose prefix is a path -/
def Rooted (client : Client) : Prop := Slash client.prefixes.flatten

theorem send_plain {client : Client} (hc : Rooted client) {r : Request} (hr : Plain r) :
    ∃ q, client.send (fun _ => []) r = .ok q ∧ ReadOnly client q := by
  obtain ⟨rest, h, hp⟩ := hr.path
  unfold Client.send
  rw [h]
  refine ⟨_, rfl, hr.method, ?_, rfl, ⟨_, rfl, removePrefix_slash (hc.append hp)⟩, hr.headers⟩
  show Option.map _ r.body = none
  rw [hr.body]; rfl

/-- exceptions of a call -/
def Known (env : List Sent → Sent → Answer) (lim : Option Nat) (e : Exc) : Prop := Outside env e ∨ ByCheck env lim e

variable {cfg : Cfg} {client : Client}

/-- where a response comes from -/
def FromServer (env : List Sent → Sent → Answer) (r : Response) : Prop := ∃ h q, env h q = .response r

theorem invoke_sat {P : Sent → Prop} (hc : Rooted client) {r : Request} (hr : Plain r)
    (hP : ∀ q, client.send (fun _ => []) r = .ok q → ReadOnly client q → P q) :
    Sat env P (FromServer env) (·.ok = false) (Known env cfg.lim) (invoke client r) := by
  obtain ⟨rest, h, -⟩ := hr.path
  obtain ⟨q, hs, hq⟩ := send_plain hc hr
  unfold invoke
  rw [h]
  refine Sat.writeMsg ?_
  unfold Api.send
  rw [hs]
  refine Sat.query (hP q hs hq) fun hs => ?_
  simp only [Prog.bind]
  cases ha : env hs q with
  | response r => exact Sat.writeMsg (Sat.pure ⟨hs, q, ha⟩)
  | failed t => exact Sat.raise (.inl (.failed ha))
  | broken e => exact Sat.raise (.inl (.broken ha))

theorem extract_sat {P : Sent → Prop} {r : Response} (hr : FromServer env r) :
    Sat env P (fun j => r.json = .ok j) (·.ok = false) (Known env cfg.lim) (extractJson r) := by
  obtain ⟨h, q, hr⟩ := hr
  unfold extractJson
  split
  · exact Sat.abortMsg rfl
  · rename_i e he; exact Sat.raise (.inl (.decoder hr he))
  · rename_i hj; exact Sat.pure hj
  · rename_i hj; exact Sat.pure hj
  · exact Sat.abortMsg rfl

theorem decode_sat (hs : Sound env) {P : Sent → Prop} {ty : RTy} (hty : ResponseTy ty) {r : Response} (hr : FromServer env r) (expected : Nat → Bool) :
    Sat env P (HasType (respSchema cfg.lim) ty) (·.ok = false) (Known env cfg.lim) (decode cfg r ty expected) := by
  unfold decode
  split
  · exact Sat.abort rfl
  split
  · exact Sat.abort rfl
  refine Sat.bind (extract_sat hr) fun j hj => ?_
  obtain ⟨h, q, hr⟩ := hr
  obtain ⟨c1, c2⟩ := C57_content cfg.lim ty hty j (hs h q r j hr hj)
  cases hp : parseResponse cfg.lim ty j with
  | error e => exact Sat.raise (.inr ⟨h, q, r, j, ty, e, hr, hj, hp, rfl⟩)
  | ok x =>
    obtain ⟨result, parsed⟩ := x
    dsimp only
    split
    · rename_i hok
      refine Sat.write (Sat.pure ?_)
      by_cases hcf : Conforms (respSchema cfg.lim) ty j
      · obtain ⟨v, -, -, ht, -, c3, c4⟩ := c2 hcf
        by_cases hra : RRaising cfg.lim v
        · obtain ⟨e, he⟩ := c3 hra
          rw [hp] at he; cases he
        · obtain ⟨r, he, -⟩ := c4 hra
          rw [hp] at he
          cases he
          exact ht
      · obtain ⟨r, v, he, hf⟩ := c1 hcf
        rw [hp] at he
        cases he
        rw [hok] at hf; cases hf
    · rename_i hok
      refine Sat.abort ?_
      rw [Engine.render_level]
      simpa using hok

theorem Plain.json {r : Request} (hr : Plain r) (hh : r.headers = []) :
    Plain { r with headers := setHeader py!"content-type" py!"application/json" r.headers } :=
  ⟨hr.method, hr.body, hr.path, .inr (by rw [hh]; rfl)⟩

theorem invokeAndDecode_sat {P : Sent → Prop} (hs : Sound env) (hc : Rooted client) {r : Request} (hr : Plain r) (hh : r.headers = []) {ty : RTy} (hty : ResponseTy ty)
    (hP : ∀ q headers, client.send (fun _ => []) { r with headers } = .ok q → ReadOnly client q → P q) (expected : Nat → Bool) :
    Sat env P (HasType (respSchema cfg.lim) ty) (·.ok = false) (Known env cfg.lim) (invokeAndDecode cfg client r ty expected) :=
  Sat.bind (invoke_sat hc (hr.json hh) fun q h => hP q _ h) fun _ h => decode_sat hs hty h expected

theorem lift_sat {α : Type} {P : Sent → Prop} {ret : α → Prop} {ab : Res Str → Prop} {ra : Exc → Prop} {x : Except PyExc α}
    (hv : ∀ a, x = .ok a → ret a) (he : ∀ e, x = .error e → ra (excOf e)) : Sat env P ret ab ra (lift x) := by
  cases x with
  | ok a => exact Sat.pure (hv a rfl)
  | error e => exact Sat.raise (he e rfl)

theorem assert_sat {P : Sent → Prop} {b : Bool} {m : Str} {l : Level} {ab : Res Str → Prop} {ra : Exc → Prop}
    (h : b = false → ab (Res.new (m ++ py!": Fail") l)) : Sat env P (fun _ => b = true) ab ra (assert_ b m l) := by
  unfold assert_
  split
  · rename_i hb; exact Sat.writeMsg (Sat.pure hb)
  · rename_i hb; exact Sat.abort (h (by simpa using hb))

/-! ## calls -/

/-- values that `unpack_enum` accepts -/
def enumLike : ArgVal → Bool
  | .none | .member _ _ | .dummy _ => true
  | _ => false

/-- the arguments of a call are bound, and those for enumerations are members -/
def fits (c : Call) (kw : Kwargs) : Bool :=
  match bindArgs c.params kw with
  | .ok args => c.route.query.all fun
    | (_, .unpacked n) => enumLike (args n)
    | _ => true
  | .error _ => false

/-- paths start with a slash, and names of parameters are ASCII -/
def rooted (c : Call) : Bool :=
  (match c.route.path with
  | .lit (ch :: _) :: _ => ch == pc! '/'
  | _ => false) && c.route.query.all fun p => p.1.all fun ch => decide (ch < 128)

/-- the text that is sent for the value can be encoded -/
def Encodable (v : ArgVal) : Prop :=
  (∃ t, v.pyStr = .ok t ∧ NoSurrogates t) ∧ ∀ t, unpackEnum v = .ok (some t) → NoSurrogates t

/-- the arguments of a call are bound and can be sent -/
structure Fits (c : Call) (kw : Kwargs) : Prop where
  fits : fits c kw = true
  enc : ∀ a ∈ kw, Encodable a.2

theorem enc_none : Encodable .none := ⟨⟨_, rfl, by unfold NoSurrogates; decide⟩, fun t h => by cases h⟩

theorem pathOf_ok {args : Str → ArgVal} (ha : ∀ n, Encodable (args n)) : ∀ ps : List Piece, ∃ t, pathOf args ps = .ok t
  | [] => ⟨_, rfl⟩
  | .lit s :: rest => by
    obtain ⟨t, ht⟩ := pathOf_ok ha rest
    exact ⟨_, by rw [pathOf, ht]; rfl⟩
  | .arg n :: rest => by
    obtain ⟨t, ht⟩ := pathOf_ok ha rest
    obtain ⟨⟨u, hu, -⟩, -⟩ := ha n
    exact ⟨_, by rw [pathOf, hu, ht]; rfl⟩

theorem paramOf_ok {args : Str → ArgVal} (ha : ∀ n, Encodable (args n)) {p : Param} (hp : ∀ n, p = .unpacked n → enumLike (args n) = true) :
    ∃ t, paramOf args p = .ok t ∧ ∀ s, t = some s → NoSurrogates s := by
  cases p with
  | plain n =>
    rw [paramOf]
    split
    · exact ⟨_, rfl, fun s h => by cases h⟩
    · obtain ⟨⟨u, hu, he⟩, -⟩ := ha n
      exact ⟨_, by rw [hu]; rfl, fun s h => by cases h; exact he⟩
  | unpacked n =>
    rw [paramOf]
    have hl := hp n rfl
    have he := (ha n).2
    cases hv : args n <;> rw [hv] at he hl <;> first | (simp [enumLike] at hl; done) | exact ⟨_, rfl, fun s h => he s (by rw [← h]; rfl)⟩

theorem queryOf_ok {args : Str → ArgVal} (ha : ∀ n, Encodable (args n)) : ∀ {ps : List (Str × Param)},
    (∀ k n, (k, Param.unpacked n) ∈ ps → enumLike (args n) = true) → (∀ p ∈ ps, NoSurrogates p.1) →
    ∃ q, queryOf args ps = .ok q ∧ ∀ k v, (k, some v) ∈ q → NoSurrogates k ∧ NoSurrogates v
  | [], _, _ => ⟨_, rfl, fun _ _ h => by cases h⟩
  | (k, p) :: rest, hp, hk => by
    obtain ⟨v, hv, he⟩ := paramOf_ok ha (p := p) fun n hn => hp k n (by simp [hn])
    obtain ⟨q, hq, hr⟩ := queryOf_ok ha (ps := rest) (fun k n hn => hp k n (by simp [hn])) fun p h => hk p (List.mem_cons_of_mem _ h)
    refine ⟨_, by rw [queryOf, hv, hq]; rfl, fun k' v' h => ?_⟩
    rcases List.mem_cons.mp h with h | h
    · cases h; exact ⟨hk (_, p) List.mem_cons_self, he v' rfl⟩
    · exact hr k' v' h

theorem fits_query {c : Call} {kw : Kwargs} (h : Fits c kw) :
    ∃ args, bindArgs c.params kw = .ok args ∧ (∀ n, Encodable (args n)) ∧
      ∀ k n, (k, Param.unpacked n) ∈ c.route.query → enumLike (args n) = true := by
  have hf := h.fits
  unfold Suites.fits at hf
  cases hb : bindArgs c.params kw with
  | error e => rw [hb] at hf; cases hf
  | ok args =>
    rw [hb] at hf
    refine ⟨args, rfl, fun n => ?_, fun k n hn => ?_⟩
    · unfold bindArgs at hb
      split at hb
      · cases hb
        cases hx : kw.find? fun a => a.1 == n with
        | none => dsimp only; rw [hx]; exact enc_none
        | some a => dsimp only; rw [hx]; exact h.enc a (List.mem_of_find?_eq_some hx)
      · cases hb
    · simpa using (List.all_eq_true.mp hf) _ hn

theorem request_ok {c : Call} (hc : rooted c = true) {kw : Kwargs} (hf : Fits c kw) : ∃ r, c.request kw = .ok r ∧ Plain r ∧ r.headers = [] := by
  obtain ⟨args, hb, he, hq⟩ := fits_query hf
  unfold rooted at hc
  rw [Bool.and_eq_true, List.all_eq_true] at hc
  obtain ⟨t, ht⟩ := pathOf_ok he c.route.path
  obtain ⟨q, hq, hk⟩ := queryOf_ok he hq fun p hp => ascii_ok (by simpa using hc.2 p hp)
  refine ⟨{ path := t, query := q }, ?_, ⟨rfl, rfl, ?_, .inl rfl⟩, rfl⟩
  · simp only [Call.request, Route.request, bind, Except.bind, hb, ht, hq, pure, Except.pure]
  · have hs : t.head? = some (pc! '/') := by
      have := hc.1
      split at this
      · rename_i ch s rest' hpath
        rw [hpath, pathOf] at ht
        cases ht' : pathOf args rest' with
        | error e => rw [ht'] at ht; cases ht
        | ok t =>
          rw [ht'] at ht
          cases ht
          simpa using this
      · cases this
    obtain ⟨u, hu⟩ := makeUrl_ok { path := t, query := q } fun p hp => hk _ _ (present_mem hp)
    refine ⟨_, hu, .inr ?_⟩
    cases t with
    | nil => cases hs
    | cons => exact hs

/-- what a call returns -/
def Returned (cfg : Cfg) (c : Call) (v : RVal) : Prop :=
  match c.mode with
  | .decode ty => HasType (respSchema cfg.lim) ty v
  | _ => True

/-- calls of the tables -/
structure Sane (c : Call) : Prop where
  rooted : rooted c = true
  type : ∀ ty, c.mode = .decode ty → ResponseTy ty

/-- a request of this call with these arguments -/
structure SendsWith (client : Client) (c : Call) (kw : Kwargs) (s : Sent) : Prop where
  readOnly : ReadOnly client s
  request : ∃ r headers, c.request kw = .ok r ∧ client.send (fun _ => []) { r with headers } = .ok s

/-- a request of this call -/
def Sends (client : Client) (c : Call) (s : Sent) : Prop := ∃ kw, SendsWith client c kw s

theorem Sends.readOnly {client : Client} {c : Call} {s : Sent} (h : Sends client c s) : ReadOnly client s := h.elim fun _ h => h.readOnly

theorem success_sat (hs : Sound env) (hc : Rooted client) {c : Call} (hcall : Sane c) {kw : Kwargs} (hf : Fits c kw) :
    Sat env (SendsWith client c kw) (Returned cfg c) (·.ok = false) (Known env cfg.lim) (c.success cfg client kw) := by
  unfold Call.success
  obtain ⟨r, hreq, hr⟩ := request_ok hcall.rooted hf
  rw [hreq]
  have hP : ∀ q headers, client.send (fun _ => []) { r with headers } = .ok q → ReadOnly client q → SendsWith client c kw q :=
    fun q headers hq h => ⟨h, r, headers, hreq, hq⟩
  show Sat _ _ _ _ _ (_ : ApiM _)
  simp only [lift, Prog.bind]
  unfold Returned
  cases hm : c.mode with
  | decode ty => exact invokeAndDecode_sat hs hc hr.1 hr.2 (hcall.type ty hm) hP _
  | json => exact Sat.bind (invoke_sat hc hr.1 (hP · _)) fun _ h => Sat.bind (extract_sat h) fun _ _ => Sat.pure trivial
  | raw => exact Sat.bind (invoke_sat hc hr.1 (hP · _)) fun _ _ => Sat.pure trivial

theorem error_sat (hs : Sound env) (hc : Rooted client) {c : Call} (hcall : Sane c) (hfail : c.canFail = true) {kw : Kwargs} (hf : Fits c kw) :
    Sat env (SendsWith client c kw) (fun _ => True) (·.ok = false) (Known env cfg.lim) (c.error cfg client kw) := by
  unfold Call.error
  rw [if_pos hfail]
  obtain ⟨r, hreq, hr⟩ := request_ok hcall.rooted hf
  rw [hreq]
  have hP : ∀ q headers, client.send (fun _ => []) { r with headers } = .ok q → ReadOnly client q → SendsWith client c kw q :=
    fun q headers hq h => ⟨h, r, headers, hreq, hq⟩
  show Sat _ _ _ _ _ (_ : ApiM _)
  simp only [lift, Prog.bind]
  exact Sat.bind (invokeAndDecode_sat hs hc hr.1 hr.2 (show ResponseTy (.cls .errorResult) from ⟨rfl, trivial⟩) hP _) fun _ _ => Sat.pure trivial

end Verif.Api.Suites
