import Verif.SuiteFacts3
import Verif.Spec.Routes

/-! # From the suites to whole runs -/

namespace Verif
open Spec

/-- As `Sat.block`; the code behind a body that was aborted gets a result with the reason of the abort. -/
theorem Sat.blockAborted {Q A α β : Type} {env : List Q → Q → A} {P : Q → Prop} {ab : Res Str → Prop} {ra : Exc → Prop} {ret : α → Prop}
    {ret' : β → Prop} {ab' : Res Str → Prop} {r : Res Str} {body : Prog Q A β} {k : Res Str → Option β → Prog Q A α}
    (hb : Sat env P ret' ab' ra body)
    (hk : ∀ x v, (∀ b, v = some b → ret' b) → (v = none → ∃ s es, ab' s ∧ x = (Ent.blk r (es ++ [.leaf s])).toRes) → Sat env P ret ab ra (k x v)) :
    Sat env P ret ab ra (.block r false body k) := by
  intro hs
  obtain ⟨⟨qs, h1, h2⟩, h3⟩ := hb hs
  rcases Api.block_cases env r body k true hs with ⟨x, ho, ho', -, hh⟩ | ⟨es, v, log, he, hc⟩
  · rw [ho] at h3
    rw [ho', hh]
    exact ⟨⟨qs, h1, h2⟩, h3⟩
  · have : Sat env P ret ab ra (k (Ent.blk r es).toRes v) := by
      rcases hc with ⟨a, ho, rfl, rfl⟩ | ⟨x, ho, rfl, rfl⟩
      · rw [ho] at h3
        exact hk _ _ (fun _ h => by cases h; exact h3) fun h => by cases h
      · rw [ho] at h3
        exact hk _ _ (fun _ h => by cases h) fun _ => ⟨x, _, h3, rfl⟩
    obtain ⟨⟨qs', h1', h2'⟩, h3'⟩ := this (meaning env body true hs).hist
    rw [he]
    refine ⟨⟨qs ++ qs', h1'.trans (by rw [h1, List.append_assoc]), fun x hx => ?_⟩, by simpa [Meaning.after] using h3'⟩
    rcases List.mem_append.mp hx with hx | hx
    · exact h2 x hx
    · exact h2' x hx

namespace Api.Suites
open Verif.Parse Verif.Aas Verif.Spec.Parse Verif.Spec.Api Verif.Spec.Suites Verif.Spec.Routes Verif.Spec.Generate Verif.Generate Verif.Http Verif.Props
open Verif.Api hiding sane supported

variable {env : List Sent → Sent → Answer} {cfg : Cfg}

/-! ## paths -/

theorem fills_append : ∀ {a b : List Seg} {s t : Str}, Fills a s → Fills b t → Fills (a ++ b) (s ++ t)
  | [], _, _, _, ha, hb => by rw [show _ = [] from ha]; exact hb
  | .text _ :: _, _, _, _, ⟨r, hs, hr⟩, hb => ⟨_, by rw [hs, List.append_assoc], fills_append hr hb⟩
  | .id :: _, _, _, _, ⟨v, r, hs, hv, hr⟩, hb => ⟨v, _, by rw [hs, List.append_assoc], hv, fills_append hr hb⟩
  | .value :: _, _, _, _, ⟨v, r, hs, hr⟩, hb => ⟨v, _, by rw [hs, List.append_assoc], fills_append hr hb⟩

/-- adjacent texts are one text -/
def norm : List Seg → List Seg
  | [] => []
  | .text s :: rest =>
    match norm rest with
    | .text t :: rest => .text (s ++ t) :: rest
    | rest => if s = [] then rest else .text s :: rest
  | x :: rest => x :: norm rest

theorem fills_norm : ∀ (l : List Seg) (s : Str), Fills (norm l) s ↔ Fills l s
  | [], s => .rfl
  | .text t :: rest, s => by
    rw [norm]
    split
    · rename_i u rest' h
      refine ⟨fun ⟨r, hs, hr⟩ => ⟨u ++ r, by rw [hs, List.append_assoc], ?_⟩, fun ⟨r, hs, hr⟩ => ?_⟩
      · rw [← fills_norm rest, h]; exact ⟨r, rfl, hr⟩
      · rw [← fills_norm rest, h] at hr
        obtain ⟨r', rfl, hr⟩ := hr
        exact ⟨r', by rw [hs, List.append_assoc], hr⟩
    · split
      · rename_i ht
        subst ht
        rw [fills_norm rest]
        exact ⟨fun h => ⟨s, rfl, h⟩, fun ⟨r, hs, hr⟩ => by rw [show s = r from hs]; exact hr⟩
      · exact ⟨fun ⟨r, hs, hr⟩ => ⟨r, hs, (fills_norm rest r).mp hr⟩, fun ⟨r, hs, hr⟩ => ⟨r, hs, (fills_norm rest r).mpr hr⟩⟩
  | .id :: rest, s => ⟨fun ⟨v, r, hs, hv, hr⟩ => ⟨v, r, hs, hv, (fills_norm rest r).mp hr⟩, fun ⟨v, r, hs, hv, hr⟩ => ⟨v, r, hs, hv, (fills_norm rest r).mpr hr⟩⟩
  | .value :: rest, s => ⟨fun ⟨v, r, hs, hr⟩ => ⟨v, r, hs, (fills_norm rest r).mp hr⟩, fun ⟨v, r, hs, hr⟩ => ⟨v, r, hs, (fills_norm rest r).mpr hr⟩⟩

/-- the template of a call -/
def segs : List Piece → List Seg
  | [] => []
  | .lit s :: rest => .text s :: segs rest
  | .arg _ :: rest => .value :: segs rest

theorem pathOf_fills {args : Str → ArgVal} : ∀ {l : List Piece} {t : Str}, pathOf args l = .ok t → Fills (segs l) t
  | [], t, h => by cases h; rfl
  | .lit s :: rest, t, h => by
    rw [pathOf] at h
    cases hr : pathOf args rest with
    | error e => rw [hr] at h; cases h
    | ok r => rw [hr] at h; cases h; exact ⟨r, rfl, pathOf_fills hr⟩
  | .arg n :: rest, t, h => by
    rw [pathOf] at h
    cases hn : (args n).pyStr with
    | error e => rw [hn] at h; cases h
    | ok v =>
      cases hr : pathOf args rest with
      | error e => rw [hn, hr] at h; cases h
      | ok r => rw [hn, hr] at h; cases h; exact ⟨v, r, rfl, pathOf_fills hr⟩

/-- the url of a request of a call -/
theorem sends_url {client : Client} {c : Call} {s : Sent} (h : Sends client c s) : ∃ path query, Fills (segs c.route.path) path ∧
    (query = [] ∨ query.head? = some (pc! '?')) ∧
    s.url = hostOf client.host ++ removePrefix client.removePathPrefix (client.prefixes.flatten ++ (path ++ query)) := by
  obtain ⟨kw, -, r, headers, hr, hs⟩ := h
  unfold Call.request Route.request at hr
  simp only [bind, Except.bind] at hr
  split at hr
  · cases hr
  split at hr
  · cases hr
  rename_i path hpath
  split at hr
  · cases hr
  cases hr
  unfold Client.send Request.makeUrl at hs
  dsimp only at hs
  split at hs
  · cases hs
    exact ⟨path, [], pathOf_fills hpath, .inl rfl, by simp⟩
  · simp only [bind, Except.bind] at hs
    split at hs
    · cases hs
    · rename_i hq
      split at hq
      · cases hq
      · cases hq
        cases hs
        exact ⟨path, _, pathOf_fills hpath, .inr rfl, rfl⟩

/-! ## prefixes -/

/-- exceptions that leave a run -/
def Leaves (env : List Sent → Sent → Answer) (cfg : Cfg) (E : List PyExc) (e : Exc) : Prop :=
  Known env cfg.lim e ∨ (∃ scope e', Known env cfg.lim e' ∧ e = onTypeError scope e') ∨ Own E e

/-- a prefix is a path of this form -/
def PrefixSat (env : List Sent → Sent → Answer) (cfg : Cfg) (base : List Seg) (S : List PyExc) (pre : Client → ApiM Str) : Prop :=
  ∀ client, Rooted client → Sat env (ReadOnly client) (fun s => Slash s ∧ Fills base s) (·.ok = false) (fun e => Known env cfg.lim e ∨ Own S e) (pre client)

theorem encode_ok {s : Str} (h : IdOk s) : ∃ t, (ArgVal.sfv true s).pyStr = .ok t ∧ EncodedId t := by
  obtain ⟨⟨t, ht, -⟩, -⟩ := h.enc
  have hcp : CodePoints s := fun c hc => by
    have := (xml_iff s).mp h.1 c hc
    unfold XmlChar at this
    omega
  obtain ⟨-, bs, h1, h2, h3, -⟩ := C12_round_trip s t hcp ht
  exact ⟨t, ht, s, bs, h.2, h1, h2, h3⟩

theorem encoded_ok {s : Str} (h : IdOk s) : ∃ t, encoded s = .ok t ∧ EncodedId t := by
  unfold encoded
  rw [base64String_ok h.1]
  exact encode_ok h

theorem noPrefix_sat : PrefixSat env cfg [] [] noPrefix := fun _ _ => Sat.pure ⟨.inl rfl, rfl⟩
theorem aasPrefix_sat : PrefixSat env cfg [.text py!"/aas"] [] aasPrefix := fun _ _ => Sat.pure ⟨.inr rfl, [], rfl, rfl⟩
theorem submodelPrefix_sat : PrefixSat env cfg [.text py!"/submodel"] [] submodelPrefix := fun _ _ => Sat.pure ⟨.inr rfl, [], rfl, rfl⟩

theorem fills_id {v : Str} (h : EncodedId v) : Fills [.id] v := ⟨v, [], by simp, h, rfl⟩
theorem fills_text {rest : List Seg} {t s : Str} (h : Fills rest s) : Fills (.text t :: rest) (t ++ s) := ⟨s, rfl, h⟩

theorem aasSubmodelPrefix_sat (hs : Sound env) : PrefixSat env cfg [.text py!"/aas/submodels/", .id] [.typeError] (aasSubmodelPrefix cfg) := by
  intro client hr
  refine Sat.bind (call_sat hs (sane_of rfl) ⟨rfl, enc_nil⟩ (fun _ h => h) hr) fun v hv => ?_
  obtain ⟨a, rfl, ha⟩ := model_obj (lim := cfg.lim) (c := .assetAdministrationShell) rfl hv
  rcases firstSubmodel_ok ha with h | ⟨t, h, ht⟩
  · rw [h]; exact lift_own (fun _ h => by cases h) fun e h => by cases h; simp
  · obtain ⟨u, hu, he⟩ := encoded_ok ht
    exact lift_ok (a := py!"/aas/submodels/" ++ u) (by rw [h]; simp only [bind, Except.bind, hu]; rfl) ⟨.inr rfl, fills_text (fills_id he)⟩

theorem listPrefix_sat (hs : Sound env) {c : Call} {p : Page} {d : Cls} (hc : callOk c = true) (hm : c.mode = .decode (pageTy p)) (hf : fits c limit1 = true)
    (hp : p.item = modelTy d) (hd : isAbstract d = false) (hi : slotOf d .id = some (.attr py!"id" (.sfv .identifierString) true))
    {pre : Str} (hpre : pre.head? = some (pc! '/')) :
    PrefixSat env cfg [.text pre, .id] [.indexError] fun client => (c.success cfg client limit1).bind fun page => lift (do
      let i ← firstId page
      let s ← encoded i
      return pre ++ s) := by
  intro client hr
  refine Sat.bind (call_sat hs (sane_of hc) ⟨hf, enc_limit1⟩ (fun _ h => h) hr) fun v hv => ?_
  unfold Returned at hv
  rw [hm] at hv
  obtain ⟨h1, h2⟩ := firstId_ok hp hd hi hv
  cases h : firstId v with
  | error e => rw [h2 e h]; exact lift_own (fun _ h => by cases h) fun e h => by cases h; simp
  | ok i =>
    obtain ⟨u, hu, he⟩ := encoded_ok (h1 i h)
    refine lift_ok (a := pre ++ u) (by simp only [bind, Except.bind, hu]; rfl) ⟨.inr ?_, fills_text (fills_id he)⟩
    cases pre with
    | nil => cases hpre
    | cons c pre => exact hpre

theorem aasRepoPrefix_sat (hs : Sound env) : PrefixSat env cfg [.text py!"/shells/", .id] [.indexError] (aasRepoPrefix cfg) :=
  listPrefix_sat hs (c := getAllShells) (p := .shells) (d := .assetAdministrationShell) rfl rfl rfl rfl rfl rfl rfl

theorem submodelRepoSubmodelPrefix_sat (hs : Sound env) : PrefixSat env cfg [.text py!"/submodels/", .id] [.indexError] (submodelRepoSubmodelPrefix cfg) :=
  listPrefix_sat hs (c := getAllSubmodels) (p := .submodels) (d := .submodel) rfl rfl rfl rfl rfl rfl rfl

theorem aasRepoSubmodelPrefix_sat (hs : Sound env) :
    PrefixSat env cfg [.text py!"/shells/", .id, .text py!"/submodels/", .id] [.indexError, .typeError] (aasRepoSubmodelPrefix cfg) := by
  intro client hr
  refine Sat.bind (call_sat hs (sane_of rfl) ⟨rfl, enc_limit1⟩ (fun _ h => h) hr) fun v hv => ?_
  rcases firstResult_cases (lim := cfg.lim) (p := .shells) hv with h | ⟨x, h, hx⟩
  · rw [h]; exact lift_own (fun _ h => by cases h) fun e h => by cases h; simp
  · obtain ⟨a, rfl, ha⟩ := model_obj (c := .assetAdministrationShell) rfl hx
    obtain ⟨i, hi, hio⟩ := shell_id ha
    rcases firstSubmodel_ok ha with h' | ⟨t, h', ht⟩
    · simp only [h, bind, Except.bind, hi, base64String_ok hio.1, h']
      exact lift_own (fun _ h => by cases h) fun e h => by cases h; simp
    · obtain ⟨s, hs1, hs2⟩ := encode_ok hio
      obtain ⟨u, hu1, hu2⟩ := encode_ok ht
      refine lift_ok (a := py!"/shells/" ++ (s ++ (py!"/submodels/" ++ u))) ?_
        ⟨.inr rfl, fills_text ⟨s, _, rfl, hs2, fills_text (fills_id hu2)⟩⟩
      simp only [h, bind, Except.bind, hi, base64String_ok hio.1, h', base64String_ok ht.1, hs1, hu1]
      rfl

/-! ## runs -/

/-- no argument in the path -/
def fixed (l : List Seg) : Bool := l.all fun s => decide (s ≠ .value)

/-- the call is that of the table -/
def rowOk (c : Call) (b : Bad) (name : Str) (v : ArgVal) (kw : Kwargs) : Bool :=
  decide (name = b.name) && decide (v.pyStr = .ok b.text) &&
  match bindArgs c.params kw with
  | .error _ => false
  | .ok args =>
    match queryOf args c.route.query with
    | .error _ => false
    | .ok q =>
      match b.place with
      | .path => decide (present q = []) && c.route.path.all fun
        | .arg n => decide ((args n).pyStr = .ok b.text)
        | .lit _ => true
      | .query k => decide (present q = [(k, b.text)]) && (k ++ b.text).all fun ch => decide (ch < 128)

/-- all calls with invalid values, in order -/
def callsOf (c : Call) (valid : Kwargs) : List (Str × ArgVal × Kwargs) :=
  c.params.flatMap fun a => match generateInvalidValues argClasses a with
    | .ok vs => vs.map fun v => (a.name, v, Kwargs.set a.name v valid)
    | .error _ => []

/-- the rows of a table are those of the calls -/
def rowsOk (c : Call) : List Bad → List (Str × ArgVal × Kwargs) → Bool
  | [], [] => true
  | b :: bs, x :: xs => rowOk c b x.1 x.2.1 x.2.2 && rowsOk c bs xs
  | _, _ => false

/-- the paths that operations are below -/
def places : List (List Seg) :=
  [[.text py!"/shells/", .id, .text py!"/submodels/", .id], [.text py!"/shells/", .id], [.text py!"/submodels/", .id], [.text py!"/aas/submodels/", .id],
   [.text py!"/aas"], [.text py!"/submodel"]]

/-- the path that an operation is below -/
def placeOf (template : List Seg) : List Seg :=
  match places.find? (·.isPrefixOf template) with
  | some b => b
  | none =>
    match template with
    | .text t :: _ => if py!"/aas/".isPrefixOf t then [.text py!"/aas"] else if py!"/submodel/".isPrefixOf t then [.text py!"/submodel"] else []
    | _ => []

/-- the engine's name of a query parameter -/
def Param.name : Param → Str
  | .plain n | .unpacked n => n

/-- the parameter in a path, and its name -/
def Piece.name? : Piece → Option Str
  | .lit _ => none
  | .arg n => some n

/-- the call sends these parameters: members of enumerations by `unpack_enum`, the others by `str` -/
def sendsParams (c : Call) (ps : Parameters) : Bool :=
  decide (c.route.query.map (fun x => (x.2.name, x.1)) = ps.query) && decide (c.route.path.filterMap Piece.name? = ps.path.toList) &&
  (c.params.isEmpty || c.canFail) &&
  (c.route.query.all fun x => c.params.all fun p => p.name != x.2.name || (match x.2 with | .plain _ => !isEnum p.ty | .unpacked _ => isEnum p.ty)) &&
  (ps.path.toList.all fun n => c.params.any (fun p => p.name == n) && c.params.all fun p => p.name != n || (p.required && !isEnum p.ty)) &&
  c.params.all fun p => (ps.path.toList ++ ps.query.map (·.1)).contains p.name

/-- what holds for an entry of the table -/
structure OpFacts (env : List Sent → Sent → Answer) (cfg : Cfg) (E : List PyExc) (e : Str × List Seg) (op : Op) (base : List Seg) (c : Call) (S S' T : List PyExc)
    (ok : op.suite.σ → Prop) : Prop where
  classes : ∀ x ∈ S ++ S' ++ T, x ∈ E
  ofTests : ∀ x ∈ T, e.1 = py!"GetAllAssetAdministrationShells" ∧ x = .attributeError
  route : norm (base ++ segs c.route.path) = norm (sentTo e)
  inPath : fixed base = true
  pre : PrefixSat env cfg base S op.prefixOf
  checked : Checked env cfg c S' T op.suite ok
  rows : ∀ st, rowsOk c (negativesOf e.1) (callsOf c (op.suite.valid st)) = true
  place : base = placeOf e.2
  params : sendsParams c (parametersOf e.1) = true

/-- an entry of the table -/
structure OpOk (env : List Sent → Sent → Answer) (cfg : Cfg) (E : List PyExc) (e : Str × List Seg) (op : Op) : Prop where
  name : op.suite.operation = e.1
  parts : ∃ base c S S' T ok, OpFacts env cfg E e op base c S S' T ok

variable {E : List PyExc}

theorem readOnly_descend {client : Client} {p : Str} {s : Sent} (h : ReadOnly (client.descend p) s) : ReadOnly client s :=
  ⟨h.method, h.data, h.verify, h.url, h.headers⟩

theorem rooted_descend {client : Client} {p : Str} (h : Slash p) : Rooted (client.descend p) := by
  unfold Rooted
  simpa [Client.descend, Client.init] using h

theorem Own.mono {S : List PyExc} {e : Exc} (h : Own S e) (hs : ∀ x ∈ S, x ∈ E) : Own E e := let ⟨x, hx, he⟩ := h; ⟨x, hs x hx, he⟩

theorem Leaves.of {S : List PyExc} (hs : ∀ x ∈ S, x ∈ E) {e : Exc} (h : Known env cfg.lim e ∨ Own S e) : Leaves env cfg E e := by
  rcases h with h | h
  · exact .inl h
  · exact .inr (.inr (h.mono hs))

theorem setupOp_sat {op : Op} {base : List Seg} {S S' : List PyExc} {ok : op.suite.σ → Prop} {client : Client} (hr : Rooted client)
    (hp : PrefixSat env cfg base S op.prefixOf) (hS : ∀ x ∈ S ++ S', x ∈ E)
    (hset : ∀ client, Rooted client → Sat env (ReadOnly client) ok (·.ok = false) (fun e => Known env cfg.lim e ∨ Own S' e) (op.suite.setup client)) :
    Sat env (ReadOnly client) (fun x => (∃ pre, Slash pre ∧ Fills base pre ∧ x.1 = client.descend pre) ∧ ok x.2) (·.ok = false)
      (fun e => Known env cfg.lim e ∨ Own E e) (setupOp client op) := by
  have of : ∀ S, (∀ x ∈ S, x ∈ E) → ∀ e, Known env cfg.lim e ∨ Own S e → Known env cfg.lim e ∨ Own E e := fun S hS e h =>
    h.imp_right fun h => h.mono hS
  unfold setupOp
  refine Sat.bind ((hp client hr).conseq (fun _ h => h) (fun _ h => h) (fun _ h => h) (of S fun x hx => hS x (by simp [hx]))) fun pre hpre => ?_
  refine Sat.bind ((hset _ (rooted_descend hpre.1)).conseq (fun _ => readOnly_descend) (fun _ h => h) (fun _ h => h)
    (of S' fun x hx => hS x (by simp [hx]))) fun st hst => ?_
  exact Sat.pure ⟨⟨pre, hpre.1, hpre.2, rfl⟩, hst⟩

theorem pyStr_enc {v : ArgVal} (h : Encodable v) : ∃ t, v.pyStr = .ok t := let ⟨⟨t, ht, _⟩, _⟩ := h; ⟨t, ht⟩

theorem callAll_sat {P : Sent → Prop} {scope : Str} {func : Kwargs → ApiM Unit} {valid : Kwargs} {name : Str} {rest : ApiM Unit}
    (hr : Sat env P (fun _ => True) (fun _ => True) (Leaves env cfg E) rest) : ∀ vs : List ArgVal, (∀ v ∈ vs, Encodable v) →
    (∀ v ∈ vs, Sat env P (fun _ => True) (fun _ => True) (Known env cfg.lim) (func (Kwargs.set name v valid))) →
    Sat env P (fun _ => True) (fun _ => True) (Leaves env cfg E) (callAll scope func valid name rest vs)
  | [], _, _ => hr
  | v :: vs, he, h => by
    obtain ⟨t, ht⟩ := pyStr_enc (he v List.mem_cons_self)
    rw [callAll, callWith, ht]
    refine Sat.block (ret' := fun _ => True) (ab' := fun _ => True) ?_ fun _ _ _ =>
      callAll_sat hr vs (fun v hv => he v (List.mem_cons_of_mem _ hv)) fun v hv => h v (List.mem_cons_of_mem _ hv)
    exact Sat.mapExc (h v List.mem_cons_self) fun e he => .inr (.inl ⟨scope, e, he, rfl⟩)

theorem generateCalls_sat {P : Sent → Prop} {scope : Str} {func : Kwargs → ApiM Unit} {valid : Kwargs} : ∀ args : List Arg,
    (∃ invalid, Generated argClasses args invalid) →
    (∀ a ∈ args, ∀ vs, generateInvalidValues argClasses a = .ok vs → ∀ v ∈ vs,
      Sat env P (fun _ => True) (fun _ => True) (Known env cfg.lim) (func (Kwargs.set a.name v valid))) →
    Sat env P (fun _ => True) (fun _ => True) (Leaves env cfg E) (generateCalls argClasses scope func valid args)
  | [], _, _ => Sat.pure trivial
  | a :: args, ⟨_, hg⟩, h => by
    cases hg with
    | cons hv hg =>
      rw [generateCalls, hv]
      exact callAll_sat (generateCalls_sat args ⟨_, hg⟩ fun a ha => h a (List.mem_cons_of_mem _ ha)) _
        (fun v hx => enc_generated hv hx) (h a List.mem_cons_self _ hv)

theorem runTests_sat {σ : Type} {P : Sent → Prop} {client : Client} {profile : Str} {st : σ} : ∀ ts : List (Test σ),
    (∀ t ∈ ts, Sat env P (fun _ => True) (fun _ => True) (Leaves env cfg E) (t.run client profile st)) →
    Sat env P (fun _ => True) (fun _ => True) (Leaves env cfg E) (runTests client profile st ts)
  | [], _ => Sat.pure trivial
  | t :: ts, h => by
    rw [runTests]
    exact Sat.block (ret' := fun _ => True) (ab' := fun _ => True) (h t List.mem_cons_self) fun _ _ _ =>
      runTests_sat ts fun t ht => h t (List.mem_cons_of_mem _ ht)

theorem execute_sat (hs : Sound env) {suite : Suite} {c : Call} {S T : List PyExc} {ok : suite.σ → Prop} (h : Checked env cfg c S T suite ok) (hT : ∀ x ∈ T, x ∈ E) {client : Client}
    (hr : Rooted client) {profile : Str} {st : suite.σ} (hst : ok st) :
    Sat env (Sends client c) (fun _ => True) (·.ok = false) (Leaves env cfg E) (execute suite client profile st) := by
  unfold execute
  refine Sat.block (ret' := fun _ => True) (ab' := fun _ => True) ?_ fun _ _ _ => ?_
  · unfold executeSyntacticTests
    rw [if_pos h.same]
    exact generateCalls_sat _ h.generated fun a ha vs hvs v hv =>
      (h.error hs client st hr hst a ha vs hvs v hv).conseq (fun _ h => ⟨_, h⟩) (fun _ h => h) (fun _ h => h) fun _ h => h
  · refine Sat.block (ret' := fun _ => True) (ab' := fun _ => True) ?_ fun _ _ _ => Sat.pure trivial
    refine runTests_sat _ fun t ht => ?_
    exact (h.tests t ((sortTests_perm _).mem_iff.mp ht) client profile st hr hst).conseq (fun _ h => h) (fun _ h => h) (fun _ h => h) fun _ => .of hT

theorem aborted_block {title : Str} {s : Res Str} {es : List Ent} (h : s.ok = false) : (Ent.blk (Res.new title) (es ++ [.leaf s])).toRes.ok = false := by
  have := (isBlock title (es ++ [.leaf s])).ok
  rw [toResL_snoc] at this
  rw [Bool.eq_false_iff]
  intro hok
  have := this.mp hok s (by simp)
  rw [h] at this
  cases this

theorem runOp_sat (hs : Sound env) {op : Op} {e : Str × List Seg} (h : OpOk env cfg E e op) {conf : Conf} {client : Client} (hr : Rooted client) {k : Mat → ApiM Mat}
    (hk : ∀ m, Sat env (ReadOnly client) (fun _ => True) (·.ok = false) (Leaves env cfg E) (k m)) :
    Sat env (ReadOnly client) (fun _ => True) (·.ok = false) (Leaves env cfg E) (runOp conf client op k) := by
  obtain ⟨-, base, c, S, S', T, ok, hE, -, -, -, hp, hc, -⟩ := h
  have hS : ∀ x ∈ S ++ S', x ∈ E := fun x hx => hE x (List.mem_append_left _ hx)
  have hT : ∀ x ∈ T, x ∈ E := fun x hx => hE x (List.mem_append_right _ hx)
  unfold runOp
  refine Sat.block (ret' := fun _ => True) (ab' := fun r => r.ok = false) ?_ fun _ _ _ => hk _
  split
  · exact Sat.pure trivial
  · refine Sat.blockAborted ((setupOp_sat hr hp hS hc.setup).conseq (fun _ h => h) (fun _ h => h) (fun _ h => h) fun _ => .of fun _ h => h) fun x v hv ha => ?_
    unfold afterSetup
    split
    · rename_i hok
      cases v with
      | none =>
        obtain ⟨s, es, h1, h2⟩ := ha rfl
        rw [h2, aborted_block h1] at hok
        cases hok
      | some v =>
        obtain ⟨⟨pre, h1, -, h2⟩, h3⟩ := hv _ rfl
        dsimp only
        rw [h2]
        exact (execute_sat hs hc hT (rooted_descend h1) h3).conseq (fun _ h => readOnly_descend h.readOnly) (fun _ h => h) (fun _ h => h) fun _ h => h
    · exact Sat.pure trivial

theorem runOps_sat (hs : Sound env) {conf : Conf} {client : Client} (hr : Rooted client) : ∀ (ops : List Op), (∀ op ∈ ops, ∃ e, OpOk env cfg E e op) → ∀ m : Mat,
    Sat env (ReadOnly client) (fun _ => True) (·.ok = false) (Leaves env cfg E) (runOps conf client ops m)
  | [], _, _ => Sat.pure trivial
  | op :: ops, h, m => by
    have ih := runOps_sat hs (conf := conf) hr ops fun op hop => h op (List.mem_cons_of_mem _ hop)
    rw [runOps]
    split
    · exact ih m
    · obtain ⟨e, he⟩ := h op List.mem_cons_self
      exact runOp_sat hs he hr fun sub => ih _

theorem checkServer_sat {dry : Bool} {client : Client} (hr : Rooted client) {α : Type} {ret : α → Prop} {k : Bool → ApiM α}
    (hk : ∀ b, Sat env (ReadOnly client) ret (·.ok = false) (Leaves env cfg E) (k b)) :
    Sat env (ReadOnly client) ret (·.ok = false) (Leaves env cfg E) (checkServer dry client k) := by
  unfold checkServer
  refine Sat.block (ret' := fun _ => True) (ab' := fun _ => True) ?_ fun _ _ _ => hk _
  split
  · exact Sat.write (Sat.pure trivial)
  · obtain ⟨q, hq, hro⟩ := send_plain hr (r := { path := [] }) ⟨rfl, rfl, ⟨[], rfl, .inl rfl⟩, .inl rfl⟩
    unfold Api.send
    rw [hq]
    refine Sat.query hro fun hs => ?_
    simp only [Prog.bind]
    cases ha : env hs q with
    | response r => exact Sat.writeMsg (Sat.pure trivial)
    | failed t => exact Sat.write (Sat.pure trivial)
    | broken e => exact Sat.raise (.inl (.inl (.broken ha)))

/-- what a whole run sends, and the exceptions that leave it -/
theorem executeOps_run (hs : Sound env) {conf : Conf} {client : Client} (hr : Rooted client) {ops : List Op} (ho : ∀ op ∈ ops, ∃ e, OpOk env cfg E e op) :
    (∀ q ∈ (run env (executeOps conf client ops)).2, ReadOnly client q) ∧
    ∀ e, (run env (executeOps conf client ops)).1 = .raised e → Leaves env cfg E e := by
  have hb : Sat env (ReadOnly client) (fun _ => True) (·.ok = false) (Leaves env cfg E) (checkServer conf.dry client fun reached =>
      if !reached then .pure Mat.zero else (runOps conf client ops Mat.zero).bind summary) := by
    refine checkServer_sat hr fun b => ?_
    split
    · exact Sat.pure trivial
    · refine Sat.bind (runOps_sat hs hr ops ho _) fun m _ => ?_
      unfold summary
      exact Sat.block (ret' := fun _ => True) (ab' := fun _ => True) (Sat.writeMsg (Sat.writeMsg (Sat.pure trivial))) fun _ _ _ => Sat.pure trivial
  obtain ⟨⟨qs, h1, h2⟩, h3⟩ := hb []
  rw [run_eq]
  unfold executeOps
  rcases block_cases env (Res.new (py!"Checking compliance to " ++ conf.suite)) _ (fun root mat => .pure (root, mat.getD Mat.zero)) false [] with
    ⟨x, hx, hx', -, hh⟩ | ⟨es, v, log, he, -⟩
  · rw [hx] at h3
    dsimp only
    rw [hx', hh, h1]
    exact ⟨h2, fun e h => by cases h; exact h3⟩
  · dsimp only
    rw [he]
    refine ⟨?_, fun e h => by simp [Meaning.after, meaning] at h⟩
    simp only [Meaning.after, meaning, h1]
    exact h2

/-! ## the table -/

/-- the entries of a service -/
def OpsOk (env : List Sent → Sent → Answer) (cfg : Cfg) (E : List PyExc) : List (Str × List Seg) → List Op → Prop
  | [], [] => True
  | e :: es, op :: ops => OpOk env cfg E e op ∧ OpsOk env cfg E es ops
  | _, _ => False

theorem OpsOk.append : ∀ {es es' : List (Str × List Seg)} {ops ops' : List Op}, OpsOk env cfg E es ops → OpsOk env cfg E es' ops' →
    OpsOk env cfg E (es ++ es') (ops ++ ops')
  | [], _, [], _, _, h' => h'
  | _ :: _, _, _ :: _, _, h, h' => ⟨h.1, OpsOk.append h.2 h'⟩
  | [], _, _ :: _, _, h, _ => h.elim
  | _ :: _, _, [], _, h, _ => h.elim

theorem OpsOk.mem : ∀ {es : List (Str × List Seg)} {ops : List Op}, OpsOk env cfg E es ops → ∀ op ∈ ops, ∃ e, OpOk env cfg E e op
  | [], [], _, _, h => by cases h
  | e :: es, op :: ops, h, x, hx => by
    rcases List.mem_cons.mp hx with rfl | hx
    · exact ⟨e, h.1⟩
    · exact OpsOk.mem h.2 x hx
  | [], _ :: _, h, _, _ => h.elim
  | _ :: _, [], h, _, _ => h.elim

theorem OpsOk.zip : ∀ {es : List (Str × List Seg)} {ops : List Op}, OpsOk env cfg E es ops → ∀ e op, (e, op) ∈ es.zip ops → OpOk env cfg E e op
  | [], [], _, _, _, h => by cases h
  | e :: es, op :: ops, h, x, y, hx => by
    rw [List.zip_cons_cons] at hx
    rcases List.mem_cons.mp hx with hx | hx
    · cases hx; exact h.1
    · exact OpsOk.zip h.2 x y hx
  | [], _ :: _, h, _, _, _ => h.elim
  | _ :: _, [], h, _, _, _ => h.elim

theorem op_ok {base : List Seg} {c : Call} {S S' T : List PyExc} {pre : Client → ApiM Str} {s : Suite} {ok : s.σ → Prop} {e : Str × List Seg}
    (hp : PrefixSat env cfg base S pre) (hc : Checked env cfg c S' T s ok) (hn : s.operation = e.1)
    (hr : norm (base ++ segs c.route.path) = norm (sentTo e)) (hb : fixed base = true) (h : ∀ x ∈ S ++ S' ++ T, x ∈ E)
    (hrows : ∀ st, rowsOk c (negativesOf e.1) (callsOf c (s.valid st)) = true)
    (hT : ∀ x ∈ T, e.1 = py!"GetAllAssetAdministrationShells" ∧ x = .attributeError := by exact fun _ h => by cases h)
    (hpl : base = placeOf e.2 := by first | assumption | rfl) (hps : sendsParams c (parametersOf e.1) = true := by rfl) : OpOk env cfg E e ⟨pre, s⟩ :=
  ⟨hn, base, c, S, S', T, ok, h, hT, hr, hb, hp, hc, hrows, hpl, hps⟩

/-- all these operations are below `base` -/
def allBelow (base : List Seg) (es : List (Str × List Seg)) : Bool := es.all fun e => decide (base = placeOf e.2)

theorem norm_append (a : List Seg) {b c : List Seg} (h : norm b = norm c) : norm (a ++ b) = norm (a ++ c) := by
  induction a with
  | nil => exact h
  | cons x a ih =>
    cases x with
    | text s => rw [List.cons_append, List.cons_append, norm, norm, ih]
    | id => exact congrArg (Seg.id :: ·) ih
    | value => exact congrArg (Seg.value :: ·) ih

theorem elementOps_ok (hs : Sound env) {base : List Seg} {pre : Client → ApiM Str} {S : List PyExc} (hp : PrefixSat env cfg base S pre) (hb : fixed base = true) (hpl : allBelow base (elementPaths base) = true)
    (h : ∀ x ∈ S ++ [.typeError, .stopIteration], x ∈ E) : OpsOk env cfg E (elementPaths base) (elementOps cfg pre) := by
  simp only [allBelow, elementPaths, List.all_cons, Bool.and_eq_true, decide_eq_true_eq] at hpl
  obtain ⟨p1, p2, p3, p4, p5, p6, p7, p8, p9, p10, p11, -⟩ := hpl
  have h0 : ∀ x ∈ S ++ [] ++ [], x ∈ E := fun x hx => h x (by simp only [List.append_nil] at hx; simp [hx])
  have h1 : ∀ x ∈ S ++ [.typeError, .stopIteration] ++ [], x ∈ E := fun x hx => h x (by rwa [List.append_nil] at hx)
  refine ⟨op_ok hp (getAllSubmodelElements_checked hs) rfl ?_ hb h0 (fun _ => rfl), op_ok hp (getAllSubmodelElementsMeta_checked hs) rfl ?_ hb h0 (fun _ => rfl),
    op_ok hp (getAllSubmodelElementsValue_checked hs) rfl ?_ hb h0 (fun _ => rfl), op_ok hp (getAllSubmodelElementsReference_checked hs) rfl ?_ hb h0 (fun _ => rfl),
    op_ok hp (getAllSubmodelElementsPath_checked hs) rfl ?_ hb h0 (fun _ => rfl), op_ok hp (getElement_checked hs) rfl ?_ hb h1 (fun _ => rfl),
    op_ok hp (getElementMeta_checked hs) rfl ?_ hb h1 (fun _ => rfl), op_ok hp (getElementValue_checked hs) rfl ?_ hb h1 (fun _ => rfl),
    op_ok hp (getElementReference_checked hs) rfl ?_ hb h1 (fun _ => rfl), op_ok hp (getElementPath_checked hs) rfl ?_ hb h1 (fun _ => rfl),
    op_ok hp (getFile_checked hs) rfl ?_ hb h1 (fun _ => rfl), trivial⟩
  all_goals exact norm_append base rfl

theorem byIdOps_ok (hs : Sound env) {base : List Seg} {pre : Client → ApiM Str} {S : List PyExc} (hp : PrefixSat env cfg base S pre) (hb : fixed base = true) (hpl : allBelow base (submodelPaths base) = true) (f : From)
    (h : ∀ x ∈ S ++ [.indexError], x ∈ E) : OpsOk env cfg E (submodelPaths base) (byIdOps cfg pre f) := by
  simp only [allBelow, submodelPaths, List.all_cons, Bool.and_eq_true, decide_eq_true_eq] at hpl
  obtain ⟨p1, p2, p3, p4, p5, -⟩ := hpl
  have h1 : ∀ x ∈ S ++ [.indexError] ++ [], x ∈ E := fun x hx => h x (by rwa [List.append_nil] at hx)
  refine ⟨op_ok hp (getSubmodelById_checked hs f) rfl ?_ hb h1 (fun _ => rfl), op_ok hp (getSubmodelByIdMeta_checked hs f) rfl ?_ hb h1 (fun _ => rfl),
    op_ok hp (getSubmodelByIdReference_checked hs f) rfl ?_ hb h1 (fun _ => rfl), op_ok hp (getSubmodelByIdValue_checked hs f) rfl ?_ hb h1 (fun _ => rfl),
    op_ok hp (getSubmodelByIdPath_checked hs f) rfl ?_ hb h1 (fun _ => rfl), trivial⟩
  all_goals exact norm_append base rfl

theorem partOps_ok (hs : Sound env) {base : List Seg} {pre : Client → ApiM Str} {S : List PyExc} (hp : PrefixSat env cfg base S pre) (hb : fixed base = true) (hpl : allBelow base (shellPaths base) = true)
    (h : ∀ x ∈ S ++ [.indexError], x ∈ E) : OpsOk env cfg E (shellPaths base)
      ([⟨pre, getAssetInformationSuite cfg⟩, ⟨pre, getThumbnailSuite cfg⟩, ⟨pre, getAllSubmodelReferencesSuite cfg⟩] ++ byIdOps cfg pre .aas) := by
  have hpl' : allBelow base (submodelPaths base) = true := by
    simp only [allBelow, shellPaths, List.all_append, Bool.and_eq_true] at hpl
    exact hpl.2
  simp only [allBelow, shellPaths, List.cons_append, List.nil_append, List.all_cons, Bool.and_eq_true, decide_eq_true_eq] at hpl
  obtain ⟨p1, p2, p3, -⟩ := hpl
  have h0 : ∀ x ∈ S ++ [] ++ [], x ∈ E := fun x hx => h x (by simp only [List.append_nil] at hx; simp [hx])
  refine .append ⟨op_ok hp (getAssetInformation_checked hs) rfl ?_ hb h0 (fun _ => rfl), op_ok hp (getThumbnail_checked hs) rfl ?_ hb h0 (fun _ => rfl),
    op_ok hp (getAllSubmodelReferences_checked hs) rfl ?_ hb h0 (fun _ => rfl), trivial⟩ (byIdOps_ok hs hp hb hpl' .aas h)
  all_goals exact norm_append base rfl

/-- the operations of a service in `Spec.Routes` -/
def specOps (i : Nat) : List (Str × List Seg) := (services[i]?.map (·.2)).getD []

theorem shellRepoOps_ok (hs : Sound env) :
    OpsOk env cfg [.indexError, .attributeError, .typeError, .stopIteration] (specOps 0) (shellRepoOps cfg) :=
  .append (.append (.append (es := [_, _, _, _]) (ops := [_, _, _, _])
    ⟨op_ok noPrefix_sat (getAllShells_checked hs) rfl rfl rfl (by decide) (fun _ => rfl) (by decide), op_ok noPrefix_sat (getAllShellsReference_checked hs) rfl rfl rfl (by decide) (fun _ => rfl),
     op_ok noPrefix_sat (getShellById_checked hs) rfl rfl rfl (by decide) (fun _ => rfl), op_ok noPrefix_sat (getShellByIdReference_checked hs) rfl rfl rfl (by decide) (fun _ => rfl), trivial⟩
    (partOps_ok hs (aasRepoPrefix_sat hs) rfl (by decide) (by decide))) (elementOps_ok hs (aasRepoSubmodelPrefix_sat hs) rfl (by decide) (by decide)))
    (ops' := [_, _]) ⟨op_ok noPrefix_sat (generateSerialization_checked hs) rfl rfl rfl (by decide) (fun _ => rfl), op_ok noPrefix_sat (getDescription_checked hs) rfl rfl rfl (by decide) (fun _ => rfl), trivial⟩

theorem submodelRepoOps_ok (hs : Sound env) : OpsOk env cfg [.indexError, .typeError, .stopIteration] (specOps 1) (submodelRepoOps cfg) :=
  .append (.append (.append (es := [_, _, _, _, _]) (ops := [_, _, _, _, _])
    ⟨op_ok noPrefix_sat (getAllSubmodels_checked hs) rfl rfl rfl (by decide) (fun _ => rfl), op_ok noPrefix_sat (getAllSubmodelsMeta_checked hs) rfl rfl rfl (by decide) (fun _ => rfl),
     op_ok noPrefix_sat (getAllSubmodelsValue_checked hs) rfl rfl rfl (by decide) (fun _ => rfl), op_ok noPrefix_sat (getAllSubmodelsReference_checked hs) rfl rfl rfl (by decide) (fun _ => rfl),
     op_ok noPrefix_sat (getAllSubmodelsPath_checked hs) rfl rfl rfl (by decide) (fun _ => rfl), trivial⟩
    (byIdOps_ok hs noPrefix_sat rfl (by decide) .submodel (by decide))) (elementOps_ok hs (submodelRepoSubmodelPrefix_sat hs) rfl (by decide) (by decide)))
    (ops' := [_, _]) ⟨op_ok noPrefix_sat (generateSerialization_checked hs) rfl rfl rfl (by decide) (fun _ => rfl), op_ok noPrefix_sat (getDescription_checked hs) rfl rfl rfl (by decide) (fun _ => rfl), trivial⟩

theorem shellOps_ok (hs : Sound env) : OpsOk env cfg [.indexError, .typeError, .stopIteration] (specOps 2) (shellOps cfg) :=
  .append (.append (.append (es := [_, _]) (ops := [_, _])
    ⟨op_ok aasPrefix_sat (getShell_checked hs) rfl rfl rfl (by decide) (fun _ => rfl), op_ok aasPrefix_sat (getShellReference_checked hs) rfl rfl rfl (by decide) (fun _ => rfl), trivial⟩
    (partOps_ok hs aasPrefix_sat rfl (by decide) (by decide))) (elementOps_ok hs (aasSubmodelPrefix_sat hs) rfl (by decide) (by decide)))
    (ops' := [_, _]) ⟨op_ok aasPrefix_sat (generateSerialization_checked hs) rfl rfl rfl (by decide) (fun _ => rfl), op_ok noPrefix_sat (getDescription_checked hs) rfl rfl rfl (by decide) (fun _ => rfl), trivial⟩

theorem submodelOps_ok (hs : Sound env) : OpsOk env cfg [.indexError, .typeError, .stopIteration] (specOps 3) (submodelOps cfg) :=
  .append (.append (es := [_, _, _, _, _]) (ops := [_, _, _, _, _])
    ⟨op_ok submodelPrefix_sat (getSubmodel_checked hs) rfl rfl rfl (by decide) (fun _ => rfl), op_ok submodelPrefix_sat (getSubmodelMeta_checked hs) rfl rfl rfl (by decide) (fun _ => rfl),
     op_ok submodelPrefix_sat (getSubmodelValue_checked hs) rfl rfl rfl (by decide) (fun _ => rfl), op_ok submodelPrefix_sat (getSubmodelReference_checked hs) rfl rfl rfl (by decide) (fun _ => rfl),
     op_ok submodelPrefix_sat (getSubmodelPath_checked hs) rfl rfl rfl (by decide) (fun _ => rfl), trivial⟩
    (elementOps_ok hs submodelPrefix_sat rfl (by decide) (by decide)))
    (ops' := [_, _]) ⟨op_ok submodelPrefix_sat (generateSerialization_checked hs) rfl rfl rfl (by decide) (fun _ => rfl), op_ok noPrefix_sat (getDescription_checked hs) rfl rfl rfl (by decide) (fun _ => rfl), trivial⟩

end Api.Suites
end Verif
