import Verif.SuiteTypes

/-! # Facts about every suite -/

namespace Verif.Api.Suites
open Verif Verif.Parse Verif.Aas Verif.Spec Verif.Spec.Parse Verif.Spec.Api Verif.Spec.Suites Verif.Spec.Generate Verif.Generate Verif.Http Verif.Props
open Verif.Api hiding sane supported

variable {env : List Sent → Sent → Answer} {cfg : Cfg}

/-- exceptions of the engine itself: of one of these classes -/
def Own (l : List PyExc) (e : Exc) : Prop := ∃ x ∈ l, e = excOf x

/-- a test only reads and raises known exceptions -/
def TestSat {σ : Type} (env : List Sent → Sent → Answer) (cfg : Cfg) (c : Call) (T : List PyExc) (ok : σ → Prop) (t : Test σ) : Prop :=
  ∀ client profile st, Rooted client → ok st →
    Sat env (Sends client c) (fun _ => True) (fun _ => True) (fun e => Known env cfg.lim e ∨ Own T e) (t.run client profile st)

def TestsSat {σ : Type} (env : List Sent → Sent → Answer) (cfg : Cfg) (c : Call) (T : List PyExc) (ok : σ → Prop) (ts : List (Test σ)) : Prop :=
  ∀ t ∈ ts, TestSat env cfg c T ok t

/-- What holds for a suite: its `setup` only reads, its tests only send requests of the call `c`, and the exceptions they raise
are known, up to those of the classes `S` and `T`. `ok` holds for the attributes that `setup` sets. -/
structure Checked (env : List Sent → Sent → Answer) (cfg : Cfg) (c : Call) (S T : List PyExc) (s : Suite) (ok : s.σ → Prop) : Prop where
  same : sameArgs s.errorArgs s.successArgs = true
  setup : ∀ client, Rooted client → Sat env (ReadOnly client) ok (·.ok = false) (fun e => Known env cfg.lim e ∨ Own S e) (s.setup client)
  generated : ∃ invalid, Generated argClasses s.errorArgs invalid
  invoke : s.invokeError = c.error cfg
  args : s.errorArgs = c.params
  sane : Sane c
  negative : ∀ st, ok st → ∀ a ∈ c.params, ∀ vs, generateInvalidValues argClasses a = .ok vs → ∀ v ∈ vs,
    c.canFail = true ∧ Fits c (Kwargs.set a.name v (s.valid st))
  tests : TestsSat env cfg c T ok s.tests

/-! ## negative tests -/

theorem sameArgs_refl : ∀ l : List Arg, sameArgs l l = true
  | [] => rfl
  | a :: l => by simp [sameArgs, Argument.sameAs, sameArgs_refl l]

theorem enc_generated {a : Arg} {vs : List ArgVal} (h : generateInvalidValues argClasses a = .ok vs) {v : ArgVal} (hv : v ∈ vs) : Encodable v := by
  unfold generateInvalidValues at h
  split at h <;> (try split at h) <;> cases h <;> simp at hv <;> subst hv
  · exact ⟨⟨_, rfl, by unfold NoSurrogates; decide⟩, fun t h => by cases h⟩
  · exact ⟨⟨_, rfl, by unfold NoSurrogates; decide⟩, fun t h => by cases h⟩
  · have : ∀ n, NoSurrogates (List.replicate n (pc! '#')) := fun n c hc => by
      rw [List.mem_replicate] at hc
      omega
    exact ⟨⟨_, rfl, this _⟩, fun t h => by cases h; exact this _⟩
  · exact ⟨⟨_, rfl, by unfold NoSurrogates; decide⟩, fun t h => by cases h⟩
  · exact ⟨⟨_, rfl, by unfold NoSurrogates; decide⟩, fun t h => by cases h⟩

/-- all calls with invalid values are bound -/
def negFits (c : Call) (valid : Kwargs) : Bool :=
  c.params.all fun a => match generateInvalidValues argClasses a with
    | .ok vs => c.canFail && vs.all fun v => fits c (Kwargs.set a.name v valid)
    | .error _ => false

theorem mem_set {name : Str} {v : ArgVal} : ∀ {kw : Kwargs} {a}, a ∈ Kwargs.set name v kw → a.2 = v ∨ a ∈ kw
  | [], a, h => by simp [Kwargs.set] at h; simp [h]
  | (n, w) :: rest, a, h => by
    rw [Kwargs.set] at h
    split at h
    · rcases List.mem_cons.mp h with rfl | h
      · exact .inl rfl
      · exact .inr (List.mem_cons_of_mem _ h)
    · rcases List.mem_cons.mp h with rfl | h
      · exact .inr List.mem_cons_self
      · rcases mem_set h with h | h
        · exact .inl h
        · exact .inr (List.mem_cons_of_mem _ h)

theorem neg_fits {c : Call} {valid : Kwargs} (hn : negFits c valid = true) (he : ∀ a ∈ valid, Encodable a.2) :
    ∀ a ∈ c.params, ∀ vs, generateInvalidValues argClasses a = .ok vs → ∀ v ∈ vs, c.canFail = true ∧ Fits c (Kwargs.set a.name v valid) := by
  intro a ha vs hvs v hv
  have := List.all_eq_true.mp hn a ha
  rw [hvs] at this
  simp only [Bool.and_eq_true, List.all_eq_true] at this
  refine ⟨this.1, this.2 v hv, fun x hx => ?_⟩
  rcases mem_set hx with h | h
  · rw [h]; exact enc_generated hvs hv
  · exact he x h

theorem Checked.error {c : Call} {S T : List PyExc} {s : Suite} {ok : s.σ → Prop} (h : Checked env cfg c S T s ok) (hs : Sound env)
    (client : Client) (st : s.σ) (hr : Rooted client) (hst : ok st) : ∀ a ∈ s.errorArgs, ∀ vs, generateInvalidValues argClasses a = .ok vs → ∀ v ∈ vs,
    Sat env (SendsWith client c (Kwargs.set a.name v (s.valid st))) (fun _ => True) (fun _ => True) (Known env cfg.lim)
      (s.invokeError client (Kwargs.set a.name v (s.valid st))) := by
  intro a ha vs hvs v hv
  rw [h.invoke]
  obtain ⟨h1, h2⟩ := h.negative st hst a (h.args ▸ ha) vs hvs v hv
  exact (error_sat hs hr h.sane h1 h2).conseq (fun _ h => h) (fun _ h => h) (fun _ _ => trivial) fun _ h => h

theorem neg_generated {c : Call} {valid : Kwargs} (hn : negFits c valid = true) : ∃ invalid, Generated argClasses c.params invalid := by
  rcases generated_or argClasses c.params with h | ⟨a, ha, e, he⟩
  · exact h
  · have := List.all_eq_true.mp hn a ha
    rw [he] at this
    cases this

/-! ## positive tests -/

theorem fetch_sat (hs : Sound env) {σ : Type} {c : Call} (hc : Sane c) {kw : Kwargs} (hf : Fits c kw) {T : List PyExc} {name line title}
    {client : Client} (hr : Rooted client) (profile : Str) (st : σ) :
    Sat env (Sends client c) (fun _ => True) (fun _ => True) (fun e => Known env cfg.lim e ∨ Own T e)
      ((fetch cfg c name line title kw : Test σ).run client profile st) :=
  Sat.bind ((success_sat hs hr hc hf).conseq (fun _ h => ⟨_, h⟩) (fun _ h => h) (fun _ _ => trivial) fun _ h => .inl h)
    fun _ _ => Sat.pure trivial

theorem Own.none {e : Exc} : ¬ Own [] e := fun ⟨_, h, _⟩ => by cases h

theorem call_sat (hs : Sound env) {c : Call} (hc : Sane c) {kw : Kwargs} (hf : Fits c kw) {ab : Res Str → Prop} (hab : ∀ r, r.ok = false → ab r) {T : List PyExc}
    {client : Client} (hr : Rooted client) {P : Sent → Prop} (hP : ∀ s, SendsWith client c kw s → P s := by first | exact fun _ h => ⟨_, h⟩ | exact fun _ h => h.readOnly) :
    Sat env P (Returned cfg c) ab (fun e => Known env cfg.lim e ∨ Own T e) (c.success cfg client kw) :=
  (success_sat hs hr hc hf).conseq hP (fun _ h => h) hab fun _ h => .inl h

theorem lift_ok {α : Type} {P : Sent → Prop} {ret : α → Prop} {ab : Res Str → Prop} {ra : Exc → Prop} {x : Except PyExc α} {a : α}
    (hx : x = .ok a) (h : ret a) : Sat env P ret ab ra (lift x) := by
  rw [hx]; exact Sat.pure h

theorem lift_own {α : Type} {P : Sent → Prop} {ret : α → Prop} {ab : Res Str → Prop} {lim : Option Nat} {T : List PyExc} {x : Except PyExc α}
    (hv : ∀ a, x = .ok a → ret a) (he : ∀ e, x = .error e → e ∈ T) : Sat env P ret ab (fun e => Known env lim e ∨ Own T e) (lift x) :=
  lift_sat hv fun e h => .inr ⟨e, he e h, rfl⟩

theorem assert_any {P : Sent → Prop} {b : Bool} {m : Str} {l : Level} {ra : Exc → Prop} :
    Sat env P (fun _ => True) (fun _ => True) ra (assert_ b m l) :=
  (assert_sat (ab := fun _ => True) fun _ => trivial).conseq (fun _ h => h) (fun _ _ => trivial) (fun _ _ => trivial) fun _ h => h

theorem getOne_sat (hs : Sound env) {c : Call} (hc : Sane c) {p : Page} (hm : c.mode = .decode (pageTy p)) (hf : Fits c limit1) {T : List PyExc} {message}
    {client : Client} (hr : Rooted client) :
    Sat env (Sends client c) (fun _ => True) (fun _ => True) (fun e => Known env cfg.lim e ∨ Own T e) (getOne cfg c client message) := by
  refine Sat.bind (call_sat hs hc hf (fun _ _ => trivial) hr) fun v hv => ?_
  unfold Returned at hv
  rw [hm] at hv
  obtain ⟨cur, l, rfl, -, -⟩ := page_shape hv
  refine Sat.bind (lift_ok (ret := fun r => r = .list l) rfl rfl) fun r hr => ?_
  subst hr
  exact Sat.bind (lift_ok (ret := fun _ => True) (a := l.length) rfl trivial) fun _ _ => assert_any

theorem pagination_sat (hs : Sound env) {σ : Type} {c : Call} (hc : Sane c) {p : Page} (hm : c.mode = .decode (pageTy p)) (hf : Fits c limit1)
    {T : List PyExc} {cursor : σ → RVal} {client : Client} (hr : Rooted client) (profile : Str) (st : σ) :
    ∀ t ∈ (paginationTests cfg c cursor : List (Test σ)),
      Sat env (Sends client c) (fun _ => True) (fun _ => True) (fun e => Known env cfg.lim e ∨ Own T e) (t.run client profile st) := by
  intro t ht
  simp only [paginationTests, List.mem_cons, List.not_mem_nil, or_false] at ht
  rcases ht with rfl | rfl
  · exact getOne_sat hs hc hm hf hr
  · dsimp only
    split
    · exact Sat.abort trivial
    · exact getOne_sat hs hc hm hf hr

/-! ## collected paths -/

/-- no list of paths is empty, and all can be encoded -/
def GoodPaths (paths : Paths) : Prop := ∀ p ∈ paths, p.2 ≠ [] ∧ ∀ s ∈ p.2, NoSurrogates s

theorem addPath_good {k path : Str} (hp : NoSurrogates path) : ∀ {paths : Paths}, GoodPaths paths → GoodPaths (addPath k path paths)
  | [], _ => by
    intro p h
    simp only [addPath, List.mem_cons, List.not_mem_nil, or_false] at h
    subst h
    exact ⟨by simp, by simpa using hp⟩
  | (k', l) :: rest, h => by
    have h1 := h _ List.mem_cons_self
    have h2 : GoodPaths rest := fun p hp => h p (List.mem_cons_of_mem _ hp)
    rw [addPath]
    split
    · intro p hm
      rcases List.mem_cons.mp hm with rfl | hm
      · refine ⟨by simp, fun s hs => ?_⟩
        rcases List.mem_append.mp hs with hs | hs
        · exact h1.2 s hs
        · simp at hs; exact hs ▸ hp
      · exact h2 p hm
    · intro p hm
      rcases List.mem_cons.mp hm with rfl | hm
      · exact h1
      · exact addPath_good hp h2 p hm

theorem noSur_append {a b : Str} (ha : NoSurrogates a) (hb : NoSurrogates b) : NoSurrogates (a ++ b) := fun c hc => by
  rcases List.mem_append.mp hc with h | h
  · exact ha c h
  · exact hb c h

theorem natStrF_ascii : ∀ f n, ∀ c ∈ Py.natStrF f n, c < 128
  | 0, _, c, hc => by simp [Py.natStrF] at hc
  | f + 1, n, c, hc => by
    rw [Py.natStrF] at hc
    split at hc
    · simp at hc; omega
    · rcases List.mem_append.mp hc with hc | hc
      · exact natStrF_ascii f _ c hc
      · simp at hc; omega

theorem natStr_ascii (n : Nat) : NoSurrogates (Py.natStr n) := ascii_ok fun c hc => natStrF_ascii _ _ c hc

theorem rlookup_typed {lim : Option Nat} {fs : List RField} {attrs : List (RFld × RVal)} (h : FieldsOk (respSchema lim) fs attrs) {f : RFld} {slot}
    (hm : fs.find? (fun g => decide (g.name = f)) = some ⟨f, slot⟩) : ∃ w, rlookup f attrs = some w ∧ FieldOk (respSchema lim) ⟨f, slot⟩ (f, w) := by
  induction h with
  | nil => cases hm
  | @cons g a fs as h1 h2 ih =>
    obtain ⟨n, v⟩ := a
    obtain ⟨hn, hv⟩ := h1
    dsimp only at hn
    rw [List.find?_cons] at hm
    rw [rlookup]
    split at hm
    · rename_i hg
      cases hm
      rw [if_pos hn]
      exact ⟨v, rfl, rfl, hv⟩
    · rename_i hg
      rw [if_neg (by rw [hn]; simpa using hg)]
      exact ih hm

def elementTy : RTy := modelTy .submodelElement

/-- the field `idShort` of elements, and their field `value` -/
theorem element_fields : ∀ d ∈ subclassesOf .submodelElement,
    (respFields (.model d)).find? (fun g => decide (g.name = .model .idShort)) = some ⟨.model .idShort, .attr py!"idShort" (.sfv .nameTypeString) false⟩ ∧
    ((d = .submodelElementCollection ∨ d = .submodelElementList) →
      (respFields (.model d)).find? (fun g => decide (g.name = .model .value)) = some ⟨.model .value, .attr py!"value" (.list elementTy false) false⟩) := by
  decide +kernel

/-- the outcome of collecting: good paths, or `TypeError` because of a collection without elements -/
def Collected : Except PyExc Paths → Prop
  | .ok p => GoodPaths p
  | .error e => e = .typeError

mutual
theorem collect_good {lim : Option Nat} : ∀ (v : RVal), HasType (respSchema lim) elementTy v → ∀ (pre : Str) (idx : Nat) (paths : Paths), NoSurrogates pre → GoodPaths paths →
    Collected (collect pre idx paths v)
  | .obj c attrs, h, pre, idx, paths, hp, hg => by
    obtain ⟨hi, hf⟩ := hasType_obj.mp h
    obtain ⟨d, rfl, hd⟩ := isA_emb lim hi
    have hd : d ∈ subclassesOf .submodelElement := by
      rcases hd with ⟨ha, -⟩ | ⟨-, hm⟩
      · cases ha
      · exact hm
    obtain ⟨h1, h2⟩ := element_fields d hd
    obtain ⟨w, hw, -, ho⟩ := rlookup_typed hf h1
    rw [collect, hw]
    rcases ho with ⟨ho, -⟩ | ho
    · dsimp only at ho; subst ho; exact hg
    · dsimp only at ho
      cases ho with
      | sfv hc =>
        rename_i s
        have hs := noSur_append hp (xml_noSurrogates (sfv_xml (lim := lim) hc))
        have hg' := addPath_good (k := modelType (.model d)) hs hg
        dsimp only
        split
        · rename_i hx
          injection hx with hx
          exact collectA_good attrs _ hf (h2 (.inl hx)) _ _ (noSur_append hs (by unfold NoSurrogates; decide)) hg'
        · split
          · rename_i hx
            injection hx with hx
            exact collectA_good attrs _ hf (h2 (.inr hx)) _ _ (noSur_append (natStr_ascii idx) (by unfold NoSurrogates; decide)) hg'
          · exact hg'
  | .none, h, _, _, _, _, _ => by cases h
  | .invalid, h, _, _, _, _, _ => by cases h
  | .foreign, h, _, _, _, _, _ => by cases h
  | .str _, h, _, _, _, _, _ => by cases h
  | .bool _, h, _, _, _, _, _ => by cases h
  | .enum _ _, h, _, _, _, _, _ => by cases h
  | .sfv _ _, h, _, _, _, _, _ => by cases h
  | .list _, h, _, _, _, _, _ => by cases h
  | .path _ _ _, h, _, _, _, _, _ => by cases h
theorem collectA_good {lim : Option Nat} : ∀ (attrs : List (RFld × RVal)) (fs : List RField), FieldsOk (respSchema lim) fs attrs →
    fs.find? (fun g => decide (g.name = .model .value)) = some ⟨.model .value, .attr py!"value" (.list elementTy false) false⟩ →
    ∀ (pre : Str) (paths : Paths), NoSurrogates pre → GoodPaths paths → Collected (collectA pre paths attrs)
  | [], fs, h, hm, _, _, _, _ => by cases h; cases hm
  | (f, v) :: rest, fs, h, hm, pre, paths, hp, hg => by
    cases h with
    | @cons g _ fs _ h1 h2 =>
      obtain ⟨hn, hv⟩ := h1
      dsimp only at hn
      rw [List.find?_cons] at hm
      split at hm
      · cases hm
        dsimp only at hn hv
        subst hn
        rcases hv with ⟨hv, -⟩ | hv
        · subst hv; simp [collectA, Collected]
        · match v, hv with
          | .list l, hv =>
            cases hv with
            | list _ hl =>
              have := collectL_good l hl pre 0 paths hp hg
              simpa [collectA] using this
      · rename_i hx
        have := collectA_good rest fs h2 hm pre paths hp hg
        have hx : f ≠ .model .value := by rw [hn]; simpa using hx
        cases v <;> simpa [collectA, hx] using this
theorem collectL_good {lim : Option Nat} : ∀ (l : List RVal), (∀ x ∈ l, HasType (respSchema lim) elementTy x) → ∀ (pre : Str) (idx : Nat) (paths : Paths),
    NoSurrogates pre → GoodPaths paths → Collected (collectL pre idx paths l)
  | [], _, _, _, _, _, hg => hg
  | v :: vs, h, pre, idx, paths, hp, hg => by
    have h1 := collect_good v (h v List.mem_cons_self) pre idx paths hp hg
    rw [collectL]
    cases hc : collect pre idx paths v with
    | error e => rw [hc] at h1; exact h1
    | ok p =>
      rw [hc] at h1
      exact collectL_good vs (fun x hx => h x (List.mem_cons_of_mem _ hx)) pre (idx + 1) p hp h1
end

end Verif.Api.Suites
