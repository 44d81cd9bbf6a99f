import Verif.SuiteFacts8

/-! # The positive tests of submodels by their ids and of elements by their paths -/

namespace Verif.Api.Suites
open Verif Verif.Parse Verif.Aas Verif.Spec Verif.Spec.Parse Verif.Spec.Api Verif.Spec.Suites Verif.Spec.Routes Verif.Spec.Generate Verif.Generate Verif.Http Verif.Props
open Verif.Api hiding sane supported

variable {S : Setting} {text : Note → Str} {pre : Str} {base : List Seg}

/-! ## ids of submodels -/

/-- where the ids come from, for this prefix -/
def FromOk (from_ : From) (base : List Seg) : Prop :=
  match from_ with
  | .aas => ¬ Fills base []
  | .submodel => Fills base []

theorem pure_val {env : List Sent → Sent → Answer} {α : Type} {a b : α} {h : List Sent} (ho : (meaning env (.pure a) true h).out = .val b) : a = b := by
  cases ho; rfl

theorem lift_bind_val {env : List Sent → Sent → Answer} {α β : Type} {x : Except PyExc α} {k : α → ApiM β} {h : List Sent} {b : β}
    (ho : (meaning env ((lift x).bind k) true h).out = .val b) : ∃ a, x = .ok a ∧ (meaning env (k a) true h).out = .val b := by
  cases x with
  | ok a => exact ⟨a, rfl, ho⟩
  | error e => cases ho

theorem submodelId_found (hs : Sound S.env) {from_ : From} {suffix : List Piece} (hp : Placed S pre base (submodelPath suffix)) (hfrom : FromOk from_ base) {h : List Sent} {i : Str}
    (ho : (meaning S.env (from_.setup ⟨S.lim, text⟩ (S.client.descend pre)) true h).out = .val i) : IdOk i ∧ submodelId S i := by
  cases from_ with
  | aas =>
    obtain ⟨v, h', h1, h2, h3⟩ := firstId_found hs hp.slash hp.fills (c := getAllSubmodelReferences) (p := .submodelRefs) rfl rfl rfl rfl ho
    obtain ⟨j, h4, h5⟩ := lift_bind_val h3
    obtain ⟨w, h6, h7⟩ := lift_bind_val h5
    cases pure_val h7
    simp only [bind_ok] at h4
    obtain ⟨x, h8, h9⟩ := h4
    obtain ⟨l, h8⟩ := firstResult_iff.mp h8
    refine ⟨?_, base, segs suffix, hp.form, .inr ⟨hfrom, x, ⟨v, l, h1, h8⟩, firstKey_iff.mp h9⟩⟩
    obtain ⟨l', hl', ht⟩ := page_entries h2
    rw [entries_unique hl' h8] at ht
    obtain ⟨a, rfl, ha⟩ := model_obj (c := .reference) rfl (ht x List.mem_cons_self)
    obtain ⟨t, ht, hi⟩ := key_ok ha
    rw [h9] at ht
    cases ht
    exact hi
  | submodel =>
    obtain ⟨v, h', h1, h2, h3⟩ := firstId_found hs hp.slash hp.fills (c := getAllSubmodels) (p := .submodels) rfl rfl rfl rfl ho
    obtain ⟨j, h4, h5⟩ := lift_bind_val h3
    obtain ⟨w, h6, h7⟩ := lift_bind_val h5
    cases pure_val h7
    obtain ⟨x, l, h8, h9⟩ := firstId_iff.mp h4
    exact ⟨(firstId_ok (c := .submodel) rfl rfl rfl h2).1 _ h4, base, segs suffix, hp.form, .inl ⟨hfrom, x, ⟨v, l, h1, h8⟩, h9⟩⟩

theorem submodel_arg {c : Call} {suffix : List Piece} (hroute : c.route.path = submodelPath (suffix)) (hsuf : ∀ n, Piece.arg n ∉ suffix)
    (hb : ∀ s, bindArgs c.params [(py!"submodel_id", .sfv true s)] = .ok fun n => (List.find? (fun a : Str × ArgVal => a.1 == n) [(py!"submodel_id", .sfv true s)]).elim .none (·.2)) :
    ∀ s t, (ArgVal.sfv true s).pyStr = .ok t → pathArg? c [(py!"submodel_id", .sfv true s)] t := by
  intro s t ht
  refine ⟨_, hb s, fun n hn => ?_⟩
  rw [hroute] at hn
  simp only [submodelPath, List.cons_append, List.nil_append, List.mem_cons, reduceCtorEq, false_or, Piece.arg.injEq] at hn
  rcases hn with rfl | hn
  · exact ht
  · exact absurd hn (hsuf n)

theorem lit_only {s : Str} : ∀ n, Piece.arg n ∉ [Piece.lit s] := fun n h => by cases List.mem_singleton.mp h
theorem nil_only : ∀ n, Piece.arg n ∉ ([] : List Piece) := fun n h => by cases h

theorem getSubmodelById_positive (hs : Sound S.env) {from_ : From} (hp : Placed S pre base getSubmodelById.route.path) (hfrom : FromOk from_ base) :
    SuitePositive S text pre (positivesOf py!"GetSubmodelById") (getSubmodelByIdSuite · from_) := by
  intro h st ho
  obtain ⟨hi, hid⟩ := submodelId_found hs (suffix := []) hp hfrom ho
  obtain ⟨t, ht, h'⟩ := byId_positive (text := text) (arg := py!"submodel_id") hp (fun _ => rfl) (submodel_arg rfl nil_only fun _ => rfl) hi
    (answer_id (i := st) (m := py!"Returns the right one") hs rfl (d := .submodel) rfl rfl rfl ⟨rfl, enc_one hi.enc⟩ (rooted_descend hp.slash))
  exact .cons ⟨_, t, hid, ht, h'⟩ .nil

theorem getSubmodelByIdMeta_positive (hs : Sound S.env) {from_ : From} (hp : Placed S pre base getSubmodelByIdMeta.route.path) (hfrom : FromOk from_ base) :
    SuitePositive S text pre (positivesOf py!"GetSubmodelById-Metadata") (getSubmodelByIdMetaSuite · from_) := by
  intro h st ho
  obtain ⟨hi, hid⟩ := submodelId_found hs (suffix := [.lit py!"/$metadata"]) hp hfrom ho
  obtain ⟨t, ht, h'⟩ := byId_positive (text := text) (arg := py!"submodel_id") hp (fun _ => rfl) (submodel_arg rfl lit_only fun _ => rfl) hi
    (answer_id (i := st) (m := py!"Returns the right one") hs rfl (d := .submodel) rfl rfl rfl ⟨rfl, enc_one hi.enc⟩ (rooted_descend hp.slash))
  exact .cons ⟨_, t, hid, ht, h'⟩ .nil

theorem getSubmodelByIdReference_positive (hs : Sound S.env) {from_ : From} (hp : Placed S pre base getSubmodelByIdReference.route.path) (hfrom : FromOk from_ base) :
    SuitePositive S text pre (positivesOf py!"GetSubmodelById-Reference") (getSubmodelByIdReferenceSuite · from_) := by
  intro h st ho
  obtain ⟨hi, hid⟩ := submodelId_found hs (suffix := [.lit py!"/$reference"]) hp hfrom ho
  obtain ⟨t, ht, h'⟩ := byId_positive (text := text) (arg := py!"submodel_id") hp (fun _ => rfl) (submodel_arg rfl lit_only fun _ => rfl) hi
    (answer_key (i := st) (m := py!"Returns the right one") hs rfl rfl ⟨rfl, enc_one hi.enc⟩ (rooted_descend hp.slash))
  exact .cons ⟨_, t, hid, ht, h'⟩ .nil

theorem getSubmodelByIdValue_positive (hs : Sound S.env) {from_ : From} (hp : Placed S pre base getSubmodelByIdValue.route.path) (hfrom : FromOk from_ base) :
    SuitePositive S text pre (positivesOf py!"GetSubmodelById-ValueOnly") (getSubmodelByIdValueSuite · from_) := by
  intro h st ho
  obtain ⟨hi, hid⟩ := submodelId_found hs (suffix := [.lit py!"/$value"]) hp hfrom ho
  obtain ⟨t, ht, h'⟩ := byId_positive (text := text) (arg := py!"submodel_id") hp (fun _ => rfl) (submodel_arg rfl lit_only fun _ => rfl) hi
    (answer_json (sane_of rfl) rfl ⟨rfl, enc_one hi.enc⟩ (rooted_descend hp.slash))
  exact .cons ⟨_, t, hid, ht, h'⟩ .nil

theorem getSubmodelByIdPath_positive (hs : Sound S.env) {from_ : From} (hp : Placed S pre base getSubmodelByIdPath.route.path) (hfrom : FromOk from_ base) :
    SuitePositive S text pre (positivesOf py!"GetSubmodelById-Path") (getSubmodelByIdPathSuite · from_) := by
  intro h st ho
  obtain ⟨hi, hid⟩ := submodelId_found hs (suffix := [.lit py!"/$path"]) hp hfrom ho
  obtain ⟨t, ht, h'⟩ := byId_positive (text := text) (arg := py!"submodel_id") hp (fun _ => rfl) (submodel_arg rfl lit_only fun _ => rfl) hi
    (answer_valid hs rfl rfl ⟨rfl, enc_one hi.enc⟩ (rooted_descend hp.slash))
  exact .cons ⟨_, t, hid, ht, h'⟩ .nil

/-! ## elements -/

/-- the setup of suites of elements -/
theorem elements_found (hs : Sound S.env) {suffix : List Piece} (hp : Placed S pre base (elementPath suffix)) {h : List Sent} {st : Paths × Str}
    (ho : (meaning S.env ((getAllSubmodelElements.success ⟨S.lim, text⟩ (S.client.descend pre) []).bind fun page => lift (elementState page)) true h).out = .val st) :
    GoodPaths st.1 ∧ ∃ l, Elements S l ∧ ∀ c p, Has st.1 c.pyName p ↔ Located l c p := by
  obtain ⟨q, r, v, h1, h2, h3, h4⟩ := setup_val hs (sane_of (c := getAllSubmodelElements) rfl) (ty := pageTy .elements) rfl ⟨rfl, enc_nil⟩ (rooted_descend hp.slash) ho
  have hst := lift_val h4
  obtain ⟨l, h5, h6⟩ := elementState_found hst
  exact ⟨((elementState_ok (acceptable_typed h3)).1 _ hst).1, l,
    ⟨base, segs suffix, v, hp.form, ⟨h, q, r, asks_base hp.fills h1 (kw := []) rfl (ascii_params rfl), h2, h3⟩, h5⟩, located_iff h6⟩

theorem element_arg {c : Call} {suffix : List Piece} (hroute : c.route.path = elementPath suffix) (hsuf : ∀ n, Piece.arg n ∉ suffix) {kw : Kwargs} {s : Str}
    (hb : bindArgs c.params ((py!"id_short_path", .str s) :: kw) = .ok fun n => (List.find? (fun a : Str × ArgVal => a.1 == n) ((py!"id_short_path", .str s) :: kw)).elim .none (·.2)) :
    pathArg? c ((py!"id_short_path", .str s) :: kw) s := by
  refine ⟨_, hb, fun n hn => ?_⟩
  rw [hroute] at hn
  simp only [elementPath, List.cons_append, List.nil_append, List.mem_cons, reduceCtorEq, false_or, Piece.arg.injEq] at hn
  rcases hn with rfl | hn
  · rfl
  · exact absurd hn (hsuf n)

/-- one test for the path of an element -/
theorem element_test {paths : Paths} (hg : GoodPaths paths) {l : List RVal} (hl : ∀ c p, Has paths c.pyName p ↔ Located l c p) {d : Cls} {params : List (Str × Str)} {good : Demand}
    {m : Str} {k : Str → ApiM Unit} (hk : ∀ p, NoSurrogates p → TestsAnswer S (replaced p S.template) params good good (k p)) :
    TestsElement S l d params good (match pathFor paths d.pyName with | none => .abort (Res.new m .warning) | some p => k p) := by
  obtain ⟨h1, h2⟩ := pathFor_has hg (k := d.pyName)
  cases hx : pathFor paths d.pyName with
  | none => exact .inl ⟨fun ⟨p, hp⟩ => h2 hx p ((hl d p).mpr hp), skips⟩
  | some p =>
    obtain ⟨e, hm, hpe⟩ := pathFor_mem hx
    exact .inr ⟨p, (hl d p).mp (h1 p hx), hk p ((hg e hm).2 p hpe)⟩

/-- the check for one class -/
def checkOne (cfg : Cfg) (call : Call) (supported : List Cls) (kw : Kwargs) (client : Client) (paths : Paths) (c : Cls) : ApiM Unit :=
  match pathFor paths c.pyName with
  | none => .abort (Res.new py!"No such element present" .warning)
  | some p =>
    if supported.contains c then (call.success cfg client ((py!"id_short_path", .str p) :: kw)).bind fun _ => .pure ()
    else call.error cfg client ((py!"id_short_path", .str p) :: kw)

theorem checkType_blocks {env : List Sent → Sent → Answer} {cfg : Cfg} {call : Call} {supported : List Cls} {kw : Kwargs} {client : Client} {paths : Paths} : ∀ (l : List Cls) (h : List Sent),
    Blocks env ((l.map fun c => py!"Checking " ++ c.pyName).zip (l.map (checkOne cfg call supported kw client paths))) h (meaning env (checkType cfg call supported kw client paths l) true h)
  | [], h => .inr ⟨rfl, .nil h⟩
  | _ :: l, _ => blocks_cons env (fun _ _ _ h => h) fun h => checkType_blocks l h

theorem calm_block {env : List Sent → Sent → Answer} {α β : Type} {title : Str} {body : ApiM β} {k : Res Str → Option β → ApiM α}
    (hb : ∀ h, ¬ Throws env body h) (hk : ∀ r v h, ¬ Throws env (k r v) h) (h : List Sent) : ¬ Throws env (.block (Res.new title) false body k) h := by
  rcases block_ends env title body k true h with ⟨x, hx, -⟩ | ⟨r, v, log, h', e, -, -, hm⟩
  · exact absurd ⟨x, hx⟩ (hb h)
  · rintro ⟨x, hx⟩
    rw [hm] at hx
    exact hk r v h' ⟨x, hx⟩

theorem checkType_calm {env : List Sent → Sent → Answer} {cfg : Cfg} {call : Call} {supported : List Cls} {kw : Kwargs} {client : Client} {paths : Paths} : ∀ (l : List Cls)
    (_ : ∀ q ∈ l.map (checkOne cfg call supported kw client paths), ∀ h, ¬ Throws env q h) (h : List Sent), ¬ Throws env (checkType cfg call supported kw client paths l) h
  | [], _, h => fun ⟨_, hx⟩ => by cases hx
  | _ :: l, hq, h => calm_block (hq _ List.mem_cons_self) (fun _ _ => checkType_calm l fun q hm => hq q (List.mem_cons_of_mem _ hm)) h

theorem zip_map {α : Type} {β : Type 1} {f : α → β} : ∀ {l : List α} {x : α × β}, x ∈ l.zip (l.map f) → x.2 = f x.1
  | _ :: _, _, .head _ => rfl
  | _ :: _, _, .tail _ h => zip_map h

theorem typeTest_positive (hs : Sound S.env) {c : Call} {suffix : List Piece} (hroute : c.route.path = elementPath suffix) (hsuf : ∀ n, Piece.arg n ∉ suffix) (hp : Placed S pre base c.route.path)
    (hc : callOk c = true) (hfail : c.canFail = true) {kw : Kwargs} (he : ∀ a ∈ kw, Encodable a.2) (hf : ∀ s, fits c ((py!"id_short_path", .str s) :: kw) = true)
    (hb : ∀ s, bindArgs c.params ((py!"id_short_path", .str s) :: kw) = .ok fun n => (List.find? (fun a : Str × ArgVal => a.1 == n) ((py!"id_short_path", .str s) :: kw)).elim .none (·.2))
    {params : List (Str × Str)} (hq : ∀ s, asks c ((py!"id_short_path", .str s) :: kw) = some params) (ha : asciiParams params = true)
    {good : Demand} (hgood : ∀ kw, Fits c kw → Answers S.env (S.client.descend pre) c kw (good S.lim) (good S.lim) ((c.success ⟨S.lim, text⟩ (S.client.descend pre) kw).bind fun _ => .pure ()))
    {st : Paths × Str} (hst : GoodPaths st.1 ∧ ∃ l, Elements S l ∧ ∀ c p, Has st.1 c.pyName p ↔ Located l c p) {supported : List Cls} {name : Str} {line : Nat} :
    Positive.IsTest S ((typeTest ⟨S.lim, text⟩ c supported name line kw).run (S.client.descend pre) S.profile st) (.types params supported good) := by
  obtain ⟨hg, l, hel, hl⟩ := hst
  have hr := rooted_descend (client := S.client) hp.slash
  refine ⟨l, hel, elementTypes.map (checkOne ⟨S.lim, text⟩ c supported kw (S.client.descend pre) st.1), List.length_map _, fun x hx => ?_, fun h title v res h' he => ?_, checkType_calm _⟩
  · rw [zip_map hx]
    refine element_test hg hl fun p hsur => tests_of ?_ fun q hs => asks_path hp hs (hq p) (ascii_params ha) (element_arg hroute hsuf (hb p))
    have hfit : Fits c ((py!"id_short_path", .str p) :: kw) := ⟨hf p, enc_cons (enc_str hsur) he⟩
    by_cases hm : x.1 ∈ supported
    · rw [if_pos hm, if_pos (List.contains_iff_mem.mpr hm)]
      exact hgood _ hfit
    · rw [if_neg hm, if_neg fun h => hm (List.contains_iff_mem.mp h)]
      exact answer_error hs (sane_of hc) hfail hfit hr
  · exact ends_blocks S.env he (checkType_blocks _ _)

theorem typeTests_positive (hs : Sound S.env) {c : Call} {suffix : List Piece} (hroute : c.route.path = elementPath suffix) (hsuf : ∀ n, Piece.arg n ∉ suffix) (hp : Placed S pre base c.route.path)
    (hc : callOk c = true) (hfail : c.canFail = true) (hpar : c.params = [pathArg, levelArg, extentArg]) (hquery : c.route.query = [levelParam, extentParam])
    (hf : ∀ s l e, enumLike l = true → enumLike e = true → fits c ((py!"id_short_path", .str s) :: levelExtent l e) = true)
    {good : Demand} (hgood : ∀ kw, Fits c kw → Answers S.env (S.client.descend pre) c kw (good S.lim) (good S.lim) ((c.success ⟨S.lim, text⟩ (S.client.descend pre) kw).bind fun _ => .pure ()))
    {st : Paths × Str} (hst : GoodPaths st.1 ∧ ∃ l, Elements S l ∧ ∀ c p, Has st.1 c.pyName p ↔ Located l c p) {n : Nat} :
    PositiveRows S (Spec.Suites.elementTests good) (runs S pre st (typeTests ⟨S.lim, text⟩ c allSubmodelElements n)) := by
  have one : ∀ {l e : ArgVal} {params : List (Str × Str)} {name line}, enumLike l = true → enumLike e = true → Encodable l → Encodable e →
      (∀ s, asks { c with params := [pathArg, levelArg, extentArg], route := { c.route with query := [levelParam, extentParam] } } ((py!"id_short_path", .str s) :: levelExtent l e) = some params) →
      asciiParams params = true →
      Positive.IsTest S ((typeTest ⟨S.lim, text⟩ c allSubmodelElements name line (levelExtent l e)).run (S.client.descend pre) S.profile st) (.types params elementTypes good) := by
    intro l e params name line hl he hel hee hq ha
    refine typeTest_positive hs hroute hsuf hp hc hfail (enc_levelExtent hel hee) (fun s => hf s l e hl he) (fun s => by rw [hpar]; rfl) (fun s => ?_) ha hgood hst
    rw [← hq s]
    unfold asks
    rw [hpar, hquery]
  exact .cons (one rfl rfl enc_core enc_withBlob (fun _ => rfl) rfl) <| .cons (one rfl rfl enc_core enc_withoutBlob (fun _ => rfl) rfl) <|
    .cons (one rfl rfl enc_deep enc_withBlob (fun _ => rfl) rfl) <| .cons (one rfl rfl enc_deep enc_withoutBlob (fun _ => rfl) rfl) <|
    .cons (one rfl rfl enc_none enc_withBlob (fun _ => rfl) rfl) <| .cons (one rfl rfl enc_none enc_withoutBlob (fun _ => rfl) rfl) <|
    .cons (one rfl rfl enc_core enc_none (fun _ => rfl) rfl) <| .cons (one rfl rfl enc_deep enc_none (fun _ => rfl) rfl) <|
    .cons (one rfl rfl enc_none enc_none (fun _ => rfl) rfl) .nil

theorem getElement_positive (hs : Sound S.env) (hp : Placed S pre base getElement.route.path) : SuitePositive S text pre (positivesOf py!"GetSubmodelElementByPath") getElementSuite :=
  fun _ _ ho => typeTests_positive hs (suffix := []) rfl nil_only hp rfl rfl rfl rfl
    (fun s l e hl he => by show (enumLike l && (enumLike e && true)) = true; rw [hl, he]; rfl)
    (fun _ hf => answer_valid hs rfl rfl hf (rooted_descend hp.slash)) (elements_found hs hp ho)
theorem getElementValue_positive (hs : Sound S.env) (hp : Placed S pre base getElementValue.route.path) :
    SuitePositive S text pre (positivesOf py!"GetSubmodelElementByPath-ValueOnly") getElementValueSuite :=
  fun _ _ ho => typeTests_positive hs rfl lit_only hp rfl rfl rfl rfl
    (fun s l e hl he => by show (enumLike l && (enumLike e && true)) = true; rw [hl, he]; rfl)
    (fun _ hf => answer_json (sane_of rfl) rfl hf (rooted_descend hp.slash)) (elements_found hs hp ho)
theorem getElementMeta_positive (hs : Sound S.env) (hp : Placed S pre base getElementMeta.route.path) :
    SuitePositive S text pre (positivesOf py!"GetSubmodelElementByPath-Metadata") getElementMetaSuite :=
  fun _ _ ho => .cons (typeTest_positive hs rfl lit_only hp rfl rfl enc_nil (fun _ => rfl) (fun _ => rfl) (fun _ => rfl) rfl
    (fun _ hf => answer_json (sane_of rfl) rfl hf (rooted_descend hp.slash)) (elements_found hs hp ho)) .nil
theorem getElementReference_positive (hs : Sound S.env) (hp : Placed S pre base getElementReference.route.path) :
    SuitePositive S text pre (positivesOf py!"GetSubmodelElementByPath-Reference") getElementReferenceSuite :=
  fun _ _ ho => .cons (typeTest_positive hs rfl lit_only hp rfl rfl enc_nil (fun _ => rfl) (fun _ => rfl) (fun _ => rfl) rfl
    (fun _ hf => answer_valid hs rfl rfl hf (rooted_descend hp.slash)) (elements_found hs hp ho)) .nil
theorem getElementPath_positive (hs : Sound S.env) (hp : Placed S pre base getElementPath.route.path) :
    SuitePositive S text pre (positivesOf py!"GetSubmodelElementByPath-Path") getElementPathSuite :=
  fun _ _ ho => .cons (typeTest_positive hs rfl lit_only hp rfl rfl enc_nil (fun _ => rfl) (fun _ => rfl) (fun _ => rfl) rfl
    (fun _ hf => answer_valid hs rfl rfl hf (rooted_descend hp.slash)) (elements_found hs hp ho)) .nil
theorem getFile_positive (hs : Sound S.env) (hp : Placed S pre base getFile.route.path) : SuitePositive S text pre (positivesOf py!"GetFileByPath") getFileSuite := by
  intro h st ho
  obtain ⟨hg, l, hel, hl⟩ := elements_found hs hp ho
  refine .cons ⟨l, hel, element_test hg hl (d := .file) fun p hsur => ?_⟩ .nil
  exact tests_of (answer_raw (sane_of rfl) rfl ⟨rfl, enc_one (enc_str hsur)⟩ (rooted_descend hp.slash)) fun q hs =>
    asks_path hp hs (params := []) rfl (ascii_params rfl) (element_arg rfl lit_only rfl)

end Verif.Api.Suites
