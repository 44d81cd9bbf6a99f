import Verif.PathLemmas3
import Verif.Props.Document

/-!
# C49: idShort paths

`Child`, `Under`, `HasPath` and `Enumerates` are the specification (`Spec/Paths.lean`), `parseF` with `postParseSubmodel`, and
`submodelElements`, are the code.
-/

namespace Verif.Props
open Verif Verif.Parse Verif.Spec.Parse Verif.Spec.Model Verif.Spec.Paths Verif.Aas Verif.DataTypes Verif.Spec Res

variable {lim : Option Nat}

section
variable {A : Type} (ops : Ops A) (size : A → Nat) (hl : ops.Lawful size) (he : NoEmpty ops)
include hl he

/-- submodels of a parsed document went through `post_parse` -/
theorem parsed_submodels (c : Cls) (hc : isAbstract c = false) (a : A) (n : Nat) (hn : size a < n) (res r : Res Note) (v : AVal)
    (h : parseF ops (schema lim) n (.cls c) a res = .ok (v, r)) (hok : r.ok = true) (p : List PTok) (attrs : List (Fld × AVal))
    (hx : Nested Fld.pyName v p (.obj .submodel attrs)) :
    ∃ u, Obj lim .submodel u ∧ postParseSubmodel u = .ok (.obj .submodel attrs) := by
  have hg := parseF_good ops (schema lim) _ hl (fun _ => True) ⟨fun _ _ _ _ _ _ => trivial, fun _ _ _ _ _ _ _ => trivial⟩
    n (.cls c) a hn trivial res
  rw [h] at hg
  obtain ⟨notes, rfl, -, -, hr⟩ := hg
  obtain ⟨h1, h2⟩ := (appendAll_errs_ok _ _).mp hok
  exact (read_posted he (hr h2 h1) (by simp [okTy, hc])).1 p attrs hx

/-- After parsing, every element below a submodel has the path that leads to it, in this submodel. -/
theorem C49_paths (c : Cls) (hc : isAbstract c = false) (a : A) (n : Nat) (hn : size a < n) (res r : Res Note) (v : AVal)
    (h : parseF ops (schema lim) n (.cls c) a res = .ok (v, r)) (hok : r.ok = true) (p : List PTok) (attrs : List (Fld × AVal))
    (hx : Nested Fld.pyName v p (.obj .submodel attrs)) (is : List Nat) (ts : List Tok) (x : AVal) (hne : is ≠ [])
    (hu : Under (.obj .submodel attrs) is ts x) : HasPath (.obj .submodel attrs) ts x := by
  obtain ⟨u, ho, hp⟩ := parsed_submodels ops size hl he c hc a n hn res r v h hok p attrs hx
  exact postParse_paths ho hp is ts x hne hu

/-- `elements()` of a parsed submodel lists every element below it once, in document order. -/
theorem C49_elements (c : Cls) (hc : isAbstract c = false) (a : A) (n : Nat) (hn : size a < n) (res r : Res Note) (v : AVal)
    (h : parseF ops (schema lim) n (.cls c) a res = .ok (v, r)) (hok : r.ok = true) (p : List PTok) (attrs : List (Fld × AVal))
    (hx : Nested Fld.pyName v p (.obj .submodel attrs)) : Enumerates (.obj .submodel attrs) (submodelElements (.obj .submodel attrs)) := by
  obtain ⟨u, ho, hp⟩ := parsed_submodels ops size hl he c hc a n hn res r v h hok p attrs hx
  obtain ⟨w, e, how, -⟩ := postParseSubmodel_ok lim u ho
  rw [hp] at e
  injection e with e
  subst e
  exact submodelElements_enum _ how

end

/-- Different elements of a submodel have different paths, if all of them have idShorts that are unique among their siblings. -/
theorem C49_distinct (root : AVal) (ho : Obj lim .submodel root) (h22 : ∀ p, ¬ Breaks lim root p py!"AASd-022" .error)
    (h117 : ∀ p, ¬ Breaks lim root p py!"AASd-117" .error) (is js : List Nat) (ts : List Tok) (x y : AVal)
    (hx : Under root is ts x) (hy : Under root js ts y) : is = js ∧ x = y := by
  refine under_inj hx ?_ hy
  intro ks us n hn i j t a b ha hb
  obtain ⟨⟨p, hp⟩, c, hc, -⟩ := under_nested hn ho
  have h1 : ∀ {P : Prop}, (¬ P → Broken lim (IndexText lim) n py!"AASd-022" .error) → P := fun h =>
    Classical.byContradiction fun hP => h22 p ⟨n, hp, h hP⟩
  have h2 : ∀ {P : Prop}, (¬ P → Broken lim (IndexText lim) n py!"AASd-117" .error) → P := fun h =>
    Classical.byContradiction fun hP => h117 p ⟨n, hp, h hP⟩
  generalize ht : t = t' at hb
  cases ha with
  | submodel hm =>
    cases hb with
    | submodel hm' => exact called_inj (h2 (.submodel rfl)) (h1 (.uniqueSubmodel rfl)) hm hm' ht
  | collection hm =>
    cases hb with
    | collection hm' => exact called_inj (h2 (.collection rfl)) (h1 (.uniqueCollection rfl)) hm hm' ht
  | list hm => cases hb with | list hm' => injection ht

/-- the text of the path of an element -/
def pathText (x : AVal) : Option Str :=
  match Model.get x .idShortPath with
  | .path ri rid ts => some (pathStr ri rid ts)
  | _ => none

theorem tokOk_under {root : AVal} (ho : Obj lim .submodel root) (h2 : ∀ p, ¬ Breaks lim root p py!"AASd-002" .error) {is : List Nat}
    {ts : List Tok} {x : AVal} (h : Under root is ts x) : ∀ t ∈ ts, TokOk t := by
  have hname : ∀ {ks us n}, Under root ks us n → TokOk (called n) := by
    intro ks us n hn
    obtain ⟨⟨p, hp⟩, -⟩ := under_nested hn ho
    have : AASd002 n := Classical.byContradiction fun hP => h2 p ⟨n, hp, .aasd002 hP⟩
    rw [called]
    cases hi : idShort? n with
    | none => exact trivial
    | some s => exact this s hi
  have key : ∀ {n : AVal} {is : List Nat} {ts : List Tok} {x : AVal}, Under n is ts x → (∀ ks us y, Under n ks us y → TokOk (called y)) →
      ∀ t ∈ ts, TokOk t := by
    intro n is ts x h
    induction h with
    | here => intro _ t ht; simp at ht
    | step hc _ ih =>
      intro hall t ht
      rcases List.mem_cons.mp ht with rfl | ht
      · have := hall _ _ _ (.step hc .here)
        cases hc with
        | submodel => exact this
        | collection => exact this
        | list => exact trivial
      · exact ih (fun ks us y hy => hall _ _ y (.step hc hy)) t ht
  exact key h fun ks us y hy => hname hy

/-- Different elements of a submodel have paths with different texts, if the constraints on idShorts are met. -/
theorem C49_text (root : AVal) (ho : Obj lim .submodel root) (hp : ∀ is ts x, is ≠ [] → Under root is ts x → HasPath root ts x)
    (h2 : ∀ p, ¬ Breaks lim root p py!"AASd-002" .error)
    (h22 : ∀ p, ¬ Breaks lim root p py!"AASd-022" .error) (h117 : ∀ p, ¬ Breaks lim root p py!"AASd-117" .error)
    (is js : List Nat) (ts us : List Tok) (x y : AVal) (hi : is ≠ []) (hj : js ≠ []) (hx : Under root is ts x) (hy : Under root js us y)
    (ht : pathText x = pathText y) : is = js ∧ x = y := by
  have e1 := hp is ts x hi hx
  have e2 := hp js us y hj hy
  rw [HasPath] at e1 e2
  rw [pathText, pathText, e1, e2] at ht
  simp only [Option.some.injEq] at ht
  have n1 : ts ≠ [] := by rintro rfl; cases hx; exact hi rfl
  have n2 : us ≠ [] := by rintro rfl; cases hy; exact hj rfl
  have := pathStr_inj n1 n2 (tokOk_under ho h2 hx) (tokOk_under ho h2 hy) ht
  subst this
  exact C49_distinct root ho h22 h117 is js ts x y hx hy

theorem written : ∀ {ts : List Tok}, ts ≠ [] → Written ts (Py.join py!"." (ts.map tokStr))
  | [t], _ => .one (by cases t <;> constructor)
  | t :: u :: ts, _ => .more (by cases t <;> constructor) (written (ts := u :: ts) (by simp))

/-- The text of the path of an element: the names on the way to it with dots between them, and the idShort and id of the submodel. -/
theorem C49_format (root : AVal) (hp : ∀ is ts x, is ≠ [] → Under root is ts x → HasPath root ts x) (is : List Nat) (ts : List Tok) (x : AVal) (hi : is ≠ [])
    (hx : Under root is ts x) : ∃ p, Written ts p ∧ pathText x = some (p ++ py!" in Submodel " ++ (idShort? root).getD [] ++ py!"[" ++ txt root .id ++ py!"]") := by
  have hn : ts ≠ [] := by rintro rfl; cases hx; exact hi rfl
  have e := hp is ts x hi hx
  rw [HasPath] at e
  refine ⟨_, written hn, ?_⟩
  rw [pathText, e]
  rfl

/-! ## Examples -/

def jEl (type : Str) (rest : List (Str × Json)) : Json := .obj ((py!"modelType", .str type) :: rest)
def jProp (name : Str) : Json := jEl py!"Property" [(py!"idShort", .str name), (py!"valueType", .str py!"xs:int")]
def nestedJson : Json := jEl py!"Submodel" [(py!"id", .str py!"urn:x"), (py!"idShort", .str py!"sm"), (py!"submodelElements", .arr [jProp py!"a",
  jEl py!"SubmodelElementCollection" [(py!"idShort", .str py!"c"), (py!"value", .arr [
    jEl py!"SubmodelElementList" [(py!"idShort", .str py!"l"), (py!"typeValueListElement", .str py!"SubmodelElementCollection"),
      (py!"value", .arr [jEl py!"SubmodelElementCollection" [], jEl py!"SubmodelElementCollection" [(py!"value", .arr [jProp py!"a"])]])],
    jProp py!"a"])],
  jEl py!"Entity" [(py!"idShort", .str py!"e"), (py!"entityType", .str py!"CoManagedEntity"), (py!"statements", .arr [jProp py!"s"])]])]

/-- what is read from the document, and the paths of all elements in the order of `elements()` -/
def pathsOf (j : Json) : Option (List (Option Str)) :=
  match parseF jsonOps (schema none) 60 (.cls .submodel) ⟨j, []⟩ (Res.new ⟨.title [], []⟩) with
  | .ok (v, r) => if r.ok then some ((submodelElements v).map pathText) else none
  | .error _ => none

example : pathsOf nestedJson = some [some py!"a in Submodel sm[urn:x]", some py!"c in Submodel sm[urn:x]", some py!"c.l in Submodel sm[urn:x]",
    some py!"c.l.0 in Submodel sm[urn:x]", some py!"c.l.1 in Submodel sm[urn:x]", some py!"c.l.1.a in Submodel sm[urn:x]",
    some py!"c.a in Submodel sm[urn:x]", some py!"e in Submodel sm[urn:x]"] := by decide +kernel

/-- the verdict of the whole check: the constraints of C49_distinct and C49_text are met by this document -/
example : (checkDocument jsonOps none 60 .submodel ⟨nestedJson, []⟩).map (fun r => r.1.ok) = .ok true := by decide +kernel

/-- Statements of entities are elements of the submodel as well, but get no path and are not listed by `elements()`. -/
theorem C49_statements_violated : ∃ v r x y, parseF jsonOps (schema none) 60 (.cls .submodel) ⟨nestedJson, []⟩ (Res.new ⟨.title [], []⟩) = .ok (v, r) ∧
    r.ok = true ∧ (elems v .submodelElements)[2]? = some x ∧ className x = py!"Entity" ∧ (elems x .statements)[0]? = some y ∧
    pathText y = none ∧ (submodelElements v).length = 8 := by
  have key : ∀ w : Except PyExc (AVal × Res Note), (match w with
      | .ok (v, r) => r.ok && ((elems v .submodelElements)[2]?.any fun x => decide (className x = py!"Entity") &&
          (elems x .statements)[0]?.any fun y => (pathText y).isNone) && decide ((submodelElements v).length = 8)
      | .error _ => false) = true → ∃ v r x y, w = .ok (v, r) ∧ r.ok = true ∧ (elems v .submodelElements)[2]? = some x ∧
        className x = py!"Entity" ∧ (elems x .statements)[0]? = some y ∧ pathText y = none ∧ (submodelElements v).length = 8 := by
    intro w h
    match w, h with
    | .ok (v, r), h =>
      simp only [Bool.and_eq_true, Option.any_eq_true, decide_eq_true_eq, Option.isNone_iff_eq_none] at h
      obtain ⟨⟨h1, x, h2, h3, y, h4, h5⟩, h6⟩ := h
      exact ⟨v, r, x, y, rfl, h1, h2, h3, h4, h5, h6⟩
  exact key _ (by decide +kernel)

end Verif.Props
