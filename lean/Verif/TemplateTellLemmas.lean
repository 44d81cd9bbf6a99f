import Verif.TemplateTelling
import Verif.TemplateLemmas3
import Verif.ResultLemmas2
import Verif.ConstraintLemmas

/-! # The template parser with texts does what it does without them -/

namespace Verif.Parse
open Verif Res

/-- a result without its messages -/
def shape {μ : Type} (r : Res μ) : Res Unit := r.mapMsg fun _ => ()

theorem shapeL_append {μ : Type} (rs rs' : List (Res μ)) : mapMsgL (fun _ => ()) (rs ++ rs') = mapMsgL (fun _ => ()) rs ++ mapMsgL (fun _ => ()) rs' := by
  induction rs with
  | nil => rfl
  | cons r rs ih => simp only [List.cons_append, mapMsgL, ih]

theorem shape_append {μ : Type} (res r : Res μ) : shape (res.append r) = (shape res).append (shape r) := by
  cases res
  cases r
  simp only [shape, Res.append, mapMsg, Res.level, Res.subs, Res.msg, shapeL_append, mapMsgL]

theorem shape_appendAll {μ : Type} (rs : List (Res μ)) : ∀ res : Res μ, shape (res.appendAll rs) = (shape res).appendAll (rs.map shape) := by
  induction rs with
  | nil => intro res; rfl
  | cons r rs ih =>
    intro res
    have := ih (res.append r)
    rw [shape_append] at this
    exact this

theorem shape_ok {μ : Type} (r : Res μ) : (shape r).ok = r.ok := by
  cases r; rfl

theorem ok_of_shape {μ ν : Type} {r : Res μ} {s : Res ν} (h : shape r = shape s) : r.ok = s.ok := by rw [← shape_ok, h, shape_ok]

mutual
theorem shape_mapMsg {μ ν : Type} (f : μ → ν) : ∀ r : Res μ, shape (r.mapMsg f) = shape r
  | .mk m l ss => by simp only [shape, mapMsg, shape_mapMsgL f ss]
theorem shape_mapMsgL {μ ν : Type} (f : μ → ν) : ∀ rs : List (Res μ), mapMsgL (fun _ => ()) (mapMsgL f rs) = mapMsgL (fun _ => ()) rs
  | [] => rfl
  | r :: rs => by
    have := shape_mapMsg f r
    rw [shape, shape] at this
    simp only [mapMsgL, this, shape_mapMsgL f rs]
end

end Verif.Parse

namespace Verif.Templates
open Verif Verif.Parse Verif.Aas Verif.Spec.Model Verif.Spec.Templates Verif.Spec.Parse Verif.Spec Verif.Spec.Paths Res

/-- two steps do the same, except for the messages -/
def Sim {α : Type} (x : Except PyExc (α × Res Note)) (y : Except PyExc (α × Res Str)) : Prop :=
  (∃ e, x = .error e ∧ y = .error e) ∨ ∃ a r s, x = .ok (a, r) ∧ y = .ok (a, s) ∧ shape r = shape s

theorem Sim.error {α : Type} (e : PyExc) : Sim (α := α) (.error e) (.error e) := .inl ⟨e, rfl, rfl⟩

theorem Sim.ok {α : Type} (a : α) {r : Res Note} {s : Res Str} (h : shape r = shape s) : Sim (.ok (a, r)) (.ok (a, s)) := .inr ⟨a, r, s, rfl, rfl, h⟩

theorem Sim.told {α : Type} (a : α) {r : Res Note} {s : Res Str} (h : shape r = shape s) (k : Kind) (p q : List PTok) (t : Str) :
    Sim (.ok (a, report k p r)) (.ok (a, sayAt t q s)) := by
  refine .ok a ?_
  rw [report, sayAt, say, shape_append, shape_append, h]
  rfl

theorem Sim.said {α : Type} (a : α) {r : Res Note} {s : Res Str} (h : shape r = shape s) (k : Kind) (p : List PTok) (t : Str) :
    Sim (.ok (a, report k p r)) (.ok (a, say t s)) := by
  refine .ok a ?_
  rw [report, say, shape_append, shape_append, h]
  rfl

theorem Sim.bind {α β : Type} {x : Except PyExc (α × Res Note)} {y : Except PyExc (α × Res Str)} {f : α × Res Note → Except PyExc (β × Res Note)}
    {g : α × Res Str → Except PyExc (β × Res Str)} (h : Sim x y) (h' : ∀ a r s, shape r = shape s → Sim (f (a, r)) (g (a, s))) :
    Sim (x >>= f) (y >>= g) := by
  rcases h with ⟨e, rfl, rfl⟩ | ⟨a, r, s, rfl, rfl, hs⟩
  · exact .error e
  · exact h' a r s hs

theorem Sim.map {α β : Type} {x : Except PyExc (α × Res Note)} {y : Except PyExc (α × Res Str)} (f : α → β) (h : Sim x y) :
    Sim (x.map fun p => (f p.1, p.2)) (y.map fun p => (f p.1, p.2)) := by
  rcases h with ⟨e, rfl, rfl⟩ | ⟨a, r, s, rfl, rfl, hs⟩
  · exact .error e
  · exact .ok _ hs

/-- a step that needs no result comes first -/
theorem Sim.first {α β : Type} (x : Except PyExc α) {f : α → Except PyExc (β × Res Note)} {g : α → Except PyExc (β × Res Str)} (h : ∀ a, Sim (f a) (g a)) :
    Sim (x >>= f) (x >>= g) := by
  cases x with
  | error e => exact .error e
  | ok a => exact h a

section
variable {r : Res Note} {s : Res Str}

theorem sim_string (h : shape r = shape s) (el : AVal) (path : List PTok) : Sim (parseString el path r) (tellString el path s) := by
  unfold parseString tellString
  cases hi : !isInst .property el with
  | true => exact .told _ h _ _ _ _
  | false =>
    refine .first _ fun v => ?_
    cases hv : isNone v with
    | true => exact .told _ h _ _ _ _
    | false =>
      refine .first _ fun t => ?_
      cases t with
      | enum e t =>
        dsimp only
        by_cases ht : t ≠ py!"xs:string"
        · rw [if_pos ht, if_pos ht]; exact .told _ h _ _ _ _
        · rw [if_neg ht, if_neg ht]
          cases v <;> first | exact .error _ | exact .ok _ h
      | _ => exact .told _ h _ _ _ _

theorem sim_date (h : shape r = shape s) (el : AVal) (path : List PTok) : Sim (parseDate el path r) (tellDate el path s) := by
  unfold parseDate tellDate
  cases hi : !isInst .property el with
  | true => exact .told _ h _ _ _ _
  | false =>
    refine .first _ fun v => ?_
    cases hv : isNone v with
    | true => exact .told _ h _ _ _ _
    | false =>
      refine .first _ fun t => ?_
      cases t with
      | enum e t =>
        dsimp only
        by_cases ht : t ≠ py!"xs:date"
        · rw [if_pos ht, if_pos ht]; exact .told _ h _ _ _ _
        · rw [if_neg ht, if_neg ht]
          cases v <;> first | exact .error _ | exact .first _ fun _ => .ok _ h
      | _ => exact .told _ h _ _ _ _

theorem sim_lang (h : shape r = shape s) (el : AVal) (path : List PTok) : Sim (parseLang el path r) (tellLang el path s) := by
  unfold parseLang tellLang
  cases hi : !isInst .multiLanguageProperty el with
  | true => exact .told _ h _ _ _ _
  | false =>
    refine .first _ fun v => ?_
    cases hv : !truthy v with
    | true => exact .told _ h _ _ _ _
    | false => exact .ok _ h

variable (W : Words)

theorem sim_enum (h : shape r = shape s) (e : TEnum) (el : AVal) (path : List PTok) : Sim (parseEnum e el path r) (tellEnum W e el path s) := by
  unfold parseEnum tellEnum
  refine .bind (sim_string h el path) fun v r s h => ?_
  dsimp only
  rw [ok_of_shape h]
  cases hs : !s.ok with
  | true => exact .ok _ h
  | false =>
    cases v with
    | str t =>
      dsimp only
      by_cases ht : t ∈ tenumValues e
      · rw [if_pos ht, if_pos ht]; exact .ok _ h
      · rw [if_neg ht, if_neg ht]; exact .told _ h _ _ _ _
    | _ => exact .told _ h _ _ _ _

variable {rec : TTy → AVal → List PTok → Res Note → Except PyExc (TVal × Res Note)} {rec' : TTy → AVal → List PTok → Res Str → Except PyExc (TVal × Res Str)}

theorem sim_items (hr : ∀ ty el path r s, shape r = shape s → Sim (rec ty el path r) (rec' ty el path s)) (ty : TTy) (path : List PTok) :
    ∀ (els : List AVal) (i : Nat) (r : Res Note) (s : Res Str), shape r = shape s → Sim (parseItems rec ty path i els r) (tellItems rec' ty path i els s)
  | [], _, _, _, h => .ok _ h
  | el :: els, i, r, s, h => by
    rw [parseItems, tellItems]
    refine .bind (hr _ _ _ _ _ h) fun v r s h => ?_
    exact .bind (sim_items hr ty path els (i + 1) r s h) fun vs r s h => .ok _ h

theorem sim_field (hr : ∀ ty el path r s, shape r = shape s → Sim (rec ty el path r) (rec' ty el path s)) (h : shape r = shape s) (sub : List AVal)
    (path : List PTok) (f : TField) : Sim (parseField rec sub path f r) (tellField rec' sub path f s) := by
  rw [parseField.eq_def, tellField.eq_def]
  dsimp only
  have hm : f.max.any (fun m => decide (m < sub.length)) = (f.max.filter fun m => decide (m < sub.length)).isSome := by
    cases f.max with
    | none => rfl
    | some m => cases hd : decide (m < sub.length) <;> simp [Option.filter, hd]
  rw [hm]
  cases f.max.filter fun m => decide (m < sub.length) with
  | some m => exact .said _ h _ _ _
  | none =>
    rw [if_neg (by simp)]
    dsimp only
    by_cases h2 : sub.length < f.min
    · rw [if_pos h2, if_pos h2]; exact .said _ h _ _ _
    rw [if_neg h2, if_neg h2]
    match sub with
    | [] => exact .ok _ h
    | el :: els =>
      dsimp only
      by_cases h1 : f.max = some 1
      · rw [if_pos h1, if_pos h1]; exact hr _ _ _ _ _ h
      · rw [if_neg h1, if_neg h1]; exact .map Val.list (sim_items hr f.ty _ (el :: els) 0 r s h)

theorem sim_fields (hr : ∀ ty el path r s, shape r = shape s → Sim (rec ty el path r) (rec' ty el path s)) (g : List (Str × List AVal)) (path : List PTok) :
    ∀ (fs : List TField) (seen : List Str) (r : Res Note) (s : Res Str), shape r = shape s →
      Sim (parseFields rec g path fs seen r) (tellFields rec' g path fs seen s)
  | [], _, _, _, h => .ok _ h
  | f :: fs, seen, r, s, h => by
    rw [parseFields, tellFields]
    by_cases hs : f.semanticId ∈ seen
    · rw [if_pos hs, if_pos hs]; exact .error _
    · rw [if_neg hs, if_neg hs]
      refine .bind (sim_field hr h _ path f) fun v r s h => ?_
      exact .bind (sim_fields hr g path fs _ r s h) fun vs r s h => .ok _ h

theorem sim_elements (hr : ∀ ty el path r s, shape r = shape s → Sim (rec ty el path r) (rec' ty el path s)) (h : shape r = shape s) (c : TCls)
    (els : List AVal) (path : List PTok) : Sim (parseElements rec c els path r) (tellElements rec' c els path s) := by
  rw [parseElements, tellElements]
  exact .first _ fun g => .bind (sim_fields hr g path _ _ r s h) fun vs r s h => .ok _ h

end

theorem sim_parse (W : Words) : ∀ (n : Nat) (ty : TTy) (el : AVal) (path : List PTok) (r : Res Note) (s : Res Str), shape r = shape s →
    Sim (tparse n ty el path r) (ttell W n ty el path s)
  | 0, _, _, _, _, _, _ => .error _
  | n + 1, ty, el, path, r, s, h => by
    match ty with
    | .lang => rw [tparse, ttell]; exact sim_lang h el path
    | .str => rw [tparse, ttell]; exact sim_string h el path
    | .date => rw [tparse, ttell]; exact sim_date h el path
    | .enum e => rw [tparse, ttell]; exact sim_enum W h e el path
    | .cls c =>
      rw [tparse, ttell]
      refine .first _ fun v => ?_
      cases v with
      | none => exact .told _ h _ _ _ _
      | list l => exact sim_elements (sim_parse W n) h c l path
      | _ => exact .error _

theorem sim_submodel (W : Words) {r : Res Note} {s : Res Str} (h : shape r = shape s) (c : TCls) (v : AVal) :
    Sim (parseSubmodel c v r) (tellSubmodel W c v s) := by
  rw [parseSubmodel, tellSubmodel]
  refine .first _ fun v => ?_
  cases v with
  | list l => exact sim_elements (sim_parse W depth) h c l []
  | _ => exact .error _

/-- the rules of templates do not raise -/
theorem rules_ok (v : TVal) (res : Res Note) : ∃ r, checkConstraints id tchecks v [] res = .ok r := by
  have hs := checkConstraints_spec id tchecks v [] res
  cases h : checkConstraints id tchecks v [] res with
  | ok r => exact ⟨r, rfl⟩
  | error e =>
    rw [h] at hs
    obtain ⟨o, -, f, hf, he⟩ := hs
    have : f = checkFamily := by
      obtain ⟨p, x⟩ := o
      cases x with
      | obj c attrs =>
        obtain ⟨n, -, rfl⟩ := List.mem_map.mp hf
        rfl
      | _ => cases hf
    subst this
    have aux : ∀ {b : Bool} {t : Str} {l : Level}, (if b = true then .error (.violated t l) else .ok () : Chk Unit) ≠ .error (.py e) := by
      intro b t l h
      cases b <;> cases h
    exact absurd he aux

theorem sim_rules {r : Res Note} {s : Res Str} (h : shape r = shape s) (v : TVal) :
    ∃ r' s', checkConstraints id tchecks v [] r = .ok r' ∧ tellRules v s = .ok s' ∧ shape r' = shape s' := by
  obtain ⟨r', h1⟩ := rules_ok v r
  obtain ⟨r2, h2⟩ := rules_ok v (Res.new ⟨.title [], []⟩)
  have g1 := checkConstraints_spec id tchecks v [] r
  have g2 := checkConstraints_spec id tchecks v [] (Res.new ⟨.title [], []⟩)
  rw [h1] at g1
  rw [h2] at g2
  obtain ⟨e1, -⟩ := g1
  obtain ⟨e2, -⟩ := g2
  refine ⟨r', _, h1, by rw [tellRules, h2]; rfl, ?_⟩
  rw [e1, e2]
  dsimp only
  rw [appendAll_subs, shape_appendAll, shape_appendAll, h]
  simp only [new_subs, List.nil_append, List.map_map]
  congr 1
  refine List.map_congr_left fun x _ => ?_
  exact (shape_mapMsg _ x).symm

section
variable {lim : Option Nat} {v : AVal} (W : Words)

theorem id_text (h : Obj lim .submodel v) : ∃ w, getAttr v .id = .ok w ∧ valueText w = txt v .id := by
  have h1 := h.sfv (f := .id) (key := py!"id") (s := .identifierString) rfl
  exact ⟨_, getAttr_of h1, rfl⟩

theorem sim_one (h : Obj lim .submodel v) {r : Res Note} {s : Res Str} (hs : shape r = shape s) :
    (∃ e, checkSubmodel r v = .error e ∧ tellOne W s v = .error e) ∨
      ∃ r' s', checkSubmodel r v = .ok r' ∧ tellOne W s v = .ok s' ∧ shape r' = shape s' := by
  obtain ⟨w, hi, -⟩ := id_text h
  rw [checkSubmodel, tellOne, submodelKey_spec h]
  simp only [bind, Except.bind]
  cases semanticId? v with
  | none => exact .inr ⟨_, _, rfl, rfl, hs⟩
  | some sid =>
    dsimp only
    rw [hi]
    dsimp only
    cases dictGet sid templates with
    | none => exact .inr ⟨_, _, rfl, rfl, hs⟩
    | some c =>
      dsimp only
      have hsim := sim_submodel W (r := (Res.new ⟨.title py!"Check submodel", []⟩).append (Res.new ⟨.title (py!"Template: " ++ c.pyName), []⟩))
        (s := (Res.new (py!"Check submodel '" ++ valueText w ++ py!"'")).append (Res.new (py!"Template: " ++ c.pyName ++ py!" (" ++ sid ++ py!")"))) rfl c v
      rcases hsim with ⟨e, h1, h2⟩ | ⟨a, r1, s1, h1, h2, h3⟩
      · rw [h1, h2]; exact .inl ⟨e, rfl, rfl⟩
      · rw [h1, h2]
        dsimp only
        rw [ok_of_shape h3]
        cases hok : s1.ok with
        | true =>
          obtain ⟨r2, s2, h4, h5, h6⟩ := sim_rules h3 a
          rw [if_pos rfl, if_pos rfl, h4, h5]
          exact .inr ⟨_, _, rfl, rfl, by rw [shape_append, shape_append, hs, h6]⟩
        | false =>
          rw [if_neg (by simp), if_neg (by simp)]
          exact .inr ⟨_, _, rfl, rfl, by rw [shape_append, shape_append, hs, h3]⟩

theorem sim_all : ∀ (sms : List AVal), (∀ x ∈ sms, Obj lim .submodel x) → ∀ (r : Res Note) (s : Res Str), shape r = shape s →
    (∃ e, checkSubmodels r sms = .error e ∧ tellAll W s sms = .error e) ∨
      ∃ r' s', checkSubmodels r sms = .ok r' ∧ tellAll W s sms = .ok s' ∧ shape r' = shape s'
  | [], _, _, _, hs => .inr ⟨_, _, rfl, rfl, hs⟩
  | x :: xs, h, r, s, hs => by
    rw [checkSubmodels, tellAll]
    rcases sim_one W (h x (.head _)) hs with ⟨e, h1, h2⟩ | ⟨r', s', h1, h2, h3⟩
    · rw [h1, h2]; exact .inl ⟨e, rfl, rfl⟩
    · rw [h1, h2]
      exact sim_all xs (fun y hy => h y (.tail _ hy)) r' s' h3

theorem sim_templates {env : AVal} (h : Obj lim .environment env) {r : Res Note} {s : Res Str} (hs : shape r = shape s) :
    (∃ e, parseSubmodelTemplates r env = .error e ∧ tellTemplates W s env = .error e) ∨
      ∃ r' s', parseSubmodelTemplates r env = .ok r' ∧ tellTemplates W s env = .ok s' ∧ shape r' = shape s' := by
  rw [parseSubmodelTemplates, tellTemplates]
  rcases h.list? (f := .submodels) (key := py!"submodels") (ty := .cls .submodel) rfl with ⟨h1, h2, h3⟩ | ⟨h1, h2, h3, h4⟩
  · rw [getAttr_of h1]
    exact .inr ⟨_, _, rfl, rfl, hs⟩
  · rw [getAttr_of h1]
    exact sim_all W _ (fun x hx => obj_of_concrete (c := .submodel) rfl (h4 x hx)) r s hs

end
end Verif.Templates
