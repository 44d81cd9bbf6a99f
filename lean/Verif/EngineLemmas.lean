import Verif.Engine
import Verif.FileLemmas
import Verif.Spec.Engine
import Verif.Props.Document
import Verif.Props.Templates
import Verif.PathLemmas2

/-! # Lookup of model types, and what follows the check of the meta-model -/

namespace Verif.Engine
open Verif Verif.Parse Verif.Aas Verif.Reflect Verif.Spec.Engine Verif.Spec.Parse Verif.Spec.Model Verif.Spec.Templates Verif.Templates

/-! ### texts with dots -/

def dot : Nat := pc! '.'

/-- the part after the last dot -/
def afterLast (s : Str) : Str := (s.reverse.takeWhile fun c => c != dot).reverse

theorem takeWhile_stop {α : Type} {p : α → Bool} {x : α} (hx : p x = false) : ∀ (l m : List α), (l ++ x :: m).takeWhile p = l.takeWhile p
  | [], m => by simp [hx]
  | y :: l, m => by
    rw [List.cons_append, List.takeWhile_cons, List.takeWhile_cons, takeWhile_stop hx l m]

theorem afterLast_dot (pre t : Str) : afterLast (pre ++ dot :: t) = afterLast t := by
  rw [afterLast, afterLast, List.reverse_append, List.reverse_cons, List.append_assoc, List.singleton_append, takeWhile_stop (by simp)]

theorem afterLast_plain {t : Str} (h : dot ∉ t) : afterLast t = t := by
  rw [afterLast]
  have : t.reverse.takeWhile (fun c => c != dot) = t.reverse := by
    have aux : ∀ l : Str, dot ∉ l → l.takeWhile (fun c => c != dot) = l := by
      intro l hl
      induction l with
      | nil => rfl
      | cons x l ih =>
        rw [List.mem_cons, not_or] at hl
        rw [List.takeWhile_cons, if_pos (by simpa using Ne.symm hl.1), ih hl.2]
    exact aux _ (by simpa using h)
  rw [this, List.reverse_reverse]

/-- a text without dot in front does not matter -/
theorem tail_of_append {s full pre t : Str} (hs : dot ∉ s) (h : s ++ full = pre ++ dot :: t) : ∃ pre', full = pre' ++ dot :: t := by
  rcases List.append_eq_append_iff.mp h with ⟨x, h1, h2⟩ | ⟨x, h1, h2⟩
  · exact ⟨x, h2⟩
  · cases x with
    | nil => exact ⟨[], by simpa using h2.symm⟩
    | cons y x =>
      rw [List.cons_append] at h2
      injection h2 with h3 h4
      subst h3
      exact absurd (by rw [h1]; simp) hs

theorem suffix_cancel {a b c : Str} : (∃ pre, a ++ c = pre ++ (b ++ c)) ↔ ∃ pre, a = pre ++ b := by
  constructor
  · rintro ⟨pre, h⟩
    rw [← List.append_assoc] at h
    exact ⟨pre, List.append_cancel_right h⟩
  · rintro ⟨pre, rfl⟩
    exact ⟨pre, by rw [List.append_assoc]⟩

/-! ### the names of the table -/

theorem key_named {a : AAnn} {n : Str} (h : nameOf a = some n) : keyOf a = py!"<class '" ++ (modName n ++ py!"'>") := by
  cases a <;> simp [nameOf] at h <;> subst h <;> simp [keyOf]

theorem names_plain : (symbolTypes.all fun a => match nameOf a with | some n => !n.contains dot | none => true) = true := by decide +kernel

/-- the texts of all other types do not have a dot or do not end like that of a class -/
theorem others : (symbolTypes.all fun a => match nameOf a with
    | some _ => true
    | none => !(keyOf a).contains dot || (keyOf a).getLast? != some (pc! '>')) = true := by decide +kernel

theorem names_nodup : (symbolTypes.filterMap nameOf).Nodup := by decide +kernel

theorem nameOf_inj {a b : AAnn} {n : Str} (ha : a ∈ symbolTypes) (hb : b ∈ symbolTypes) (h : nameOf a = some n) (h' : nameOf b = some n) : a = b := by
  have aux : ∀ l : List AAnn, (l.filterMap nameOf).Nodup → ∀ a ∈ l, ∀ b ∈ l, nameOf a = some n → nameOf b = some n → a = b := by
    intro l hl
    induction l with
    | nil => intro a ha; cases ha
    | cons x l ih =>
      intro a ha b hb h h'
      have hmem : ∀ y ∈ l, nameOf y = some n → n ∈ l.filterMap nameOf := fun y hy e => List.mem_filterMap.mpr ⟨y, hy, e⟩
      have hl' : (l.filterMap nameOf).Nodup := by
        rw [List.filterMap_cons] at hl
        split at hl
        · exact hl
        · exact (List.nodup_cons.mp hl).2
      have hx : nameOf x = some n → n ∉ l.filterMap nameOf := by
        intro e
        rw [List.filterMap_cons, e] at hl
        exact (List.nodup_cons.mp hl).1
      rcases List.mem_cons.mp ha with rfl | ha' <;> rcases List.mem_cons.mp hb with rfl | hb'
      · rfl
      · exact absurd (hmem b hb' h') (hx h)
      · exact absurd (hmem a ha' h) (hx h')
      · exact ih hl' a ha' b hb' h h'
  exact aux _ names_nodup a ha b hb h h'

theorem key_ends {a : AAnn} (ha : a ∈ symbolTypes) (T : Str) :
    Py.endsWith (keyOf a) (pc! '.' :: T ++ py!"'>") = true ↔ Selects T a := by
  rw [File.endsWith_iff]
  cases hn : nameOf a with
  | some n =>
    rw [key_named hn]
    have e : ∀ pre, (py!"<class '" ++ (modName n ++ py!"'>") = pre ++ (pc! '.' :: T ++ py!"'>")) ↔ (py!"<class '" ++ modName n) ++ py!"'>" = pre ++ ((dot :: T) ++ py!"'>") := by
      intro pre
      rw [List.append_assoc]; rfl
    simp only [e]
    rw [suffix_cancel]
    constructor
    · rintro ⟨pre, h⟩
      obtain ⟨pre', h'⟩ := tail_of_append (by decide) h
      exact ⟨n, pre', hn, h'⟩
    · rintro ⟨m, pre, hm, h⟩
      rw [hn] at hm
      injection hm with hm
      subst hm
      exact ⟨py!"<class '" ++ pre, by rw [h, List.append_assoc]; rfl⟩
  | none =>
    have ho := List.all_eq_true.mp others a ha
    rw [hn] at ho
    simp only [Bool.or_eq_true, Bool.not_eq_true', bne_iff_ne, ne_eq] at ho
    constructor
    · rintro ⟨pre, h⟩
      rcases ho with ho | ho
      · have : dot ∈ keyOf a := by rw [h]; simp [dot]
        rw [← List.contains_iff_mem, ho] at this
        cases this
      · have : keyOf a = (pre ++ dot :: T ++ py!"'") ++ [pc! '>'] := by rw [h]; simp [dot]
        exact absurd (by rw [this, List.getLast?_concat]) ho
    · rintro ⟨m, pre, hm, -⟩
      rw [hn] at hm; cases hm

theorem selects_unique {a b : AAnn} (ha : a ∈ symbolTypes) (hb : b ∈ symbolTypes) {T : Str} (h : Selects T a) (h' : Selects T b) : a = b := by
  have key : ∀ {a : AAnn}, a ∈ symbolTypes → ∀ {n pre}, nameOf a = some n → modName n = pre ++ dot :: T → n = afterLast T := by
    intro a ha n pre hn h
    have hp := List.all_eq_true.mp names_plain a ha
    rw [hn] at hp
    simp only [Bool.not_eq_true'] at hp
    have hp : dot ∉ n := by
      intro hc
      rw [← List.contains_iff_mem, hp] at hc
      cases hc
    have h1 : afterLast (modName n) = n := by
      rw [show modName n = py!"aas_test_engines.test_cases.v3_0.model" ++ dot :: n from by simp [modName, dot], afterLast_dot, afterLast_plain hp]
    rw [← h1, h, afterLast_dot]
  obtain ⟨n, pre, hn, he⟩ := h
  obtain ⟨m, pre', hm, he'⟩ := h'
  have e1 := key ha hn he
  have e2 := key hb hm he'
  exact nameOf_inj ha hb hn (hm.trans (by rw [e1, e2]))

/-- filtering for a property that at most one element has -/
theorem filter_unique {α : Type} {p : α → Bool} : ∀ {l : List α}, l.Nodup → (∀ x ∈ l, ∀ y ∈ l, p x = true → p y = true → x = y) →
    (∃ x ∈ l, p x = true ∧ l.filter p = [x]) ∨ ((∀ x ∈ l, p x = false) ∧ l.filter p = [])
  | [], _, _ => .inr ⟨by simp, rfl⟩
  | x :: l, hn, h => by
    rw [List.nodup_cons] at hn
    cases hx : p x with
    | true =>
      have : l.filter p = [] := by
        rw [List.filter_eq_nil_iff]
        intro y hy hpy
        exact hn.1 (h x (by simp) y (by simp [hy]) hx hpy ▸ hy)
      exact .inl ⟨x, by simp, hx, by rw [List.filter_cons, if_pos hx, this]⟩
    | false =>
      rcases filter_unique hn.2 (fun y hy z hz => h y (by simp [hy]) z (by simp [hz])) with ⟨y, h1, h2, h3⟩ | ⟨h1, h2⟩
      · exact .inl ⟨y, by simp [h1], h2, by rw [List.filter_cons, hx]; exact h3⟩
      · refine .inr ⟨fun y hy => ?_, by rw [List.filter_cons, hx]; exact h2⟩
        rcases List.mem_cons.mp hy with rfl | hy
        · exact hx
        · exact h1 y hy

theorem symbolTypes_nodup : symbolTypes.Nodup := by decide +kernel

theorem symbol_spec (T : Str) : (∃ a, a ∈ symbolTypes ∧ Selects T a ∧ symbol T = .ok a) ∨
    ((∀ a ∈ symbolTypes, ¬ Selects T a) ∧ symbol T = .error .valueError) := by
  rw [symbol]
  rcases filter_unique (p := fun a => Py.endsWith (keyOf a) (pc! '.' :: T ++ py!"'>")) symbolTypes_nodup (fun x hx y hy h1 h2 =>
    selects_unique hx hy ((key_ends hx T).mp h1) ((key_ends hy T).mp h2)) with ⟨x, h1, h2, h3⟩ | ⟨h1, h2⟩
  · exact .inl ⟨x, h1, (key_ends h1 T).mp h2, by rw [h3]⟩
  · refine .inr ⟨fun a ha hs => ?_, by rw [h2]⟩
    rw [← key_ends ha, h1 a ha] at hs
    cases hs

theorem symbol_iff {T : Str} {a : AAnn} : symbol T = .ok a ↔ a ∈ symbolTypes ∧ Selects T a := by
  rcases symbol_spec T with ⟨b, h1, h2, h3⟩ | ⟨h1, h2⟩
  · rw [h3]
    refine ⟨fun h => by injection h with h; exact h ▸ ⟨h1, h2⟩, fun ⟨h, h'⟩ => by rw [selects_unique h1 h h2 h']⟩
  · rw [h2]
    exact ⟨fun h => (by cases h), fun ⟨h, h'⟩ => absurd h' (h1 a h)⟩

/-- lookup in any table with these keys -/
theorem lookup_table {β : Type} {t : List (Str × β)} (hn : (t.map Prod.fst).Nodup) (hk : ∀ k, k ∈ t.map Prod.fst ↔ ∃ a ∈ symbolTypes, keyOf a = k) (T : Str) :
    (∃ a o, symbol T = .ok a ∧ (keyOf a, o) ∈ t ∧ lookup T t = .ok o) ∨ (symbol T = .error .valueError ∧ lookup T t = .error .valueError) := by
  have hof : ∀ p ∈ t, Py.endsWith p.1 (pc! '.' :: T ++ py!"'>") = true → ∃ a ∈ symbolTypes, keyOf a = p.1 ∧ Selects T a := by
    intro p hp he
    obtain ⟨a, ha, e⟩ := (hk p.1).mp (List.mem_map_of_mem hp)
    exact ⟨a, ha, e, (key_ends ha T).mp (e ▸ he)⟩
  have hnt : t.Nodup := by
    rw [List.Nodup, List.pairwise_map] at hn
    exact hn.imp fun h e => h (by rw [e])
  rw [Reflect.lookup]
  rcases filter_unique (p := fun p : Str × β => Py.endsWith p.1 (pc! '.' :: T ++ py!"'>")) hnt (fun x hx y hy h1 h2 => by
    obtain ⟨a, ha, ea, sa⟩ := hof x hx h1
    obtain ⟨b, hb, eb, sb⟩ := hof y hy h2
    have := selects_unique ha hb sa sb
    exact inj_of_nodup hn x hx y hy (by rw [← ea, ← eb, this])) with ⟨x, h1, h2, h3⟩ | ⟨h1, h2⟩
  · obtain ⟨a, ha, ea, sa⟩ := hof x h1 h2
    exact .inl ⟨a, x.2, symbol_iff.mpr ⟨ha, sa⟩, by rw [ea]; exact h1, by rw [h3]⟩
  · rw [h2]
    rcases symbol_spec T with ⟨a, g1, g2, g3⟩ | ⟨g1, g2⟩
    · obtain ⟨p, hp, e⟩ := List.mem_map.mp ((hk (keyOf a)).mpr ⟨a, g1, rfl⟩)
      have := h1 p hp
      rw [e, (key_ends g1 T).mpr g2] at this
      cases this
    · exact .inr ⟨g2, rfl⟩

/-! ### after the check of the meta-model -/

variable {lim : Option Nat}

theorem no_submodels {c : Cls} (h : c ≠ .environment) (h' : c ≠ .assetAdministrationShell) : Fld.submodels ∉ (fieldsOf c).map (·.name) := by
  cases c <;> first | exact absurd rfl h | exact absurd rfl h' | decide +kernel

theorem templates_other {c : Cls} {v : AVal} (hv : Obj lim c v) (h : c ≠ .environment) (h' : c ≠ .assetAdministrationShell) (r : Res Note) :
    parseSubmodelTemplates r v = .error .attributeError := by
  obtain ⟨attrs, rfl, hf⟩ := hv.fields
  have : getAttr (.obj c attrs) .submodels = .error .attributeError := by
    rw [getAttr, lookup_none_of]
    rw [fieldsOk_names hf]
    exact no_submodels h h'
  rw [parseSubmodelTemplates, this]
  rfl

theorem templates_shell {v : AVal} (hv : Obj lim .assetAdministrationShell v) (r : Res Note) :
    (Set v .submodels → ∃ e, Mishap e ∧ parseSubmodelTemplates r v = .error e) ∧ (¬ Set v .submodels → parseSubmodelTemplates r v = .ok r) := by
  rw [parseSubmodelTemplates]
  rcases hv.list? (f := .submodels) (key := py!"submodels") (ty := .cls .reference) rfl with ⟨h1, h2, h3⟩ | ⟨h1, h2, h3, h4⟩
  · rw [getAttr_of h1]
    exact ⟨fun h => absurd h h2, fun _ => rfl⟩
  · rw [getAttr_of h1]
    refine ⟨fun _ => ?_, fun h => absurd h2 h⟩
    cases hl : elems v .submodels with
    | nil => exact absurd hl h3
    | cons x xs =>
      obtain ⟨attrs, rfl, hf⟩ := (obj_of_concrete (c := .reference) rfl (h4 x (by rw [hl]; simp))).fields
      have : getAttr (.obj .reference attrs) .semanticId = .error .attributeError := by
        rw [getAttr, lookup_none_of]
        rw [fieldsOk_names hf]
        decide +kernel
      refine ⟨.attributeError, .inl rfl, ?_⟩
      simp only [bind, Except.bind]
      rw [checkSubmodels, checkSubmodel, submodelKey, this]
      rfl

theorem subclasses_symbols {c : Cls} (h : Ann.cls c ∈ symbolTypes) :
    .environment ∉ subclassesOf c ∧ .assetAdministrationShell ∉ subclassesOf c := by
  have : (allCls.all fun c => !symbolTypes.contains (.cls c) ||
      (!(subclassesOf c).contains .environment && !(subclassesOf c).contains .assetAdministrationShell)) = true := by decide +kernel
  have := List.all_eq_true.mp this c (mem_allCls c)
  simp only [List.contains_iff_mem.mpr h, Bool.not_true, Bool.false_or, Bool.and_eq_true, Bool.not_eq_true'] at this
  rw [← List.contains_iff_mem, ← List.contains_iff_mem, this.1, this.2]
  decide

theorem good_symbols {c : Cls} (h : Ann.cls c ∈ symbolTypes) : c ≠ .langStringSet := by
  rintro rfl
  exact absurd h (by decide)

theorem late_spec {c : Cls} (hcs : Ann.cls c ∈ symbolTypes) {v : AVal} (hv : HasType (schema lim) (.cls c) v) (r : Res Note) (hr : r.ok = true) :
    (LateRaise c v → ∃ e, Mishap e ∧ parseSubmodelTemplates r v = .error e) ∧
    (¬ LateRaise c v → ∃ r', parseSubmodelTemplates r v = .ok r' ∧ (r'.ok = true ↔ FollowsAll c v)) := by
  by_cases h1 : c = .environment
  · subst h1
    obtain ⟨h1, h2⟩ := Props.C52_environment_partial v hv r
    refine ⟨fun h => ?_, fun h => ?_⟩
    · obtain ⟨e, he⟩ := h1.mp h
      exact ⟨e, Props.C52_kind v hv r e he, he⟩
    cases hx : parseSubmodelTemplates r v with
    | error e => exact absurd (h1.mpr ⟨e, hx⟩) h
    | ok r' =>
      obtain ⟨_, -, -, -, h3⟩ := h2 r' hx
      rw [and_iff_right hr] at h3
      exact ⟨r', rfl, h3.trans ⟨fun h _ => h, fun h => h rfl⟩⟩
  · have hf : FollowsAll c v := fun h => absurd h h1
    by_cases h2 : c = .assetAdministrationShell
    · subst h2
      obtain ⟨g1, g2⟩ := templates_shell (obj_of_concrete (c := .assetAdministrationShell) rfl hv) r
      exact ⟨g1, fun h => ⟨r, g2 h, by rw [hr]; exact ⟨fun _ => hf, fun _ => rfl⟩⟩⟩
    · obtain ⟨c', hi, ho⟩ := obj_of_typed hv
      have hc : c' ≠ .environment ∧ c' ≠ .assetAdministrationShell := by
        rcases hi with ⟨-, rfl⟩ | ⟨-, hs⟩
        · exact ⟨h1, h2⟩
        · constructor <;> rintro rfl
          · exact (subclasses_symbols hcs).1 hs
          · exact (subclasses_symbols hcs).2 hs
      have := templates_other ho hc.1 hc.2 r
      refine ⟨fun _ => ⟨_, .inl rfl, this⟩, fun h => absurd ?_ h⟩
      cases c <;> first | trivial | exact absurd rfl h1 | exact absurd rfl h2

/-! ### rendering -/

theorem render_level (text : Note → Str) (r : Res Note) : (render text r).ok = r.ok := by
  cases r; rw [render]; rfl

/-! ### the whole check -/

theorem toObj_cls {A : Type} (ops : Ops A) {n : Nat} {a : A} {T : Str} {c : Cls} (hT : symbol T = .ok (.cls c)) :
    toObj ops lim n a T = (match Props.checkDocument ops lim n c a with
      | .error e => .error e
      | .ok (r, v) => if r.ok then (match parseSubmodelTemplates r v with | .error e => .error e | .ok r' => .ok (r', v)) else .ok (r, v)) := by
  rw [toObj, hT]
  simp only [bind, Except.bind, ofAnn, Props.checkDocument]
  cases parseAndCheck ops (schema lim) Fld.pyName (checks lim) n (.cls c) a with
  | error e => rfl
  | ok p =>
    dsimp only
    split
    · cases parseSubmodelTemplates p.1 p.2 <;> rfl
    · rfl

/-- the verdict of a format, given what is read -/
theorem toObj_spec {A : Type} (ops : Ops A) {n : Nat} {a : A} {T : Str} {c : Cls} (hT : symbol T = .ok (.cls c)) {v : AVal}
    (hv : HasType (schema lim) (.cls c) v)
    (h1 : Props.Raising lim v → ∃ e, Mishap e ∧ Props.checkDocument ops lim n c a = .error e)
    (h2 : ¬ Props.Raising lim v → ∃ r, Props.checkDocument ops lim n c a = .ok (r, v) ∧ (r.ok = true ↔ ∀ p t, ¬ Props.Breaks lim v p t .error)) :
    (Props.Raising lim v ∨ ((∀ p t, ¬ Props.Breaks lim v p t .error) ∧ LateRaise c v) → ∃ e, Mishap e ∧ toObj ops lim n a T = .error e) ∧
    (¬ (Props.Raising lim v ∨ ((∀ p t, ¬ Props.Breaks lim v p t .error) ∧ LateRaise c v)) → ∃ r, toObj ops lim n a T = .ok (r, v) ∧
      (r.ok = true ↔ (∀ p t, ¬ Props.Breaks lim v p t .error) ∧ FollowsAll c v)) := by
  rw [toObj_cls ops hT]
  by_cases hr : Props.Raising lim v
  · obtain ⟨e, hk, he⟩ := h1 hr
    rw [he]
    exact ⟨fun _ => ⟨e, hk, rfl⟩, fun h => absurd (.inl hr) h⟩
  · obtain ⟨r, he, hok⟩ := h2 hr
    rw [he]
    dsimp only
    cases hro : r.ok with
    | false =>
      rw [if_neg (by decide)]
      have hb : ¬ ∀ p t, ¬ Props.Breaks lim v p t .error := fun h => by rw [← hok, hro] at h; cases h
      refine ⟨fun h => ?_, fun _ => ⟨r, rfl, ?_⟩⟩
      · rcases h with h | h
        · exact absurd h hr
        · exact absurd h.1 hb
      · rw [hro]
        exact ⟨fun h => (by cases h), fun h => absurd h.1 hb⟩
    | true =>
      have hb := hok.mp hro
      rw [if_pos rfl]
      obtain ⟨l1, l2⟩ := late_spec (symbol_iff.mp hT).1 hv r hro
      constructor
      · intro h
        obtain ⟨e, hk, he'⟩ := l1 (h.elim (fun h => absurd h hr) fun h => h.2)
        rw [he']
        exact ⟨e, hk, rfl⟩
      · intro h
        obtain ⟨r', he', hok'⟩ := l2 (fun hl => h (.inr ⟨hb, hl⟩))
        rw [he']
        exact ⟨r', rfl, by rw [hok']; exact ⟨fun h => ⟨hb, h⟩, fun h => h.2⟩⟩

theorem toObj_wrong {A : Type} (ops : Ops A) {n : Nat} {a : A} {T : Str} {c : Cls} (hT : symbol T = .ok (.cls c))
    (h : ∃ r v, Props.checkDocument ops lim n c a = .ok (r, v) ∧ r.ok = false) : ∃ r v, toObj ops lim n a T = .ok (r, v) ∧ r.ok = false := by
  obtain ⟨r, v, h1, h2⟩ := h
  refine ⟨r, v, ?_, h2⟩
  rw [toObj_cls ops hT, h1]
  dsimp only
  rw [h2, if_neg (by decide)]

end Verif.Engine
