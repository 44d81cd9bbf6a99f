import Verif.TemplateLemmas3
import Verif.Spec.Flaws

/-! # The reports of the template parser -/

namespace Verif.Templates
open Verif Verif.Parse Verif.Aas Verif.Spec.Model Verif.Spec.Templates Verif.Spec.Parse Verif.Spec Verif.Spec.Paths

variable {lim : Option Nat} {c : Cls} {v : AVal}

/-- what is reported, after a result that is ok or not -/
def Says (L : Bool → Note → Prop) (ok : Bool) (notes : List Note) : Prop :=
  if ok then Reported L notes else ∀ n, n ∈ notes ↔ L false n

def Notes {α : Type} (L : Bool → Note → Prop) (res : Res Note) (x : Except PyExc (α × Res Note)) : Prop :=
  ∀ v r, x = .ok (v, r) → ∃ notes, r = res.appendAll (errs notes) ∧ Says L res.ok notes

theorem Says.congr {L L' : Bool → Note → Prop} {ok notes} (h : Says L ok notes) (hl : ∀ b n, L b n ↔ L' b n) : Says L' ok notes := by
  rw [show L' = L from funext fun b => funext fun n => propext (hl b n).symm]; exact h

theorem Notes.congr {α : Type} {L L' : Bool → Note → Prop} {res : Res Note} {x : Except PyExc (α × Res Note)} (h : Notes L res x)
    (hl : ∀ b n, L b n ↔ L' b n) : Notes L' res x := by
  rw [show L' = L from funext fun b => funext fun n => propext (hl b n).symm]; exact h

theorem Says.nothing {L : Bool → Note → Prop} {ok} (h : ∀ b n, ¬ L b n) : Says L ok [] := by
  cases ok
  · simp [Says, h]
  · exact h

theorem Says.one {L : Bool → Note → Prop} {ok} {n0 : Note} (h : ∀ b n, L b n ↔ b = false ∧ n = n0) : Says L ok [n0] := by
  cases ok
  · simp [Says, h]
  · exact ⟨⟨false, (h _ _).mpr ⟨rfl, rfl⟩⟩, by simp, fun n hn => by simp [((h _ _).mp hn).2]⟩

theorem Says.append {L1 L2 : Bool → Note → Prop} {ok n1 n2} (h1 : Says L1 ok n1) (h2 : Says L2 (ok && n1.isEmpty) n2) :
    Says (fun b n => L1 b n ∨ L2 b n) ok (n1 ++ n2) := by
  cases ok with
  | false =>
    simp only [Says, Bool.false_and, Bool.false_eq_true, if_false] at *
    intro n
    rw [List.mem_append, h1, h2]
  | true =>
    cases n1 with
    | nil =>
      simp only [Says, if_true, Bool.true_and, List.isEmpty_nil, List.nil_append] at *
      have : (fun b n => L1 b n ∨ L2 b n) = L2 := by
        funext b n
        simp [show ¬ L1 b n from h1 b n]
      rw [this]; exact h2
    | cons a l =>
      simp only [Says, if_true, Bool.true_and, List.isEmpty_cons, Bool.false_eq_true, if_false, List.cons_append] at *
      obtain ⟨⟨b, hb⟩, h3, h4⟩ := h1
      refine ⟨⟨b, .inl hb⟩, ?_, ?_⟩
      · intro n hn
        rcases List.mem_append.mp hn with hn | hn
        · exact .inl (h3 n hn)
        · exact .inr ((h2 n).mp hn)
      · rintro n (hn | hn)
        · have := h4 n hn
          simp only [List.mem_cons, List.mem_append] at this ⊢
          rcases this with h | h
          · exact .inl h
          · exact .inr (.inl h)
        · simp only [List.mem_cons, List.mem_append]
          exact .inr (.inr ((h2 n).mpr hn))

theorem errs_ok (res : Res Note) (notes : List Note) : (res.appendAll (errs notes)).ok = (res.ok && notes.isEmpty) := by
  rw [Bool.eq_iff_iff, appendAll_errs_ok, Bool.and_eq_true, List.isEmpty_iff]

theorem Notes.seq {α β γ : Type} {L1 L2 : Bool → Note → Prop} {res : Res Note}
    {x : Except PyExc (α × Res Note)} {y : α → Res Note → Except PyExc (β × Res Note)} {f : α → β → γ}
    (h1 : Notes L1 res x) (h2 : ∀ a res, Notes L2 res (y a res)) :
    Notes (fun b n => L1 b n ∨ L2 b n) res (do let (a, r) ← x; let (b, r) ← y a r; return (f a b, r)) := by
  intro v r h
  cases hx : x with
  | error e => rw [hx] at h; cases h
  | ok p =>
    obtain ⟨a, r1⟩ := p
    rw [hx] at h
    simp only [bind, Except.bind] at h
    cases hy : y a r1 with
    | error e => rw [hy] at h; cases h
    | ok q =>
      obtain ⟨b, r2⟩ := q
      rw [hy] at h
      cases h
      obtain ⟨n1, rfl, s1⟩ := h1 a r1 hx
      obtain ⟨n2, rfl, s2⟩ := h2 a _ b r2 hy
      rw [errs_ok] at s2
      exact ⟨n1 ++ n2, by rw [errs_append, Res.appendAll_append], s1.append s2⟩

theorem Notes.good {α : Type} {L : Bool → Note → Prop} {res : Res Note} {w : α} (h : ∀ b n, ¬ L b n) : Notes L res (.ok (w, res)) := by
  intro v r e
  cases e
  exact ⟨[], rfl, .nothing h⟩

theorem Notes.bad {α : Type} {L : Bool → Note → Prop} {res : Res Note} {w : α} {k : Kind} {p : List PTok}
    (h : ∀ b n, L b n ↔ b = false ∧ n = ⟨k, p⟩) : Notes L res (.ok (w, report k p res)) := by
  intro v r e
  cases e
  exact ⟨[⟨k, p⟩], by rw [report_eq], .one h⟩

theorem Notes.error {α : Type} {L : Bool → Note → Prop} {res : Res Note} {e : PyExc} : Notes L res (.error e : Except PyExc (α × Res Note)) := by
  intro v r h; cases h

/-! ## values -/

theorem string_notes (h : Obj lim c v) (path : List PTok) (res : Res Note) : Notes (fun b n => Flaw b .str v path n) res (parseString v path res) := by
  rw [parseString]
  by_cases hp : isInst .property v = true
  · have hn := (isInst_iff h .property).mp hp
    have hc := cls_of h .property hn
    subst hc
    rw [hp]
    have hvt := getAttr_of (h.enum (f := .valueType) (key := py!"valueType") rfl).1
    rcases h.sfv? (f := .value) (key := py!"value") (s := .valueDataType) rfl with ⟨h1, h2⟩ | ⟨h1, h2⟩
    · rw [getAttr_of h1]
      refine .bad fun b n => ⟨?_, ?_⟩
      · intro hf
        cases hf with
        | noProperty _ h => exact absurd hn h
        | noValue _ _ _ => exact ⟨rfl, rfl⟩
        | valueType _ _ h _ => exact absurd h h2
      · rintro ⟨rfl, rfl⟩
        exact .noValue .str hn h2
    · rw [getAttr_of h1, hvt]
      by_cases ht : txt v .valueType = py!"xs:string"
      · simp only [bind, Except.bind, Bool.not_true, Bool.false_eq_true, if_false, isNone, ht, ne_eq, not_true_eq_false, pure, Except.pure]
        refine .good fun b n hf => ?_
        cases hf with
        | noProperty _ h => exact absurd hn h
        | noValue _ _ h => exact h h2
        | valueType hh _ h h' => cases hh; exact h' ht
      · simp only [bind, Except.bind, Bool.not_true, Bool.false_eq_true, if_false, isNone, ne_eq, ht, not_false_eq_true, if_true, pure, Except.pure]
        refine .bad fun b n => ⟨?_, ?_⟩
        · intro hf
          cases hf with
          | noProperty _ h => exact absurd hn h
          | noValue _ _ h => exact absurd h2 h
          | valueType hh _ h h' => cases hh; exact ⟨rfl, rfl⟩
        · rintro ⟨rfl, rfl⟩
          exact .valueType .str hn h2 ht
  · have hn : className v ≠ py!"Property" := fun e => hp ((isInst_iff h .property).mpr e)
    rw [Bool.not_eq_true] at hp
    rw [hp]
    refine .bad fun b n => ⟨?_, ?_⟩
    · intro hf
      cases hf with
      | noProperty _ h => exact ⟨rfl, rfl⟩
      | noValue _ h _ => exact absurd h hn
      | valueType hh h _ _ => exact absurd h hn
    · rintro ⟨rfl, rfl⟩
      exact .noProperty .str hn

theorem flaw_enum {e : TEnum} {p : List PTok} {n : Note} : Flaw false (.enum e) v p n ↔ Flaw false .str v p n := by
  constructor
  · intro h
    cases h with
    | noProperty h1 h2 => exact .noProperty .str h2
    | noValue h1 h2 h3 => exact .noValue .str h2 h3
    | valueType h1 h2 h3 h4 => cases h1; exact .valueType .str h2 h3 h4
  · intro h
    cases h with
    | noProperty h1 h2 => exact .noProperty (.enum e) h2
    | noValue h1 h2 h3 => exact .noValue (.enum e) h2 h3
    | valueType h1 h2 h3 h4 => cases h1; exact .valueType (.enum e) h2 h3 h4

theorem flaw_late {e : TEnum} {p : List PTok} {n : Note} :
    Flaw true (.enum e) v p n ↔ PropertyOf py!"xs:string" v ∧ txt v .value ∉ tenumValues e ∧ n = ⟨.notInEnum, p⟩ :=
  ⟨fun h => by cases h with | notInEnum h1 h2 => exact ⟨h1, h2, rfl⟩, fun ⟨h1, h2, h3⟩ => h3 ▸ .notInEnum h1 h2⟩

theorem no_flaw_str (hp : PropertyOf py!"xs:string" v) (b : Bool) (p : List PTok) (n : Note) : ¬ Flaw b .str v p n := by
  intro h
  cases h with
  | noProperty _ h => exact h hp.1
  | noValue _ _ h => exact h hp.2.1
  | valueType h1 _ _ h => cases h1; exact h hp.2.2

theorem not_late_str {p : List PTok} {n : Note} : ¬ Flaw true .str v p n := by intro h; cases h

theorem enum_notes (h : Obj lim c v) (e : TEnum) (path : List PTok) (res : Res Note) :
    Notes (fun b n => Flaw b (.enum e) v path n) res (parseEnum e v path res) := by
  have hs := parseString_spec h path res
  by_cases hp : PropertyOf py!"xs:string" v
  · have hno : ∀ n, ¬ Flaw false (.enum e) v path n := fun n hf => no_flaw_str hp _ _ _ (flaw_enum.mp hf)
    rw [parseEnum, hs.1 hp]
    simp only [bind, Except.bind, pure, Except.pure]
    by_cases ho : res.ok = true
    · rw [ho]
      simp only [Bool.not_true, Bool.false_eq_true, if_false]
      by_cases hm : txt v .value ∈ tenumValues e
      · rw [if_pos hm]
        refine .good fun b n hf => ?_
        cases b
        · exact hno n hf
        · exact (flaw_late.mp hf).2.1 hm
      · rw [if_neg hm]
        intro w r e'
        cases e'
        refine ⟨[⟨.notInEnum, path⟩], by rw [report_eq], ?_⟩
        rw [ho]
        exact ⟨⟨true, .notInEnum hp hm⟩, by simp, fun n hn => absurd hn (hno n)⟩
    · rw [Bool.not_eq_true] at ho
      rw [ho]
      intro w r e'
      cases e'
      refine ⟨[], rfl, ?_⟩
      rw [ho]
      intro n
      simp [hno n]
  · obtain ⟨k, e'⟩ := hs.2 hp
    obtain ⟨notes, hr, hsay⟩ := string_notes h path res _ _ e'
    rw [parseEnum, e']
    have hko : (report k path res).ok = false := by
      rw [report_eq, errs_ok]; simp
    simp only [bind, Except.bind, pure, Except.pure, hko, Bool.not_false, if_true]
    intro w r e''
    cases e''
    refine ⟨notes, hr, hsay.congr fun b n => ?_⟩
    cases b
    · exact flaw_enum.symm
    · exact ⟨fun h => absurd h not_late_str, fun h => absurd (flaw_late.mp h).1 hp⟩

theorem date_notes (h : Obj lim c v) (path : List PTok) (res : Res Note) : Notes (fun b n => Flaw b .date v path n) res (parseDate v path res) := by
  rw [parseDate]
  by_cases hp : isInst .property v = true
  · have hn := (isInst_iff h .property).mp hp
    have hc := cls_of h .property hn
    subst hc
    rw [hp]
    have hvt := getAttr_of (h.enum (f := .valueType) (key := py!"valueType") rfl).1
    rcases h.sfv? (f := .value) (key := py!"value") (s := .valueDataType) rfl with ⟨h1, h2⟩ | ⟨h1, h2⟩
    · rw [getAttr_of h1]
      refine .bad fun b n => ⟨?_, ?_⟩
      · intro hf
        cases hf with
        | noProperty _ h => exact absurd hn h
        | noValue _ _ _ => exact ⟨rfl, rfl⟩
        | valueType _ _ h _ => exact absurd h h2
      · rintro ⟨rfl, rfl⟩
        exact .noValue .date hn h2
    · rw [getAttr_of h1, hvt]
      by_cases ht : txt v .valueType = py!"xs:date"
      · simp only [bind, Except.bind, Bool.not_true, Bool.false_eq_true, if_false, isNone, ht, ne_eq, not_true_eq_false, pure, Except.pure]
        cases fromIsoFormat (txt v .value) with
        | error e => exact .error
        | ok u =>
          refine .good fun b n hf => ?_
          cases hf with
          | noProperty _ h => exact absurd hn h
          | noValue _ _ h => exact h h2
          | valueType hh _ h h' => cases hh; exact h' ht
      · simp only [bind, Except.bind, Bool.not_true, Bool.false_eq_true, if_false, isNone, ne_eq, ht, not_false_eq_true, if_true, pure, Except.pure]
        refine .bad fun b n => ⟨?_, ?_⟩
        · intro hf
          cases hf with
          | noProperty _ h => exact absurd hn h
          | noValue _ _ h => exact absurd h2 h
          | valueType hh _ h h' => cases hh; exact ⟨rfl, rfl⟩
        · rintro ⟨rfl, rfl⟩
          exact .valueType .date hn h2 ht
  · have hn : className v ≠ py!"Property" := fun e => hp ((isInst_iff h .property).mpr e)
    rw [Bool.not_eq_true] at hp
    rw [hp]
    refine .bad fun b n => ⟨?_, ?_⟩
    · intro hf
      cases hf with
      | noProperty _ h => exact ⟨rfl, rfl⟩
      | noValue _ h _ => exact absurd h hn
      | valueType hh h _ _ => exact absurd h hn
    · rintro ⟨rfl, rfl⟩
      exact .noProperty .date hn

theorem lang_notes (h : Obj lim c v) (path : List PTok) (res : Res Note) : Notes (fun b n => Flaw b .lang v path n) res (parseLang v path res) := by
  rw [parseLang]
  by_cases hp : isInst .multiLanguageProperty v = true
  · have hn := (isInst_iff h .multiLanguageProperty).mp hp
    have hc := cls_of h .multiLanguageProperty hn
    subst hc
    rw [hp]
    rcases h.list? (f := .value) (key := py!"value") (ty := .cls .multiLanguageTextType) rfl with ⟨h1, h2, -⟩ | ⟨h1, h2, h3, -⟩
    · rw [getAttr_of h1]
      refine .bad fun b n => ⟨?_, ?_⟩
      · intro hf
        cases hf with
        | noProperty hh _ => cases hh
        | noValue hh _ _ => cases hh
        | valueType hh _ _ _ => cases hh
        | noLang h => exact absurd hn h
        | noText _ _ => exact ⟨rfl, rfl⟩
      · rintro ⟨rfl, rfl⟩
        exact .noText hn h2
    · rw [getAttr_of h1]
      have : truthy (.list (elems v .value) : AVal) = true := by
        match elems v .value, h3 with
        | _ :: _, _ => rfl
      simp only [bind, Except.bind, Bool.not_true, Bool.false_eq_true, if_false, this, pure, Except.pure]
      refine .good fun b n hf => ?_
      cases hf with
      | noProperty hh _ => cases hh
      | noValue hh _ _ => cases hh
      | valueType hh _ _ _ => cases hh
      | noLang h => exact absurd hn h
      | noText _ h => exact h h2
  · have hn : className v ≠ py!"MultiLanguageProperty" := fun e => hp ((isInst_iff h .multiLanguageProperty).mpr e)
    rw [Bool.not_eq_true] at hp
    rw [hp]
    refine .bad fun b n => ⟨?_, ?_⟩
    · intro hf
      cases hf with
      | noProperty hh _ => cases hh
      | noValue hh _ _ => cases hh
      | valueType hh _ _ _ => cases hh
      | noLang h => exact ⟨rfl, rfl⟩
      | noText h _ => exact absurd h hn
    · rintro ⟨rfl, rfl⟩
      exact .noLang hn

/-! ## fields -/

theorem name_eq (c : TCls) : ∀ f ∈ tfieldsOf c, toCamelCase f.name = fieldName f := by
  cases c <;> decide +kernel

/-- the recursive calls do what they should -/
def Told (rec : Rec) (ty : TTy) (y : AVal) : Prop := ∀ path res, Notes (fun b n => Flaw b ty y path n) res (rec ty y path res)

theorem items_notes {rec : Rec} {ty : TTy} {path : List PTok} : ∀ (i : Nat) (els : List AVal) (res : Res Note), (∀ y ∈ els, Told rec ty y) →
    Notes (fun b n => ∃ k y, els[k]? = some y ∧ Flaw b ty y (path ++ [.idx (i + k)]) n) res (parseItems rec ty path i els res)
  | _, [], res, _ => .good (by simp)
  | i, el :: els, res, h => by
    rw [parseItems]
    refine ((h el (by simp) _ res).seq (f := List.cons) (fun _ r => items_notes (i + 1) els r (fun y hy => h y (by simp [hy])))).congr
      fun b n => ⟨?_, ?_⟩
    · rintro (hf | ⟨k, y, hk, hf⟩)
      · exact ⟨0, el, rfl, hf⟩
      · exact ⟨k + 1, y, hk, by rw [show i + (k + 1) = i + 1 + k by omega]; exact hf⟩
    · rintro ⟨k, y, hk, hf⟩
      cases k with
      | zero => cases hk; exact .inl hf
      | succ k => exact .inr ⟨k, y, hk, by rw [show i + 1 + k = i + (k + 1) by omega]; exact hf⟩

/-- the mistakes of a field -/
inductive FieldFlaw (f : TField) (sub : List AVal) (path : List PTok) : Bool → Note → Prop
  | tooMany {m} : f.max = some m → m < sub.length → FieldFlaw f sub path false ⟨.other (py!"too many elements: " ++ fieldName f), []⟩
  | tooFew : sub.length < f.min → FieldFlaw f sub path false ⟨.other (py!"too few elements: " ++ fieldName f), []⟩
  | single {b y n} : Within f sub.length → f.max = some 1 → y ∈ sub → Flaw b f.ty y (path ++ [.key (fieldName f)]) n → FieldFlaw f sub path b n
  | item {b i y n} : Within f sub.length → f.max ≠ some 1 → sub[i]? = some y → Flaw b f.ty y (path ++ [.key (fieldName f), .idx i]) n →
      FieldFlaw f sub path b n

theorem field_notes {rec : Rec} {sub : List AVal} {path : List PTok} {f : TField} (hname : toCamelCase f.name = fieldName f)
    (hmm : ∀ m, f.max = some m → f.min ≤ m) (h : ∀ y ∈ sub, Told rec f.ty y) (res : Res Note) :
    Notes (FieldFlaw f sub path) res (parseField rec sub path f res) := by
  rw [parseField.eq_def]
  dsimp only
  rw [hname]
  have hw := within_iff f sub.length
  by_cases h1 : f.max.any (fun m => decide (m < sub.length)) = true
  · rw [if_pos h1]
    have hnw : ¬ Within f sub.length := fun hh => (hw.mp hh).1 h1
    rw [Option.any_eq_true] at h1
    obtain ⟨m, hm, hlt⟩ := h1
    simp only [decide_eq_true_eq] at hlt
    refine .bad fun b n => ⟨?_, ?_⟩
    · intro hf
      cases hf with
      | tooMany _ _ => exact ⟨rfl, rfl⟩
      | tooFew h2 => have := hmm m hm; omega
      | single h2 => exact absurd h2 hnw
      | item h2 => exact absurd h2 hnw
    · rintro ⟨rfl, rfl⟩
      exact .tooMany hm hlt
  rw [if_neg h1]
  have hmany : ∀ m, f.max = some m → ¬ m < sub.length := by
    intro m hm hlt
    exact h1 (by rw [hm]; simpa using hlt)
  by_cases h2 : sub.length < f.min
  · rw [if_pos h2]
    have hnw : ¬ Within f sub.length := fun hh => (hw.mp hh).2 h2
    refine .bad fun b n => ⟨?_, ?_⟩
    · intro hf
      cases hf with
      | tooMany hm hlt => exact absurd hlt (hmany _ hm)
      | tooFew _ => exact ⟨rfl, rfl⟩
      | single h2 => exact absurd h2 hnw
      | item h2 => exact absurd h2 hnw
    · rintro ⟨rfl, rfl⟩
      exact .tooFew h2
  rw [if_neg h2]
  have hW : Within f sub.length := hw.mpr ⟨h1, h2⟩
  match sub with
  | [] =>
    refine .good fun b n hf => ?_
    cases hf with
    | tooMany hm hlt => exact hmany _ hm hlt
    | tooFew h => exact h2 h
    | single _ _ h => cases h
    | item _ _ h => cases h
  | el :: els =>
    dsimp only
    by_cases hm : f.max = some 1
    · rw [if_pos hm]
      have hl := hW.2 1 hm
      have : els = [] := by
        match els with
        | [] => rfl
        | _ :: _ => simp at hl
      subst this
      refine (h el (by simp) _ res).congr fun b n => ⟨fun hf => .single hW hm (by simp) hf, fun hf => ?_⟩
      cases hf with
      | tooMany hm hlt => exact absurd hlt (hmany _ hm)
      | tooFew h => exact absurd h h2
      | single _ _ hy hf => rw [List.mem_singleton.mp hy] at hf; exact hf
      | item _ hh _ _ => exact absurd hm hh
    · rw [if_neg hm]
      have := items_notes (path := path ++ [.key (fieldName f)]) 0 (el :: els) res h
      intro w r e
      cases hx : parseItems rec f.ty (path ++ [.key (fieldName f)]) 0 (el :: els) res with
      | error e' => rw [hx] at e; cases e
      | ok p =>
        rw [hx] at e
        cases e
        obtain ⟨notes, hr, hsay⟩ := this _ _ hx
        refine ⟨notes, hr, hsay.congr fun b n => ⟨?_, fun hf => ?_⟩⟩
        · rintro ⟨k, y, hk, hf⟩
          rw [Nat.zero_add, List.append_assoc] at hf
          exact .item hW hm hk hf
        · cases hf with
          | tooMany hm hlt => exact absurd hlt (hmany _ hm)
          | tooFew h => exact absurd h h2
          | single _ hh _ _ => exact absurd hh hm
          | item _ _ hi hf => exact ⟨_, _, hi, by rw [Nat.zero_add, List.append_assoc]; exact hf⟩

theorem bounds (c : TCls) : ∀ f ∈ tfieldsOf c, ∀ m, f.max = some m → f.min ≤ m := by
  have : ∀ f ∈ tfieldsOf c, f.max.all (fun m => decide (f.min ≤ m)) = true := by cases c <;> decide +kernel
  intro f hf m hm
  have := this f hf
  rw [hm] at this
  simpa using this

theorem fields_notes {rec : Rec} {els : List AVal} {path : List PTok} {g : List (Str × List AVal)}
    (hg : ∀ k, (dictGet k g).getD [] = els.filter fun x => decide (semanticId? x = some k)) :
    ∀ (fs : List TField) (seen : List Str) (res : Res Note), (∀ f ∈ fs, toCamelCase f.name = fieldName f) →
    (∀ f ∈ fs, ∀ m, f.max = some m → f.min ≤ m) → (∀ f ∈ fs, ∀ y ∈ matching f els, Told rec f.ty y) →
    Notes (fun b n => ∃ f ∈ fs, FieldFlaw f (matching f els) path b n) res (parseFields rec g path fs seen res)
  | [], _, res, _, _, _ => .good (by simp)
  | f :: fs, seen, res, hn, hb, h => by
    rw [parseFields]
    split
    · exact .error
    · rw [hg]
      refine ((field_notes (path := path) (hn f (by simp)) (hb f (by simp)) (h f (by simp)) res).seq (f := fun v vs => (f.name, v) :: vs)
        (fun _ r => fields_notes hg fs (f.semanticId :: seen) r (fun f hf => hn f (by simp [hf])) (fun f hf => hb f (by simp [hf]))
          (fun f hf => h f (by simp [hf])))).congr (by simp [matching])

theorem elements_notes {rec : Rec} {c : TCls} {els : List AVal} {path : List PTok} (he : ∀ x ∈ els, IsElement lim x)
    (h : ∀ f ∈ tfieldsOf c, ∀ y ∈ matching f els, Told rec f.ty y) (res : Res Note) :
    Notes (fun b n => ∃ f ∈ tfieldsOf c, FieldFlaw f (matching f els) path b n) res (parseElements rec c els path res) := by
  obtain ⟨g, h1, h2⟩ := group_spec els [] he
  have hf := fields_notes (rec := rec) (path := path) (g := g) (els := els) (by simpa [dictGet] using h2) (tfieldsOf c) [] res (name_eq c)
    (bounds c) h
  rw [parseElements, h1]
  intro w r e
  simp only [bind, Except.bind] at e
  cases hx : parseFields rec g path (tfieldsOf c) [] res with
  | error e' => rw [hx] at e; cases e
  | ok p => rw [hx] at e; cases e; exact hf _ _ hx

/-- every element -/
theorem tparse_notes : ∀ (n : Nat) (ty : TTy) (el : AVal), rank ty < n → IsElement lim el → Told (tparse n) ty el
  | n + 1, ty, el, hr, he => by
    intro path res
    obtain ⟨c', hc', ho⟩ := id he
    match ty with
    | .lang => exact lang_notes ho path res
    | .str => exact string_notes ho path res
    | .date => exact date_notes ho path res
    | .enum e => exact enum_notes ho e path res
    | .cls c =>
      have hcoll : ∀ {d : Cls} {key : Str}, Obj lim d el → slotOf d .value = some (.attr key (.list (.cls .submodelElement) false) false) →
          (d = .submodelElementCollection ∨ d = .submodelElementList) →
          Notes (fun b n => Flaw b (.cls c) el path n) res (tparse (n + 1) (.cls c) el path res) := by
        intro d key ho hs hd
        have hname : className el = py!"SubmodelElementCollection" ∨ className el = py!"SubmodelElementList" := by
          rw [ho.className]
          rcases hd with rfl | rfl
          · exact .inl rfl
          · exact .inr rfl
        have hhas : HasAttr el .value := by
          obtain ⟨attrs, rfl, hfs⟩ := ho.fields
          have hn := fieldsOk_names hfs
          show Fld.value ∈ attrs.map (·.1)
          rw [hn]
          rcases hd with rfl | rfl <;> decide +kernel
        rw [tparse]
        rcases ho.list? hs with ⟨h1, h2, h3⟩ | ⟨h1, h2, h3, h4⟩
        · rw [getAttr_of h1]
          have hnc : ¬ Collection true el := fun h => h2 (h.2 rfl)
          refine .bad fun b n => ⟨?_, ?_⟩
          · intro hf
            cases hf with
            | noProperty hh _ => cases hh
            | noValue hh _ _ => cases hh
            | valueType hh _ _ _ => cases hh
            | noElements _ _ => exact ⟨rfl, rfl⟩
            | tooMany h => exact absurd h hnc
            | tooFew h => exact absurd h hnc
            | single h => exact absurd h hnc
            | item h => exact absurd h hnc
          · rintro ⟨rfl, rfl⟩
            exact .noElements hhas h2
        · rw [getAttr_of h1]
          have hC : Collection true el := ⟨hname.imp id (⟨rfl, ·⟩), fun _ => h2⟩
          refine (elements_notes (rec := tparse n) (c := c) (path := path) (fun x hx => isElement_of_typed (h4 x hx)) ?_ res).congr fun b n => ⟨?_, ?_⟩
          · intro f hf y hy
            have := rank_fields c f hf
            exact tparse_notes n f.ty y (by omega) (isElement_of_typed (h4 y (List.mem_filter.mp hy).1))
          · rintro ⟨f, hf, h⟩
            cases h with
            | tooMany h5 h6 => exact .tooMany hC hf h5 h6
            | tooFew h5 => exact .tooFew hC hf h5
            | single h5 h6 h7 h8 => exact .single hC hf h5 h6 h7 h8
            | item h5 h6 h7 h8 => exact .item hC hf h5 h6 h7 h8
          · intro h
            cases h with
            | noProperty hh _ => cases hh
            | noValue hh _ _ => cases hh
            | valueType hh _ _ _ => cases hh
            | noElements _ h => exact absurd h2 h
            | tooMany _ hf h5 h6 => exact ⟨_, hf, .tooMany h5 h6⟩
            | tooFew _ hf h5 => exact ⟨_, hf, .tooFew h5⟩
            | single _ hf h5 h6 h7 h8 => exact ⟨_, hf, .single h5 h6 h7 h8⟩
            | item _ hf h5 h6 h7 h8 => exact ⟨_, hf, .item h5 h6 h7 h8⟩
      rcases value_kinds he with ⟨key, ho, hs⟩ | ⟨key, ho, hs⟩ | ⟨h1, h2, hk⟩
      · exact hcoll ho hs (.inl rfl)
      · exact hcoll ho hs (.inr rfl)
      · rw [tparse]
        have hnc : ¬ Collection true el := fun h => h.1.elim h1 (fun h => h2 h.2)
        rcases hk with ⟨h3, e, hm, he⟩ | ⟨h3, h4, he⟩ | ⟨h3, w, he, hw, hl⟩
        · rw [he]
          exact .error
        · rw [he]
          refine .bad fun b n => ⟨?_, ?_⟩
          · intro hf
            cases hf with
            | noProperty hh _ => cases hh
            | noValue hh _ _ => cases hh
            | valueType hh _ _ _ => cases hh
            | noElements _ _ => exact ⟨rfl, rfl⟩
            | tooMany h => exact absurd h hnc
            | tooFew h => exact absurd h hnc
            | single h => exact absurd h hnc
            | item h => exact absurd h hnc
          · rintro ⟨rfl, rfl⟩
            exact .noElements h3 h4
        · rw [he]
          simp only [bind, Except.bind]
          split
          · exact absurd rfl hw
          · rename_i l
            rcases hl with hl | ⟨x, l', e, e', hm, hx⟩
            · exact absurd rfl (hl l)
            · injection e with e
              subst e
              rw [parseElements, group, hx]
              exact .error
          · exact .error

theorem submodel_notes (h : Obj lim .submodel v) (c : TCls) (res : Res Note) :
    Notes (FlawOf c (elems v .submodelElements)) res (parseSubmodel c v res) := by
  rw [parseSubmodel]
  rcases h.list? value_slots.2.2 with ⟨h1, h2, h3⟩ | ⟨h1, h2, h3, h4⟩
  · rw [getAttr_of h1]
    exact .error
  · rw [getAttr_of h1]
    refine (elements_notes (rec := tparse depth) (c := c) (path := []) (fun x hx => isElement_of_typed (h4 x hx)) ?_ res).congr fun b n => ⟨?_, ?_⟩
    · intro f hf y hy
      have := rank_fields c f hf
      have : rank (.cls c) ≤ 3 := by cases c <;> decide
      exact tparse_notes depth f.ty y (by unfold depth; omega) (isElement_of_typed (h4 y (List.mem_filter.mp hy).1))
    · rintro ⟨f, hf, h⟩
      cases h with
      | tooMany h5 h6 => exact .tooMany hf h5 h6
      | tooFew h5 => exact .tooFew hf h5
      | single h5 h6 h7 h8 => exact .single hf h5 h6 h7 h8
      | item h5 h6 h7 h8 => exact .item hf h5 h6 h7 h8
    · intro h
      cases h with
      | tooMany hf h5 h6 => exact ⟨_, hf, .tooMany h5 h6⟩
      | tooFew hf h5 => exact ⟨_, hf, .tooFew h5⟩
      | single hf h5 h6 h7 h8 => exact ⟨_, hf, .single h5 h6 h7 h8⟩
      | item hf h5 h6 h7 h8 => exact ⟨_, hf, .item h5 h6 h7 h8⟩

/-! ## the constraint -/

theorem checkFamily_text {els : List AVal} {attrs : List (Str × TVal)} (h : AttrsOk els (tfieldsOf .digitalNameplate) attrs)
    (hF : ¬ FamilyOrType els) : checkFamily (.obj .digitalNameplate attrs) = .error (.violated familyText .error) := by
  have aux : ∀ {b : Bool} {x y : Fail}, (if b = true then .error x else .ok () : Chk Unit) = .error y → x = y := by
    intro b x y h
    cases b <;> cases h
    rfl
  obtain ⟨t, ht⟩ := (checkFamily_spec h).2 hF
  have h1 := aux ht
  rw [ht, ← h1]
  rfl

theorem family_notes {c : TCls} {els : List AVal} {attrs : List (Str × TVal)} (h : AttrsOk els (tfieldsOf c) attrs) (res r : Res Note)
    (hr : checkConstraints id tchecks (.obj c attrs) [] res = .ok r) :
    (¬ (c = .digitalNameplate ∧ ¬ FamilyOrType els) → r = res) ∧
    (c = .digitalNameplate ∧ ¬ FamilyOrType els → r = res.append (Res.new ⟨.constraint familyText, []⟩ .error)) := by
  have hs := checkConstraints_spec id tchecks (.obj c attrs) [] res
  rw [hr] at hs
  obtain ⟨rfl, -⟩ := hs
  have htail : (objectsA id attrs []).flatMap (fun o => (checksOf tchecks o.2).filterMap (violation o.1 o.2)) = [] := by
    rw [List.flatMap_eq_nil_iff]
    intro o ho
    have hpath : ∃ t q, o.1 = t :: q ∧ Nested id (.obj c attrs) o.1 o.2 := by
      rcases (mem_objectsA id attrs [] o).mp ho with ⟨f, w, hm, q, h1, h2⟩ | ⟨f, l, i, w, hm, hi, q, h1, h2⟩
      · exact ⟨_, q, h1, by rw [h1]; exact .attr hm h2⟩
      · exact ⟨_, _, h1, by rw [h1]; exact .item hm hi h2⟩
    obtain ⟨t, q, h1, h2⟩ := hpath
    obtain ⟨p, x⟩ := o
    match x with
    | .obj c' attrs' =>
      rcases nested_free h h2 with ⟨h3, -, -⟩ | hne
      · simp_all
      · simp only [checksOf]; rw [tchecks_other hne]; rfl
    | .none | .invalid | .foreign | .str _ | .bool _ | .enum _ _ | .sfv _ _ | .list _ | .path _ _ _ => rfl
  rw [objects, List.flatMap_cons, htail, List.append_nil]
  by_cases hc : c = .digitalNameplate
  · subst hc
    have hch : checksOf tchecks (.obj .digitalNameplate attrs : TVal) = [checkFamily] := rfl
    rw [hch]
    by_cases hF : FamilyOrType els
    · refine ⟨fun _ => ?_, fun hh => absurd hF hh.2⟩
      have : violation [] (.obj .digitalNameplate attrs : TVal) checkFamily = none := by rw [violation, (checkFamily_spec h).1 hF]
      simp only [List.filterMap_cons, this, List.filterMap_nil]
      rfl
    · refine ⟨fun hh => absurd ⟨rfl, hF⟩ hh, fun _ => ?_⟩
      have : violation [] (.obj .digitalNameplate attrs : TVal) checkFamily = some (Res.new ⟨.constraint familyText, []⟩ .error) := by
        rw [violation, checkFamily_text h hF]
      simp only [List.filterMap_cons, this, List.filterMap_nil]
      rfl
  · refine ⟨fun _ => ?_, fun hh => absurd hh.1 hc⟩
    simp only [checksOf]
    rw [tchecks_other hc]
    rfl

theorem submodel_report (h : Obj lim .submodel v) {sid : Str} {c : TCls} (hs : semanticId? v = some sid) (ht : (sid, c) ∈ templates)
    (root r : Res Note) (hr : checkSubmodel root v = .ok r) :
    ∃ notes extra, Reported (FlawOf c (elems v .submodelElements)) notes ∧ Extra c (elems v .submodelElements) notes extra ∧
      r = root.append (((Res.new ⟨.title py!"Check submodel", []⟩).append (Res.new ⟨.title (py!"Template: " ++ c.pyName), []⟩)).appendAll
        (errs (notes ++ extra))) := by
  rw [checkSubmodel, submodelKey_spec h, hs] at hr
  simp only [bind, Except.bind, dictGet_templates.mpr ht] at hr
  generalize hres : ((Res.new ⟨.title py!"Check submodel", []⟩).append (Res.new ⟨.title (py!"Template: " ++ c.pyName), []⟩) : Res Note) = res at hr ⊢
  have hok : res.ok = true := by rw [← hres]; rfl
  have ho := submodel_out h c res
  have hnotes := submodel_notes h c res
  by_cases hR : RaisesSubmodel c v
  · obtain ⟨e, -, he⟩ := ho.1 hR
    rw [he] at hr
    cases hr
  · obtain ⟨w, notes, he, hf, hv⟩ := ho.2 hR
    rw [he] at hr
    obtain ⟨notes', hn, hsay⟩ := hnotes _ _ he
    rw [hok] at hsay
    have hsay : Reported (FlawOf c (elems v .submodelElements)) notes' := hsay
    rw [hn] at hr
    by_cases hnil : notes' = []
    · subst hnil
      have hn' : notes = [] := by
        have h1 : (res.appendAll (errs notes)).ok = true := by rw [hn]; exact hok
        exact ((appendAll_errs_ok _ _).mp h1).2
      obtain ⟨attrs, rfl, hA⟩ := hv hok hn'
      have hok' : (res.appendAll (errs [])).ok = true := hok
      simp only [hok', if_true] at hr
      cases hc : checkConstraints id tchecks (.obj c attrs) [] (res.appendAll (errs [])) with
      | error e => rw [hc] at hr; cases hr
      | ok r' =>
        rw [hc] at hr
        cases hr
        have := family_notes hA _ _ hc
        by_cases hx : c = .digitalNameplate ∧ ¬ FamilyOrType (elems v .submodelElements)
        · exact ⟨[], _, hsay, .family hx.1 hx.2, by rw [this.2 hx]; rfl⟩
        · exact ⟨[], [], hsay, .kept fun h1 h2 => Classical.byContradiction fun h3 => hx ⟨h2, h3⟩, by rw [this.1 hx]; rfl⟩
    · have hno : (res.appendAll (errs notes')).ok = false := by
        rw [← Bool.not_eq_true, appendAll_errs_ok]
        exact fun h => hnil h.2
      simp only [hno, Bool.false_eq_true, if_false, pure, Except.pure] at hr
      cases hr
      exact ⟨notes', [], hsay, .kept fun h => absurd h hnil, by rw [List.append_nil]⟩

theorem submodels_report : ∀ (sms : List AVal) (root r : Res Note), (∀ x ∈ sms, Obj lim .submodel x) → checkSubmodels root sms = .ok r →
    ∃ subs, r = root.appendAll subs ∧ subs.length = (templated sms).length ∧ ∀ p ∈ (templated sms).zip subs, SubmodelReport p.1.2 p.1.1 p.2
  | [], root, r, _, e => by
    cases e
    exact ⟨[], rfl, rfl, by simp [templated]⟩
  | sm :: sms, root, r, h, e => by
    have ho := h sm (by simp)
    rw [checkSubmodels] at e
    by_cases hh : ∃ sid c, semanticId? sm = some sid ∧ (sid, c) ∈ templates
    · obtain ⟨sid, c, h1, h2⟩ := hh
      have hT : templated (sm :: sms) = (sm, c) :: templated sms := by
        rw [templated, List.filterMap_cons, h1, Option.bind_some, template_of h2]; rfl
      cases hc : checkSubmodel root sm with
      | error e' => rw [hc] at e; cases e
      | ok r' =>
        rw [hc] at e
        obtain ⟨notes, extra, h3, h4, rfl⟩ := submodel_report ho h1 h2 root r' hc
        obtain ⟨subs, h5, h6, h7⟩ := submodels_report sms _ r (fun x hx => h x (by simp [hx])) e
        rw [hT]
        refine ⟨_ :: subs, h5, by simp [h6], fun p hp => ?_⟩
        rw [List.zip_cons_cons, List.mem_cons] at hp
        rcases hp with rfl | hp
        · exact ⟨notes, extra, h3, h4, rfl⟩
        · exact h7 p hp
    · have hno : ∀ sid c, semanticId? sm = some sid → (sid, c) ∉ templates := fun sid c h1 h2 => hh ⟨sid, c, h1, h2⟩
      have hT : templated (sm :: sms) = templated sms := by
        rw [templated, List.filterMap_cons]
        match hk : semanticId? sm with
        | none => rfl
        | some sid => rw [Option.bind_some, template_none (fun c => hno sid c hk)]; rfl
      rw [checkSubmodel_skip ho hno root] at e
      rw [hT]
      exact submodels_report sms root r (fun x hx => h x (by simp [hx])) e

end Verif.Templates
