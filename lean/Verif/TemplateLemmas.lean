import Verif.Templates
import Verif.Spec.Templates
import Verif.PathLemmas2
import Verif.CheckTable
import Verif.ParseXml2
import Verif.DateLemmas

/-! # The template parser -/

namespace Verif.Templates
open Verif Verif.Parse Verif.Aas Verif.Spec.Model Verif.Spec.Templates Verif.Spec.Parse Verif.DataTypes Verif.Spec

variable {lim : Option Nat} {c : Cls} {v : AVal}

/-! ## outcomes -/

/-- raises if `R`; otherwise reports nothing iff `F`, and then the value satisfies `V` -/
def Out {α : Type} (R F : Prop) (V : α → Prop) (res : Res Note) (x : Except PyExc (α × Res Note)) : Prop :=
  (R → ∃ e, Mishap e ∧ x = .error e) ∧
  (¬ R → ∃ v notes, x = .ok (v, res.appendAll (errs notes)) ∧ (res.ok = true → (notes = [] ↔ F)) ∧ (res.ok = true → notes = [] → V v))

theorem Out.good {α : Type} {R F : Prop} {V : α → Prop} {res : Res Note} {v : α} (hr : ¬ R) (hf : F) (hv : V v) :
    Out R F V res (.ok (v, res)) :=
  ⟨fun h => absurd h hr, fun _ => ⟨v, [], rfl, fun _ => by simp [hf], fun _ _ => hv⟩⟩

theorem Out.bad {α : Type} {R F : Prop} {V : α → Prop} {res : Res Note} {v : α} {k : Kind} {p : List PTok} (hr : ¬ R) (hf : ¬ F) :
    Out R F V res (.ok (v, report k p res)) :=
  ⟨fun h => absurd h hr, fun _ => ⟨v, [⟨k, p⟩], by rw [report_eq], fun _ => by simp [hf], by simp⟩⟩

theorem Out.raise {α : Type} {R F : Prop} {V : α → Prop} {res : Res Note} {e : PyExc} (hr : R) (he : Mishap e) : Out R F V res (.error e : Except PyExc (α × Res Note)) :=
  ⟨fun _ => ⟨e, he, rfl⟩, fun h => absurd hr h⟩

theorem Out.congr {α : Type} {R R' F F' : Prop} {V V' : α → Prop} {res : Res Note} {x : Except PyExc (α × Res Note)} (h : Out R F V res x)
    (hr : R ↔ R') (hf : F ↔ F') (hv : ∀ v, V v → V' v) : Out R' F' V' res x := by
  refine ⟨fun h' => h.1 (hr.mpr h'), fun h' => ?_⟩
  obtain ⟨v, notes, h1, h2, h3⟩ := h.2 (fun hh => h' (hr.mp hh))
  exact ⟨v, notes, h1, fun ho => (h2 ho).trans hf, fun ho hn => hv v (h3 ho hn)⟩

/-- one step after the other -/
theorem Out.seq {α β γ : Type} {R1 F1 R2 F2 : Prop} {V1 : α → Prop} {V2 : β → Prop} {V : γ → Prop} {res : Res Note}
    {x : Except PyExc (α × Res Note)} {y : α → Res Note → Except PyExc (β × Res Note)} {f : α → β → γ}
    (h1 : Out R1 F1 V1 res x) (h2 : ∀ a res, Out R2 F2 V2 res (y a res)) (hv : ∀ a b, V1 a → V2 b → V (f a b)) :
    Out (R1 ∨ R2) (F1 ∧ F2) V res (do let (a, r) ← x; let (b, r) ← y a r; return (f a b, r)) := by
  constructor
  · rintro hR
    by_cases hr : R1
    · obtain ⟨e, hm, rfl⟩ := h1.1 hr; exact ⟨e, hm, rfl⟩
    · have hR2 := hR.resolve_left hr
      obtain ⟨a, n1, rfl, -⟩ := h1.2 hr
      obtain ⟨e, hm, he⟩ := (h2 a (res.appendAll (errs n1))).1 hR2
      refine ⟨e, hm, ?_⟩
      simp only [bind, Except.bind, he]
  · intro hR
    rw [not_or] at hR
    obtain ⟨a, n1, rfl, ho1, hv1⟩ := h1.2 hR.1
    obtain ⟨b, n2, he, ho2, hv2⟩ := (h2 a (res.appendAll (errs n1))).2 hR.2
    refine ⟨f a b, n1 ++ n2, ?_, ?_, ?_⟩
    · simp only [bind, Except.bind, he, errs_append, Res.appendAll_append, pure, Except.pure]
    · intro ho
      have hh := ho1 ho
      rw [List.append_eq_nil_iff, hh]
      by_cases hn : n1 = []
      · subst hn
        rw [ho2 ho]
      · have : ¬ F1 := fun hf => hn (hh.mpr hf)
        simp [this]
    · intro ho hn
      rw [List.append_eq_nil_iff] at hn
      obtain ⟨rfl, rfl⟩ := hn
      exact hv a b (hv1 ho rfl) (hv2 ho rfl)

/-! ## access -/

theorem getAttr_of {f : Fld} {w : AVal} (h : attr v f = .ok w) : getAttr v f = .ok w := by
  unfold attr at h
  unfold getAttr
  split at h
  · split at h
    · rename_i e; injection h with h; simp [e, h]
    · cases h
  · cases h

theorem isInst_iff (h : Obj lim c v) (d : Cls) : isInst d v = true ↔ className v = d.pyName := by
  have h1 := h.className
  obtain ⟨attrs, rfl, -⟩ := h.fields
  simp only [isInst, decide_eq_true_eq]
  rw [h1]
  exact ⟨fun e => by rw [e], pyName_inj⟩

/-! ## values -/

theorem parseString_spec (h : Obj lim c v) (path : List PTok) (res : Res Note) :
    (PropertyOf py!"xs:string" v → parseString v path res = .ok (.str (txt v .value), res)) ∧
    (¬ PropertyOf py!"xs:string" v → ∃ k, parseString v path res = .ok (.none, report k path res)) := by
  rw [parseString]
  by_cases hp : isInst .property v = true
  · have hn := (isInst_iff h .property).mp hp
    have hc := cls_of h .property hn
    subst hc
    rw [hp]
    have hvt := getAttr_of (h.enum (f := .valueType) (key := py!"valueType") rfl).1
    rcases h.sfv? (f := .value) (key := py!"value") (s := .valueDataType) rfl with ⟨h1, h2⟩ | ⟨h1, h2⟩
    · rw [getAttr_of h1]
      exact ⟨fun hP => absurd hP.2.1 h2, fun _ => ⟨_, rfl⟩⟩
    · rw [getAttr_of h1, hvt]
      by_cases ht : txt v .valueType = py!"xs:string"
      · refine ⟨fun _ => ?_, fun hP => absurd ⟨hn, h2, ht⟩ hP⟩
        simp only [bind, Except.bind, Bool.not_true, Bool.false_eq_true, if_false, isNone, ht, ne_eq, not_true_eq_false, pure, Except.pure]
      · refine ⟨fun hP => absurd hP.2.2 ht, fun _ => ⟨.other py!"valueType must be xs:string", ?_⟩⟩
        simp only [bind, Except.bind, Bool.not_true, Bool.false_eq_true, if_false, isNone, ne_eq, ht, not_false_eq_true, if_true, pure, Except.pure]
  · rw [Bool.not_eq_true] at hp
    rw [hp]
    exact ⟨fun hP => absurd ((isInst_iff h .property).mpr hP.1) (by rw [hp]; simp), fun _ => ⟨_, rfl⟩⟩

theorem isDigit_iff (n : Nat) : Re.isDigit n = true ↔ IsDigit n := by
  simp [Re.isDigit, IsDigit]

theorem digits2_iff {a b n : Nat} : digits2 a b = some n ↔ TwoDigit [a, b] n := by
  rw [twoDigit_iff, digits2]
  constructor
  · intro h
    split at h
    · rename_i hh
      rw [Bool.and_eq_true, isDigit_iff, isDigit_iff] at hh
      injection h with h
      exact ⟨a, b, rfl, hh.1, hh.2, h.symm⟩
    · cases h
  · rintro ⟨a', b', e, h1, h2, h3⟩
    injection e with e1 e; injection e with e2 _
    subst e1 e2
    rw [if_pos (by rw [Bool.and_eq_true, isDigit_iff, isDigit_iff]; exact ⟨h1, h2⟩), h3]

theorem monthLength_nat (y m : Nat) :
    (if m = 2 then (if y % 4 = 0 ∧ (y % 100 ≠ 0 ∨ y % 400 = 0) then 29 else 28) else if m ∈ [4, 6, 9, 11] then 30 else 31) =
      monthLength (y : Int) m := by
  have hl : (y % 4 = 0 ∧ (y % 100 ≠ 0 ∨ y % 400 = 0)) ↔ Leap (astronomical (y : Int)) := by
    have : astronomical (y : Int) = y := by unfold astronomical; split <;> omega
    rw [this, Leap]
    omega
  simp only [monthLength, hl]

theorem fromIso_iff (s : Str) : fromIsoFormat s = .ok () ↔ IsoDate s := by
  constructor
  · intro h
    unfold fromIsoFormat at h
    split at h
    case h_2 => cases h
    rename_i y1 y2 y3 y4 s1 m1 m2 s2 d1 d2
    split at h
    case h_2 => cases h
    rename_i a b m d ha hb hm hd
    dsimp only at h
    rw [monthLength_nat] at h
    split at h
    case isFalse => cases h
    rename_i hc
    obtain ⟨rfl, rfl, h1, h2, h3, h4, h5⟩ := hc
    rw [digits2_iff] at ha hb hm hd
    refine ⟨[y1, y2, y3, y4], [m1, m2], [d1, d2], a * 100 + b, m, d, rfl, ⟨by simp, ?_⟩, rfl, ?_, hm, hd, ?_, h2, h3, h4, h5⟩
    · intro c hc
      have hA := ha.1.2; have hB := hb.1.2
      simp only [List.mem_cons, List.not_mem_nil, or_false] at hc hA hB
      rcases hc with rfl | rfl | rfl | rfl
      · exact hA _ (.inl rfl)
      · exact hA _ (.inr rfl)
      · exact hB _ (.inl rfl)
      · exact hB _ (.inr rfl)
    · have hA := ha.2.2; have hB := hb.2.2
      simp only [decimalValue, List.foldl_cons, List.foldl_nil] at hA hB ⊢
      omega
    · omega
  · rintro ⟨ys, ms, ds, y, m, d, rfl, hy, hl, hv, hm, hd, h0, h2, h3, h4, h5⟩
    obtain ⟨m1, m2, rfl, hm1, hm2, hmv⟩ := (twoDigit_iff ..).mp hm
    obtain ⟨d1, d2, rfl, hd1, hd2, hdv⟩ := (twoDigit_iff ..).mp hd
    match ys, hl with
    | [y1, y2, y3, y4], _ =>
      have hA : TwoDigit [y1, y2] ((y1 - 48) * 10 + (y2 - 48)) :=
        (twoDigit_iff ..).mpr ⟨y1, y2, rfl, hy.2 _ (by simp), hy.2 _ (by simp), rfl⟩
      have hB : TwoDigit [y3, y4] ((y3 - 48) * 10 + (y4 - 48)) :=
        (twoDigit_iff ..).mpr ⟨y3, y4, rfl, hy.2 _ (by simp), hy.2 _ (by simp), rfl⟩
      have hyv : ((y1 - 48) * 10 + (y2 - 48)) * 100 + ((y3 - 48) * 10 + (y4 - 48)) = y := by
        simp only [decimalValue, List.foldl_cons, List.foldl_nil] at hv
        omega
      change fromIsoFormat [y1, y2, y3, y4, _, m1, m2, _, d1, d2] = _
      rw [fromIsoFormat, digits2_iff.mpr hA, digits2_iff.mpr hB, digits2_iff.mpr hm, digits2_iff.mpr hd]
      dsimp only
      rw [hyv, monthLength_nat, if_pos]
      exact ⟨rfl, rfl, by omega, h2, h3, h4, h5⟩

theorem ite_kind {p : Prop} [Decidable p] {x : PyExc} (h : (if p then .ok () else .error .valueError : Except PyExc Unit) = .error x) : x = .valueError := by
  split at h <;> cases h; rfl

theorem fromIso_error {s : Str} (h : ¬ IsoDate s) : ∃ e, Mishap e ∧ fromIsoFormat s = .error e := by
  match e : fromIsoFormat s with
  | .ok () => exact absurd ((fromIso_iff s).mp e) h
  | .error x =>
    refine ⟨x, .inr (.inr ?_), rfl⟩
    unfold fromIsoFormat at e
    split at e
    · split at e
      · exact ite_kind e
      · cases e; rfl
    · cases e; rfl

/-- a value without objects -/
def Leaf (v : TVal) : Prop := v ≠ .none ∧ (∀ p x, ¬ Nested id v p x) ∧ ∀ l, v ≠ .list l

theorem string_out (h : Obj lim c v) (path : List PTok) (res : Res Note) :
    Out (Raises .str v) (Fits true .str v) Leaf res (parseString v path res) := by
  have hs := parseString_spec h path res
  by_cases hp : PropertyOf py!"xs:string" v
  · rw [hs.1 hp]
    exact .good (by rintro ⟨⟩) (.str hp) ⟨by simp, by rintro _ _ ⟨⟩, by simp⟩
  · obtain ⟨k, e⟩ := hs.2 hp
    rw [e]
    exact .bad (by rintro ⟨⟩) (by rintro ⟨h⟩; exact hp h)

theorem enum_out (h : Obj lim c v) (e : TEnum) (path : List PTok) (res : Res Note) :
    Out (Raises (.enum e) v) (Fits true (.enum e) v) Leaf res (parseEnum e v path res) := by
  have hs := parseString_spec h path res
  have hr : ¬ Raises (.enum e) v := by rintro ⟨⟩
  by_cases hp : PropertyOf py!"xs:string" v
  · rw [parseEnum, hs.1 hp]
    simp only [bind, Except.bind, pure, Except.pure]
    by_cases ho : res.ok = true
    · rw [ho]
      simp only [Bool.not_true, Bool.false_eq_true, if_false]
      by_cases hm : txt v .value ∈ tenumValues e
      · rw [if_pos hm]
        exact .good hr (.enum hp hm) ⟨by simp, by rintro _ _ ⟨⟩, by simp⟩
      · rw [if_neg hm]
        exact .bad hr (by rintro ⟨⟩; exact hm ‹_›)
    · rw [Bool.not_eq_true] at ho
      rw [ho]
      refine ⟨fun h => absurd h hr, fun _ => ⟨.invalid, [], rfl, ?_, ?_⟩⟩ <;> intro h <;> simp [ho] at h
  · obtain ⟨k, e'⟩ := hs.2 hp
    rw [parseEnum, e']
    simp only [bind, Except.bind, pure, Except.pure]
    have hf : ¬ Fits true (.enum e) v := by rintro ⟨⟩; exact hp ‹_›
    by_cases ho : (report k path res).ok = true
    · rw [ho]
      simp only [Bool.not_true, Bool.false_eq_true, if_false]
      refine ⟨fun h => absurd h hr, fun _ => ⟨.invalid, [⟨k, path⟩, ⟨.notInEnum, path⟩], ?_, fun _ => by simp [hf], by simp⟩⟩
      rw [report_eq, report_eq, ← Res.appendAll_append, ← errs_append]
      rfl
    · rw [Bool.not_eq_true] at ho
      rw [ho]
      exact .bad hr hf

theorem date_out (h : Obj lim c v) (path : List PTok) (res : Res Note) :
    Out (Raises .date v) (Fits true .date v) Leaf res (parseDate v path res) := by
  rw [parseDate]
  by_cases hp : isInst .property v = true
  · have hn := (isInst_iff h .property).mp hp
    have hc := cls_of h .property hn
    subst hc
    rw [hp]
    have hvt := getAttr_of (h.enum (f := .valueType) (key := py!"valueType") rfl).1
    rcases h.sfv? (f := .value) (key := py!"value") (s := .valueDataType) rfl with ⟨h1, h2⟩ | ⟨h1, h2⟩
    · rw [getAttr_of h1]
      refine .bad ?_ ?_
      · rintro ⟨hP, -⟩; exact h2 hP.2.1
      · rintro ⟨⟩; rename_i hP; exact h2 hP.2.1
    · rw [getAttr_of h1, hvt]
      by_cases ht : txt v .valueType = py!"xs:date"
      · simp only [bind, Except.bind, Bool.not_true, Bool.false_eq_true, if_false, isNone, ht, ne_eq, not_true_eq_false, pure, Except.pure]
        by_cases hd : IsoDate (txt v .value)
        · rw [(fromIso_iff _).mpr hd]
          exact .good (by rintro ⟨-, h⟩; exact h hd) (.date ⟨hn, h2, ht⟩) ⟨by simp, by rintro _ _ ⟨⟩, by simp⟩
        · obtain ⟨e, hm, he⟩ := fromIso_error hd
          rw [he]
          exact .raise (.date ⟨hn, h2, ht⟩ hd) hm
      · simp only [bind, Except.bind, Bool.not_true, Bool.false_eq_true, if_false, isNone, ne_eq, ht, not_false_eq_true, if_true, pure,
          Except.pure]
        refine .bad ?_ ?_
        · rintro ⟨hP, -⟩; exact ht hP.2.2
        · rintro ⟨⟩; rename_i hP; exact ht hP.2.2
  · rw [Bool.not_eq_true] at hp
    rw [hp]
    have : className v ≠ py!"Property" := fun e => by rw [(isInst_iff h .property).mpr e] at hp; cases hp
    refine .bad ?_ ?_
    · rintro ⟨hP, -⟩; exact this hP.1
    · rintro ⟨⟩; rename_i hP; exact this hP.1

theorem lang_out (h : Obj lim c v) (path : List PTok) (res : Res Note) :
    Out (Raises .lang v) (Fits true .lang v) Leaf res (parseLang v path res) := by
  rw [parseLang]
  have hr : ¬ Raises .lang v := by rintro ⟨⟩
  by_cases hp : isInst .multiLanguageProperty v = true
  · have hn := (isInst_iff h .multiLanguageProperty).mp hp
    have hc := cls_of h .multiLanguageProperty hn
    subst hc
    rw [hp]
    rcases h.list? (f := .value) (key := py!"value") (ty := .cls .multiLanguageTextType) rfl with ⟨h1, h2, -⟩ | ⟨h1, h2, h3, -⟩
    · rw [getAttr_of h1]
      exact .bad hr (by rintro ⟨⟩; exact h2 ‹_›)
    · rw [getAttr_of h1]
      have : truthy (.list (elems v .value) : AVal) = true := by
        match elems v .value, h3 with
        | _ :: _, _ => rfl
      simp only [bind, Except.bind, Bool.not_true, Bool.false_eq_true, if_false, this, pure, Except.pure]
      exact .good hr (.lang hn h2) ⟨by simp, by rintro _ _ ⟨⟩, by simp⟩
  · rw [Bool.not_eq_true] at hp
    rw [hp]
    exact .bad hr (by rintro ⟨⟩; rename_i h1 h2; rw [(isInst_iff h .multiLanguageProperty).mpr h1] at hp; cases hp)

end Verif.Templates
