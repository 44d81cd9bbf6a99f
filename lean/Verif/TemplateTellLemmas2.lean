import Verif.TemplateTellLemmas
import Verif.FlawLemmas
import Verif.DecimalLemmas
import Verif.Spec.TemplateTelling

/-! # The lines of the template parser -/

namespace Verif.Templates.Texts
open Res Verif.Templates Verif Verif.Parse Verif.Aas Verif.Spec.Model Verif.Spec.Templates Verif.Spec.Parse Verif.Spec Verif.Spec.Paths

variable {lim : Option Nat} {c : Cls} {v : AVal} {W : Words}

abbrev Rec := TTy → AVal → List PTok → Res Str → Except PyExc (TVal × Res Str)

def errsT (ts : List Str) : List (Res Str) := ts.map fun t => Res.new t .error

theorem errsT_append (a b : List Str) : errsT (a ++ b) = errsT a ++ errsT b := List.map_append

theorem say_eq (t : Str) (res : Res Str) : say t res = res.appendAll (errsT [t]) := rfl

theorem level_ok {r : Res Str} : r.ok = true ↔ r.level ≠ .error ∧ r.level ≠ .critical := by
  cases r with | mk m l s => cases l <;> simp [Res.ok, Res.level]

/-- a mistake: its rank and the line about it -/
abbrev M := List Nat × Str

/-- what is wrong with an element, with the line about it -/
inductive FlawT (W : Words) : Bool → TTy → AVal → List PTok → M → Prop
  | here {b ty x p w} : Wrong W b ty x w → FlawT W b ty x p ([], w ++ py!" @ " ++ pathText p)
  | number {c x p k f t} : Collection true x → (tfieldsOf c)[k]? = some f → WrongNumber f (matching f (elems x .value)).length t →
      FlawT W false (.cls c) x p ([k], t)
  | single {b c x p k f y n} : Collection true x → (tfieldsOf c)[k]? = some f → Within f (matching f (elems x .value)).length → f.max = some 1 →
      y ∈ matching f (elems x .value) → FlawT W b f.ty y (p ++ [.key (fieldName f)]) n → FlawT W b (.cls c) x p (k :: 0 :: n.1, n.2)
  | item {b c x p k f i y n} : Collection true x → (tfieldsOf c)[k]? = some f → Within f (matching f (elems x .value)).length → f.max ≠ some 1 →
      (matching f (elems x .value))[i]? = some y → FlawT W b f.ty y (p ++ [.key (fieldName f), .idx i]) n → FlawT W b (.cls c) x p (k :: i :: n.1, n.2)

/-- what is reported, after a result that is ok or not -/
def Says (L : Bool → M → Prop) (ok : Bool) (notes : List M) : Prop :=
  if ok then Listed L notes else notes.Pairwise (fun m m' => m.1 < m'.1) ∧ ∀ n, n ∈ notes ↔ L false n

def Notes {α : Type} (L : Bool → M → Prop) (res : Res Str) (x : Except PyExc (α × Res Str)) : Prop :=
  ∀ v r, x = .ok (v, r) → ∃ notes, r = res.appendAll (errsT (notes.map (·.2))) ∧ Says L res.ok notes

theorem Says.congr {L L' : Bool → M → Prop} {ok notes} (h : Says L ok notes) (hl : ∀ b n, L b n ↔ L' b n) : Says L' ok notes := by
  rw [show L' = L from funext fun b => funext fun n => propext (hl b n).symm]; exact h

theorem Notes.congr {α : Type} {L L' : Bool → M → Prop} {res : Res Str} {x : Except PyExc (α × Res Str)} (h : Notes L res x)
    (hl : ∀ b n, L b n ↔ L' b n) : Notes L' res x := by
  rw [show L' = L from funext fun b => funext fun n => propext (hl b n).symm]; exact h

theorem Says.nothing {L : Bool → M → Prop} {ok} (h : ∀ b n, ¬ L b n) : Says L ok [] := by
  cases ok
  · simp [Says, h]
  · exact ⟨.nil, h⟩

theorem Says.one {L : Bool → M → Prop} {ok} {n0 : M} (h : ∀ b n, L b n ↔ b = false ∧ n = n0) : Says L ok [n0] := by
  cases ok
  · simp [Says, h]
  · exact ⟨List.pairwise_singleton _ _, ⟨false, (h _ _).mpr ⟨rfl, rfl⟩⟩, fun b n hn => by rw [((h _ _).mp hn).2]; exact List.le_refl _, by simp,
      fun n hn => by simp [((h _ _).mp hn).2]⟩

theorem Says.mem {L : Bool → M → Prop} {ok n} (h : Says L ok n) : ∀ m ∈ n, ∃ b, L b m := by
  intro m hm
  cases ok with
  | false => exact ⟨false, (h.2 m).mp hm⟩
  | true =>
    cases n with
    | nil => cases hm
    | cons a l =>
      obtain ⟨-, h1, -, h2, -⟩ := h
      rcases List.mem_cons.mp hm with rfl | hm
      · exact h1
      · exact ⟨false, h2 m hm⟩

theorem Says.ordered {L : Bool → M → Prop} {ok n} (h : Says L ok n) : n.Pairwise (fun m m' => m.1 < m'.1) := by
  cases ok <;> exact h.1

/-- all mistakes of the first kind come before all of the second kind -/
def Before (L1 L2 : Bool → M → Prop) : Prop := ∀ b m b' m', L1 b m → L2 b' m' → m.1 < m'.1

theorem Says.append {L1 L2 : Bool → M → Prop} {ok n1 n2} (h1 : Says L1 ok n1) (h2 : Says L2 (ok && n1.isEmpty) n2) (hb : Before L1 L2) :
    Says (fun b n => L1 b n ∨ L2 b n) ok (n1 ++ n2) := by
  have hp : (n1 ++ n2).Pairwise (fun m m' => m.1 < m'.1) := by
    refine List.pairwise_append.mpr ⟨h1.ordered, h2.ordered, fun m hm m' hm' => ?_⟩
    obtain ⟨b, hl⟩ := h1.mem m hm
    obtain ⟨b', hl'⟩ := h2.mem m' hm'
    exact hb _ _ _ _ hl hl'
  cases ok with
  | false =>
    refine ⟨hp, fun n => ?_⟩
    rw [List.mem_append, h1.2, h2.2]
  | true =>
    refine ⟨hp, ?_⟩
    cases n1 with
    | nil =>
      have : (fun b n => L1 b n ∨ L2 b n) = L2 := by
        funext b n
        simp [show ¬ L1 b n from h1.2 b n]
      rw [this]
      exact h2.2
    | cons a l =>
      obtain ⟨-, ⟨b, ha⟩, h0, h3, h4⟩ := h1
      refine ⟨⟨b, .inl ha⟩, ?_, ?_, ?_⟩
      · rintro b' m (hm | hm)
        · exact h0 _ _ hm
        · exact List.le_of_lt (hb _ _ _ _ ha hm)
      · intro n hn
        rcases List.mem_append.mp hn with hn | hn
        · exact .inl (h3 n hn)
        · exact .inr ((h2.2 n).mp hn)
      · rintro n (hn | hn)
        · exact List.mem_append_left n2 (h4 n hn)
        · exact List.mem_append_right (a :: l) ((h2.2 n).mpr hn)

/-- a mistake of a part -/
def under (k : Nat) (m : M) : M := (k :: m.1, m.2)

/-- the mistakes of a part -/
def Under (k : Nat) (L : Bool → M → Prop) (b : Bool) (m : M) : Prop := ∃ m', L b m' ∧ m = under k m'

theorem under_inj {k : Nat} {m m' : M} (h : under k m = under k m') : m = m' := by
  simp only [under, Prod.mk.injEq, List.cons.injEq, true_and] at h
  exact Prod.ext h.1 h.2

theorem Says.under {L : Bool → M → Prop} {ok n} (k : Nat) (h : Says L ok n) : Says (Under k L) ok (n.map (under k)) := by
  have hp : (n.map (Texts.under k)).Pairwise (fun m m' => m.1 < m'.1) :=
    List.pairwise_map.mpr (h.ordered.imp fun hh => List.cons_lt_cons_iff.mpr (.inr ⟨rfl, hh⟩))
  cases ok with
  | false =>
    refine ⟨hp, fun m => ?_⟩
    rw [List.mem_map]
    constructor
    · rintro ⟨m', hm, rfl⟩; exact ⟨m', (h.2 m').mp hm, rfl⟩
    · rintro ⟨m', hm, rfl⟩; exact ⟨m', (h.2 m').mpr hm, rfl⟩
  | true =>
    refine ⟨hp, ?_⟩
    cases n with
    | nil => rintro b m ⟨m', hm, -⟩; exact h.2 b m' hm
    | cons a l =>
      obtain ⟨-, ⟨b, ha⟩, h0, h3, h4⟩ := h
      refine ⟨⟨b, a, ha, rfl⟩, ?_, ?_, ?_⟩
      · rintro b' m ⟨m', hm, rfl⟩
        exact List.cons_le_cons_iff.mpr (.inr ⟨rfl, h0 _ _ hm⟩)
      · intro m hm
        obtain ⟨m', hm', rfl⟩ := List.mem_map.mp hm
        exact ⟨m', h3 m' hm', rfl⟩
      · rintro m ⟨m', hm, rfl⟩
        exact List.mem_map.mpr ⟨m', h4 m' hm, rfl⟩

theorem say_ok (t : Str) (res : Res Str) : (say t res).ok = false := by
  cases res with | mk m l ss => cases l <;> rfl

theorem errsT_ok (res : Res Str) (ts : List Str) : (res.appendAll (errsT ts)).ok = (res.ok && ts.isEmpty) := by
  induction ts generalizing res with
  | nil => simp [errsT, Res.appendAll]
  | cons t ts ih =>
    have := ih (say t res)
    rw [say_ok] at this
    rw [List.isEmpty_cons, Bool.and_false]
    exact this

theorem Notes.seq {α β γ : Type} {L1 L2 : Bool → M → Prop} {res : Res Str}
    {x : Except PyExc (α × Res Str)} {y : α → Res Str → Except PyExc (β × Res Str)} {f : α → β → γ}
    (h1 : Notes L1 res x) (h2 : ∀ a res, Notes L2 res (y a res)) (hb : Before L1 L2) :
    Notes (fun b n => L1 b n ∨ L2 b n) res (do let (a, r) ← x; let (b, r) ← y a r; return (f a b, r)) := by
  intro v r h
  cases hx : x with
  | error e => rw [hx] at h; cases h
  | ok p =>
    obtain ⟨a, r1⟩ := p
    rw [hx] at h
    simp only [bind, Except.bind] at h
    cases hy : y a r1 with
    | error e => rw [hy] at h; cases h
    | ok q =>
      obtain ⟨b, r2⟩ := q
      rw [hy] at h
      cases h
      obtain ⟨n1, rfl, s1⟩ := h1 a r1 hx
      obtain ⟨n2, rfl, s2⟩ := h2 a _ b r2 hy
      rw [errsT_ok, List.isEmpty_map] at s2
      exact ⟨n1 ++ n2, by rw [List.map_append, errsT_append, Res.appendAll_append], s1.append s2 hb⟩

theorem Notes.good {α : Type} {L : Bool → M → Prop} {res : Res Str} {w : α} (h : ∀ b n, ¬ L b n) : Notes L res (.ok (w, res)) := by
  intro v r e
  cases e
  exact ⟨[], rfl, .nothing h⟩

theorem Notes.bad {α : Type} {L : Bool → M → Prop} {res : Res Str} {w : α} (s : List Nat) {t : Str}
    (h : ∀ b n, L b n ↔ b = false ∧ n = (s, t)) : Notes L res (.ok (w, say t res)) := by
  intro v r e
  cases e
  exact ⟨[(s, t)], by rw [say_eq]; rfl, .one h⟩

theorem Notes.under {α : Type} {L : Bool → M → Prop} {res : Res Str} {x : Except PyExc (α × Res Str)} (k : Nat) (h : Notes L res x) :
    Notes (Under k L) res x := by
  intro v r e
  obtain ⟨notes, hr, hs⟩ := h v r e
  refine ⟨notes.map (Texts.under k), ?_, hs.under k⟩
  rw [hr, List.map_map]
  rfl

theorem Notes.error {α : Type} {L : Bool → M → Prop} {res : Res Str} {e : PyExc} : Notes L res (.error e : Except PyExc (α × Res Str)) := by
  intro v r h; cases h

/-! ## values -/

theorem flat {b ty x p n} (hty : ∀ d : TCls, ty ≠ .cls d) : FlawT W b ty x p n ↔ ∃ w, Wrong W b ty x w ∧ n = ([], w ++ py!" @ " ++ pathText p) := by
  constructor
  · intro h
    cases h with
    | here h => exact ⟨_, h, rfl⟩
    | number => exact absurd rfl (hty _)
    | single => exact absurd rfl (hty _)
    | item => exact absurd rfl (hty _)
  · rintro ⟨w, h, rfl⟩
    exact .here h

theorem Notes.wrong {α : Type} {ty : TTy} {x : AVal} {p : List PTok} {res : Res Str} {a : α} {t : Str} (hty : ∀ d : TCls, ty ≠ .cls d)
    (h : ∀ b w, Wrong W b ty x w ↔ b = false ∧ w = t) : Notes (fun b n => FlawT W b ty x p n) res (.ok (a, sayAt t p res)) := by
  refine .bad [] fun b n => ?_
  rw [flat hty]
  constructor
  · rintro ⟨w, hw, rfl⟩
    obtain ⟨rfl, rfl⟩ := (h b w).mp hw
    exact ⟨rfl, rfl⟩
  · rintro ⟨rfl, rfl⟩
    exact ⟨t, (h _ _).mpr ⟨rfl, rfl⟩, rfl⟩

theorem Notes.right {α : Type} {ty : TTy} {x : AVal} {p : List PTok} {res : Res Str} {a : α} (hty : ∀ d : TCls, ty ≠ .cls d)
    (h : ∀ b w, ¬ Wrong W b ty x w) : Notes (fun b n => FlawT W b ty x p n) res (.ok (a, res)) := by
  refine .good fun b n hf => ?_
  obtain ⟨w, hw, -⟩ := (flat hty).mp hf
  exact h b w hw


theorem string_notes (h : Obj lim c v) (path : List PTok) (res : Res Str) : Notes (fun b n => FlawT W b .str v path n) res (tellString v path res) := by
  rw [tellString]
  by_cases hp : isInst .property v = true
  · have hn := (isInst_iff h .property).mp hp
    have hc := cls_of h .property hn
    subst hc
    rw [hp]
    have hvt := getAttr_of (h.enum (f := .valueType) (key := py!"valueType") rfl).1
    rcases h.sfv? (f := .value) (key := py!"value") (s := .valueDataType) rfl with ⟨h1, h2⟩ | ⟨h1, h2⟩
    · rw [getAttr_of h1]
      refine .wrong (by intro d h; cases h) fun b n => ⟨?_, ?_⟩
      · intro hf
        cases hf with
        | noProperty _ h => exact absurd hn h
        | noValue hh _ _ => cases hh; exact ⟨rfl, rfl⟩
        | valueType _ _ h _ => exact absurd h h2
      · rintro ⟨rfl, rfl⟩
        exact .noValue .str hn h2
    · rw [getAttr_of h1, hvt]
      by_cases ht : txt v .valueType = py!"xs:string"
      · simp only [bind, Except.bind, Bool.not_true, Bool.false_eq_true, if_false, isNone, ht, ne_eq, not_true_eq_false, pure, Except.pure]
        refine .right (by intro d h; cases h) fun b n hf => ?_
        cases hf with
        | noProperty _ h => exact absurd hn h
        | noValue _ _ h => exact h h2
        | valueType hh _ h h' => cases hh; exact h' ht
      · simp only [bind, Except.bind, Bool.not_true, Bool.false_eq_true, if_false, isNone, ne_eq, ht, not_false_eq_true, if_true, pure, Except.pure]
        refine .wrong (by intro d h; cases h) fun b n => ⟨?_, ?_⟩
        · intro hf
          cases hf with
          | noProperty _ h => exact absurd hn h
          | noValue _ _ h => exact absurd h2 h
          | valueType hh _ h h' => cases hh; exact ⟨rfl, by simp [valueText]⟩
        · rintro ⟨rfl, rfl⟩
          have := Wrong.valueType (W := W) .str hn h2 ht
          simpa [valueText] using this
  · have hn : className v ≠ py!"Property" := fun e => hp ((isInst_iff h .property).mpr e)
    rw [Bool.not_eq_true] at hp
    rw [hp]
    refine .wrong (by intro d h; cases h) fun b n => ⟨?_, ?_⟩
    · intro hf
      cases hf with
      | noProperty hh _ => cases hh; exact ⟨rfl, rfl⟩
      | noValue _ h _ => exact absurd h hn
      | valueType hh h _ _ => exact absurd h hn
    · rintro ⟨rfl, rfl⟩
      exact .noProperty .str hn

theorem wrong_enum {e : TEnum} {n : Str} : Wrong W false (.enum e) v n ↔ Wrong W false .str v n := by
  constructor
  · intro h
    cases h with
    | noProperty h1 h2 => cases h1; exact .noProperty .str h2
    | noValue h1 h2 h3 => cases h1; exact .noValue .str h2 h3
    | valueType h1 h2 h3 h4 => cases h1; exact .valueType .str h2 h3 h4
  · intro h
    cases h with
    | noProperty h1 h2 => cases h1; exact .noProperty (.enum e) h2
    | noValue h1 h2 h3 => cases h1; exact .noValue (.enum e) h2 h3
    | valueType h1 h2 h3 h4 => cases h1; exact .valueType (.enum e) h2 h3 h4

theorem flaw_enum {e : TEnum} {p : List PTok} {n : M} : FlawT W false (.enum e) v p n ↔ FlawT W false .str v p n := by
  rw [flat (by intro d h; cases h), flat (by intro d h; cases h)]
  simp only [wrong_enum]

theorem flaw_late {e : TEnum} {p : List PTok} {n : M} :
    FlawT W true (.enum e) v p n ↔ PropertyOf py!"xs:string" v ∧ txt v .value ∉ tenumValues e ∧
      n = ([], W.repr (txt v .value) ++ py!" is not a valid " ++ e.pyName ++ py!" @ " ++ pathText p) := by
  rw [flat (by intro d h; cases h)]
  constructor
  · rintro ⟨w, h, rfl⟩
    cases h with | notInEnum h1 h2 => exact ⟨h1, h2, rfl⟩
  · rintro ⟨h1, h2, rfl⟩
    exact ⟨_, .notInEnum h1 h2, rfl⟩

theorem no_flaw_str (hp : PropertyOf py!"xs:string" v) (b : Bool) (p : List PTok) (n : M) : ¬ FlawT W b .str v p n := by
  rw [flat (by intro d h; cases h)]
  rintro ⟨w, h, -⟩
  cases h with
  | noProperty _ h => exact h hp.1
  | noValue _ _ h => exact h hp.2.1
  | valueType h1 _ _ h => cases h1; exact h hp.2.2

theorem not_late_str {p : List PTok} {n : M} : ¬ FlawT W true .str v p n := by
  rw [flat (by intro d h; cases h)]
  rintro ⟨w, h, -⟩
  cases h

theorem tellString_spec (h : Obj lim c v) (path : List PTok) (res : Res Str) :
    (PropertyOf py!"xs:string" v → tellString v path res = .ok (.str (txt v .value), res)) ∧
    (¬ PropertyOf py!"xs:string" v → ∃ k, tellString v path res = .ok (.none, sayAt k path res)) := by
  rw [tellString]
  by_cases hp : isInst .property v = true
  · have hn := (isInst_iff h .property).mp hp
    have hc := cls_of h .property hn
    subst hc
    rw [hp]
    have hvt := getAttr_of (h.enum (f := .valueType) (key := py!"valueType") rfl).1
    rcases h.sfv? (f := .value) (key := py!"value") (s := .valueDataType) rfl with ⟨h1, h2⟩ | ⟨h1, h2⟩
    · rw [getAttr_of h1]
      exact ⟨fun hP => absurd hP.2.1 h2, fun _ => ⟨_, rfl⟩⟩
    · rw [getAttr_of h1, hvt]
      by_cases ht : txt v .valueType = py!"xs:string"
      · refine ⟨fun _ => ?_, fun hP => absurd ⟨hn, h2, ht⟩ hP⟩
        simp only [bind, Except.bind, Bool.not_true, Bool.false_eq_true, if_false, isNone, ht, ne_eq, not_true_eq_false, pure, Except.pure]
      · refine ⟨fun hP => absurd hP.2.2 ht, fun _ => ⟨py!"Cannot convert '" ++ valueText (.sfv .valueDataType (txt v .value)) ++ py!"' to string: valueType must be xs:string", ?_⟩⟩
        simp only [bind, Except.bind, Bool.not_true, Bool.false_eq_true, if_false, isNone, ne_eq, ht, not_false_eq_true, if_true, pure, Except.pure]
  · rw [Bool.not_eq_true] at hp
    rw [hp]
    exact ⟨fun hP => absurd ((isInst_iff h .property).mpr hP.1) (by rw [hp]; simp), fun _ => ⟨_, rfl⟩⟩

theorem enum_notes (h : Obj lim c v) (e : TEnum) (path : List PTok) (res : Res Str) :
    Notes (fun b n => FlawT W b (.enum e) v path n) res (tellEnum W e v path res) := by
  have hs := tellString_spec h path res
  by_cases hp : PropertyOf py!"xs:string" v
  · have hno : ∀ n, ¬ FlawT W false (.enum e) v path n := fun n hf => no_flaw_str hp _ _ _ (flaw_enum.mp hf)
    rw [tellEnum, hs.1 hp]
    simp only [bind, Except.bind, pure, Except.pure]
    by_cases ho : res.ok = true
    · rw [ho]
      simp only [Bool.not_true, Bool.false_eq_true, if_false]
      by_cases hm : txt v .value ∈ tenumValues e
      · rw [if_pos hm]
        refine .good fun b n hf => ?_
        cases b
        · exact hno n hf
        · exact (flaw_late.mp hf).2.1 hm
      · rw [if_neg hm]
        intro w r e'
        cases e'
        refine ⟨[([], _)], by rw [sayAt, say_eq]; rfl, ?_⟩
        rw [ho]
        exact ⟨List.pairwise_singleton _ _, ⟨true, .here (.notInEnum hp hm)⟩, fun _ _ _ => List.nil_le _, by simp, fun n hn => absurd hn (hno n)⟩
    · rw [Bool.not_eq_true] at ho
      rw [ho]
      intro w r e'
      cases e'
      refine ⟨[], rfl, ?_⟩
      rw [ho]
      refine ⟨.nil, fun n => ?_⟩
      simp [hno n]
  · obtain ⟨k, e'⟩ := hs.2 hp
    obtain ⟨notes, hr, hsay⟩ := string_notes h path res _ _ e'
    rw [tellEnum, e']
    have hko : (sayAt k path res).ok = false := by
      rw [sayAt, say_eq, errsT_ok]; simp
    simp only [bind, Except.bind, pure, Except.pure, hko, Bool.not_false, if_true]
    intro w r e''
    cases e''
    refine ⟨notes, hr, hsay.congr fun b n => ?_⟩
    cases b
    · exact flaw_enum.symm
    · exact ⟨fun h => absurd h not_late_str, fun h => absurd (flaw_late.mp h).1 hp⟩

theorem date_notes (h : Obj lim c v) (path : List PTok) (res : Res Str) : Notes (fun b n => FlawT W b .date v path n) res (tellDate v path res) := by
  rw [tellDate]
  by_cases hp : isInst .property v = true
  · have hn := (isInst_iff h .property).mp hp
    have hc := cls_of h .property hn
    subst hc
    rw [hp]
    have hvt := getAttr_of (h.enum (f := .valueType) (key := py!"valueType") rfl).1
    rcases h.sfv? (f := .value) (key := py!"value") (s := .valueDataType) rfl with ⟨h1, h2⟩ | ⟨h1, h2⟩
    · rw [getAttr_of h1]
      refine .wrong (by intro d h; cases h) fun b n => ⟨?_, ?_⟩
      · intro hf
        cases hf with
        | noProperty _ h => exact absurd hn h
        | noValue hh _ _ => cases hh; exact ⟨rfl, rfl⟩
        | valueType _ _ h _ => exact absurd h h2
      · rintro ⟨rfl, rfl⟩
        exact .noValue .date hn h2
    · rw [getAttr_of h1, hvt]
      by_cases ht : txt v .valueType = py!"xs:date"
      · simp only [bind, Except.bind, Bool.not_true, Bool.false_eq_true, if_false, isNone, ht, ne_eq, not_true_eq_false, pure, Except.pure]
        cases fromIsoFormat (txt v .value) with
        | error e => exact .error
        | ok u =>
          refine .right (by intro d h; cases h) fun b n hf => ?_
          cases hf with
          | noProperty _ h => exact absurd hn h
          | noValue _ _ h => exact h h2
          | valueType hh _ h h' => cases hh; exact h' ht
      · simp only [bind, Except.bind, Bool.not_true, Bool.false_eq_true, if_false, isNone, ne_eq, ht, not_false_eq_true, if_true, pure, Except.pure]
        refine .wrong (by intro d h; cases h) fun b n => ⟨?_, ?_⟩
        · intro hf
          cases hf with
          | noProperty _ h => exact absurd hn h
          | noValue _ _ h => exact absurd h2 h
          | valueType hh _ h h' => cases hh; exact ⟨rfl, by simp [valueText]⟩
        · rintro ⟨rfl, rfl⟩
          have := Wrong.valueType (W := W) .date hn h2 ht
          simpa [valueText] using this
  · have hn : className v ≠ py!"Property" := fun e => hp ((isInst_iff h .property).mpr e)
    rw [Bool.not_eq_true] at hp
    rw [hp]
    refine .wrong (by intro d h; cases h) fun b n => ⟨?_, ?_⟩
    · intro hf
      cases hf with
      | noProperty hh _ => cases hh; exact ⟨rfl, rfl⟩
      | noValue _ h _ => exact absurd h hn
      | valueType hh h _ _ => exact absurd h hn
    · rintro ⟨rfl, rfl⟩
      exact .noProperty .date hn

theorem lang_notes (h : Obj lim c v) (path : List PTok) (res : Res Str) : Notes (fun b n => FlawT W b .lang v path n) res (tellLang v path res) := by
  rw [tellLang]
  by_cases hp : isInst .multiLanguageProperty v = true
  · have hn := (isInst_iff h .multiLanguageProperty).mp hp
    have hc := cls_of h .multiLanguageProperty hn
    subst hc
    rw [hp]
    rcases h.list? (f := .value) (key := py!"value") (ty := .cls .multiLanguageTextType) rfl with ⟨h1, h2, -⟩ | ⟨h1, h2, h3, -⟩
    · rw [getAttr_of h1]
      refine .wrong (by intro d h; cases h) fun b n => ⟨?_, ?_⟩
      · intro hf
        cases hf with
        | noProperty hh _ => cases hh
        | noValue hh _ _ => cases hh
        | valueType hh _ _ _ => cases hh
        | noLang h => exact absurd hn h
        | noText _ _ => exact ⟨rfl, rfl⟩
      · rintro ⟨rfl, rfl⟩
        exact .noText hn h2
    · rw [getAttr_of h1]
      have : truthy (.list (elems v .value) : AVal) = true := by
        match elems v .value, h3 with
        | _ :: _, _ => rfl
      simp only [bind, Except.bind, Bool.not_true, Bool.false_eq_true, if_false, this, pure, Except.pure]
      refine .right (by intro d h; cases h) fun b n hf => ?_
      cases hf with
      | noProperty hh _ => cases hh
      | noValue hh _ _ => cases hh
      | valueType hh _ _ _ => cases hh
      | noLang h => exact absurd hn h
      | noText _ h => exact h h2
  · have hn : className v ≠ py!"MultiLanguageProperty" := fun e => hp ((isInst_iff h .multiLanguageProperty).mpr e)
    rw [Bool.not_eq_true] at hp
    rw [hp]
    refine .wrong (by intro d h; cases h) fun b n => ⟨?_, ?_⟩
    · intro hf
      cases hf with
      | noProperty hh _ => cases hh
      | noValue hh _ _ => cases hh
      | valueType hh _ _ _ => cases hh
      | noLang h => exact ⟨rfl, rfl⟩
      | noText h _ => exact absurd h hn
    · rintro ⟨rfl, rfl⟩
      exact .noLang hn

/-! ## fields -/

/-- the recursive calls do what they should -/
def Does (W : Words) (rec : Texts.Rec) (ty : TTy) (y : AVal) : Prop := ∀ path res, Notes (fun b n => FlawT W b ty y path n) res (rec ty y path res)

theorem items_notes {rec : Texts.Rec} {ty : TTy} {path : List PTok} : ∀ (i : Nat) (els : List AVal) (res : Res Str), (∀ y ∈ els, Does W rec ty y) →
    Notes (fun b n => ∃ k y, els[k]? = some y ∧ Under (i + k) (fun b n => FlawT W b ty y (path ++ [.idx (i + k)]) n) b n) res
      (tellItems rec ty path i els res)
  | _, [], res, _ => .good (by simp)
  | i, el :: els, res, h => by
    rw [tellItems]
    refine (((h el (by simp) _ res).under i).seq (f := List.cons) (fun _ r => items_notes (i + 1) els r (fun y hy => h y (by simp [hy]))) ?_).congr
      fun b n => ⟨?_, ?_⟩
    · rintro b m b' m' ⟨a, -, rfl⟩ ⟨k, y, -, a', -, rfl⟩
      exact List.cons_lt_cons_iff.mpr (.inl (by omega))
    · rintro (hf | ⟨k, y, hk, hf⟩)
      · exact ⟨0, el, rfl, hf⟩
      · exact ⟨k + 1, y, hk, by rw [show i + (k + 1) = i + 1 + k by omega]; exact hf⟩
    · rintro ⟨k, y, hk, hf⟩
      cases k with
      | zero => cases hk; exact .inl hf
      | succ k => exact .inr ⟨k, y, hk, by rw [show i + 1 + k = i + (k + 1) by omega]; exact hf⟩

/-- the mistakes of a field -/
inductive FieldFlaw (W : Words) (f : TField) (sub : List AVal) (path : List PTok) : Bool → M → Prop
  | number {t} : WrongNumber f sub.length t → FieldFlaw W f sub path false ([], t)
  | single {b y n} : Within f sub.length → f.max = some 1 → y ∈ sub → FlawT W b f.ty y (path ++ [.key (fieldName f)]) n →
      FieldFlaw W f sub path b (under 0 n)
  | item {b i y n} : Within f sub.length → f.max ≠ some 1 → sub[i]? = some y → FlawT W b f.ty y (path ++ [.key (fieldName f), .idx i]) n →
      FieldFlaw W f sub path b (under i n)

theorem field_notes {rec : Texts.Rec} {sub : List AVal} {path : List PTok} {f : TField} (hname : toCamelCase f.name = fieldName f)
    (hmm : ∀ m, f.max = some m → f.min ≤ m) (h : ∀ y ∈ sub, Does W rec f.ty y) (res : Res Str) :
    Notes (FieldFlaw W f sub path) res (tellField rec sub path f res) := by
  rw [tellField.eq_def]
  dsimp only
  rw [hname]
  have hw := within_iff f sub.length
  have hf : f.max.any (fun m => decide (m < sub.length)) = (f.max.filter fun m => decide (m < sub.length)).isSome := by
    cases f.max with
    | none => rfl
    | some m => cases hd : decide (m < sub.length) <;> simp [Option.filter, hd]
  cases hfl : f.max.filter (fun m => decide (m < sub.length)) with
  | some m =>
    rw [hfl] at hf
    have hnw : ¬ Within f sub.length := fun hh => (hw.mp hh).1 hf
    have hm : f.max = some m ∧ m < sub.length := by
      have := Option.filter_eq_some_iff.mp hfl
      simpa using this
    dsimp only
    refine .bad [] fun b n => ⟨?_, ?_⟩
    · intro hf
      cases hf with
      | number h =>
        cases h with
        | tooMany h1 _ hs ht =>
          rw [hm.1] at h1
          cases h1
          rw [decimal_iff] at hs ht
          subst hs ht
          exact ⟨rfl, rfl⟩
        | tooFew h2 => have := hmm m hm.1; omega
      | single h2 => exact absurd h2 hnw
      | item h2 => exact absurd h2 hnw
    · rintro ⟨rfl, rfl⟩
      exact .number (.tooMany hm.1 hm.2 (decimal_iff.mpr rfl) (decimal_iff.mpr rfl))
  | none =>
  rw [hfl] at hf
  dsimp only
  have h1 : ¬ f.max.any (fun m => decide (m < sub.length)) = true := by rw [hf]; simp
  have hmany : ∀ m, f.max = some m → ¬ m < sub.length := by
    intro m hm hlt
    exact h1 (by rw [hm]; simpa using hlt)
  by_cases h2 : sub.length < f.min
  · rw [if_pos h2]
    have hnw : ¬ Within f sub.length := fun hh => (hw.mp hh).2 h2
    refine .bad [] fun b n => ⟨?_, ?_⟩
    · intro hf
      cases hf with
      | number h =>
        cases h with
        | tooMany hm hlt => exact absurd hlt (hmany _ hm)
        | tooFew _ hs ht =>
          rw [decimal_iff] at hs ht
          subst hs ht
          exact ⟨rfl, rfl⟩
      | single h2 => exact absurd h2 hnw
      | item h2 => exact absurd h2 hnw
    · rintro ⟨rfl, rfl⟩
      exact .number (.tooFew h2 (decimal_iff.mpr rfl) (decimal_iff.mpr rfl))
  rw [if_neg h2]
  have hno : ∀ t, ¬ WrongNumber f sub.length t := by
    intro t h
    cases h with
    | tooMany hm hlt => exact hmany _ hm hlt
    | tooFew h => exact h2 h
  have hW : Within f sub.length := hw.mpr ⟨h1, h2⟩
  match sub with
  | [] =>
    refine .good fun b n hf => ?_
    cases hf with
    | number h => exact absurd h (hno _)
    | single _ _ h => cases h
    | item _ _ h => cases h
  | el :: els =>
    dsimp only
    by_cases hm : f.max = some 1
    · rw [if_pos hm]
      have hl := hW.2 1 hm
      have : els = [] := by
        match els with
        | [] => rfl
        | _ :: _ => simp at hl
      subst this
      refine ((h el (by simp) _ res).under 0).congr fun b n => ⟨?_, fun hf => ?_⟩
      · rintro ⟨m, hf, rfl⟩
        exact .single hW hm (by simp) hf
      cases hf with
      | number h => exact absurd h (hno _)
      | single _ _ hy hf => rw [List.mem_singleton.mp hy] at hf; exact ⟨_, hf, rfl⟩
      | item _ hh _ _ => exact absurd hm hh
    · rw [if_neg hm]
      have := items_notes (path := path ++ [.key (fieldName f)]) 0 (el :: els) res h
      intro w r e
      cases hx : tellItems rec f.ty (path ++ [.key (fieldName f)]) 0 (el :: els) res with
      | error e' => rw [hx] at e; cases e
      | ok p =>
        rw [hx] at e
        cases e
        obtain ⟨notes, hr, hsay⟩ := this _ _ hx
        refine ⟨notes, hr, hsay.congr fun b n => ⟨?_, fun hf => ?_⟩⟩
        · rintro ⟨k, y, hk, m, hf, rfl⟩
          rw [Nat.zero_add, List.append_assoc] at hf
          rw [Nat.zero_add]
          exact .item hW hm hk hf
        · cases hf with
          | number h => exact absurd h (hno _)
          | single _ hh _ _ => exact absurd hh hm
          | item _ _ hi hf => exact ⟨_, _, hi, _, by rw [Nat.zero_add, List.append_assoc]; exact hf, by rw [Nat.zero_add]⟩

theorem fields_notes {rec : Texts.Rec} {els : List AVal} {path : List PTok} {g : List (Str × List AVal)}
    (hg : ∀ k, (dictGet k g).getD [] = els.filter fun x => decide (semanticId? x = some k)) :
    ∀ (k0 : Nat) (fs : List TField) (seen : List Str) (res : Res Str), (∀ f ∈ fs, toCamelCase f.name = fieldName f) →
    (∀ f ∈ fs, ∀ m, f.max = some m → f.min ≤ m) → (∀ f ∈ fs, ∀ y ∈ matching f els, Does W rec f.ty y) →
    Notes (fun b n => ∃ k f, fs[k]? = some f ∧ Under (k0 + k) (FieldFlaw W f (matching f els) path) b n) res (tellFields rec g path fs seen res)
  | _, [], _, res, _, _, _ => .good (by simp)
  | k0, f :: fs, seen, res, hn, hb, h => by
    rw [tellFields]
    split
    · exact .error
    · rw [hg]
      refine (((field_notes (path := path) (hn f (by simp)) (hb f (by simp)) (h f (by simp)) res).under k0).seq (f := fun v vs => (f.name, v) :: vs)
        (fun _ r => fields_notes hg (k0 + 1) fs (f.semanticId :: seen) r (fun f hf => hn f (by simp [hf])) (fun f hf => hb f (by simp [hf]))
          (fun f hf => h f (by simp [hf]))) ?_).congr fun b n => ⟨?_, ?_⟩
      · rintro b m b' m' ⟨a, -, rfl⟩ ⟨k, y, -, a', -, rfl⟩
        exact List.cons_lt_cons_iff.mpr (.inl (by omega))
      · rintro (hf | ⟨k, y, hk, hf⟩)
        · exact ⟨0, f, rfl, hf⟩
        · exact ⟨k + 1, y, hk, by rw [show k0 + (k + 1) = k0 + 1 + k by omega]; exact hf⟩
      · rintro ⟨k, y, hk, hf⟩
        cases k with
        | zero => cases hk; exact .inl hf
        | succ k => exact .inr ⟨k, y, hk, by rw [show k0 + 1 + k = k0 + (k + 1) by omega]; exact hf⟩

theorem elements_notes {rec : Texts.Rec} {c : TCls} {els : List AVal} {path : List PTok} (he : ∀ x ∈ els, IsElement lim x)
    (h : ∀ f ∈ tfieldsOf c, ∀ y ∈ matching f els, Does W rec f.ty y) (res : Res Str) :
    Notes (fun b n => ∃ k f, (tfieldsOf c)[k]? = some f ∧ Under k (FieldFlaw W f (matching f els) path) b n) res (tellElements rec c els path res) := by
  obtain ⟨g, h1, h2⟩ := group_spec els [] he
  have hf := fields_notes (rec := rec) (path := path) (g := g) (els := els) (by simpa [dictGet] using h2) 0 (tfieldsOf c) [] res (name_eq c)
    (bounds c) h
  simp only [Nat.zero_add] at hf
  rw [tellElements, h1]
  intro w r e
  simp only [bind, Except.bind] at e
  cases hx : tellFields rec g path (tfieldsOf c) [] res with
  | error e' => rw [hx] at e; cases e
  | ok p => rw [hx] at e; cases e; exact hf _ _ hx

/-- every element -/
theorem ttell_notes : ∀ (n : Nat) (ty : TTy) (el : AVal), rank ty < n → IsElement lim el → Does W (ttell W n) ty el
  | n + 1, ty, el, hr, he => by
    intro path res
    obtain ⟨c', hc', ho⟩ := id he
    match ty with
    | .lang => exact lang_notes ho path res
    | .str => exact string_notes ho path res
    | .date => exact date_notes ho path res
    | .enum e => exact enum_notes ho e path res
    | .cls c =>
      have hcoll : ∀ {d : Cls} {key : Str}, Obj lim d el → slotOf d .value = some (.attr key (.list (.cls .submodelElement) false) false) →
          (d = .submodelElementCollection ∨ d = .submodelElementList) →
          Notes (fun b n => FlawT W b (.cls c) el path n) res (ttell W (n + 1) (.cls c) el path res) := by
        intro d key ho hs hd
        have hname : className el = py!"SubmodelElementCollection" ∨ className el = py!"SubmodelElementList" := by
          rw [ho.className]
          rcases hd with rfl | rfl
          · exact .inl rfl
          · exact .inr rfl
        have hhas : HasAttr el .value := by
          obtain ⟨attrs, rfl, hfs⟩ := ho.fields
          have hn := fieldsOk_names hfs
          show Fld.value ∈ attrs.map (·.1)
          rw [hn]
          rcases hd with rfl | rfl <;> decide +kernel
        rw [ttell]
        rcases ho.list? hs with ⟨h1, h2, h3⟩ | ⟨h1, h2, h3, h4⟩
        · rw [getAttr_of h1]
          have hnc : ¬ Collection true el := fun h => h2 (h.2 rfl)
          refine .bad [] fun b n => ⟨?_, ?_⟩
          · intro hf
            cases hf with
            | here hf =>
              cases hf with
              | noProperty hh _ => cases hh
              | noValue hh _ _ => cases hh
              | valueType hh _ _ _ => cases hh
              | noElements _ _ => exact ⟨rfl, rfl⟩
            | number h => exact absurd h hnc
            | single h => exact absurd h hnc
            | item h => exact absurd h hnc
          · rintro ⟨rfl, rfl⟩
            exact .here (.noElements hhas h2)
        · rw [getAttr_of h1]
          have hC : Collection true el := ⟨hname.imp id (⟨rfl, ·⟩), fun _ => h2⟩
          refine (elements_notes (W := W) (rec := ttell W n) (c := c) (path := path) (fun x hx => isElement_of_typed (h4 x hx)) ?_ res).congr fun b n => ⟨?_, ?_⟩
          · intro f hf y hy
            have := rank_fields c f hf
            exact ttell_notes n f.ty y (by omega) (isElement_of_typed (h4 y (List.mem_filter.mp hy).1))
          · rintro ⟨k, f, hf, m, h, rfl⟩
            cases h with
            | number h5 => exact .number hC hf h5
            | single h5 h6 h7 h8 => exact .single hC hf h5 h6 h7 h8
            | item h5 h6 h7 h8 => exact .item hC hf h5 h6 h7 h8
          · intro h
            cases h with
            | here hf =>
              cases hf with
              | noProperty hh _ => cases hh
              | noValue hh _ _ => cases hh
              | valueType hh _ _ _ => cases hh
              | noElements _ h => exact absurd h2 h
            | number _ hf h5 => exact ⟨_, _, hf, _, .number h5, rfl⟩
            | single _ hf h5 h6 h7 h8 => exact ⟨_, _, hf, _, .single h5 h6 h7 h8, rfl⟩
            | item _ hf h5 h6 h7 h8 => exact ⟨_, _, hf, _, .item h5 h6 h7 h8, rfl⟩
      rcases value_kinds he with ⟨key, ho, hs⟩ | ⟨key, ho, hs⟩ | ⟨h1, h2, hk⟩
      · exact hcoll ho hs (.inl rfl)
      · exact hcoll ho hs (.inr rfl)
      · rw [ttell]
        have hnc : ¬ Collection true el := fun h => h.1.elim h1 (fun h => h2 h.2)
        rcases hk with ⟨h3, e, hm, he⟩ | ⟨h3, h4, he⟩ | ⟨h3, w, he, hw, hl⟩
        · rw [he]
          exact .error
        · rw [he]
          refine .bad [] fun b n => ⟨?_, ?_⟩
          · intro hf
            cases hf with
            | here hf =>
              cases hf with
              | noProperty hh _ => cases hh
              | noValue hh _ _ => cases hh
              | valueType hh _ _ _ => cases hh
              | noElements _ _ => exact ⟨rfl, rfl⟩
            | number h => exact absurd h hnc
            | single h => exact absurd h hnc
            | item h => exact absurd h hnc
          · rintro ⟨rfl, rfl⟩
            exact .here (.noElements h3 h4)
        · rw [he]
          simp only [bind, Except.bind]
          split
          · exact absurd rfl hw
          · rename_i l
            rcases hl with hl | ⟨x, l', e, e', hm, hx⟩
            · exact absurd rfl (hl l)
            · injection e with e
              subst e
              rw [tellElements, group, hx]
              exact .error
          · exact .error

theorem submodel_notes (h : Obj lim .submodel v) (c : TCls) (res : Res Str) :
    Notes (fun b n => ∃ k f, (tfieldsOf c)[k]? = some f ∧ Under k (FieldFlaw W f (matching f (elems v .submodelElements)) []) b n) res (tellSubmodel W c v res) := by
  rw [tellSubmodel]
  rcases h.list? value_slots.2.2 with ⟨h1, h2, h3⟩ | ⟨h1, h2, h3, h4⟩
  · rw [getAttr_of h1]
    exact .error
  · rw [getAttr_of h1]
    refine elements_notes (W := W) (rec := ttell W depth) (c := c) (path := []) (fun x hx => isElement_of_typed (h4 x hx)) ?_ res
    intro f hf y hy
    have := rank_fields c f hf
    have : rank (.cls c) ≤ 3 := by cases c <;> decide
    exact ttell_notes depth f.ty y (by unfold depth; omega) (isElement_of_typed (h4 y (List.mem_filter.mp hy).1))

end Verif.Templates.Texts
