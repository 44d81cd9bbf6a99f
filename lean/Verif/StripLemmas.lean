import Verif.Props.Engine

/-!
# The rules do not look at what is not in the document

`strip` replaces the paths that are stored in elements while parsing; no rule and no template depends on them.
-/

namespace Verif.Strip
open Verif Verif.Parse Verif.Aas Verif.Spec.Parse Verif.Spec.Model Verif.Spec.Templates Verif.Templates

/-- paths are stored in one attribute only -/
def Tame (v : AVal) : Prop := ∀ w, Sub v w → ∀ f, f ≠ Fld.idShortPath → ∀ a b t, Spec.Model.get w f ≠ .path a b t

theorem sub_trans {u v w : AVal} (h : Sub u v) (h' : Sub v w) : Sub u w := by
  induction h with
  | refl => exact h'
  | item hm _ ih => exact .item hm (ih h')
  | attr hm _ ih => exact .attr hm (ih h')

theorem Tame.sub {v w : AVal} (h : Tame v) (hs : Sub v w) : Tame w := fun u hu => h u (sub_trans hs hu)

theorem find_mem {attrs : List (Fld × AVal)} {f : Fld} {a : Fld × AVal} (h : attrs.find? (fun a : Fld × AVal => decide (a.1 = f)) = some a) : a ∈ attrs ∧ a.1 = f :=
  ⟨List.mem_of_find?_eq_some h, by have := List.find?_some (p := fun a : Fld × AVal => decide (a.1 = f)) h; simpa using this⟩

theorem get_cases (v : AVal) (f : Fld) : Spec.Model.get v f = .none ∨ ∃ c attrs, v = .obj c attrs ∧ (f, Spec.Model.get v f) ∈ attrs := by
  cases v with
  | obj c attrs =>
    unfold Spec.Model.get
    cases h : attrs.find? (fun a : Fld × AVal => decide (a.1 = f)) with
    | none => exact .inl (by simp [h])
    | some a =>
      obtain ⟨hm, rfl⟩ := find_mem h
      exact .inr ⟨c, attrs, rfl, by simpa [h] using hm⟩
  | _ => exact .inl rfl

theorem Tame.none : Tame .none := by
  intro w hs
  cases hs
  intro f _ a b t h
  cases h

theorem Tame.get {v : AVal} (h : Tame v) (f : Fld) : Tame (Spec.Model.get v f) := by
  rcases get_cases v f with h' | ⟨c, attrs, rfl, hm⟩
  · rw [h']; exact Tame.none
  · exact h.sub (.attr hm (.refl _))

theorem Tame.item {v x : AVal} (h : Tame v) (hx : x ∈ items v) : Tame x := by
  cases v with
  | list l => exact h.sub (.item hx (.refl _))
  | _ => cases hx

theorem Tame.elem {v x : AVal} {f : Fld} (h : Tame v) (hx : x ∈ elems v f) : Tame x := (h.get f).item hx

theorem excluded_name : ∀ c : Cls, (fieldsOf c).all (fun x => match x with | ⟨f, .excluded⟩ => decide (f = .idShortPath) | _ => true) = true := by
  intro c; cases c <;> decide +kernel

/-- the values of a typed object -/
theorem tame_of_type {lim : Option Nat} {ty : ATy} {v : AVal} (h : HasType (schema lim) ty v) : Tame v := by
  have np : ∀ {ty : ATy} {v : AVal}, HasType (schema lim) ty v → ∀ a b t, v ≠ .path a b t := by
    intro ty v h a b t e; subst e; cases h
  intro w hs
  induction hs generalizing ty with
  | refl v =>
    intro f hf a b t hg
    rcases get_cases v f with h' | ⟨c, attrs, rfl, hm⟩
    · rw [h'] at hg; cases hg
    · rw [hg] at hm
      obtain ⟨c0, rfl⟩ : ∃ c0, ty = .cls c0 := by cases h; exact ⟨_, rfl⟩
      obtain ⟨-, hfs⟩ := hasType_obj.mp h
      obtain ⟨⟨g, slot⟩, hgm, hn, hok⟩ := fieldsOk_mem hfs hm
      cases slot with
      | attr key ty' req =>
        rcases hok with ⟨h1, -⟩ | h1
        · cases h1
        · exact np h1 a b t rfl
      | excluded =>
        have := List.all_eq_true.mp (excluded_name c) _ hgm
        simp only [decide_eq_true_eq] at this
        exact hf (hn.trans this)
  | item hm _ ih =>
    cases h with
    | list _ hl => exact ih (hl _ hm)
  | @attr c attrs a w hm hs ih =>
    obtain ⟨c0, rfl⟩ : ∃ c0, ty = .cls c0 := by cases h; exact ⟨_, rfl⟩
    obtain ⟨-, hfs⟩ := hasType_obj.mp h
    obtain ⟨⟨g, slot⟩, hgm, hn, hok⟩ := fieldsOk_mem hfs hm
    have leaf : ∀ {u : AVal}, a.2 = u → (u = .none ∨ ∃ x y t, u = .path x y t) → ∀ f, f ≠ Fld.idShortPath → ∀ x y t, Spec.Model.get w f ≠ .path x y t := by
      intro u e h f _ x y t hg
      rw [e] at hs
      rcases h with rfl | ⟨_, _, _, rfl⟩ <;> cases hs <;> cases hg
    cases slot with
    | attr key ty' req =>
      rcases hok with ⟨h1, -⟩ | h1
      · exact leaf h1 (.inl rfl)
      · exact ih h1
    | excluded => exact leaf rfl hok

/-! ## access -/

theorem get_strip (v : AVal) (f : Fld) : Spec.Model.get (strip v) f = strip (Spec.Model.get v f) := by
  cases v with
  | obj c attrs =>
    simp only [strip, Spec.Model.get, stripA_map, List.find?_map]
    have : ((fun a : Fld × AVal => decide (a.1 = f)) ∘ fun a : Fld × AVal => (a.1, strip a.2)) = fun a : Fld × AVal => decide (a.1 = f) := rfl
    rw [this]
    cases attrs.find? (fun a : Fld × AVal => decide (a.1 = f)) <;> simp [strip]
  | _ => simp [strip, Spec.Model.get]

theorem items_strip (v : AVal) : items (strip v) = (items v).map strip := by
  cases v <;> simp [strip, items, stripL_map]

theorem text_strip (v : AVal) : text (strip v) = text v := by
  cases v <;> simp [strip, text]

theorem className_strip (v : AVal) : className (strip v) = className v := by
  cases v <;> simp [strip, className]

theorem elems_strip (v : AVal) (f : Fld) : elems (strip v) f = (elems v f).map strip := by
  rw [elems, get_strip, items_strip]; rfl

theorem txt_strip (v : AVal) (f : Fld) : txt (strip v) f = txt v f := by
  rw [txt, get_strip, text_strip]; rfl

theorem idShort_strip (v : AVal) : idShort? (strip v) = idShort? v := by
  rw [idShort?, get_strip, idShort?]
  cases Spec.Model.get v .idShort <;> simp [strip]

theorem set_strip {v : AVal} (h : Tame v) {f : Fld} (hf : f ≠ .idShortPath) : Set (strip v) f ↔ Set v f := by
  have := h v (.refl v) f hf
  rw [Set, get_strip, Set]
  cases hg : Spec.Model.get v f with
  | path a b t => exact absurd hg (this a b t)
  | _ => simp [strip]

/-! ## objects -/

theorem nested_strip {name : Fld → Str} {v x : AVal} {p : List PTok} (h : Nested name v p x) : Nested name (strip v) p (strip x) := by
  induction h with
  | here c attrs => simp only [strip]; exact .here _ _
  | attr hm _ ih =>
    simp only [strip, stripA_map]
    exact .attr (List.mem_map.mpr ⟨_, hm, rfl⟩) ih
  | @item c attrs f l i w p x hm hi _ ih =>
    simp only [strip, stripA_map]
    refine .item (l := l.map strip) (w := strip w) (List.mem_map.mpr ⟨_, hm, ?_⟩) (by rw [List.getElem?_map, hi]; rfl) ih
    simp [strip, stripL_map]

theorem strip_nested {name : Fld → Str} {u y : AVal} {p : List PTok} (h : Nested name u p y) :
    ∀ v, u = strip v → ∃ x, y = strip x ∧ Nested name v p x := by
  induction h with
  | here c attrs =>
    intro v hv
    cases v with
    | obj c' attrs' => exact ⟨_, hv, .here _ _⟩
    | _ => simp [strip] at hv
  | attr hm _ ih =>
    intro v hv
    cases v with
    | obj c' attrs' =>
      simp only [strip, stripA_map, Val.obj.injEq] at hv
      obtain ⟨rfl, rfl⟩ := hv
      obtain ⟨a, ha, he⟩ := List.mem_map.mp hm
      simp only [Prod.mk.injEq] at he
      obtain ⟨rfl, rfl⟩ := he
      obtain ⟨x, hx, hn⟩ := ih _ rfl
      exact ⟨x, hx, .attr ha hn⟩
    | _ => simp [strip] at hv
  | @item c attrs f l i w p x hm hi _ ih =>
    intro v hv
    cases v with
    | obj c' attrs' =>
      simp only [strip, stripA_map, Val.obj.injEq] at hv
      obtain ⟨rfl, rfl⟩ := hv
      obtain ⟨⟨f', a⟩, ha, he⟩ := List.mem_map.mp hm
      simp only [Prod.mk.injEq] at he
      obtain ⟨rfl, he⟩ := he
      cases a with
      | list l' =>
        simp only [strip, stripL_map, Val.list.injEq] at he
        subst he
        rw [List.getElem?_map] at hi
        cases hl : l'[i]? with
        | none => rw [hl] at hi; cases hi
        | some w' =>
          rw [hl] at hi
          obtain ⟨y, hy, hn⟩ := ih w' (Option.some.inj hi).symm
          exact ⟨y, hy, .item ha hl hn⟩
      | _ => simp [strip] at he
    | _ => simp [strip] at hv

theorem nested_sub {name : Fld → Str} {v x : AVal} {p : List PTok} (h : Nested name v p x) : Sub v x := by
  induction h with
  | here => exact .refl _
  | attr hm _ ih => exact .attr hm ih
  | item hm hi _ ih => exact .attr hm (.item (List.mem_of_getElem? hi) ih)

/-! ## rules -/

section
variable {v : AVal}

theorem keyAt_strip (v : AVal) (i : Nat) (t : Str) : KeyAt (strip v) i t ↔ KeyAt v i t := by
  simp only [KeyAt, elems_strip, List.getElem?_map, Option.map_eq_some_iff]
  constructor
  · rintro ⟨_, ⟨k, hk, rfl⟩, ht⟩
    exact ⟨k, hk, by rw [← ht, txt_strip]⟩
  · rintro ⟨k, hk, ht⟩
    exact ⟨_, ⟨k, hk, rfl⟩, by rw [txt_strip, ht]⟩

theorem modelRef_strip (v : AVal) : ModelRef (strip v) ↔ ModelRef v := by rw [ModelRef, txt_strip]; rfl
theorem externalRef_strip (v : AVal) : ExternalRef (strip v) ↔ ExternalRef v := by rw [ExternalRef, txt_strip]; rfl

theorem aasd121_strip (v : AVal) : AASd121 (strip v) ↔ AASd121 v := by simp only [AASd121, keyAt_strip]
theorem aasd122_strip (v : AVal) : AASd122 (strip v) ↔ AASd122 v := by simp only [AASd122, keyAt_strip, externalRef_strip]
theorem aasd123_strip (v : AVal) : AASd123 (strip v) ↔ AASd123 v := by simp only [AASd123, keyAt_strip, modelRef_strip]
theorem aasd124_strip (v : AVal) : AASd124 (strip v) ↔ AASd124 v := by
  simp only [AASd124, keyAt_strip, externalRef_strip, elems_strip, List.length_map]
theorem aasd125_strip (v : AVal) : AASd125 (strip v) ↔ AASd125 v := by simp only [AASd125, keyAt_strip, modelRef_strip]
theorem aasd126_strip (v : AVal) : AASd126 (strip v) ↔ AASd126 v := by
  simp only [AASd126, keyAt_strip, modelRef_strip, elems_strip, List.length_map]
theorem aasd127_strip (v : AVal) : AASd127 (strip v) ↔ AASd127 v := by simp only [AASd127, keyAt_strip, modelRef_strip]
theorem aasd128_strip (N : Str → Prop) (v : AVal) : AASd128 N (strip v) ↔ AASd128 N v := by
  simp only [AASd128, keyAt_strip, modelRef_strip, elems_strip, List.getElem?_map, Option.map_eq_some_iff]
  constructor
  · intro h hm i k hk h2
    have := h hm i _ hk ⟨k, h2, rfl⟩
    rwa [txt_strip] at this
  · rintro h hm i _ hk ⟨k, h2, rfl⟩
    rw [txt_strip]
    exact h hm i k hk h2

theorem refContent_strip (v : AVal) : refContent (strip v) = refContent v := by
  simp only [refContent, txt_strip, elems_strip, List.map_map]
  congr 1
  exact List.map_congr_left fun k _ => by simp only [Function.comp, txt_strip]

theorem sameRef_strip (a b : AVal) : SameRef (strip a) (strip b) ↔ SameRef a b := by rw [SameRef, refContent_strip, refContent_strip]; rfl

theorem filterMap_strip (l : List AVal) : (l.map strip).filterMap idShort? = l.filterMap idShort? := by
  rw [List.filterMap_map]
  exact congrArg (fun g => List.filterMap g l) (funext fun x => idShort_strip x)

theorem uniqueIdShorts_strip (l : List AVal) : UniqueIdShorts (l.map strip) ↔ UniqueIdShorts l := by rw [UniqueIdShorts, filterMap_strip]; rfl
theorem haveIdShorts_strip (l : List AVal) : HaveIdShorts (l.map strip) ↔ HaveIdShorts l := by
  simp only [HaveIdShorts, List.forall_mem_map, idShort_strip]
theorem noIdShorts_strip (l : List AVal) : NoIdShorts (l.map strip) ↔ NoIdShorts l := by
  simp only [NoIdShorts, List.forall_mem_map, idShort_strip]
theorem aasd134_strip (v : AVal) : AASd134 (strip v) ↔ AASd134 v := by
  simp only [AASd134, elems_strip, ← List.map_append, List.map_map]
  rw [show ((fun x => Spec.Model.get x Fld.value) ∘ strip : AVal → AVal) = strip ∘ fun x => Spec.Model.get x Fld.value from
    funext fun x => get_strip x .value, ← List.map_map]
  exact uniqueIdShorts_strip _
theorem aasd002_strip (v : AVal) : AASd002 (strip v) ↔ AASd002 v := by simp only [AASd002, idShort_strip]

theorem elements_strip {f : Fld} {P Q : AVal → Prop} (h : ∀ x ∈ elems v f, P (strip x) ↔ Q x) : (∀ x ∈ elems (strip v) f, P x) ↔ ∀ x ∈ elems v f, Q x := by
  simp only [elems_strip, List.forall_mem_map]
  exact forall_congr' fun x => ⟨fun g hx => (h x hx).mp (g hx), fun g hx => (h x hx).mpr (g hx)⟩

theorem some_strip {f : Fld} {P Q : AVal → Prop} (h : ∀ x ∈ elems v f, P (strip x) ↔ Q x) : (∃ x ∈ elems (strip v) f, P x) ↔ ∃ x ∈ elems v f, Q x := by
  simp only [elems_strip, List.mem_map]
  constructor
  · rintro ⟨_, ⟨x, hx, rfl⟩, hp⟩
    exact ⟨x, hx, (h x hx).mp hp⟩
  · rintro ⟨x, hx, hq⟩
    exact ⟨_, ⟨x, hx, rfl⟩, (h x hx).mpr hq⟩

theorem aasd107_strip (h : Tame v) : AASd107 (strip v) ↔ AASd107 v := by
  unfold AASd107
  rw [set_strip h (by decide)]
  refine imp_congr_right fun _ => elements_strip fun x hx => ?_
  rw [set_strip (h.elem hx) (by decide), get_strip, get_strip, sameRef_strip]
theorem aasd114_strip (h : Tame v) : AASd114 (strip v) ↔ AASd114 v := by
  unfold AASd114
  refine elements_strip fun x hx => elements_strip fun y hy => ?_
  rw [set_strip (h.elem hx) (by decide), set_strip (h.elem hy) (by decide), get_strip, get_strip, sameRef_strip]
theorem aasd108_strip (v : AVal) : AASd108Exact (strip v) ↔ AASd108Exact v := by
  unfold AASd108Exact
  exact elements_strip fun x hx => by rw [className_strip, txt_strip]
theorem aasd109_strip (h : Tame v) : AASd109 (strip v) ↔ AASd109 v := by
  unfold AASd109
  exact elements_strip fun x hx => by rw [className_strip, txt_strip, txt_strip, set_strip h (by decide)]
theorem elementType_strip (v : AVal) : ElementType (strip v) ↔ ElementType v := by rw [ElementType, txt_strip]; rfl
theorem aasd014_strip (h : Tame v) : AASd014 (strip v) ↔ AASd014 v := by
  unfold AASd014
  rw [txt_strip, set_strip h (by decide), set_strip h (by decide)]
theorem aasd131_strip (h : Tame v) : AASd131 (strip v) ↔ AASd131 v := by
  unfold AASd131
  rw [set_strip h (by decide), set_strip h (by decide)]
theorem aasd116_strip (v : AVal) : AASd116Exact (strip v) ↔ AASd116Exact v := by
  unfold AASd116Exact
  exact elements_strip fun x hx => by rw [txt_strip]
theorem aasd005_strip (h : Tame v) : AASd005 (strip v) ↔ AASd005 v := by
  unfold AASd005
  rw [set_strip h (by decide), set_strip h (by decide)]
theorem aasd090_strip (h : Tame v) : AASd090 (strip v) ↔ AASd090 v := by
  unfold AASd090
  rw [txt_strip, set_strip h (by decide)]
theorem aasd118_strip (h : Tame v) : AASd118 (strip v) ↔ AASd118 v := by
  unfold AASd118
  rw [set_strip h (by decide), set_strip h (by decide)]
theorem templateQualified_strip (v : AVal) : TemplateQualified (strip v) ↔ TemplateQualified v := by
  unfold TemplateQualified
  exact some_strip fun x hx => by rw [txt_strip]
theorem template_strip (v : AVal) : Template (strip v) ↔ Template v := by rw [Template, txt_strip]; rfl
theorem aasd119_strip (v : AVal) : AASd119 (strip v) ↔ AASd119 v := by
  unfold AASd119
  rw [templateQualified_strip, template_strip]
theorem aasd129_strip (v : AVal) : AASd129Top (strip v) ↔ AASd129Top v := by
  unfold AASd129Top
  rw [template_strip, some_strip fun x _ => templateQualified_strip x]
theorem aasd133_strip (h : Tame v) : AASd133 (strip v) ↔ AASd133 v := by
  unfold AASd133
  rw [set_strip h (by decide), get_strip, externalRef_strip]
theorem modelRefAt_strip (h : Tame v) {f : Fld} (hf : f ≠ .idShortPath) : ModelRefAt f (strip v) ↔ ModelRefAt f v := by
  unfold ModelRefAt
  rw [set_strip h hf, get_strip, modelRef_strip]
theorem modelRefGet_strip (v : AVal) (f : Fld) : ModelRef (Spec.Model.get (strip v) f) ↔ ModelRef (Spec.Model.get v f) := by
  rw [get_strip, modelRef_strip]
theorem english_strip (v : AVal) (f : Fld) : English (elems (strip v) f) ↔ English (elems v f) := by
  unfold English
  exact some_strip fun x _ => by rw [txt_strip]
theorem aasc002_strip (v : AVal) : AASc002 (strip v) ↔ AASc002 v := english_strip v _
theorem aasc009_strip (h : Tame v) : AASc009 (strip v) ↔ AASc009 v := by
  unfold AASc009
  rw [txt_strip, set_strip h (by decide), set_strip h (by decide)]
theorem aasc010_strip (h : Tame v) : AASc010 (strip v) ↔ AASc010 v := by
  unfold AASc010
  rw [set_strip h (by decide), set_strip h (by decide)]
theorem iec_strip (h : Tame v) {P Q : AVal → Prop} (hpq : ∀ c, Tame c → (P (strip c) ↔ Q c)) :
    (∀ c, IecContent (strip v) c → P c) ↔ ∀ c, IecContent v c → Q c := by
  constructor
  · rintro hp c ⟨ds, hd, rfl, hn⟩
    refine (hpq _ ((h.elem hd).get _)).mp (hp _ ⟨strip ds, ?_, get_strip _ _, ?_⟩)
    · rw [elems_strip]; exact List.mem_map.mpr ⟨ds, hd, rfl⟩
    · rw [className_strip]; exact hn
  · rintro hq c ⟨ds, hd, rfl, hn⟩
    rw [elems_strip] at hd
    obtain ⟨ds, hds, rfl⟩ := List.mem_map.mp hd
    rw [get_strip] at hn ⊢
    exact (hpq _ ((h.elem hds).get _)).mpr (hq _ ⟨ds, hds, rfl, by rwa [className_strip] at hn⟩)
theorem noContent_strip (h : Tame v) (l : List Str) : NoContent l (strip v) ↔ NoContent l v := by
  unfold NoContent
  rw [set_strip h (by decide), txt_strip]
  exact imp_congr_right fun _ => imp_congr_right fun _ => iec_strip (P := fun _ => False) (Q := fun _ => False) h fun _ _ => Iff.rfl
theorem aasc007_strip (h : Tame v) : AASc007 (strip v) ↔ AASc007 v := by
  unfold AASc007
  rw [set_strip h (by decide), txt_strip]
  exact imp_congr_right fun _ => imp_congr_right fun _ => iec_strip h fun c hc => set_strip hc (by decide)
theorem aasc008_strip (h : Tame v) : AASc008 (strip v) ↔ AASc008 v := by
  unfold AASc008
  exact iec_strip h fun c hc => by rw [set_strip hc (by decide), english_strip]
theorem valueOk_strip (lim : Option Nat) (h : Tame v) {f : Fld} (hf : f ≠ .idShortPath) : ValueOk lim f (strip v) ↔ ValueOk lim f v := by
  simp only [ValueOk, set_strip h hf, txt_strip]
theorem valueRaises_strip (lim : Option Nat) (h : Tame v) {f : Fld} (hf : f ≠ .idShortPath) : ValueRaises lim f (strip v) ↔ ValueRaises lim f v := by
  simp only [ValueRaises, set_strip h hf, txt_strip]
theorem textLength_strip (v : AVal) : TextLength (strip v) ↔ TextLength v := by
  simp only [TextLength, textLimit, txt_strip, className_strip]
theorem refersTo_strip (v : AVal) : RefersToIec61360 (strip v) ↔ RefersToIec61360 v := by
  simp only [RefersToIec61360, get_strip, elems_strip]
  constructor
  · rintro ⟨k, hk, ht⟩
    cases hl : elems (Spec.Model.get v .dataSpecification) .keys with
    | nil => rw [hl] at hk; cases hk
    | cons a l =>
      rw [hl] at hk
      cases l with
      | nil => simp only [List.map_cons, List.map_nil, List.cons.injEq, and_true] at hk; subst hk; exact ⟨a, rfl, by rwa [txt_strip] at ht⟩
      | cons => simp at hk
  · rintro ⟨k, hk, ht⟩
    exact ⟨strip k, by rw [hk]; rfl, by rwa [txt_strip]⟩

/-- the same rules are broken -/
theorem broken_strip {lim : Option Nat} {N : Str → Prop} (h : Tame v) {t : Str} {l : Level} : Broken lim N (strip v) t l ↔ Broken lim N v t l := by
  have hn := className_strip v
  constructor
  · intro hb
    cases hb with
    | aasd121 h1 h2 => exact .aasd121 (by rw [← hn]; exact h1) fun g => h2 ((aasd121_strip v).mpr g)
    | aasd122 h1 h2 => exact .aasd122 (by rw [← hn]; exact h1) fun g => h2 ((aasd122_strip v).mpr g)
    | aasd123 h1 h2 => exact .aasd123 (by rw [← hn]; exact h1) fun g => h2 ((aasd123_strip v).mpr g)
    | aasd124 h1 h2 => exact .aasd124 (by rw [← hn]; exact h1) fun g => h2 ((aasd124_strip v).mpr g)
    | aasd125 h1 h2 => exact .aasd125 (by rw [← hn]; exact h1) fun g => h2 ((aasd125_strip v).mpr g)
    | aasd126 h1 h2 => exact .aasd126 (by rw [← hn]; exact h1) fun g => h2 ((aasd126_strip v).mpr g)
    | aasd127 h1 h2 => exact .aasd127 (by rw [← hn]; exact h1) fun g => h2 ((aasd127_strip v).mpr g)
    | aasd128 h1 h2 => exact .aasd128 (by rw [← hn]; exact h1) fun g => h2 ((aasd128_strip N v).mpr g)
    | language h1 h2 => exact .language (by rw [← hn]; exact h1) fun g => h2 ((Iff.of_eq (by rw [txt_strip])).mpr g)
    | text h1 h2 => exact .text (by rw [← hn]; exact h1) fun g => h2 ((textLength_strip v).mpr g)
    | dataSpecification h1 h2 => exact .dataSpecification (by rw [← hn]; exact h1) fun g => h2 ((refersTo_strip v).mpr g)
    | aasc002 h1 h2 => exact .aasc002 (by rw [← hn]; exact h1) fun g => h2 ((aasc002_strip v).mpr g)
    | aasc009 h1 h2 => exact .aasc009 (by rw [← hn]; exact h1) fun g => h2 ((aasc009_strip h).mpr g)
    | aasc010 h1 h2 => exact .aasc010 (by rw [← hn]; exact h1) fun g => h2 ((aasc010_strip h).mpr g)
    | aasd118 h2 => exact .aasd118 fun g => h2 ((aasd118_strip h).mpr g)
    | aasd002 h2 => exact .aasd002 fun g => h2 ((aasd002_strip v).mpr g)
    | aasd090 h1 h2 => exact .aasd090 (by rw [← hn]; exact h1) fun g => h2 ((aasd090_strip h).mpr g)
    | value h1 h2 => exact .value (by rw [← hn]; exact h1) fun g => h2 ((valueOk_strip lim h (by decide)).mpr g)
    | min h1 h2 => exact .min (by rw [← hn]; exact h1) fun g => h2 ((valueOk_strip lim h (by decide)).mpr g)
    | max h1 h2 => exact .max (by rw [← hn]; exact h1) fun g => h2 ((valueOk_strip lim h (by decide)).mpr g)
    | aasd005 h1 h2 => exact .aasd005 (by rw [← hn]; exact h1) fun g => h2 ((aasd005_strip h).mpr g)
    | aasd133 h1 h2 => exact .aasd133 (by rw [← hn]; exact h1) fun g => h2 ((aasd133_strip h).mpr g)
    | aasd131 h1 h2 => exact .aasd131 (by rw [← hn]; exact h1) fun g => h2 ((aasd131_strip h).mpr g)
    | aasd116 h1 h2 => exact .aasd116 (by rw [← hn]; exact h1) fun g => h2 ((aasd116_strip v).mpr g)
    | annotations h1 h2 => exact .annotations (by rw [← hn]; exact h1) fun g => h2 (((elems_strip v .annotations ▸ haveIdShorts_strip _)).mpr g)
    | statements h1 h2 => exact .statements (by rw [← hn]; exact h1) fun g => h2 (((elems_strip v .statements ▸ haveIdShorts_strip _)).mpr g)
    | collection h1 h2 => exact .collection (by rw [← hn]; exact h1) fun g => h2 (((elems_strip v .value ▸ haveIdShorts_strip _)).mpr g)
    | submodel h1 h2 => exact .submodel (by rw [← hn]; exact h1) fun g => h2 (((elems_strip v .submodelElements ▸ haveIdShorts_strip _)).mpr g)
    | uniqueCollection h1 h2 => exact .uniqueCollection (by rw [← hn]; exact h1) fun g => h2 (((elems_strip v .value ▸ uniqueIdShorts_strip _)).mpr g)
    | uniqueSubmodel h1 h2 => exact .uniqueSubmodel (by rw [← hn]; exact h1) fun g => h2 (((elems_strip v .submodelElements ▸ uniqueIdShorts_strip _)).mpr g)
    | aasd120 h1 h2 => exact .aasd120 (by rw [← hn]; exact h1) fun g => h2 (((elems_strip v .value ▸ noIdShorts_strip _)).mpr g)
    | aasd134 h1 h2 => exact .aasd134 (by rw [← hn]; exact h1) fun g => h2 ((aasd134_strip v).mpr g)
    | observed h1 h2 => exact .observed (by rw [← hn]; exact h1) fun g => h2 ((modelRefGet_strip v _).mpr g)
    | messageBroker h1 h2 => exact .messageBroker (by rw [← hn]; exact h1) fun g => h2 ((modelRefAt_strip h (by decide)).mpr g)
    | aasd014 h1 h2 => exact .aasd014 (by rw [← hn]; exact h1) fun g => h2 ((aasd014_strip h).mpr g)
    | elementType h1 h2 => exact .elementType (by rw [← hn]; exact h1) fun g => h2 ((elementType_strip v).mpr g)
    | aasd107 h1 h2 => exact .aasd107 (by rw [← hn]; exact h1) fun g => h2 ((aasd107_strip h).mpr g)
    | aasd108 h1 h2 => exact .aasd108 (by rw [← hn]; exact h1) fun g => h2 ((aasd108_strip v).mpr g)
    | aasd109 h1 h2 => exact .aasd109 (by rw [← hn]; exact h1) fun g => h2 ((aasd109_strip h).mpr g)
    | aasd114 h1 h2 => exact .aasd114 (by rw [← hn]; exact h1) fun g => h2 ((aasd114_strip h).mpr g)
    | aasd119 h1 h2 => exact .aasd119 (by rw [← hn]; exact h1) fun g => h2 ((aasd119_strip v).mpr g)
    | aasd129 h1 h2 => exact .aasd129 (by rw [← hn]; exact h1) fun g => h2 ((aasd129_strip v).mpr g)
    | aasc004 h1 h2 => exact .aasc004 (by rw [← hn]; exact h1) fun g => h2 ((noContent_strip h _).mpr g)
    | aasc005 h1 h2 => exact .aasc005 (by rw [← hn]; exact h1) fun g => h2 ((noContent_strip h _).mpr g)
    | aasc006 h1 h2 => exact .aasc006 (by rw [← hn]; exact h1) fun g => h2 ((noContent_strip h _).mpr g)
    | aasc007 h1 h2 => exact .aasc007 (by rw [← hn]; exact h1) fun g => h2 ((aasc007_strip h).mpr g)
    | aasc008 h1 h2 => exact .aasc008 (by rw [← hn]; exact h1) fun g => h2 ((aasc008_strip h).mpr g)
  · intro hb
    cases hb with
    | aasd121 h1 h2 => exact .aasd121 (by rw [hn]; exact h1) fun g => h2 ((aasd121_strip v).mp g)
    | aasd122 h1 h2 => exact .aasd122 (by rw [hn]; exact h1) fun g => h2 ((aasd122_strip v).mp g)
    | aasd123 h1 h2 => exact .aasd123 (by rw [hn]; exact h1) fun g => h2 ((aasd123_strip v).mp g)
    | aasd124 h1 h2 => exact .aasd124 (by rw [hn]; exact h1) fun g => h2 ((aasd124_strip v).mp g)
    | aasd125 h1 h2 => exact .aasd125 (by rw [hn]; exact h1) fun g => h2 ((aasd125_strip v).mp g)
    | aasd126 h1 h2 => exact .aasd126 (by rw [hn]; exact h1) fun g => h2 ((aasd126_strip v).mp g)
    | aasd127 h1 h2 => exact .aasd127 (by rw [hn]; exact h1) fun g => h2 ((aasd127_strip v).mp g)
    | aasd128 h1 h2 => exact .aasd128 (by rw [hn]; exact h1) fun g => h2 ((aasd128_strip N v).mp g)
    | language h1 h2 => exact .language (by rw [hn]; exact h1) fun g => h2 ((Iff.of_eq (by rw [txt_strip])).mp g)
    | text h1 h2 => exact .text (by rw [hn]; exact h1) fun g => h2 ((textLength_strip v).mp g)
    | dataSpecification h1 h2 => exact .dataSpecification (by rw [hn]; exact h1) fun g => h2 ((refersTo_strip v).mp g)
    | aasc002 h1 h2 => exact .aasc002 (by rw [hn]; exact h1) fun g => h2 ((aasc002_strip v).mp g)
    | aasc009 h1 h2 => exact .aasc009 (by rw [hn]; exact h1) fun g => h2 ((aasc009_strip h).mp g)
    | aasc010 h1 h2 => exact .aasc010 (by rw [hn]; exact h1) fun g => h2 ((aasc010_strip h).mp g)
    | aasd118 h2 => exact .aasd118 fun g => h2 ((aasd118_strip h).mp g)
    | aasd002 h2 => exact .aasd002 fun g => h2 ((aasd002_strip v).mp g)
    | aasd090 h1 h2 => exact .aasd090 (by rw [hn]; exact h1) fun g => h2 ((aasd090_strip h).mp g)
    | value h1 h2 => exact .value (by rw [hn]; exact h1) fun g => h2 ((valueOk_strip lim h (by decide)).mp g)
    | min h1 h2 => exact .min (by rw [hn]; exact h1) fun g => h2 ((valueOk_strip lim h (by decide)).mp g)
    | max h1 h2 => exact .max (by rw [hn]; exact h1) fun g => h2 ((valueOk_strip lim h (by decide)).mp g)
    | aasd005 h1 h2 => exact .aasd005 (by rw [hn]; exact h1) fun g => h2 ((aasd005_strip h).mp g)
    | aasd133 h1 h2 => exact .aasd133 (by rw [hn]; exact h1) fun g => h2 ((aasd133_strip h).mp g)
    | aasd131 h1 h2 => exact .aasd131 (by rw [hn]; exact h1) fun g => h2 ((aasd131_strip h).mp g)
    | aasd116 h1 h2 => exact .aasd116 (by rw [hn]; exact h1) fun g => h2 ((aasd116_strip v).mp g)
    | annotations h1 h2 => exact .annotations (by rw [hn]; exact h1) fun g => h2 (((elems_strip v .annotations ▸ haveIdShorts_strip _)).mp g)
    | statements h1 h2 => exact .statements (by rw [hn]; exact h1) fun g => h2 (((elems_strip v .statements ▸ haveIdShorts_strip _)).mp g)
    | collection h1 h2 => exact .collection (by rw [hn]; exact h1) fun g => h2 (((elems_strip v .value ▸ haveIdShorts_strip _)).mp g)
    | submodel h1 h2 => exact .submodel (by rw [hn]; exact h1) fun g => h2 (((elems_strip v .submodelElements ▸ haveIdShorts_strip _)).mp g)
    | uniqueCollection h1 h2 => exact .uniqueCollection (by rw [hn]; exact h1) fun g => h2 (((elems_strip v .value ▸ uniqueIdShorts_strip _)).mp g)
    | uniqueSubmodel h1 h2 => exact .uniqueSubmodel (by rw [hn]; exact h1) fun g => h2 (((elems_strip v .submodelElements ▸ uniqueIdShorts_strip _)).mp g)
    | aasd120 h1 h2 => exact .aasd120 (by rw [hn]; exact h1) fun g => h2 (((elems_strip v .value ▸ noIdShorts_strip _)).mp g)
    | aasd134 h1 h2 => exact .aasd134 (by rw [hn]; exact h1) fun g => h2 ((aasd134_strip v).mp g)
    | observed h1 h2 => exact .observed (by rw [hn]; exact h1) fun g => h2 ((modelRefGet_strip v _).mp g)
    | messageBroker h1 h2 => exact .messageBroker (by rw [hn]; exact h1) fun g => h2 ((modelRefAt_strip h (by decide)).mp g)
    | aasd014 h1 h2 => exact .aasd014 (by rw [hn]; exact h1) fun g => h2 ((aasd014_strip h).mp g)
    | elementType h1 h2 => exact .elementType (by rw [hn]; exact h1) fun g => h2 ((elementType_strip v).mp g)
    | aasd107 h1 h2 => exact .aasd107 (by rw [hn]; exact h1) fun g => h2 ((aasd107_strip h).mp g)
    | aasd108 h1 h2 => exact .aasd108 (by rw [hn]; exact h1) fun g => h2 ((aasd108_strip v).mp g)
    | aasd109 h1 h2 => exact .aasd109 (by rw [hn]; exact h1) fun g => h2 ((aasd109_strip h).mp g)
    | aasd114 h1 h2 => exact .aasd114 (by rw [hn]; exact h1) fun g => h2 ((aasd114_strip h).mp g)
    | aasd119 h1 h2 => exact .aasd119 (by rw [hn]; exact h1) fun g => h2 ((aasd119_strip v).mp g)
    | aasd129 h1 h2 => exact .aasd129 (by rw [hn]; exact h1) fun g => h2 ((aasd129_strip v).mp g)
    | aasc004 h1 h2 => exact .aasc004 (by rw [hn]; exact h1) fun g => h2 ((noContent_strip h _).mp g)
    | aasc005 h1 h2 => exact .aasc005 (by rw [hn]; exact h1) fun g => h2 ((noContent_strip h _).mp g)
    | aasc006 h1 h2 => exact .aasc006 (by rw [hn]; exact h1) fun g => h2 ((noContent_strip h _).mp g)
    | aasc007 h1 h2 => exact .aasc007 (by rw [hn]; exact h1) fun g => h2 ((aasc007_strip h).mp g)
    | aasc008 h1 h2 => exact .aasc008 (by rw [hn]; exact h1) fun g => h2 ((aasc008_strip h).mp g)

/-- … and the same checks raise -/
theorem crashes_strip {lim : Option Nat} (h : Tame v) : Crashes lim (strip v) ↔ Crashes lim v := by
  have hn := className_strip v
  have hs : (∀ r ∈ elems (strip v) .submodels, ModelRef r) ↔ ∀ r ∈ elems v .submodels, ModelRef r := elements_strip fun x _ => modelRef_strip x
  constructor
  · intro hb
    cases hb with
    | value h1 h2 => exact .value (by rw [← hn]; exact h1) ((valueRaises_strip lim h (by decide)).mp h2)
    | min h1 h2 => exact .min (by rw [← hn]; exact h1) ((valueRaises_strip lim h (by decide)).mp h2)
    | max h1 h2 => exact .max (by rw [← hn]; exact h1) ((valueRaises_strip lim h (by decide)).mp h2)
    | operationVariable h1 h2 => exact .operationVariable (by rw [← hn]; exact h1) (by rwa [get_strip, idShort_strip] at h2)
    | derivedFrom h1 h2 => exact .derivedFrom (by rw [← hn]; exact h1) fun g => h2 ((modelRefAt_strip h (by decide)).mpr g)
    | submodels h1 h2 => exact .submodels (by rw [← hn]; exact h1) fun g => h2 (hs.mpr g)
  · intro hb
    cases hb with
    | value h1 h2 => exact .value (by rw [hn]; exact h1) ((valueRaises_strip lim h (by decide)).mpr h2)
    | min h1 h2 => exact .min (by rw [hn]; exact h1) ((valueRaises_strip lim h (by decide)).mpr h2)
    | max h1 h2 => exact .max (by rw [hn]; exact h1) ((valueRaises_strip lim h (by decide)).mpr h2)
    | operationVariable h1 h2 => exact .operationVariable (by rw [hn]; exact h1) (by rw [get_strip, idShort_strip]; exact h2)
    | derivedFrom h1 h2 => exact .derivedFrom (by rw [hn]; exact h1) fun g => h2 ((modelRefAt_strip h (by decide)).mp g)
    | submodels h1 h2 => exact .submodels (by rw [hn]; exact h1) fun g => h2 (hs.mp g)

theorem breaks_strip {lim : Option Nat} (h : Tame v) {p : List PTok} {t : Str} {l : Level} : Props.Breaks lim (strip v) p t l ↔ Props.Breaks lim v p t l := by
  constructor
  · rintro ⟨y, hn, hb⟩
    obtain ⟨x, rfl, hx⟩ := strip_nested hn v rfl
    exact ⟨x, hx, (broken_strip (h.sub (nested_sub hx))).mp hb⟩
  · rintro ⟨x, hx, hb⟩
    exact ⟨_, nested_strip hx, (broken_strip (h.sub (nested_sub hx))).mpr hb⟩

theorem raising_strip {lim : Option Nat} (h : Tame v) : Props.Raising lim (strip v) ↔ Props.Raising lim v := by
  constructor
  · rintro ⟨p, y, hn, hb⟩
    obtain ⟨x, rfl, hx⟩ := strip_nested hn v rfl
    exact ⟨p, x, hx, (crashes_strip (h.sub (nested_sub hx))).mp hb⟩
  · rintro ⟨p, x, hx, hb⟩
    exact ⟨p, _, nested_strip hx, (crashes_strip (h.sub (nested_sub hx))).mpr hb⟩

theorem obeys_strip {lim : Option Nat} (h : Tame v) : Props.Obeys lim (strip v) ↔ Props.Obeys lim v := by
  simp only [Props.Obeys, breaks_strip h]

end

/-! ## templates -/

theorem semanticId_strip (v : AVal) : semanticId? (strip v) = semanticId? v := by
  rw [semanticId?, get_strip, elems_strip, List.head?_map, Option.map_map, semanticId?]
  exact congrArg (fun g => Option.map g _) (funext fun k => txt_strip k .value)

theorem matching_strip (f : TField) (els : List AVal) : matching f (els.map strip) = (matching f els).map strip := by
  rw [matching, List.filter_map, matching]
  exact congrArg (fun g => (List.filter g els).map strip) (funext fun x => by simp only [Function.comp, semanticId_strip])

theorem propertyOf_strip {v : AVal} (h : Tame v) (type : Str) : PropertyOf type (strip v) ↔ PropertyOf type v := by
  rw [PropertyOf, className_strip, set_strip h (by decide), txt_strip]; rfl

theorem collection_strip {v : AVal} (h : Tame v) (lax : Bool) : Collection lax (strip v) ↔ Collection lax v := by
  rw [Collection, className_strip, set_strip h (by decide)]; rfl

theorem mem_matching {f : TField} {els : List AVal} {y : AVal} (h : y ∈ matching f els) : y ∈ els := (List.mem_filter.mp h).1

theorem fits_strip {lax : Bool} {ty : TTy} {u : AVal} (h : Fits lax ty u) : ∀ v, Tame v → u = strip v → Fits lax ty v := by
  induction h with
  | str hp => rintro v h rfl; exact .str ((propertyOf_strip h _).mp hp)
  | date hp => rintro v h rfl; exact .date ((propertyOf_strip h _).mp hp)
  | lang hc hs => rintro v h rfl; exact .lang (by rwa [className_strip] at hc) ((set_strip h (by decide)).mp hs)
  | enum hp ht => rintro v h rfl; exact .enum ((propertyOf_strip h _).mp hp) (by rwa [txt_strip] at ht)
  | cls hc hw _ ih =>
    rintro v h rfl
    refine .cls ((collection_strip h _).mp hc) (fun f hf => ?_) fun f hf y hy => ?_
    · have := hw f hf
      rwa [elems_strip, matching_strip, List.length_map] at this
    · exact ih f hf (strip y) (by rw [elems_strip, matching_strip]; exact List.mem_map.mpr ⟨y, hy, rfl⟩) y (h.elem (mem_matching hy)) rfl

theorem strip_fits {lax : Bool} {ty : TTy} {v : AVal} (h : Fits lax ty v) : Tame v → Fits lax ty (strip v) := by
  induction h with
  | str hp => intro h; exact .str ((propertyOf_strip h _).mpr hp)
  | date hp => intro h; exact .date ((propertyOf_strip h _).mpr hp)
  | lang hc hs => intro h; exact .lang (by rwa [className_strip]) ((set_strip h (by decide)).mpr hs)
  | enum hp ht => intro h; exact .enum ((propertyOf_strip h _).mpr hp) (by rwa [txt_strip])
  | cls hc hw _ ih =>
    intro h
    refine .cls ((collection_strip h _).mpr hc) (fun f hf => ?_) fun f hf y hy => ?_
    · rw [elems_strip, matching_strip, List.length_map]
      exact hw f hf
    · rw [elems_strip, matching_strip] at hy
      obtain ⟨x, hx, rfl⟩ := List.mem_map.mp hy
      exact ih f hf x hx (h.elem (mem_matching hx))

theorem follows_strip {lax : Bool} {c : TCls} {v : AVal} (h : Tame v) : Follows lax c (strip v) ↔ Follows lax c v := by
  unfold Follows FitsAll
  have hf : FamilyOrType (elems (strip v) .submodelElements) ↔ FamilyOrType (elems v .submodelElements) := by
    unfold FamilyOrType
    exact some_strip fun x _ => by rw [semanticId_strip]
  rw [hf]
  refine and_congr_left fun _ => forall_congr' fun f => imp_congr_right fun _ => ?_
  rw [elems_strip, matching_strip, List.length_map, List.forall_mem_map]
  refine and_congr_right fun _ => forall_congr' fun y => imp_congr_right fun hy => ?_
  have ht := h.elem (mem_matching hy)
  exact ⟨fun g => fits_strip g y ht rfl, fun g => strip_fits g ht⟩

theorem hasAttr_strip (v : AVal) (f : Fld) : HasAttr (strip v) f ↔ HasAttr v f := by
  cases v with
  | obj c attrs =>
    simp only [strip, HasAttr, stripA_map, List.map_map]
    exact Iff.rfl
  | _ => simp [strip, HasAttr]

theorem raises_strip {ty : TTy} {u : AVal} (h : Spec.Templates.Raises ty u) : ∀ v, Tame v → u = strip v → Spec.Templates.Raises ty v := by
  induction h with
  | date hp hd => rintro v h rfl; exact .date ((propertyOf_strip h _).mp hp) (by rwa [txt_strip] at hd)
  | noCollection h1 h2 h3 =>
    rintro v h rfl
    rw [className_strip] at h1 h2
    rw [set_strip h (by decide), hasAttr_strip] at h3
    exact .noCollection h1 h2 h3
  | deeper hc hf hw hy _ ih =>
    rintro v h rfl
    rw [elems_strip, matching_strip] at hw hy
    obtain ⟨x, hx, rfl⟩ := List.mem_map.mp hy
    rw [List.length_map] at hw
    exact .deeper ((collection_strip h _).mp hc) hf hw hx (ih x (h.elem (mem_matching hx)) rfl)

theorem strip_raises {ty : TTy} {v : AVal} (h : Spec.Templates.Raises ty v) : Tame v → Spec.Templates.Raises ty (strip v) := by
  induction h with
  | date hp hd => intro h; exact .date ((propertyOf_strip h _).mpr hp) (by rwa [txt_strip])
  | noCollection h1 h2 h3 =>
    intro h
    refine .noCollection (by rwa [className_strip]) (by rwa [className_strip]) ?_
    rw [set_strip h (by decide), hasAttr_strip]
    exact h3
  | deeper hc hf hw hy _ ih =>
    intro h
    refine .deeper ((collection_strip h _).mpr hc) hf ?_ ?_ (ih (h.elem (mem_matching hy)))
    · rw [elems_strip, matching_strip, List.length_map]; exact hw
    · rw [elems_strip, matching_strip]; exact List.mem_map.mpr ⟨_, hy, rfl⟩

theorem raisesSubmodel_strip {c : TCls} {v : AVal} (h : Tame v) : RaisesSubmodel c (strip v) ↔ RaisesSubmodel c v := by
  constructor
  · intro hr
    cases hr with
    | empty hs => exact .empty fun g => hs ((set_strip h (by decide)).mpr g)
    | deeper hf hw hy hr =>
      rw [elems_strip, matching_strip] at hw hy
      obtain ⟨x, hx, rfl⟩ := List.mem_map.mp hy
      rw [List.length_map] at hw
      exact .deeper hf hw hx (raises_strip hr x (h.elem (mem_matching hx)) rfl)
  · intro hr
    cases hr with
    | empty hs => exact .empty fun g => hs ((set_strip h (by decide)).mp g)
    | deeper hf hw hy hr =>
      refine .deeper hf ?_ ?_ (strip_raises hr (h.elem (mem_matching hy)))
      · rw [elems_strip, matching_strip, List.length_map]; exact hw
      · rw [elems_strip, matching_strip]; exact List.mem_map.mpr ⟨_, hy, rfl⟩

theorem templated_strip (l : List AVal) : templated (l.map strip) = (templated l).map fun p => (strip p.1, p.2) := by
  unfold templated
  rw [List.filterMap_map, List.map_filterMap]
  refine congrArg (fun g => List.filterMap g l) (funext fun x => ?_)
  simp only [Function.comp, semanticId_strip]
  cases semanticId? x with
  | none => rfl
  | some sid =>
    simp only [Option.bind_some, Option.map_map]
    rfl

theorem mem_templated {l : List AVal} {p : AVal × TCls} (h : p ∈ templated l) : p.1 ∈ l := by
  obtain ⟨x, hx, he⟩ := List.mem_filterMap.mp h
  cases hs : semanticId? x with
  | none => rw [hs] at he; cases he
  | some sid =>
    rw [hs] at he
    simp only [Option.bind_some, Option.map_eq_some_iff] at he
    obtain ⟨t, -, rfl⟩ := he
    exact hx

theorem lateRaise_strip {c : Cls} {v : AVal} (h : Tame v) : Spec.Engine.LateRaise c (strip v) ↔ Spec.Engine.LateRaise c v := by
  cases c with
  | environment =>
    simp only [Spec.Engine.LateRaise, elems_strip, templated_strip, List.mem_map]
    constructor
    · rintro ⟨_, ⟨p, hp, rfl⟩, hr⟩
      exact ⟨p, hp, (raisesSubmodel_strip (h.elem (mem_templated hp))).mp hr⟩
    · rintro ⟨p, hp, hr⟩
      exact ⟨_, ⟨p, hp, rfl⟩, (raisesSubmodel_strip (h.elem (mem_templated hp))).mpr hr⟩
  | assetAdministrationShell => exact set_strip h (by decide)
  | _ => exact Iff.rfl

theorem followsAll_strip {c : Cls} {v : AVal} (h : Tame v) : Spec.Engine.FollowsAll c (strip v) ↔ Spec.Engine.FollowsAll c v := by
  unfold Spec.Engine.FollowsAll
  rw [elems_strip, templated_strip, List.forall_mem_map]
  exact imp_congr_right fun _ => forall_congr' fun p => imp_congr_right fun hp => follows_strip (h.elem (mem_templated hp))

theorem trap_strip {lim : Option Nat} {c : Cls} {v : AVal} (h : Tame v) : Props.Trap lim c (strip v) ↔ Props.Trap lim c v := by
  rw [Props.Trap, raising_strip h, obeys_strip h, lateRaise_strip h]; rfl

end Verif.Strip
