import Verif.Spec.MetamodelXml
import Verif.Props.Metamodel

/-! XML instances of the specification are accepted -/

namespace Verif.Props
open Verif Verif.Parse Verif.Spec Verif.Spec.Parse Verif.Aas Verif.Spec.Metamodel

/-- `operationVariable`, under both names -/
def opNames : List Str := [py!"operationVariable", py!"OperationVariable"]

def dsc : Str := py!"dataSpecificationContent"

def plainName (nm : Str) : Bool := !nm.isEmpty && !opNames.contains nm && !dsc.isSuffixOf (xmlns ++ nm)

/-- classes of attributes that are no choices -/
def okAttr (c : Str) : Bool := !choices.contains c && c != py!"OperationVariable" && allCls.all fun cc => cc.pyName != c || !needsModelTypeOf cc

theorem elements_ok : (classes.all fun d => (opNames.contains (elementName d.name) == (d.name == py!"OperationVariable")) &&
    !dsc.isSuffixOf (xmlns ++ elementName d.name) && !(elementName d.name).isEmpty && !choices.contains d.name &&
    (!d.tagged || elementName d.name == lowerFirst d.name)) = true := by decide +kernel

theorem attributes_ok : (classes.all fun d => d.attributes.all fun a =>
    !opNames.contains a.name && (match a.kind with
      | .one c => if choices.contains c then a.name == dsc || (d.name == py!"OperationVariable" && a.name == py!"value") else plainName a.name && okAttr c &&
          (d.name != py!"OperationVariable" || a.name != py!"value")
      | _ => plainName a.name && (d.name != py!"OperationVariable" || a.name != py!"value"))) = true := by decide +kernel

theorem called_op {x : Xml} {nm : Str} (h : x.tag = xmlns ++ nm) (hc : Called x py!"OperationVariable") : nm ∈ opNames := by
  obtain ⟨t, ht, hc⟩ := hc
  rw [h, List.drop_left] at ht
  subst ht
  rcases hc with hc | hc | ⟨s, hc, -⟩ | ⟨s, hc, -⟩
  · rw [hc]; decide
  · rw [hc]; decide
  · simp at hc
  · simp at hc

/-- the attributes of an object are accepted -/
def Body (lim : Option Nat) (c' : Cls) (x : Xml) : Prop := ∃ attrs : List (Fld × AVal),
  (∀ y ∈ x.children, ∃ key ∈ allKeys (fieldsOf c'), y.tag = xmlns ++ key) ∧
  (∀ y ∈ x.children, IsOpValue x y → ∃ z, y.children = [z]) ∧
  attrs.map (·.1) = (fieldsOf c').map (·.name) ∧
  (∀ f key ty req v pre y post z, (Field.mk f (.attr key ty req), f, v) ∈ (fieldsOf c').zip attrs →
    x.children = pre ++ y :: post → y.tag = xmlns ++ key → (∀ u ∈ post, u.tag ≠ xmlns ++ key) → Inside x y z → XAccepts (schema lim) ty z v) ∧
  (∀ f key ty req v, (Field.mk f (.attr key ty req), f, v) ∈ (fieldsOf c').zip attrs →
    (∀ y ∈ x.children, y.tag ≠ xmlns ++ key) → req = false ∧ v = .none) ∧
  (∀ f v, (Field.mk f .excluded, f, v) ∈ (fieldsOf c').zip attrs → v = .none)

theorem zip_map_mem {A B : Type} {g : A → B} : ∀ {l : List A} {a b}, (a, b) ∈ l.zip (l.map g) → b = g a
  | [], _, _, h => by cases h
  | x :: l, a, b, h => by
    simp only [List.map_cons, List.zip_cons_cons, List.mem_cons, Prod.mk.injEq] at h
    rcases h with ⟨rfl, rfl⟩ | h
    · rfl
    · exact zip_map_mem h

theorem nodup_map_inj {A B : Type} {g : A → B} : ∀ {l : List A}, (l.map g).Nodup → ∀ {a b}, a ∈ l → b ∈ l → g a = g b → a = b
  | [], _, _, _, h, _, _ => by cases h
  | x :: l, hn, a, b, ha, hb, e => by
    simp only [List.map_cons, List.nodup_cons, List.mem_map, not_exists, not_and] at hn
    rcases List.mem_cons.mp ha with ha | ha <;> rcases List.mem_cons.mp hb with hb | hb
    · rw [ha, hb]
    · exact absurd (ha ▸ e).symm (hn.1 b hb)
    · exact absurd (hb ▸ e) (hn.1 a ha)
    · exact nodup_map_inj hn.2 ha hb e

theorem body_of (lim : Option Nat) (c' : Cls) (x : Xml) (known : ∀ y ∈ x.children, ∃ key ∈ allKeys (fieldsOf c'), y.tag = xmlns ++ key)
    (single : ∀ y ∈ x.children, IsOpValue x y → ∃ z, y.children = [z]) (once : (x.children.map Xml.tag).Nodup)
    (required : ∀ f key ty, ⟨f, .attr key ty true⟩ ∈ fieldsOf c' → ∃ y ∈ x.children, y.tag = xmlns ++ key)
    (values : ∀ f key ty req, ⟨f, .attr key ty req⟩ ∈ fieldsOf c' → ∀ y ∈ x.children, y.tag = xmlns ++ key →
      ∃ w, ∀ z, Inside x y z → XAccepts (schema lim) ty z w) : Body lim c' x := by
  let Good (f : AField) (v : AVal) : Prop := match f.slot with
    | .excluded => v = .none
    | .attr key ty req => (∀ y ∈ x.children, y.tag = xmlns ++ key → ∀ z, Inside x y z → XAccepts (schema lim) ty z v) ∧
        ((∀ y ∈ x.children, y.tag ≠ xmlns ++ key) → req = false ∧ v = .none)
  have hex : ∀ f : AField, ∃ v, f ∈ fieldsOf c' → Good f v := by
    intro f
    by_cases hf : f ∈ fieldsOf c'
    · obtain ⟨f, slot⟩ := f
      cases slot with
      | excluded => exact ⟨.none, fun _ => rfl⟩
      | attr key ty req =>
        by_cases hy : ∃ y ∈ x.children, y.tag = xmlns ++ key
        · obtain ⟨y, hy, ht⟩ := hy
          obtain ⟨w, hw⟩ := values f key ty req hf y hy ht
          refine ⟨w, fun _ => ⟨fun y' hy' ht' z hz => ?_, fun h => absurd ht (h y hy)⟩⟩
          have : y' = y := nodup_map_inj once hy' hy (ht'.trans ht.symm)
          subst this
          exact hw z hz
        · refine ⟨.none, fun _ => ⟨fun y hy' ht => absurd ⟨y, hy', ht⟩ hy, fun h => ⟨?_, rfl⟩⟩⟩
          cases req with
          | false => rfl
          | true =>
            obtain ⟨y, hy', ht⟩ := required f key ty hf
            exact absurd ht (h y hy')
    · exact ⟨.none, fun h => absurd h hf⟩
  let val (f : AField) : AVal := Classical.choose (hex f)
  have hval : ∀ f ∈ fieldsOf c', Good f (val f) := fun f hf => Classical.choose_spec (hex f) hf
  refine ⟨(fieldsOf c').map fun f => (f.name, val f), known, single, by simp, ?_, ?_, ?_⟩
  · intro f key ty req v pre y post z hz hc ht _ hi
    have e := zip_map_mem hz
    injection e with e1 e2
    subst e2
    have := hval _ (List.of_mem_zip hz).1
    exact this.1 y (by rw [hc]; simp) ht z hi
  · intro f key ty req v hz h
    have e := zip_map_mem hz
    injection e with e1 e2
    subst e2
    have := hval _ (List.of_mem_zip hz).1
    exact this.2 h
  · intro f v hz
    have e := zip_map_mem hz
    injection e with e1 e2
    subst e2
    exact hval _ (List.of_mem_zip hz).1

theorem accepts_of_body {lim : Option Nat} {c c' : Cls} {x d : Xml} (isA : IsA (schema lim) c c') (hn : xmlns <+: x.tag) (ht : NoText x)
    (hc : Content x d) (called : isAbstract c = true ∨ needsModelTypeOf c' = true → Called d c'.pyName) (hd : xmlns.length < d.tag.length)
    (hb : Body lim c' d) : ∃ w, XAccepts (schema lim) (.cls c) x w := by
  obtain ⟨attrs, h1, h2, h3, h4, h5, h6⟩ := hb
  exact ⟨_, .obj isA hn ht hc called (Or.inr hd) h1 h2 h3 h4 h5 h6⟩

theorem wrap {lim : Option Nat} {c : Cls} {x z : Xml} {w} (hn : xmlns <+: x.tag) (ht : NoText x) (hx : dsc <:+ x.tag) (hc : x.children = [z])
    (hz : ¬ dsc <:+ z.tag) (h : XAccepts (schema lim) (.cls c) z w) : XAccepts (schema lim) (.cls c) x w := by
  cases h with
  | obj isA inNamespace text content called named known single names present absent excluded =>
    rcases content with ⟨h, -⟩ | ⟨-, rfl⟩
    · exact absurd h hz
    · exact .obj isA hn ht (Or.inl ⟨hx, hc⟩) called named known single names present absent excluded

theorem abstract_choice (cc : Cls) (h : isAbstract cc = true) : cc.pyName ∈ choices := by
  revert h
  cases cc <;> decide +kernel

theorem mem_allKeys {fs : List AField} {f key ty req} (h : ⟨f, .attr key ty req⟩ ∈ fs) : key ∈ allKeys fs :=
  List.mem_filterMap.mpr ⟨_, h, rfl⟩

/-- what is shown of an element -/
def XFine (lim : Option Nat) : Place → Xml → Prop
  | .value k, x => ((∃ nm, x.tag = xmlns ++ nm ∧ plainName nm = true) → (∀ c, k = .one c → okAttr c = true) → ∀ ty, Covers ty k →
        ∃ w, XAccepts (schema lim) ty x w) ∧
      ∀ c, k = .one c → c ∈ choices → ∃ z, x.children = [z] ∧ NoText x ∧ ¬ dsc <:+ z.tag ∧
        ∀ cc : Cls, cc.pyName = c → ∃ w, XAccepts (schema lim) (.cls cc) z w
  | .element c, x => ¬ dsc <:+ x.tag ∧ ∀ cc : Cls, cc.pyName = c → ∃ w, XAccepts (schema lim) (.cls cc) x w
  | .object d, x => d ∈ classes → (∃ nm, x.tag = xmlns ++ nm ∧ (nm ∈ opNames ↔ d.name = py!"OperationVariable")) →
      ∀ c' : Cls, c'.pyName = d.name → NoText x ∧ Body lim c' x

theorem element_facts {d : Class} (hd : d ∈ classes) : (elementName d.name ∈ opNames ↔ d.name = py!"OperationVariable") ∧
    ¬ dsc <:+ xmlns ++ elementName d.name ∧ d.name ∉ choices ∧ elementName d.name ≠ [] ∧ (d.tagged = true → elementName d.name = lowerFirst d.name) := by
  have := elements_ok
  simp only [List.all_eq_true] at this
  have := this d hd
  simp only [Bool.and_eq_true, Bool.not_eq_true', Bool.or_eq_true] at this
  obtain ⟨⟨⟨⟨h1, h2⟩, h3⟩, h4⟩, h5⟩ := this
  refine ⟨?_, ?_, ?_, by simpa using h3, ?_⟩
  · rw [← List.contains_iff_mem, eq_of_beq h1, beq_iff_eq]
  · rw [← List.isSuffixOf_iff_suffix, h2]; simp
  · rw [← List.contains_iff_mem, h4]; simp
  · intro ht
    rcases h5 with h5 | h5
    · rw [ht] at h5; cases h5
    · exact eq_of_beq h5

theorem attribute_facts {d : Class} (hd : d ∈ classes) {a : Attribute} (ha : a ∈ d.attributes) :
    (∀ c, a.kind = .one c → c ∈ choices → a.name = dsc ∨ (d.name = py!"OperationVariable" ∧ a.name = py!"value")) ∧
    ((∀ c, a.kind = .one c → c ∉ choices) → plainName a.name = true ∧ (∀ c, a.kind = .one c → okAttr c = true) ∧
      ¬ (d.name = py!"OperationVariable" ∧ a.name = py!"value")) := by
  have := attributes_ok
  simp only [List.all_eq_true] at this
  have := this d hd a ha
  simp only [Bool.and_eq_true] at this
  obtain ⟨-, h⟩ := this
  constructor
  · intro c hk hc
    rw [hk] at h
    simp only [List.contains_iff_mem, hc, if_true, Bool.or_eq_true, Bool.and_eq_true, beq_iff_eq] at h
    exact h
  · intro hno
    cases hk : a.kind with
    | one c =>
      rw [hk] at h
      simp only [List.contains_iff_mem, hno c hk, if_false, Bool.or_eq_true, Bool.and_eq_true, bne_iff_ne] at h
      exact ⟨h.1.1, fun c' e => by cases e; exact h.1.2, fun ⟨e1, e2⟩ => h.2.elim (· e1) (· e2)⟩
    | _ =>
      rw [hk] at h
      simp only [Bool.or_eq_true, Bool.and_eq_true, bne_iff_ne] at h
      exact ⟨h.1, fun c' e => (by cases e), fun ⟨e1, e2⟩ => h.2.elim (· e1) (· e2)⟩

theorem xfine_of (lim : Option Nat) (T : SfvCls → Str → Prop) (hT : ∀ f s, T f s → AcceptedText lim f s) {p : Place} {x : Xml} (h : XInstance T p x) :
    XFine lim p x := by
  induction h with
  | text hc ht =>
    refine ⟨fun _ _ ty hk => ?_, fun c h => by cases h⟩
    rcases hk with h' | ⟨rfl, h'⟩ | ⟨rfl, h'⟩
    · cases kindOf_inv h'; exact ⟨_, .sfv (Or.inl hc) rfl (hT _ _ ht)⟩
    · cases h'; exact ⟨_, .sfv (Or.inl hc) rfl (utc_date_time lim _ (hT _ _ ht))⟩
    · cases h'
  | plain hc =>
    refine ⟨fun _ _ ty hk => ?_, fun c h => by cases h⟩
    rcases hk with h' | ⟨rfl, h'⟩ | ⟨rfl, h'⟩
    · cases kindOf_inv h'; exact ⟨_, .str (Or.inl hc)⟩
    · cases h'
    · cases h'
  | @flag x hc ht =>
    refine ⟨fun _ _ ty hk => ?_, fun c h => by cases h⟩
    rcases hk with h' | ⟨rfl, h'⟩ | ⟨rfl, h'⟩
    · cases kindOf_inv h'; exact ⟨.bool (decide (x.text = some py!"true")), .bool (Or.inl hc) (by simp)⟩
    · cases h'
    · cases h'
  | literal hc ht =>
    refine ⟨fun _ _ ty hk => ?_, fun c h => by cases h⟩
    rcases hk with h' | ⟨rfl, h'⟩ | ⟨rfl, h'⟩
    · obtain ⟨e', rfl, rfl⟩ := kindOf_inv h'
      exact ⟨_, .enum (Or.inl hc) rfl ((enums_ok e' _).mpr ht)⟩
    · cases h'
    · cases h'
      exact ⟨_, .enum (Or.inl hc) rfl ((enums_ok .keyType _).mpr (List.mem_append_left _ ht))⟩
  | @many c x hn hne hl ih =>
    refine ⟨fun _ _ ty hk => ?_, fun c h => by cases h⟩
    rcases hk with h' | ⟨rfl, h'⟩ | ⟨rfl, h'⟩
    · obtain ⟨cc, rfl, rfl⟩ := kindOf_inv h'
      have hex : ∀ y : Xml, ∃ w, y ∈ x.children → XAccepts (schema lim) (.cls cc) y w := by
        intro y
        by_cases hy : y ∈ x.children
        · obtain ⟨w, hw⟩ := (ih y hy).2 cc rfl
          exact ⟨w, fun _ => hw⟩
        · exact ⟨.none, fun h => absurd h hy⟩
      refine ⟨.list (x.children.map fun y => Classical.choose (hex y)), .list (Or.inl (by simpa using hne)) (by simp) ?_⟩
      intro i y v hy hv
      simp only [List.getElem?_map, hy, Option.map_some, Option.some.injEq] at hv
      subst hv
      exact Classical.choose_spec (hex y) (List.mem_of_getElem? hy)
    · cases h'
    · cases h'
  | @choice c x y hc hn hch hy ih =>
    refine ⟨fun _ hok => ?_, fun c' h hc' => ?_⟩
    · have := hok c rfl
      simp only [okAttr, Bool.and_eq_true, Bool.not_eq_true'] at this
      have h1 := this.1.1
      rw [List.contains_iff_mem.mpr hc] at h1
      cases h1
    · cases h
      exact ⟨y, hch, hn, ih.1, ih.2⟩
  | @one x d hd hx ih =>
    refine ⟨fun ⟨nm, hnm, hp⟩ hok ty hk => ?_, fun c h hc => ?_⟩
    · have hok := hok _ rfl
      simp only [okAttr, Bool.and_eq_true, Bool.not_eq_true', bne_iff_ne, List.all_eq_true, Bool.or_eq_true] at hok
      simp only [plainName, Bool.and_eq_true, Bool.not_eq_true'] at hp
      rcases hk with h' | ⟨rfl, h'⟩ | ⟨rfl, h'⟩
      · obtain ⟨cc, rfl, hcc⟩ := kindOf_inv h'
        obtain ⟨ht, hb⟩ := ih hd ⟨nm, hnm, by
          rw [← List.contains_iff_mem, hp.1.2]
          exact ⟨fun h => (by cases h), fun h => absurd h hok.1.2⟩⟩ cc hcc.symm
        have hneed : needsModelTypeOf cc = false := (hok.2 cc (mem_allCls cc)).resolve_left (fun h => h hcc.symm)
        have hins : d.name ∈ instances cc.pyName := by
          have := hok.1.1
          rw [← hcc]
          unfold instances
          split
          · rename_i e; rw [e] at this; exact absurd this (by decide)
          · split
            · rename_i e; rw [e] at this; exact absurd this (by decide)
            · split
              · rename_i e; rw [e] at this; exact absurd this (by decide)
              · simp
        have hA := isA_of lim hd hins hcc.symm
        refine accepts_of_body hA.1 ⟨nm, hnm.symm⟩ ht (Or.inr ⟨?_, rfl⟩) ?_ ?_ hb
        · rw [hnm]; show ¬ dsc <:+ _
          rw [← List.isSuffixOf_iff_suffix, hp.2]; simp
        · rintro (h | h)
          · have := abstract_choice cc h
            rw [← hcc] at this
            have h2 := hok.1.1
            rw [List.contains_iff_mem.mpr this] at h2
            cases h2
          · rw [hneed] at h; cases h
        · rw [hnm, List.length_append]
          have : nm ≠ [] := by simpa using hp.1.1
          have := List.length_pos_iff.mpr this
          omega
      · cases h'
      · cases h'
    · cases h
      exact absurd hc (element_facts hd).2.2.1
  | @element c x d hd hi ht hx ih =>
    obtain ⟨f1, f2, f3, f4, f5⟩ := element_facts hd
    refine ⟨by rw [ht]; exact f2, fun cc hcc => ?_⟩
    obtain ⟨c', hc'⟩ := cls_of hd
    obtain ⟨hn, hb⟩ := ih hd ⟨_, ht, f1⟩ c' hc'
    obtain ⟨hA, htag⟩ := isA_of lim hd (hcc ▸ hi) hc'
    refine accepts_of_body hA ⟨_, ht.symm⟩ hn (Or.inr ⟨by rw [ht]; exact f2, rfl⟩) (fun h => ?_) ?_ hb
    · rw [hc']
      exact ⟨_, by rw [ht, List.drop_left], Or.inl (f5 (htag h))⟩
    · rw [ht, List.length_append]
      have := List.length_pos_iff.mpr f4
      omega
  | @object d x text once known required values ih =>
    intro hd ⟨nm, hnm, hop⟩ c' hc'
    have hchoice : ∀ a ∈ d.attributes, ∀ y ∈ x.children, y.tag = xmlns ++ a.name → IsOpValue x y → ∃ c, a.kind = .one c ∧ c ∈ choices := by
      intro a ha y hy ht ⟨hc, hv⟩
      refine Classical.byContradiction fun hno => ?_
      refine ((attribute_facts hd ha).2 (fun c hk hc => hno ⟨c, hk, hc⟩)).2.2 ⟨hop.mp (called_op hnm hc), ?_⟩
      rw [ht] at hv
      exact List.append_cancel_left hv
    refine ⟨text, body_of lim c' x ?_ ?_ once ?_ ?_⟩
    · intro y hy
      obtain ⟨a, ha, ht⟩ := known y hy
      obtain ⟨f, ty, hf, -⟩ := field_of hd hc' ha
      exact ⟨a.name, mem_allKeys hf, ht⟩
    · intro y hy hv
      obtain ⟨a, ha, ht⟩ := known y hy
      obtain ⟨c, hk, hc⟩ := hchoice a ha y hy ht hv
      obtain ⟨z, hz, -⟩ := (ih a ha y hy ht).2 c hk hc
      exact ⟨z, hz⟩
    · intro f key ty hf
      obtain ⟨a, ha, rfl, hreq, -⟩ := attribute_of hd hc' hf
      exact required a ha hreq
    · intro f key ty req hf y hy ht
      obtain ⟨a, ha, rfl, -, hag⟩ := attribute_of hd hc' hf
      obtain ⟨p1, p2⟩ := ih a ha y hy ht
      by_cases hno : ∀ c, a.kind = .one c → c ∉ choices
      · obtain ⟨h1, h2, h3⟩ := (attribute_facts hd ha).2 hno
        obtain ⟨w, hw⟩ := p1 ⟨_, ht, h1⟩ h2 ty (covers_of hag)
        refine ⟨w, fun z hz => ?_⟩
        rcases hz with ⟨hv, -⟩ | ⟨-, rfl⟩
        · obtain ⟨c, hk, hc⟩ := hchoice a ha y hy ht hv
          exact absurd hc (hno c hk)
        · exact hw
      · obtain ⟨c, hk, hc⟩ : ∃ c, a.kind = .one c ∧ c ∈ choices :=
          Classical.byContradiction fun h => hno fun c hk hc => h ⟨c, hk, hc⟩
        obtain ⟨z, hz, hn, hdsc, hacc⟩ := p2 c hk hc
        obtain ⟨cc, rfl, hcc⟩ : ∃ cc : Cls, ty = .cls cc ∧ cc.pyName = c := by
          rcases covers_of hag with h | ⟨-, h⟩ | ⟨-, h⟩
          · rw [hk] at h
            obtain ⟨cc, e1, e2⟩ := kindOf_inv h
            exact ⟨cc, e1, e2.symm⟩
          · rw [hk] at h; cases h
          · rw [hk] at h; cases h
        obtain ⟨w, hw⟩ := hacc cc hcc
        refine ⟨w, fun u hu => ?_⟩
        rcases hu with ⟨-, hu⟩ | ⟨hv, rfl⟩
        · rw [hz] at hu
          cases hu
          exact hw
        · rcases (attribute_facts hd ha).1 c hk hc with h | ⟨h1, h2⟩
          · exact wrap ⟨_, ht.symm⟩ hn ⟨xmlns, by rw [ht, h]⟩ hz hdsc hw
          · refine absurd ⟨?_, by rw [ht, h2]⟩ hv
            have := hop.mpr h1
            refine ⟨_, by rw [hnm, List.drop_left], ?_⟩
            simp only [opNames, List.mem_cons, List.not_mem_nil, or_false] at this
            rcases this with h | h
            · exact Or.inl h
            · exact Or.inr (Or.inl h)

end Verif.Props
