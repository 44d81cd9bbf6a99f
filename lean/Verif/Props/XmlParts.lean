import Verif.Props.Parts
import Verif.Props.XmlAccepted

/-!
# C88 for XML: an environment passes iff each of its parts passes on its own

In XML, an attribute can be given several times; the last one counts, the others are not even looked at.
-/

namespace Verif.Props
open Verif Verif.Parse Verif.Spec.Parse Verif.Aas Verif.Spec.Model Verif.Spec.Templates Verif.Engine Verif.Spec.Engine Verif.File Res

variable (text : Note → Str) (lim : Option Nat)

/-- the check of the XML document as an environment ends with a report without errors -/
def PassesXml (x : Xml) : Prop := ∃ r, checkXmlData (engine text lim) x py!"Environment" = .ok r ∧ r.ok = true

section
variable {lim : Option Nat}

theorem passesXml_iff {text : Note → Str} {x : Xml} : PassesXml text lim x ↔
    ∃ w, XAccepts (schema lim) (.cls .environment) x w ∧ Obeys lim w ∧ ¬ Raising lim w ∧ FollowsAll .environment w ∧ ¬ LateRaise .environment w := by
  obtain ⟨h1, h2⟩ := C83_data text lim py!"Environment" .environment env_symbol x
  constructor
  · rintro ⟨r, hr, hok⟩
    by_cases ht : TripsXml lim .environment x
    · obtain ⟨e, -, he⟩ := h1 ht
      rw [he] at hr; cases hr
    · rcases h2 ht with ⟨r', hr', hv⟩ | ⟨-, -, he⟩
      · rw [hr'] at hr
        cases hr
        obtain ⟨w, hd, ho, hf⟩ := hv.mp hok
        exact ⟨w, hd, ho, fun h => ht ⟨w, hd, .inl h⟩, hf, fun h => ht ⟨w, hd, .inr ⟨ho, h⟩⟩⟩
      · rw [he] at hr; cases hr
  · rintro ⟨w, hd, ho, hr, hf, hl⟩
    have ht : ¬ TripsXml lim .environment x := by
      rintro ⟨w', hd', ht⟩
      obtain rfl := C83_unique (schema lim) (sane lim) (xmlNames lim) _ x w w' hd hd'
      rcases ht with h | h
      · exact hr h
      · exact hl h.2
    rcases h2 ht with ⟨r, he, hv⟩ | ⟨-, hn, -⟩
    · exact ⟨r, he, hv.mpr ⟨w, hd, ho, hf⟩⟩
    · exact absurd ⟨w, hd, ho, hf⟩ hn

/-- the value of an attribute of an environment -/
def SlotValue (lim : Option Nat) (cs : List Xml) (key : Str) (cl : Cls) (v : AVal) : Prop :=
  (∀ pre y post, cs = pre ++ y :: post → y.tag = xmlns ++ key → (∀ u ∈ post, u.tag ≠ xmlns ++ key) → XAccepts (schema lim) (.list (.cls cl) false) y v) ∧
    ((∀ y ∈ cs, y.tag ≠ xmlns ++ key) → v = .none)

theorem mem_keys {k : Str} (h : k ∈ allKeys ((schema lim).fields .environment)) : ∃ f c, Slot f k c := by
  change k ∈ allKeys (fieldsOf .environment) at h
  simp only [fieldsOf, allKeys, List.filterMap_cons, List.filterMap_nil, List.mem_cons, List.not_mem_nil, or_false] at h
  rcases h with rfl | rfl | rfl
  · exact ⟨_, _, .shells⟩
  · exact ⟨_, _, .submodels⟩
  · exact ⟨_, _, .descriptions⟩

theorem keys_mem {f : Fld} {k : Str} {c : Cls} (h : Slot f k c) : k ∈ allKeys ((schema lim).fields .environment) := by
  change k ∈ allKeys (fieldsOf .environment)
  cases h <;> decide +kernel

theorem not_opValue {d y : Xml} {f : Fld} {k : Str} {c : Cls} (h : Slot f k c) (hy : y.tag = xmlns ++ k) : ¬ IsOpValue d y := by
  rintro ⟨-, h'⟩
  rw [hy] at h'
  have := List.append_cancel_left h'
  cases h <;> revert this <;> decide +kernel

/-- XML documents of environments -/
theorem xenv {t : Str} {s : Option Str} {cs : List Xml} {w : AVal} (hdc : ¬ py!"dataSpecificationContent" <:+ t) :
    XAccepts (schema lim) (.cls .environment) (.elem t s cs) w ↔
      xmlns <+: t ∧ NoText (.elem t s cs) ∧ (cs = [] ∨ xmlns.length < t.length) ∧ (∀ y ∈ cs, ∃ f key cl, Slot f key cl ∧ y.tag = xmlns ++ key) ∧
      ∃ a b c, w = .obj .environment [(.assetAdministrationShells, a), (.submodels, b), (.conceptDescriptions, c)] ∧
        ∀ f key cl, Slot f key cl → SlotValue lim cs key cl (Spec.Model.get w f) := by
  constructor
  · intro h
    cases h with
    | @obj _ c' _ d attrs isA inNamespace text content called named known single names present absent excluded =>
      rcases content with ⟨h', -⟩ | ⟨-, rfl⟩
      · exact absurd h' hdc
      obtain rfl := env_isA isA
      refine ⟨inNamespace, text, named, fun y hy => ?_, ?_⟩
      · obtain ⟨k, hk, ht⟩ := known y hy
        obtain ⟨f, c, hs⟩ := mem_keys hk
        exact ⟨f, k, c, hs, ht⟩
      · change _ = (fieldsOf .environment).map _ at names
        simp only [fieldsOf, List.map_cons, List.map_nil] at names
        match attrs, names with
        | [(f1, a), (f2, b), (f3, c)], names =>
          simp only [List.map_cons, List.map_nil, List.cons.injEq, and_true] at names
          obtain ⟨rfl, rfl, rfl⟩ := names
          refine ⟨a, b, c, rfl, ?_⟩
          intro f key cl hs
          have hz : (Field.mk f (.attr key (.list (.cls cl) false) false), f, Spec.Model.get
              (.obj .environment [(.assetAdministrationShells, a), (.submodels, b), (.conceptDescriptions, c)]) f) ∈ ((schema lim).fields .environment).zip
              [(Fld.assetAdministrationShells, a), (.submodels, b), (.conceptDescriptions, c)] := by
            cases hs
            · exact .head _
            · exact .tail _ (.head _)
            · exact .tail _ (.tail _ (.head _))
          exact ⟨fun pre y post e1 e2 e3 => present f key _ _ _ pre y post y hz e1 e2 e3 (.inr ⟨not_opValue hs e2, rfl⟩),
            fun hn => (absent f key _ _ _ hz hn).2⟩
  · rintro ⟨h1, h2, h3, h4, a, b, c, rfl, h5⟩
    have hz : ∀ f key ty req v, (Field.mk f (.attr key ty req), f, v) ∈ ((schema lim).fields .environment).zip
        [(Fld.assetAdministrationShells, a), (.submodels, b), (.conceptDescriptions, c)] →
        ∃ cl, Slot f key cl ∧ ty = .list (.cls cl) false ∧ req = false ∧ v = Spec.Model.get
          (.obj .environment [(.assetAdministrationShells, a), (.submodels, b), (.conceptDescriptions, c)]) f := by
      intro f key ty req v h
      change _ ∈ (fieldsOf .environment).zip _ at h
      simp only [fieldsOf, List.zip_cons_cons, List.zip_nil_right, List.mem_cons, Prod.mk.injEq, Field.mk.injEq, Slot.attr.injEq, List.not_mem_nil, or_false] at h
      rcases h with ⟨⟨rfl, rfl, rfl, rfl⟩, -, rfl⟩ | ⟨⟨rfl, rfl, rfl, rfl⟩, -, rfl⟩ | ⟨⟨rfl, rfl, rfl, rfl⟩, -, rfl⟩
      · exact ⟨_, .shells, rfl, rfl, rfl⟩
      · exact ⟨_, .submodels, rfl, rfl, rfl⟩
      · exact ⟨_, .descriptions, rfl, rfl, rfl⟩
    refine .obj (.inl ⟨rfl, rfl⟩) h1 h2 (.inr ⟨hdc, rfl⟩) ?_ h3 ?_ ?_ rfl ?_ ?_ ?_
    · rintro (h | h) <;> cases h
    · intro y hy
      obtain ⟨f, k, cl, hs, ht⟩ := h4 y hy
      exact ⟨k, keys_mem hs, ht⟩
    · intro y hy ho
      obtain ⟨f, k, cl, hs, ht⟩ := h4 y hy
      exact absurd ho (not_opValue hs ht)
    · intro f key ty req v pre y post z h e1 e2 e3 hin
      obtain ⟨cl, hs, rfl, rfl, rfl⟩ := hz f key ty req v h
      rcases hin with ⟨ho, -⟩ | ⟨-, rfl⟩
      · exact absurd ho (not_opValue hs e2)
      · exact (h5 f key cl hs).1 pre _ post e1 e2 e3
    · intro f key ty req v h hn
      obtain ⟨cl, hs, rfl, rfl, rfl⟩ := hz f key ty req v h
      exact ⟨rfl, (h5 f key cl hs).2 hn⟩
    · intro f v h
      change _ ∈ (fieldsOf .environment).zip _ at h
      simp [fieldsOf] at h

theorem slotValue_list {cs : List Xml} {key : Str} {cl : Cls} {v : AVal} (h : SlotValue lim cs key cl v) : v = .none ∨ ∃ l, v = .list l := by
  by_cases hy : ∃ y ∈ cs, y.tag = xmlns ++ key
  · obtain ⟨pre, y, post, e1, e2, e3⟩ := last_exists hy
    cases h.1 pre y post e1 e2 e3 with
    | list _ _ _ => exact .inr ⟨_, rfl⟩
  · exact .inl (h.2 fun y hy' he => hy ⟨y, hy', he⟩)

theorem choose_list {α β : Type} {P : α → β → Prop} : ∀ (l : List α), (∀ a ∈ l, ∃ b, P a b) →
    ∃ m : List β, l.length = m.length ∧ ∀ (i : Nat) a b, l[i]? = some a → m[i]? = some b → P a b
  | [], _ => ⟨[], rfl, fun i a b h => by simp at h⟩
  | a :: l, h => by
    obtain ⟨b, hb⟩ := h a (.head _)
    obtain ⟨m, h1, h2⟩ := choose_list l fun a ha => h a (.tail _ ha)
    refine ⟨b :: m, by simp [h1], fun i x y hx hy => ?_⟩
    cases i with
    | zero => simp only [List.getElem?_cons_zero, Option.some.injEq] at hx hy; subst hx; subst hy; exact hb
    | succ i => exact h2 i x y (by simpa using hx) (by simpa using hy)

/-- the environment passes iff its parts are sound -/
theorem passesXml_parts {text : Note → Str} {t : Str} {s : Option Str} {cs : List Xml} (hdc : ¬ py!"dataSpecificationContent" <:+ t) :
    PassesXml text lim (.elem t s cs) ↔ xmlns <+: t ∧ NoText (.elem t s cs) ∧ (cs = [] ∨ xmlns.length < t.length) ∧
      ∀ pre y post, cs = pre ++ y :: post → ∃ f key cl, Slot f key cl ∧ y.tag = xmlns ++ key ∧
        ((∀ u ∈ post, u.tag ≠ y.tag) → y.children ≠ [] ∧ ∀ z ∈ y.children, ∃ u, XAccepts (schema lim) (.cls cl) z u ∧ Sound lim f u) := by
  rw [passesXml_iff]
  constructor
  · rintro ⟨w, ha, hsound⟩
    obtain ⟨h1, h2, h3, h4, a, b, c, hw, h5⟩ := (xenv hdc).mp ha
    have hshape : Shape w := ⟨⟨a, b, c, hw⟩, fun f key cl hs => slotValue_list (h5 f key cl hs)⟩
    refine ⟨h1, h2, h3, fun pre y post e => ?_⟩
    obtain ⟨f, key, cl, hs, ht⟩ := h4 y (by rw [e]; simp)
    refine ⟨f, key, cl, hs, ht, fun hl => ?_⟩
    have hacc := (h5 f key cl hs).1 pre y post e ht (fun u hu => ht ▸ hl u hu)
    have hparts := hshape.sound.mp hsound f key cl hs
    generalize hg : Spec.Model.get w f = v at hacc
    cases hacc with
    | @list _ _ _ vs hne hlen hit =>
      refine ⟨fun h => ?_, fun z hz => ?_⟩
      · rw [h] at hlen
        exact hne.resolve_right (by simp) (List.length_eq_zero_iff.mp hlen.symm)
      · obtain ⟨i, hi⟩ := List.getElem?_of_mem hz
        have hiv : i < vs.length := hlen ▸ (List.getElem?_eq_some_iff.mp hi).1
        exact ⟨vs[i], hit i z _ hi (List.getElem?_eq_getElem hiv), hparts _ (by rw [elems, hg]; exact List.getElem_mem hiv)⟩
  · rintro ⟨h1, h2, h3, h4⟩
    have hkey : ∀ f key cl, Slot f key cl → ∃ v, SlotValue lim cs key cl v ∧ ∀ l, v = .list l → ∀ u ∈ l, Sound lim f u := by
      intro f key cl hs
      by_cases hy : ∃ y ∈ cs, y.tag = xmlns ++ key
      · obtain ⟨pre, y, post, e1, e2, e3⟩ := last_exists hy
        obtain ⟨f', key', cl', hs', ht, h⟩ := h4 pre y post e1
        obtain rfl := List.append_cancel_left (e2.symm.trans ht)
        obtain ⟨rfl, rfl⟩ := slot_key hs hs'
        obtain ⟨hne, hall⟩ := h (fun u hu => e2 ▸ e3 u hu)
        obtain ⟨vs, hlen, hvs⟩ := choose_list y.children hall
        refine ⟨.list vs, ⟨fun pre' y' post' e1' e2' e3' => ?_, fun hn => absurd e2 (hn y (by rw [e1]; simp))⟩, ?_⟩
        · obtain ⟨rfl, rfl, rfl⟩ := last_unique e1 e1' e2 e2' e3 e3'
          exact .list (.inl fun h => hne (List.length_eq_zero_iff.mp (by rw [hlen, h]; rfl))) hlen fun i z v hz hv => (hvs i z v hz hv).1
        · intro l hl u hu
          cases hl
          obtain ⟨i, hi⟩ := List.getElem?_of_mem hu
          have hij : i < y.children.length := hlen ▸ (List.getElem?_eq_some_iff.mp hi).1
          exact (hvs i _ u (List.getElem?_eq_getElem hij) hi).2
      · refine ⟨.none, ⟨fun pre y post e1 e2 _ => absurd ⟨y, by rw [e1]; simp, e2⟩ hy, fun _ => rfl⟩, fun l hl => by cases hl⟩
    obtain ⟨a, ha, ha'⟩ := hkey _ _ _ .shells
    obtain ⟨b, hb, hb'⟩ := hkey _ _ _ .submodels
    obtain ⟨c, hc, hc'⟩ := hkey _ _ _ .descriptions
    have hv : ∀ f key cl, Slot f key cl → SlotValue lim cs key cl (Spec.Model.get
        (.obj .environment [(.assetAdministrationShells, a), (.submodels, b), (.conceptDescriptions, c)]) f) := by
      intro f key cl hs
      cases hs
      · exact ha
      · exact hb
      · exact hc
    refine ⟨_, (xenv hdc).mpr ⟨h1, h2, h3, fun y hy => ?_, a, b, c, rfl, hv⟩, ?_⟩
    · obtain ⟨pre, post, e⟩ := List.append_of_mem hy
      obtain ⟨f, key, cl, hs, ht, -⟩ := h4 pre y post e
      exact ⟨f, key, cl, hs, ht⟩
    · refine (Shape.sound ⟨⟨a, b, c, rfl⟩, fun f key cl hs => slotValue_list (hv f key cl hs)⟩).mpr fun f key cl hs u hu => ?_
      cases hs
      · cases a <;> first | exact ha' _ rfl u hu | cases hu
      · cases b <;> first | exact hb' _ rfl u hu | cases hu
      · cases c <;> first | exact hc' _ rfl u hu | cases hu

/-- the lines on rules in XML environments: those of the parts, with the attribute and the position in front of their places -/
theorem C88_xml_lines (t : Str) (s : Option Str) (cs : List Xml) (hdc : ¬ py!"dataSpecificationContent" <:+ t) (w : AVal)
    (ha : XAccepts (schema lim) (.cls .environment) (.elem t s cs) w) (p : List PTok) (tx : Str) (l : Level) :
    Breaks lim w p tx l ↔ ∃ f key cl i u q, Slot f key cl ∧ (elems w f)[i]? = some u ∧ p = .key f.pyName :: .idx i :: q ∧ Breaks lim u q tx l := by
  obtain ⟨-, -, -, -, a, b, c, hw, h5⟩ := (xenv hdc).mp ha
  exact Shape.lines ⟨⟨a, b, c, hw⟩, fun f key cl hs => slotValue_list (h5 f key cl hs)⟩ p tx l

end

/-- An XML environment passes iff it passes without its parts, all its child elements are attributes of environments, and each part in the last
element of each attribute passes on its own. Missing: the identifiers of the parts are different. -/
theorem C88_xml_partial (t : Str) (s : Option Str) (cs : List Xml) (hdc : ¬ py!"dataSpecificationContent" <:+ t) :
    PassesXml text lim (.elem t s cs) ↔ PassesXml text lim (.elem t s []) ∧
      ∀ pre y post, cs = pre ++ y :: post → (∃ f key cl, Slot f key cl ∧ y.tag = xmlns ++ key) ∧
        ((∀ u ∈ post, u.tag ≠ y.tag) → y.children ≠ [] ∧ ∀ z ∈ y.children, PassesXml text lim (.elem t s [.elem y.tag y.text [z]])) := by
  constructor
  · intro h
    obtain ⟨h1, h2, h3, h4⟩ := (passesXml_parts hdc).mp h
    refine ⟨(passesXml_parts hdc).mpr ⟨h1, h2, .inl rfl, fun pre y post e => by simp at e⟩, fun pre y post e => ?_⟩
    obtain ⟨f, key, cl, hs, ht, h⟩ := h4 pre y post e
    refine ⟨⟨f, key, cl, hs, ht⟩, fun hl => ⟨(h hl).1, fun z hz => ?_⟩⟩
    refine (passesXml_parts hdc).mpr ⟨h1, h2, .inr (h3.resolve_left (by rw [e]; simp)), fun pre' y' post' e' => ?_⟩
    obtain ⟨rfl, rfl, rfl⟩ : pre' = [] ∧ y' = .elem y.tag y.text [z] ∧ post' = [] := by
      cases pre' with
      | nil => simp only [List.nil_append, List.cons.injEq] at e'; exact ⟨rfl, e'.1.symm, e'.2.symm⟩
      | cons _ _ => simp at e'
    exact ⟨f, key, cl, hs, ht, fun _ => ⟨by simp [Xml.children], fun z' hz' => by
      obtain rfl := List.mem_singleton.mp (show z' ∈ [z] from hz')
      exact (h hl).2 _ hz⟩⟩
  · rintro ⟨h, hall⟩
    obtain ⟨h1, h2, -, -⟩ := (passesXml_parts hdc).mp h
    have hlast : ∀ pre y post, cs = pre ++ y :: post → (∀ u ∈ post, u.tag ≠ y.tag) → xmlns.length < t.length ∧ ∃ f key cl, Slot f key cl ∧ y.tag = xmlns ++ key ∧
        y.children ≠ [] ∧ ∀ z ∈ y.children, ∃ u, XAccepts (schema lim) (.cls cl) z u ∧ Sound lim f u := by
      intro pre y post e hl
      obtain ⟨⟨f, key, cl, hs, ht⟩, h⟩ := hall pre y post e
      obtain ⟨hne, hz⟩ := h hl
      have hone : ∀ z ∈ y.children, xmlns.length < t.length ∧ ∃ u, XAccepts (schema lim) (.cls cl) z u ∧ Sound lim f u := by
        intro z hzm
        obtain ⟨-, -, h3, h4⟩ := (passesXml_parts hdc).mp (hz z hzm)
        obtain ⟨f', key', cl', hs', ht', h'⟩ := h4 [] _ [] rfl
        obtain rfl := List.append_cancel_left (ht.symm.trans ht')
        obtain ⟨rfl, rfl⟩ := slot_key hs hs'
        exact ⟨h3.resolve_left (by simp), (h' (fun u hu => by cases hu)).2 z (.head _)⟩
      refine ⟨?_, f, key, cl, hs, ht, hne, fun z hz => (hone z hz).2⟩
      cases hc : y.children with
      | nil => exact absurd hc hne
      | cons z _ => exact (hone z (by rw [hc]; exact .head _)).1
    refine (passesXml_parts hdc).mpr ⟨h1, h2, ?_, fun pre y post e => ?_⟩
    · cases cs with
      | nil => exact .inl rfl
      | cons y cs =>
        obtain ⟨pre, y', post, e1, e2, e3⟩ := last_exists (l := y :: cs) (t := y.tag) ⟨y, .head _, rfl⟩
        exact .inr (hlast pre y' post e1 (fun u hu => e2 ▸ e3 u hu)).1
    · obtain ⟨⟨f, key, cl, hs, ht⟩, -⟩ := hall pre y post e
      refine ⟨f, key, cl, hs, ht, fun hl => ?_⟩
      obtain ⟨-, f', key', cl', hs', ht', h'⟩ := hlast pre y post e hl
      obtain rfl := List.append_cancel_left (ht.symm.trans ht')
      obtain ⟨rfl, rfl⟩ := slot_key hs hs'
      exact h'

/-- Identifiers are not compared in XML either: whatever passes once, passes twice in the same environment. -/
theorem C88_xml_unique_ids_violated (t : Str) (s : Option Str) (hdc : ¬ py!"dataSpecificationContent" <:+ t) (k : Str) (tx : Option Str) (y : Xml)
    (h : PassesXml text lim (.elem t s [.elem k tx [y]])) : PassesXml text lim (.elem t s [.elem k tx [y, y]]) := by
  obtain ⟨h0, h1⟩ := (C88_xml_partial text lim t s _ hdc).mp h
  refine (C88_xml_partial text lim t s _ hdc).mpr ⟨h0, fun pre y' post e => ?_⟩
  obtain ⟨rfl, rfl, rfl⟩ : pre = [] ∧ y' = .elem k tx [y, y] ∧ post = [] := by
    cases pre with
    | nil => simp only [List.nil_append, List.cons.injEq] at e; exact ⟨rfl, e.1.symm, e.2.symm⟩
    | cons _ _ => simp at e
  refine ⟨(h1 [] _ [] rfl).1, fun _ => ⟨by simp [Xml.children], fun z hz => ?_⟩⟩
  have : z = y := by simpa [Xml.children] using hz
  rw [this]
  exact h

/-- Not every part is looked at: if an attribute is given again later, the first one can hold anything. -/
theorem C88_xml_shadowed_violated (t : Str) (s : Option Str) (hdc : ¬ py!"dataSpecificationContent" <:+ t) (pre post : List Xml) (y y' : Xml)
    (hy : y'.tag = y.tag) (hlater : ∃ z ∈ post, z.tag = y.tag) (h : PassesXml text lim (.elem t s (pre ++ y :: post))) :
    PassesXml text lim (.elem t s (pre ++ y' :: post)) := by
  obtain ⟨w, ha, hsound⟩ := passesXml_iff.mp h
  obtain ⟨h1, h2, h3, h4, a, b, c, hw, h5⟩ := (xenv hdc).mp ha
  have hmem : ∀ z ∈ pre ++ y' :: post, z = y' ∨ z ∈ pre ++ y :: post := by
    intro z hz
    simp only [List.mem_append, List.mem_cons] at hz ⊢
    rcases hz with h | h | h
    · exact .inr (.inl h)
    · exact .inl h
    · exact .inr (.inr (.inr h))
  have hmem' : ∀ z ∈ pre ++ y :: post, z = y ∨ z ∈ pre ++ y' :: post := by
    intro z hz
    simp only [List.mem_append, List.mem_cons] at hz ⊢
    rcases hz with h | h | h
    · exact .inr (.inl h)
    · exact .inl h
    · exact .inr (.inr (.inr h))
  refine passesXml_iff.mpr ⟨w, (xenv hdc).mpr ⟨h1, h2, .inr (h3.resolve_left (by simp)), fun z hz => ?_, a, b, c, hw, fun f key cl hs => ?_⟩, hsound⟩
  · rcases hmem z hz with rfl | hz
    · rw [hy]; exact h4 y (by simp)
    · exact h4 z hz
  · obtain ⟨g1, g2⟩ := h5 f key cl hs
    refine ⟨fun p z q e1 e2 e3 => ?_, fun hn => g2 fun z hz => ?_⟩
    · obtain ⟨p', z', q', e1', e2', e3'⟩ := last_exists (l := pre ++ y :: post) (t := xmlns ++ key) (by
        rcases hmem z (by rw [e1]; simp) with rfl | hz
        · exact ⟨y, by simp, hy ▸ e2⟩
        · exact ⟨z, hz, e2⟩)
      have hf : ∀ x : Xml, x.tag = y.tag → ((pre ++ x :: post).filter (fun z => decide (z.tag = xmlns ++ key))).getLast? =
          ((pre ++ post).filter (fun z => decide (z.tag = xmlns ++ key))).getLast? := by
        intro x hx
        rw [List.filter_append, List.filter_append, List.getLast?_append, List.getLast?_append]
        by_cases hk : x.tag = xmlns ++ key
        · rw [List.filter_cons_of_pos (by simpa using hk)]
          obtain ⟨v, hv, hvt⟩ := hlater
          cases hq : post.filter (fun z => decide (z.tag = xmlns ++ key)) with
          | nil =>
            have := List.filter_eq_nil_iff.mp hq v hv
            simp [hvt, ← hx, hk] at this
          | cons b l => simp [List.getLast?_cons_cons]
        · rw [List.filter_cons_of_neg (by simpa using hk)]
      have := split_filter e1 e2 e3
      rw [hf y' hy, ← hf y rfl, split_filter e1' e2' e3'] at this
      cases this
      exact g1 p' z q' e1' e2' e3'
    · rcases hmem' z hz with rfl | hz
      · rw [← hy]; exact hn y' (by simp)
      · exact hn z hz

/-! ## examples -/

def xmlA : Xml := el py!"submodel" none [tx py!"id" py!"urn:a"]
def xmlB (idShort : Str) : Xml := el py!"conceptDescription" none [tx py!"id" py!"urn:a", tx py!"idShort" idShort]

def passesX (cs : List Xml) : Except PyExc Bool :=
  (checkXmlData (engine (fun _ => []) none) (el py!"environment" none cs) py!"Environment").map (fun r => r.ok)

theorem passesX_sound {cs : List Xml} (h : passesX cs = .ok true) : PassesXml (fun _ => []) none (el py!"environment" none cs) := by
  unfold passesX at h
  cases hr : checkXmlData (engine (fun _ => []) none) (el py!"environment" none cs) py!"Environment" with
  | error e => rw [hr] at h; cases h
  | ok r => rw [hr] at h; exact ⟨r, hr, by injection h⟩

/-- a submodel, a concept description with the same identifier, both; a wrong concept description, and both; an unknown attribute, an empty list -/
example : passesX [el py!"submodels" none [xmlA]] = .ok true ∧ passesX [el py!"conceptDescriptions" none [xmlB py!"c"]] = .ok true ∧
    passesX [el py!"conceptDescriptions" none [xmlB py!"c"], el py!"submodels" none [xmlA]] = .ok true ∧
    passesX [el py!"conceptDescriptions" none [xmlB py!"1"]] = .ok false ∧
    passesX [el py!"conceptDescriptions" none [xmlB py!"1"], el py!"submodels" none [xmlA]] = .ok false ∧
    passesX [el py!"parts" none [xmlA]] = .ok false ∧ passesX [el py!"submodels" none []] = .ok false := by decide +kernel

/-- the same submodel twice -/
example : PassesXml (fun _ => []) none (el py!"environment" none [el py!"submodels" none [xmlA, xmlA]]) :=
  C88_xml_unique_ids_violated _ _ _ _ (by decide +kernel) _ _ _ (passesX_sound (cs := [el py!"submodels" none [xmlA]]) (by decide +kernel))

/-- a wrong list of submodels in front of a right one -/
example (y : Xml) : PassesXml (fun _ => []) none (el py!"environment" none [el py!"submodels" none [y], el py!"submodels" none [xmlA]]) :=
  C88_xml_shadowed_violated _ _ _ _ (by decide +kernel) [] [el py!"submodels" none [xmlA]] (el py!"submodels" none [xmlA]) _ rfl
    ⟨_, .head _, rfl⟩ (passesX_sound (cs := [el py!"submodels" none [xmlA], el py!"submodels" none [xmlA]]) (by decide +kernel))

/-- the lines of an environment with a broken rule are those of its parts -/
example (w : AVal) (h : XAccepts (schema none) (.cls .environment) (sampleXml py!"wrong") w) (p : List PTok) (t : Str) (hb : Breaks none w p t .error) :
    ∃ f key cl i u q, Slot f key cl ∧ (elems w f)[i]? = some u ∧ p = .key f.pyName :: .idx i :: q ∧ Breaks none u q t .error :=
  (C88_xml_lines _ _ _ (by decide +kernel) w h p t .error).mp hb

end Verif.Props
