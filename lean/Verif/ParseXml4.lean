import Verif.ParseXml3

/-! # Elements in the XML format of the meta-model can be read -/

namespace Verif.Parse
open Verif Verif.Spec.Parse

section
variable {C E S F A : Type}

theorem readF_of {ops : Ops A} {sc : Schema C E S F} (obj : List (Str × A)) : ∀ (fs : List (Field C E S F)) (as : List (F × Val C E S F)),
    as.map (·.1) = fs.map (·.name) → (∀ f v, (Field.mk f .excluded, f, v) ∈ fs.zip as → v = .none) →
    (∀ f key ty req v, (Field.mk f (.attr key ty req), f, v) ∈ fs.zip as → (dictGet key obj = none ∧ req = false ∧ v = .none) ∨
      ∃ a w, dictGet key obj = some a ∧ Read ops sc ty a w ∧ strip w = v) →
    ∃ ws, ReadF ops sc obj fs ws ∧ strip.stripA ws = as
  | [], as, h, _, _ => by
    simp only [List.map_nil, List.map_eq_nil_iff] at h
    subst h; exact ⟨_, .nil, rfl⟩
  | _ :: _, [], h, _, _ => by simp at h
  | ⟨f, slot⟩ :: fs, (g, v) :: as, h, he, hz => by
    simp only [List.map_cons, List.cons.injEq] at h
    obtain ⟨rfl, h⟩ := h
    obtain ⟨ws, h1, h2⟩ := readF_of obj fs as h (fun f v hm => he f v (by rw [List.zip_cons_cons]; exact List.mem_cons_of_mem _ hm))
      (fun f key ty req v hm => hz f key ty req v (by rw [List.zip_cons_cons]; exact List.mem_cons_of_mem _ hm))
    cases slot with
    | excluded =>
      have := he g v (by simp)
      subst this
      exact ⟨_, .excluded h1, by simp [strip.stripA, h2, strip]⟩
    | attr key ty req =>
      rcases hz g key ty req v (by simp) with ⟨k1, rfl, rfl⟩ | ⟨a, w, k1, k2, k3⟩
      · exact ⟨_, .absent k1 h1, by simp [strip.stripA, h2, strip]⟩
      · exact ⟨_, .present k1 k2 h1, by simp [strip.stripA, h2, k3]⟩

/-- the element that stands for an attribute -/
def EntryC (sc : Schema C E S F) (c : C) (key : Str) (x y : Xml) : Prop :=
  if sc.className c = py!"OperationVariable" ∧ key = py!"value" then x.children = [y] else y = x

def Readable (sc : Schema C E S F) (ty : Ty C E S) (v : Val C E S F) (x : Xml) (p : List PTok) : Prop :=
  ∃ w, Read xmlOps sc ty ⟨x, p⟩ w ∧ strip w = v

def Good (sc : Schema C E S F) : Pos → Ty C E S → Xml → Val C E S F → List PTok → Prop
  | .item, ty, x, v, p => Readable sc ty v x p
  | .attr, ty, x, v, p => ∀ c f key req, Field.mk f (.attr key ty req) ∈ sc.fields c → x.tag = xmlns ++ key →
      ∃ y, EntryC sc c key x y ∧ Readable sc ty v y p
  | .inner, ty, x, v, p => ∀ d, ty = .cls d → ∀ x' : Xml, py!"dataSpecificationContent" <:+ x'.tag → xmlns <+: x'.tag → NoText x' →
      x'.children = [x] → Readable sc ty v x' p

theorem good_simple {sc : Schema C E S F} (hx : XmlNames sc) {pos ty x v} {p : List PTok} (hty : ∀ d, ty ≠ .cls d)
    (h : Readable sc ty v x p) : Good sc pos ty x v p := by
  cases pos with
  | item => exact h
  | inner => exact fun d hd => absurd hd (hty d)
  | attr =>
    intro c f key req hf ht
    refine ⟨x, ?_, h⟩
    unfold EntryC
    rw [if_neg]
    rintro ⟨h1, rfl⟩
    obtain ⟨d, hd, -⟩ := hx.opVar _ _ _ _ h1 hf
    exact hty d hd

theorem nodup_split {X Y : Type} {f : X → Y} {l pre post : List X} {x : X} (hn : (l.map f).Nodup) (h : l = pre ++ x :: post) :
    ∀ z ∈ post, f z ≠ f x := by
  subst h
  simp only [List.map_append, List.map_cons, List.nodup_append, List.nodup_cons] at hn
  intro z hz e
  exact hn.2.1.1 (e ▸ List.mem_map.mpr ⟨z, hz, rfl⟩)

theorem zip_mem_of_names {fs : List (Field C E S F)} {as : List (F × Val C E S F)} (h : as.map (·.1) = fs.map (·.name)) {x : Field C E S F}
    (hx : x ∈ fs) : ∃ v, (x, x.name, v) ∈ fs.zip as := by
  induction fs generalizing as with
  | nil => simp at hx
  | cons y fs ih =>
    cases as with
    | nil => simp at h
    | cons a as =>
      simp only [List.map_cons, List.cons.injEq] at h
      rcases List.mem_cons.mp hx with rfl | hx
      · exact ⟨a.2, by rw [← h.1]; simp⟩
      · obtain ⟨v, hv⟩ := ih h.2 hx
        exact ⟨v, by rw [List.zip_cons_cons]; exact List.mem_cons_of_mem _ hv⟩

theorem xread_obj {sc : Schema C E S F} (a : XmlA) {x : Xml} {c' : C} {attrs : List (F × Val C E S F)} {mt : Str}
    (hd : XmlA.data a.value = .ok x) (hp : xmlns <+: a.value.tag) (hnt : NoText a.value)
    (hmt : XmlA.modelType a = .ok (some mt)) (hop : mt = py!"OperationVariable" ↔ sc.className c' = py!"OperationVariable")
    (hneed : sc.needsModelType c' = true → mt = sc.className c')
    (known : ∀ y ∈ x.children, ∃ key ∈ allKeys (sc.fields c'), y.tag = xmlns ++ key)
    (once : (x.children.map Xml.tag).Nodup)
    (names : attrs.map (·.1) = (sc.fields c').map (·.name))
    (present : ∀ f key ty req v pre y post, (Field.mk f (.attr key ty req), f, v) ∈ (sc.fields c').zip attrs →
        x.children = pre ++ y :: post → y.tag = xmlns ++ key → (∀ z ∈ post, z.tag ≠ xmlns ++ key) → ∀ p, Good sc .attr ty y v p)
    (absent : ∀ f key ty req v, (Field.mk f (.attr key ty req), f, v) ∈ (sc.fields c').zip attrs →
        (∀ y ∈ x.children, y.tag ≠ xmlns ++ key) → req = false ∧ v = .none)
    (excluded : ∀ f v, (Field.mk f .excluded, f, v) ∈ (sc.fields c').zip attrs → v = .none) :
    ∃ ws, ReadObj xmlOps sc c' a (.obj c' ws) ∧ strip.stripA ws = attrs := by
  have present' : ∀ f key ty req v y, (Field.mk f (.attr key ty req), f, v) ∈ (sc.fields c').zip attrs →
        y ∈ x.children → y.tag = xmlns ++ key → ∀ p, ∃ z, EntryC sc c' key y z ∧ Readable sc ty v z p := by
    intro f key ty req v y hz hy ht p
    obtain ⟨pre, post, hsplit⟩ := List.append_of_mem hy
    exact present f key ty req v pre y post hz hsplit ht (fun z hz' => by rw [← ht]; exact nodup_split once hsplit z hz') p
      c' f key req (List.of_mem_zip hz).1 ht
  obtain ⟨obj, hobj⟩ : ∃ obj, XmlA.members a x.children [] = .ok obj := by
    refine XmlA.members_exists hmt ?_ ?_
    · intro y hy
      obtain ⟨key, -, ht⟩ := known y hy
      exact ⟨key, ht.symm⟩
    · intro hmt' y hy ht
      obtain ⟨key, hkey, ht'⟩ := known y hy
      obtain rfl : key = py!"value" := List.append_cancel_left (ht'.symm.trans ht)
      obtain ⟨f, ty, req, hf⟩ := mem_allKeys.mp hkey
      obtain ⟨v, hz⟩ := zip_mem_of_names names hf
      obtain ⟨z, hz', -⟩ := present' f _ ty req v y hz hy ht []
      rw [EntryC, if_pos ⟨hop.mp (Option.some.inj hmt'), rfl⟩] at hz'
      exact ⟨z, hz'⟩
  obtain ⟨ws, h1, h2⟩ := readF_of (ops := xmlOps) (sc := sc) obj (sc.fields c') attrs names excluded (by
    intro f key ty req v hz
    rcases XmlA.members_get hmt hobj key with ⟨e, pre, y, post, g1, g2, g3, g4, g5⟩ | ⟨g1, g2⟩
    · right
      obtain ⟨z, hz', w, hw⟩ := present' f key ty req v y hz (by rw [g2]; simp) g3 e.path
      have : e.value = z := by
        unfold XmlA.Entry at g5
        unfold EntryC at hz'
        by_cases hc : sc.className c' = py!"OperationVariable" ∧ key = py!"value"
        · rw [if_pos hc] at hz'
          rw [if_pos ⟨congrArg some (hop.mpr hc.1), hc.2⟩] at g5
          rw [hz'] at g5
          simp only [List.cons.injEq, and_true] at g5
          exact g5.symm
        · rw [if_neg hc] at hz'
          rw [if_neg (fun h => hc ⟨hop.mp (Option.some.inj h.1), h.2⟩)] at g5
          rw [g5, hz']
      subst this
      exact ⟨e, w, g1, hw⟩
    · left
      obtain ⟨k1, k2⟩ := absent f key ty req v hz g1
      exact ⟨by rw [g2]; rfl, k1, k2⟩)
  refine ⟨ws, .mk (obj := obj) ?_ (fun h => by rw [← hneed h]; exact hmt) ?_ h1, h2⟩
  · exact XmlA.asObject_iff.mpr ⟨hp, hnt, x, hd, hobj⟩
  · intro e he
    rcases XmlA.mem_members hobj e he with h | ⟨y, hy, ht, -⟩
    · simp at h
    · obtain ⟨key, hkey, ht'⟩ := known y hy
      obtain rfl : key = e.1 := List.append_cancel_left (ht'.symm.trans ht)
      exact hkey

theorem read_cls {sc : Schema C E S F} (hs : Sane sc) {c c' : C} (isA : IsA sc c c') {a : XmlA} {ws attrs}
    (hm : sc.abstract c = true → XmlA.modelType a = .ok (some (sc.className c')))
    (h : ReadObj xmlOps sc c' a (.obj c' ws)) (hst : strip.stripA ws = attrs) :
    ∃ w, Read xmlOps sc (.cls c) a w ∧ strip w = .obj c' attrs := by
  obtain ⟨obj, hf⟩ : ∃ obj, ReadF xmlOps sc obj (sc.fields c') ws := by
    cases h with
    | mk _ _ _ h => exact ⟨_, h⟩
  rcases isA with ⟨hab, rfl⟩ | ⟨hab, hmem⟩
  · obtain ⟨w, hw1, hw2⟩ := HasType.post hs (hasType_obj.mpr ⟨.inl ⟨hab, rfl⟩, ReadF.typed hs xml_nonempty hf⟩)
    exact ⟨w, .concrete hab h hw1, by rw [hw2, strip_obj, hst]⟩
  · exact ⟨_, .abstract hab (hm hab) (find_subclass hs hmem) h, by rw [strip_obj, hst]⟩

theorem upperFirst_lowerFirst {name : Str} (hn : ∃ a s, name = a :: s ∧ 65 ≤ a ∧ a ≤ 90) : XmlA.upperFirst (lowerFirst name) = name :=
  (XmlA.upperFirst_iff hn).mpr (.inl rfl)

theorem lowerFirst_ne_nil {name : Str} (hn : ∃ a s, name = a :: s ∧ 65 ≤ a ∧ a ≤ 90) : lowerFirst name ≠ [] := by
  obtain ⟨a, s, rfl, -⟩ := hn
  simp [lowerFirst]

theorem XDescribes.read {sc : Schema C E S F} (hs : Sane sc) (hx : XmlNames sc) {pos ty x v} (h : XDescribes sc false pos ty x v) :
    ∀ p, Good sc pos ty x v p := by
  have htext : ∀ {x}, TextOnly false x → TextOnly true x := fun h => .inl (by simpa [TextOnly] using h)
  induction h with
  | str h => exact fun p => good_simple hx (by simp) ⟨_, .str (XmlA.asString_iff.mpr ⟨htext h, rfl⟩), rfl⟩
  | bool h h' =>
    refine fun p => good_simple hx (by simp) ⟨_, .bool (XmlA.asBool_iff.mpr ⟨htext h, ?_⟩), rfl⟩
    rcases h' with h | h | ⟨h, -⟩
    · exact .inl h
    · exact .inr (.inl h)
    · cases h
  | any => exact fun p => good_simple hx (by simp) ⟨_, .any, rfl⟩
  | enum h h' h'' => exact fun p => good_simple hx (by simp) ⟨_, .enum (XmlA.asString_iff.mpr ⟨htext h, h'⟩) h'', rfl⟩
  | sfv h h' h'' => exact fun p => good_simple hx (by simp) ⟨_, .sfv (XmlA.asString_iff.mpr ⟨htext h, h'⟩) h'', rfl⟩
  | @list _ it ae x vs text hne length items ih =>
    refine fun p => good_simple hx (by simp) ?_
    have hl : ∀ (cs : List Xml) (vs : List (Val C E S F)) (i : Nat), cs.length = vs.length →
        (∀ (i : Nat) (y : Xml) (v : Val C E S F), cs[i]? = some y → vs[i]? = some v → ∀ p, Good sc .item it y v p) →
        ∃ ws, ReadL xmlOps sc it (XmlA.items p i cs) ws ∧ strip.stripL ws = vs := by
      intro cs
      induction cs with
      | nil =>
        intro vs i h _
        cases vs with
        | nil => exact ⟨_, .nil, rfl⟩
        | cons v vs => simp at h
      | cons y cs ih2 =>
        intro vs i h hi
        cases vs with
        | nil => simp at h
        | cons v vs =>
          obtain ⟨ws, h1, h2⟩ := ih2 vs (i + 1) (by simpa using h) (fun i y v hy hv => hi (i + 1) y v (by simpa using hy) (by simpa using hv))
          obtain ⟨w, h3, h4⟩ := hi 0 y v rfl rfl (p ++ [.idx i])
          exact ⟨_, .cons h3 h1, by simp [strip.stripL, h2, h4]⟩
    obtain ⟨ws, h1, h2⟩ := hl x.children vs 0 length ih
    refine ⟨_, .list ?_ h1, by rw [strip_list, h2]⟩
    simp only [xmlOps, XmlA.asList]
    rw [if_neg]
    simp only [List.isEmpty_iff, Bool.and_eq_true, Bool.not_eq_eq_eq_not, Bool.not_true]
    rintro ⟨e1, e2⟩
    rcases hne with h | h
    · rw [e1] at length
      exact h (List.length_eq_zero_iff.mp length.symm)
    · simp [h] at e2
  | @obj pos c c' x attrs isA position called text known once names present absent excluded ih =>
    intro p
    have hnt : NoText x := by
      rcases text with h | ⟨h, -⟩
      · exact h
      · cases h
    have hnd : (x.children.map Xml.tag).Nodup := by
      rcases once with h | h
      · cases h
      · exact h
    have hcalled : pos ≠ .attr → x.tag = xmlns ++ lowerFirst (sc.className c') := by
      intro hp
      rcases called hp with h | ⟨h, -⟩
      · exact h
      · cases h
    have hmt : ∀ a : XmlA, pos ≠ .attr → XmlA.data a.value = .ok x → XmlA.modelType a = .ok (some (sc.className c')) := by
      intro a hp hd
      refine XmlA.modelType_iff.mpr ⟨x, hd, ?_, ?_⟩
      · rw [hcalled hp, XmlA.ns_eq, List.drop_left]
        exact lowerFirst_ne_nil (hx.upper c')
      · rw [hcalled hp, XmlA.ns_eq, List.drop_left]
        exact upperFirst_lowerFirst (hx.upper c')
    cases pos with
    | item =>
      have hd : XmlA.data (⟨x, p⟩ : XmlA).value = .ok x := XmlA.data_iff.mpr (.inr ⟨by
        rw [hcalled (by decide)]
        exact (hx.noContent _ _ isA).1, rfl⟩)
      have hm := hmt ⟨x, p⟩ (by decide) hd
      obtain ⟨ws, h1, h2⟩ := xread_obj ⟨x, p⟩ hd (by rw [hcalled (by decide)]; exact List.prefix_append _ _) hnt hm Iff.rfl (fun _ => rfl)
        known hnd names ih absent excluded
      exact read_cls hs isA (fun _ => hm) h1 h2
    | inner =>
      intro d _ x' hc hp hnt' hch
      have hd : XmlA.data (⟨x', p⟩ : XmlA).value = .ok x := XmlA.data_iff.mpr (.inl ⟨hc, hch⟩)
      have hm := hmt ⟨x', p⟩ (by decide) hd
      obtain ⟨ws, h1, h2⟩ := xread_obj ⟨x', p⟩ hd hp hnt' hm Iff.rfl (fun _ => rfl) known hnd names ih absent excluded
      exact read_cls hs isA (fun _ => hm) h1 h2
    | attr =>
      intro c0 f key req hf ht
      obtain ⟨hab, hneed⟩ := position rfl
      obtain rfl : c' = c := by
        rcases isA with ⟨-, h⟩ | ⟨h, -⟩
        · exact h
        · rw [hab] at h; cases h
      obtain ⟨-, k1, k2, k3, k4, k5⟩ := hx.conc _ _ _ _ _ hf hab
      refine ⟨x, ?_, ?_⟩
      · unfold EntryC
        rw [if_neg]
        rintro ⟨h1, rfl⟩
        obtain ⟨d, hd, hab'⟩ := hx.opVar _ _ _ _ h1 hf
        cases hd
        rw [hab] at hab'; cases hab'
      · have hd : XmlA.data (⟨x, p⟩ : XmlA).value = .ok x := XmlA.data_iff.mpr (.inr ⟨by rw [ht]; exact k2, rfl⟩)
        have hm : XmlA.modelType ⟨x, p⟩ = .ok (some (XmlA.upperFirst key)) :=
          XmlA.modelType_iff.mpr ⟨x, hd, by rw [ht, XmlA.ns_eq, List.drop_left]; exact k5, by rw [ht, XmlA.ns_eq, List.drop_left]⟩
        have hne : XmlA.upperFirst key ≠ py!"OperationVariable" := by
          rw [Ne, XmlA.upperFirst_iff ⟨79, _, rfl, by decide, by decide⟩]
          rintro (h | h | ⟨s, h, -⟩ | ⟨s, h, -⟩)
          · exact k3 h
          · exact k4 h
          · cases h
          · cases h
        obtain ⟨ws, h1, h2⟩ := xread_obj ⟨x, p⟩ hd (by rw [ht]; exact List.prefix_append _ _) hnt hm
          ⟨fun h => absurd h hne, fun h => absurd h k1⟩ (fun h => by rw [hneed] at h; cases h) known hnd names ih absent excluded
        exact read_cls hs isA (fun h => by rw [hab] at h; cases h) h1 h2
  | @wrapped c x y v abs name text child content ih =>
    intro p c0 f key req hf ht
    rcases hx.abs _ _ _ _ _ hf abs with rfl | ⟨-, rfl⟩
    · refine ⟨x, ?_, ih p c rfl x name (by rw [ht]; exact List.prefix_append _ _) text child⟩
      unfold EntryC
      rw [if_neg (by rintro ⟨-, h⟩; cases h)]
    · rw [ht] at name
      exact absurd name (by decide)
  | @value c x y v abs name text child content ih =>
    intro p c0 f key req hf ht
    obtain rfl : key = py!"value" := List.append_cancel_left (ht.symm.trans name)
    rcases hx.abs _ _ _ _ _ hf abs with h | ⟨h, -⟩
    · cases h
    · exact ⟨y, by rw [EntryC, if_pos ⟨h, rfl⟩]; exact child, ih p⟩
  | wrappedItem tol => cases tol
  | wrappedValue tol => cases tol

end
end Verif.Parse
