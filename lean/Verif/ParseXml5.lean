import Verif.ParseXml4

/-! # Serialised objects are in the XML format -/

namespace Verif.Parse
open Verif Verif.Spec.Parse

section
variable {C E S F : Type}

/-- the element for an attribute -/
def attrXml (sc : Schema C E S F) (key : Str) (ty : Ty C E S) (v : Val C E S F) : Xml :=
  match ty with
  | .cls d => if sc.abstract d then .elem (xmlns ++ key) none [toXml sc (itemTag sc v) v] else toXml sc key v
  | _ => toXml sc key v

theorem toXml_tag (sc : Schema C E S F) (tag : Str) (v : Val C E S F) : (toXml sc tag v).tag = xmlns ++ tag := by
  cases v <;> simp [toXml, Xml.tag]

theorem attrXml_tag (sc : Schema C E S F) (key : Str) (ty : Ty C E S) (v : Val C E S F) : (attrXml sc key ty v).tag = xmlns ++ key := by
  unfold attrXml
  split
  · split
    · rfl
    · exact toXml_tag ..
  · exact toXml_tag ..

theorem toXmlA_cons {sc : Schema C E S F} {f : F} {key ty req} {fs : List (Field C E S F)} {a : F × Val C E S F}
    {as : List (F × Val C E S F)} (h : a.2 ≠ .none) : toXmlA sc (⟨f, .attr key ty req⟩ :: fs) (a :: as) =
      attrXml sc key ty a.2 :: toXmlA sc fs as := by
  obtain ⟨g, v⟩ := a
  cases v with
  | none => simp at h
  | _ => cases ty <;> simp [toXmlA, attrXml]

theorem toXmlA_tags (sc : Schema C E S F) : ∀ (fs : List (Field C E S F)) (as : List (F × Val C E S F)),
    List.Sublist ((toXmlA sc fs as).map Xml.tag) ((allKeys fs).map (xmlns ++ ·))
  | [], as => by cases as <;> simp [toXmlA]
  | ⟨f, .excluded⟩ :: fs, [] => by simp [toXmlA]
  | ⟨f, .excluded⟩ :: fs, a :: as => by simpa [toXmlA, allKeys] using toXmlA_tags sc fs as
  | ⟨f, .attr key ty req⟩ :: fs, [] => by simp [toXmlA]
  | ⟨f, .attr key ty req⟩ :: fs, (g, v) :: as => by
    by_cases hv : v = .none
    · subst hv
      simp only [toXmlA]
      exact List.Sublist.cons _ (toXmlA_tags sc fs as)
    · rw [toXmlA_cons hv, List.map_cons, attrXml_tag]
      exact List.Sublist.cons_cons _ (toXmlA_tags sc fs as)

theorem toXmlA_mem (sc : Schema C E S F) : ∀ (fs : List (Field C E S F)) (as : List (F × Val C E S F)),
    (allKeys fs).Nodup → ∀ f key ty req g v, (Field.mk f (.attr key ty req), g, v) ∈ fs.zip as →
    (v ≠ .none → attrXml sc key ty v ∈ toXmlA sc fs as) ∧
    (∀ y ∈ toXmlA sc fs as, y.tag = xmlns ++ key → v ≠ .none ∧ y = attrXml sc key ty v)
  | [], as, _, _, _, _, _, _, _, h => by simp at h
  | _ :: _, [], _, _, _, _, _, _, _, h => by simp at h
  | ⟨f', .excluded⟩ :: fs, a :: as, hn, f, key, ty, req, g, v, h => by
    simp only [toXmlA]
    simp only [List.zip_cons_cons, List.mem_cons, Prod.mk.injEq, Field.mk.injEq, reduceCtorEq, and_false, false_and, false_or] at h
    exact toXmlA_mem sc fs as (by simpa [allKeys] using hn) f key ty req g v h
  | ⟨f', .attr key' ty' req'⟩ :: fs, a :: as, hn, f, key, ty, req, g, v, h => by
    have hn' : key' ∉ allKeys fs ∧ (allKeys fs).Nodup := by
      have : allKeys (⟨f', .attr key' ty' req'⟩ :: fs) = key' :: allKeys fs := by simp [allKeys]
      rw [this, List.nodup_cons] at hn
      exact hn
    have sub : ∀ y ∈ toXmlA sc fs as, ∃ k ∈ allKeys fs, xmlns ++ k = y.tag := by
      intro y hy
      simpa using (toXmlA_tags sc fs as).subset (List.mem_map.mpr ⟨y, hy, rfl⟩)
    have notag : ∀ y ∈ toXmlA sc fs as, y.tag ≠ xmlns ++ key' := by
      intro y hy e
      obtain ⟨k, hk, e'⟩ := sub y hy
      exact hn'.1 (List.append_cancel_left (e'.trans e) ▸ hk)
    simp only [List.zip_cons_cons, List.mem_cons] at h
    rcases h with h | h
    · obtain ⟨⟨rfl, rfl, rfl, rfl⟩, rfl⟩ : (f = f' ∧ key = key' ∧ ty = ty' ∧ req = req') ∧ (g, v) = a := by
        simpa using h
      refine ⟨fun hv => by rw [toXmlA_cons hv]; simp, ?_⟩
      intro y hy ht
      by_cases hv : v = .none
      · subst hv
        simp only [toXmlA] at hy
        exact absurd ht (notag y hy)
      · rw [toXmlA_cons hv] at hy
        rcases List.mem_cons.mp hy with rfl | hy
        · exact ⟨hv, rfl⟩
        · exact absurd ht (notag y hy)
    · have ih := toXmlA_mem sc fs as hn'.2 f key ty req g v h
      have hk : key ≠ key' := by
        rintro rfl
        exact hn'.1 (mem_allKeys.mpr ⟨f, ty, req, (List.of_mem_zip h).1⟩)
      by_cases hv : a.2 = .none
      · obtain ⟨x, y⟩ := a
        simp only at hv
        subst hv
        simpa [toXmlA] using ih
      · rw [toXmlA_cons hv]
        refine ⟨fun h => List.mem_cons_of_mem _ (ih.1 h), fun y hy ht => ?_⟩
        rcases List.mem_cons.mp hy with rfl | hy
        · rw [attrXml_tag] at ht
          exact absurd (List.append_cancel_left ht).symm hk
        · exact ih.2 y hy ht

theorem toXmlL_eq (sc : Schema C E S F) (l : List (Val C E S F)) : toXmlL sc l = l.map (fun v => toXml sc (itemTag sc v) v) := by
  induction l with
  | nil => rfl
  | cons v l ih => simp [toXmlL, ih]

theorem noText_none (t : Str) (cs : List Xml) : NoText (.elem t none cs) := by intro s h; cases h

theorem HasType.xml {sc : Schema C E S F} (hx : XmlNames sc) (hd : DistinctKeys sc) : ∀ {v : Val C E S F} {ty}, HasType sc ty v →
    ∀ pos tag, (pos ≠ .attr → ∀ c, ty = .cls c → tag = itemTag sc v) →
    (pos = .attr → ∀ c, ty = .cls c → sc.abstract c = false ∧ sc.needsModelType c = false) →
    XDescribes sc false pos ty (toXml sc tag v) (strip v)
  | v, ty, h => by
    cases h with
    | str s => intro pos tag hpos hattr; simp only [toXml, strip]; exact .str (x := .elem _ (some s) []) (.inl rfl)
    | bool b =>
      intro pos tag hpos hattr
      simp only [toXml, strip]
      refine .bool (.inl rfl) ?_
      cases b
      · exact .inr (.inl ⟨rfl, rfl⟩)
      · exact .inl ⟨rfl, rfl⟩
    | any => intro pos tag hpos hattr; simp only [strip]; exact .any
    | enum h => intro pos tag hpos hattr; simp only [toXml, strip]; exact .enum (.inl rfl) rfl h
    | sfv h => intro pos tag hpos hattr; simp only [toXml, strip]; exact .sfv (.inl rfl) rfl h
    | @list it ae l hne h =>
      intro pos tag hpos hattr
      rw [strip_list, stripL_map]
      simp only [toXml, toXmlL_eq]
      refine .list (.inr (noText_none _ _)) ?_ (by simp [Xml.children]) ?_
      · rcases hne with h | h
        · left; simpa using h
        · exact .inr h
      · intro i y v hy hv
        simp only [Xml.children, List.getElem?_map] at hy hv
        obtain ⟨u, hu, rfl⟩ := Option.map_eq_some_iff.mp hy
        rw [hu] at hv
        simp only [Option.map_some, Option.some.injEq] at hv
        subst hv
        have hmem : u ∈ l := List.mem_of_getElem? hu
        exact HasType.xml hx hd (h u hmem) .item _ (fun _ _ _ => rfl) (fun h => by cases h)
    | @obj c c' attrs isA names typed required excluded =>
      intro pos tag hpos hattr
      rw [strip_obj]
      have hget := toXmlA_mem sc (sc.fields c') attrs (hd c')
      simp only [toXml]
      refine .obj isA ?_ ?_ (.inl (noText_none _ _)) ?_ (.inr ?_) ?_ ?_ ?_ ?_
      · intro hp
        obtain ⟨h1, h2⟩ := hattr hp c rfl
        rcases isA with ⟨-, rfl⟩ | ⟨h, -⟩
        · exact ⟨h1, h2⟩
        · rw [h1] at h; cases h
      · intro hp
        exact .inl (by rw [hpos hp c rfl]; rfl)
      · intro y hy
        have := (toXmlA_tags sc (sc.fields c') attrs).subset (List.mem_map.mpr ⟨y, hy, rfl⟩)
        simp only [List.mem_map] at this
        obtain ⟨k, hk, e⟩ := this
        exact ⟨k, hk, e.symm⟩
      · refine List.Nodup.sublist (toXmlA_tags sc (sc.fields c') attrs) ?_
        have := hd c'
        generalize allKeys (sc.fields c') = l at this
        induction l with
        | nil => simp
        | cons k l ih =>
          simp only [List.nodup_cons] at this
          rw [List.map_cons, List.nodup_cons]
          refine ⟨?_, ih this.2⟩
          simp only [List.mem_map, not_exists, not_and]
          intro k' hk' e
          exact this.1 (List.append_cancel_left e ▸ hk')
      · rw [stripA_map, List.map_map]; exact names
      · intro f key ty req w pre y post hz hsplit htag hlast
        obtain ⟨u, rfl, hu⟩ := zip_stripA hz
        obtain ⟨hne, rfl⟩ := (hget f key ty req f u hu).2 y (by
          have : y ∈ pre ++ y :: post := by simp
          rw [← hsplit] at this
          exact this) htag
        have hty := typed f key ty req u hu hne
        have hmem : (f, u) ∈ attrs := (List.of_mem_zip hu).2
        have ih := fun pos tag h1 h2 => HasType.xml hx hd hty pos tag h1 h2
        have hfield := (List.of_mem_zip hu).1
        unfold attrXml
        split
        · rename_i d
          split
          · rename_i hab
            rcases hx.abs _ _ _ _ _ hfield hab with rfl | ⟨-, rfl⟩
            · exact .wrapped hab (List.suffix_append _ _) (noText_none _ _) rfl
                (ih .inner _ (fun _ _ _ => rfl) (fun h => by cases h))
            · exact .value hab rfl (.inl (noText_none _ _)) rfl (ih .item _ (fun _ _ _ => rfl) (fun h => by cases h))
          · rename_i hab
            simp only [Bool.not_eq_true] at hab
            refine ih .attr key (fun h => absurd rfl h) (fun _ c hc => ?_)
            cases hc
            exact ⟨hab, (hx.conc _ _ _ _ _ hfield hab).1⟩
        · rename_i hnc
          exact ih .attr key (fun h => absurd rfl h) (fun _ c hc => absurd hc (hnc c))
      · intro f key ty req w hz hno
        obtain ⟨u, rfl, hu⟩ := zip_stripA hz
        have hun : u = .none := by
          by_cases h : u = .none
          · exact h
          · exact absurd (attrXml_tag sc key ty u) (hno _ ((hget f key ty req f u hu).1 h))
        subst hun
        refine ⟨?_, by simp [strip]⟩
        cases req with
        | false => rfl
        | true => exact absurd rfl (required f key ty _ hu)
      · intro f w hz
        obtain ⟨u, rfl, hu⟩ := zip_stripA hz
        rcases excluded f u hu with rfl | ⟨a, b, t, rfl⟩ <;> simp [strip]
termination_by v => sizeOf v
decreasing_by
  · have := List.sizeOf_lt_of_mem hmem
    simp_wf
    omega
  · have := List.sizeOf_lt_of_mem hmem
    simp_wf
    simp at this
    omega

end
end Verif.Parse
