import Verif.FaultLemmas2

/-! # The reports on XML documents -/

namespace Verif.Parse
open Verif Verif.Spec.Parse

section
variable {C E S F : Type}

theorem keys_dictSet {α : Type} {k : Str} {v : α} : ∀ {l : List (Str × α)}, (l.map (·.1)).Nodup → ((XmlA.dictSet k v l).map (·.1)).Nodup
  | [], _ => by simp [XmlA.dictSet]
  | (k', v') :: l, h => by
    unfold XmlA.dictSet
    simp only [List.map_cons, List.nodup_cons] at h
    split
    · simpa using h
    · rename_i hk
      simp only [List.map_cons, List.nodup_cons]
      refine ⟨fun hm => ?_, keys_dictSet h.2⟩
      obtain ⟨e, he, hke⟩ := List.mem_map.mp hm
      rcases XmlA.mem_dictSet he with rfl | he
      · exact hk hke.symm
      · exact h.1 (hke ▸ List.mem_map_of_mem he)

theorem members_nodup {a : XmlA} : ∀ {cs : List Xml} {acc obj : List (Str × XmlA)}, XmlA.members a cs acc = .ok obj →
    (acc.map (·.1)).Nodup → (obj.map (·.1)).Nodup
  | [], acc, obj, h, hn => by cases h; exact hn
  | c :: cs, acc, obj, h, hn => by
    unfold XmlA.members at h
    split at h
    · dsimp only at h
      split at h
      · cases h
      · split at h
        · split at h
          · cases h
          · exact members_nodup h (keys_dictSet hn)
        · exact members_nodup h (keys_dictSet hn)
    · cases h

theorem xml_places : xmlOps.Places (fun _ => True) := by
  constructor
  · intro a obj _ h
    change XmlA.asObject a = _ at h
    obtain ⟨-, -, d, -, h⟩ := XmlA.asObject_iff.mp h
    refine ⟨members_nodup h List.nodup_nil, fun e he => ?_⟩
    rcases XmlA.mem_members h e he with h1 | ⟨c, -, -, h2, -⟩
    · cases h1
    · exact ⟨h2, trivial⟩
  · intro a ae as _ h i b hb
    change XmlA.asList a ae = _ at h
    obtain ⟨-, rfl⟩ := XmlA.asList_ok h
    rw [XmlA.items_eq, List.getElem?_mapIdx] at hb
    cases hl : a.value.children[i]? with
    | none => rw [hl] at hb; cases hb
    | some j =>
      rw [hl] at hb
      cases hb
      refine ⟨?_, trivial⟩
      change a.path ++ [PTok.idx (0 + i)] = _
      rw [Nat.zero_add]; rfl

theorem xml_data (x : Xml) : (∃ d, Content x d ∧ XmlA.data x = .ok d) ∨ ((∀ d, ¬ Content x d) ∧ XmlA.data x = .error (.adapter .notOneChild)) := by
  cases h : XmlA.data x with
  | ok d => exact .inl ⟨d, content_iff.mpr h, rfl⟩
  | error e =>
    refine .inr ⟨fun d hd => ?_, ?_⟩
    · rw [content_iff, h] at hd; cases hd
    · unfold XmlA.data at h
      split at h
      · unfold XmlA.singleChild at h
        split at h
        · cases h
        · exact h.symm
      · cases h

theorem content_unique {x d d' : Xml} (h : Content x d) (h' : Content x d') : d' = d := by
  rw [content_iff] at h h'
  rw [h] at h'
  cases h'
  rfl

/-- the name of the content -/
def typeOf (d : Xml) : Str := XmlA.upperFirst (d.tag.drop xmlns.length)

theorem xml_modelType (a : XmlA) :
    ((∀ d, ¬ Content a.value d) ∧ XmlA.modelType a = .error (.adapter .notOneChild)) ∨
    (∃ d, Content a.value d ∧ HasName d ∧ XmlA.modelType a = .ok (some (typeOf d))) ∨
    (∃ d, Content a.value d ∧ ¬ HasName d ∧ XmlA.modelType a = .error (.py .indexError)) := by
  rcases xml_data a.value with ⟨d, h1, h2⟩ | ⟨h1, h2⟩
  · by_cases hn : HasName d
    · exact .inr (.inl ⟨d, h1, hn, modelType_named h2 hn⟩)
    · refine .inr (.inr ⟨d, h1, hn, ?_⟩)
      unfold XmlA.modelType
      rw [h2]
      have : d.tag.drop XmlA.ns.length = [] := List.drop_eq_nil_of_le (Nat.not_lt.mp hn)
      unfold XmlA.modelTypeOf
      dsimp only
      rw [this]
  · exact .inl ⟨h1, by unfold XmlA.modelType; rw [h2]⟩

theorem xml_chosen {sc : Schema C E S F} (hs : Sane sc) (hx : XmlNames sc) {a : XmlA} {d} (hd : Content a.value d) {c c'} :
    Chosen xmlOps sc c a c' ↔ XReadAs sc c c' d := by
  unfold Chosen XReadAs
  refine or_congr .rfl (and_congr .rfl ?_)
  change (∃ d, XmlA.modelType a = .ok d ∧ _) ↔ _
  rcases xml_modelType a with ⟨h, -⟩ | ⟨d', h1, h2, h3⟩ | ⟨d', h1, h2, h3⟩
  · exact absurd hd (h d)
  · obtain rfl := content_unique hd h1
    rw [h3]
    constructor
    · rintro ⟨m, e, h⟩
      cases e
      obtain ⟨h4, h5⟩ := (find_class hs).mp h
      exact ⟨h4, (called_iff hx).mpr (Option.some.inj h5)⟩
    · rintro ⟨h4, h5⟩
      exact ⟨_, rfl, (find_class hs).mpr ⟨h4, congrArg some ((called_iff hx).mp h5)⟩⟩
  · obtain rfl := content_unique hd h1
    rw [h3]
    constructor
    · rintro ⟨m, e, h⟩; cases e
    · rintro ⟨-, h5⟩
      have h6 := (called_iff hx).mp h5
      have : d'.tag.drop xmlns.length = [] := List.drop_eq_nil_of_le (Nat.not_lt.mp h2)
      rw [this] at h6
      obtain ⟨a, s, h7, -⟩ := hx.upper c'
      rw [h7] at h6
      cases h6

theorem opValue_iff {d y : Xml} : IsOpValue d y ↔ some (typeOf d) = some py!"OperationVariable" ∧ xmlns <+: y.tag ∧ y.tag.drop xmlns.length = py!"value" := by
  rw [IsOpValue, called_opVar, Option.some.injEq]
  refine and_congr .rfl ⟨fun h => ?_, ?_⟩
  · rw [h]; exact ⟨List.prefix_append _ _, List.drop_left⟩
  · rintro ⟨⟨t, h1⟩, h2⟩
    rw [← h1, List.drop_left] at h2
    rw [← h1, h2]

theorem singleChild_cases (y : Xml) : (∃ z, y.children = [z] ∧ XmlA.singleChild y = .ok z) ∨
    ((∀ z, y.children ≠ [z]) ∧ XmlA.singleChild y = .error (.adapter .notOneChild)) := by
  unfold XmlA.singleChild
  split
  · rename_i z h; exact .inl ⟨z, h, rfl⟩
  · rename_i h; exact .inr ⟨h, rfl⟩

theorem members_error {a : XmlA} {d : Xml} (hd : Content a.value d) : ∀ {cs : List Xml} {acc : List (Str × XmlA)} {k : Kind},
    XmlA.members a cs acc = .error (.adapter k) ↔ ∃ pre y post, cs = pre ++ y :: post ∧ (∀ z ∈ pre, Fine d z) ∧ (pre = [] ∨ HasName d) ∧
      ((¬ xmlns <+: y.tag ∧ k = .badNamespace) ∨ (HasName d ∧ xmlns <+: y.tag ∧ IsOpValue d y ∧ (∀ z, y.children ≠ [z]) ∧ k = .notOneChild))
  | [], acc, k => by simp [XmlA.members]
  | c :: cs, acc, k => by
    have step : Fine d c → HasName d → ((∃ pre y post, cs = pre ++ y :: post ∧ (∀ z ∈ pre, Fine d z) ∧ (pre = [] ∨ HasName d) ∧
          ((¬ xmlns <+: y.tag ∧ k = .badNamespace) ∨ (HasName d ∧ xmlns <+: y.tag ∧ IsOpValue d y ∧ (∀ z, y.children ≠ [z]) ∧ k = .notOneChild))) ↔
        ∃ pre y post, c :: cs = pre ++ y :: post ∧ (∀ z ∈ pre, Fine d z) ∧ (pre = [] ∨ HasName d) ∧
          ((¬ xmlns <+: y.tag ∧ k = .badNamespace) ∨ (HasName d ∧ xmlns <+: y.tag ∧ IsOpValue d y ∧ (∀ z, y.children ≠ [z]) ∧ k = .notOneChild))) := by
      intro hf hn
      constructor
      · rintro ⟨pre, y, post, rfl, h1, h2, h3⟩
        exact ⟨c :: pre, y, post, rfl, by simpa [hf] using h1, .inr hn, h3⟩
      · rintro ⟨pre, y, post, h0, h1, h2, h3⟩
        cases pre with
        | nil =>
          simp only [List.nil_append, List.cons.injEq] at h0
          obtain ⟨rfl, rfl⟩ := h0
          rcases h3 with ⟨h3, -⟩ | ⟨-, -, h4, h5, -⟩
          · exact absurd hf.1 h3
          · obtain ⟨z, hz⟩ := hf.2 h4
            exact absurd hz (h5 z)
        | cons x pre =>
          simp only [List.cons_append, List.cons.injEq] at h0
          obtain ⟨rfl, rfl⟩ := h0
          exact ⟨pre, y, post, rfl, fun z hz => h1 z (List.mem_cons_of_mem _ hz), .inr hn, h3⟩
    rw [XmlA.members]
    by_cases hp : xmlns <+: c.tag
    · rw [if_pos (show XmlA.ns <+: c.tag from hp)]
      rcases xml_modelType a with ⟨h, -⟩ | ⟨d', h1, h2, h3⟩ | ⟨d', h1, h2, h3⟩
      · exact absurd hd (h d)
      · obtain rfl := content_unique hd h1
        rw [h3]
        dsimp only
        by_cases hop : IsOpValue d' c
        · obtain ⟨g1, g2, g3⟩ := opValue_iff.mp hop
          rw [if_pos ⟨g1, g3⟩]
          rcases singleChild_cases c with ⟨z, hz, e⟩ | ⟨hz, e⟩
          · rw [e]
            exact (members_error hd).trans (step ⟨hp, fun _ => ⟨z, hz⟩⟩ h2)
          · rw [e]
            simp only [Except.error.injEq, AErr.adapter.injEq]
            constructor
            · rintro rfl
              exact ⟨[], c, cs, rfl, by simp, .inl rfl, .inr ⟨h2, hp, hop, hz, rfl⟩⟩
            · rintro ⟨pre, y, post, h0, h1, -, h3⟩
              cases pre with
              | nil =>
                simp only [List.nil_append, List.cons.injEq] at h0
                obtain ⟨rfl, rfl⟩ := h0
                rcases h3 with ⟨h3, -⟩ | ⟨-, -, -, -, rfl⟩
                · exact absurd hp h3
                · rfl
              | cons x pre =>
                simp only [List.cons_append, List.cons.injEq] at h0
                obtain ⟨rfl, rfl⟩ := h0
                obtain ⟨z, hz'⟩ := (h1 c (by simp)).2 hop
                exact absurd hz' (hz z)
        · rw [if_neg (fun h => hop (opValue_iff.mpr ⟨h.1, hp, h.2⟩))]
          exact (members_error hd).trans (step ⟨hp, fun h => absurd h hop⟩ h2)
      · obtain rfl := content_unique hd h1
        rw [h3]
        simp only [Except.error.injEq, reduceCtorEq, false_iff]
        rintro ⟨pre, y, post, h0, -, h1, h4⟩
        cases pre with
        | nil =>
          simp only [List.nil_append, List.cons.injEq] at h0
          obtain ⟨rfl, rfl⟩ := h0
          rcases h4 with ⟨h4, -⟩ | ⟨h4, -⟩
          · exact h4 hp
          · exact h2 h4
        | cons x pre => exact h1.elim (by simp) h2
    · rw [if_neg (show ¬ XmlA.ns <+: c.tag from hp)]
      simp only [Except.error.injEq, AErr.adapter.injEq]
      constructor
      · rintro rfl
        exact ⟨[], c, cs, rfl, by simp, .inl rfl, .inl ⟨hp, rfl⟩⟩
      · rintro ⟨pre, y, post, h0, h1, -, h3⟩
        cases pre with
        | nil =>
          simp only [List.nil_append, List.cons.injEq] at h0
          obtain ⟨rfl, rfl⟩ := h0
          rcases h3 with ⟨-, rfl⟩ | ⟨-, h3, -⟩
          · rfl
          · exact absurd h3 hp
        | cons x pre =>
          simp only [List.cons_append, List.cons.injEq] at h0
          obtain ⟨rfl, rfl⟩ := h0
          exact absurd (h1 c (by simp)).1 hp

theorem called_named {d : Xml} (h : Called d py!"OperationVariable") : HasName d := by
  have h1 := called_opVar.mp h
  refine Nat.not_le.mp fun hl => ?_
  rw [List.drop_eq_nil_of_le hl] at h1
  cases h1

theorem asObject_bad {a : XmlA} {k : Kind} : XmlA.asObject a = .error (.adapter k) ↔ Bad a.value k := by
  unfold XmlA.asObject
  by_cases hp : xmlns <+: a.value.tag
  · rw [if_pos (show XmlA.ns <+: a.value.tag from hp)]
    by_cases ht : NoText a.value
    · rw [XmlA.assertNoText_iff.mpr ht]
      dsimp only
      rcases xml_data a.value with ⟨d, h1, h2⟩ | ⟨h1, h2⟩
      · rw [h2]
        dsimp only
        rw [members_error h1]
        constructor
        · rintro ⟨pre, y, post, h3, h4, h5, ⟨h6, rfl⟩ | ⟨h6, h7, h8, h9, rfl⟩⟩
          · exact .childNs hp ht h1 h3 h4 h5 h6
          · exact .childOne hp ht h1 h3 h4 h7 h8 h9
        · intro h
          cases h with
          | ns h => exact absurd hp h
          | text _ h => exact absurd ht h
          | content _ _ h => exact absurd h1 (h d)
          | childNs _ _ h3 h4 h5 h6 h7 =>
            obtain rfl := content_unique h1 h3
            exact ⟨_, _, _, h4, h5, h6, .inl ⟨h7, rfl⟩⟩
          | childOne _ _ h3 h4 h5 h6 h7 h8 =>
            obtain rfl := content_unique h1 h3
            exact ⟨_, _, _, h4, h5, .inr (called_named h7.1), .inr ⟨called_named h7.1, h6, h7, h8, rfl⟩⟩
      · rw [h2]
        simp only [Except.error.injEq, AErr.adapter.injEq]
        constructor
        · rintro rfl; exact .content hp ht h1
        · intro h
          cases h with
          | ns h => exact absurd hp h
          | text _ h => exact absurd ht h
          | content => rfl
          | childNs _ _ h3 | childOne _ _ h3 => exact absurd h3 (h1 _)
    · have : XmlA.assertNoText a.value = .error (.adapter .inlineText) := by
        have h := mt XmlA.assertNoText_iff.mp ht
        unfold XmlA.assertNoText at h ⊢
        split
        · rename_i e; rw [e] at h; exact absurd rfl h
        · rename_i e
          rw [e] at h
          dsimp only at h
          split
          · rename_i e'; rw [if_pos e'] at h; exact absurd rfl h
          · rfl
      rw [this]
      simp only [Except.error.injEq, AErr.adapter.injEq]
      constructor
      · rintro rfl; exact .text hp ht
      · intro h
        cases h with
        | ns h => exact absurd hp h
        | text _ h => rfl
        | content _ h | childNs _ h | childOne _ h => exact absurd h ht
  · rw [if_neg (show ¬ XmlA.ns <+: a.value.tag from hp)]
    simp only [Except.error.injEq, AErr.adapter.injEq]
    constructor
    · rintro rfl; exact .ns hp
    · intro h
      cases h with
      | ns h => rfl
      | text h | content h | childNs h | childOne h => exact absurd h hp

theorem asObject_opens {a : XmlA} {obj} (h : XmlA.asObject a = .ok obj) : ∃ d, Opens a.value d ∧ ∀ key,
    (∃ e pre y post, dictGet key obj = some e ∧ d.children = pre ++ y :: post ∧ y.tag = xmlns ++ key ∧
        (∀ z ∈ post, z.tag ≠ xmlns ++ key) ∧ Inside d y e.value) ∨
      ((∀ z ∈ d.children, z.tag ≠ xmlns ++ key) ∧ dictGet key obj = none) := by
  obtain ⟨hpre, hnt, d, hd, hm⟩ := XmlA.asObject_iff.mp h
  have hcs := XmlA.members_prefix hm
  refine ⟨d, ⟨hpre, hnt, content_iff.mpr hd, fun y hy => ⟨hcs.1 y hy, ?_⟩, ?_⟩, ?_⟩
  · rintro ⟨h1, h2⟩
    obtain ⟨mt, hmt⟩ := hcs.2 (List.ne_nil_of_mem hy)
    obtain ⟨-, rfl⟩ := modelType_value hd hmt
    exact members_single hmt hm (congrArg some (called_opVar.mp h1)) y hy h2
  · by_cases hne : d.children = []
    · exact .inl hne
    · obtain ⟨mt, hmt⟩ := hcs.2 hne
      exact .inr (modelType_value hd hmt).1
  · intro key
    by_cases hne : d.children = []
    · rw [hne, XmlA.members] at hm
      cases hm
      right; simp [hne, dictGet]
    · obtain ⟨mt, hmt⟩ := hcs.2 hne
      obtain ⟨-, rfl⟩ := modelType_value hd hmt
      rcases XmlA.members_get hmt hm key with ⟨e, pre, y, post, h1, h2, h3, h4, h5⟩ | h'
      · exact .inl ⟨e, pre, y, post, h1, h2, h3, h4, (entry_iff h3).mp h5⟩
      · exact .inr h'

theorem opens_asObject {a : XmlA} {d} (h : Opens a.value d) : ∃ obj, XmlA.asObject a = .ok obj := by
  obtain ⟨h1, h2, h3, h4, h5⟩ := h
  cases ho : XmlA.asObject a with
  | ok obj => exact ⟨obj, rfl⟩
  | error e =>
    exfalso
    cases e with
    | adapter k =>
      have hb := asObject_bad.mp ho
      cases hb with
      | ns h => exact h h1
      | text _ h => exact h h2
      | content _ _ h => exact h d h3
      | childNs _ _ h6 h7 _ _ h8 =>
        obtain rfl := content_unique h3 h6
        exact h8 (h4 _ (by rw [h7]; simp)).1
      | childOne _ _ h6 h7 _ _ h8 h9 =>
        obtain rfl := content_unique h3 h6
        obtain ⟨z, hz⟩ := (h4 _ (by rw [h7]; simp)).2 h8
        exact h9 z hz
    | py e =>
      unfold XmlA.asObject at ho
      rw [if_pos (show XmlA.ns <+: a.value.tag from h1), XmlA.assertNoText_iff.mpr h2] at ho
      dsimp only at ho
      rw [content_iff.mp h3] at ho
      dsimp only at ho
      rcases h5 with h5 | h5
      · rw [h5] at ho; cases ho
      · obtain ⟨obj, h6⟩ := XmlA.members_exists (acc := []) (modelType_named (content_iff.mp h3) h5) (fun c hc => (h4 c hc).1)
          (fun hm c hc ht => (h4 c hc).2 (opValue_iff.mpr ⟨hm, (h4 c hc).1, by rw [ht]; exact List.drop_left⟩))
        rw [h6] at ho; cases ho

theorem opens_unique {x d d' : Xml} (h : Opens x d) (h' : Opens x d') : d' = d := content_unique h.2.2.1 h'.2.2.1

theorem inside_unique {d y z z' : Xml} (h : Inside d y z) (h' : Inside d y z') : z' = z := by
  rcases h with ⟨g1, g2⟩ | ⟨g1, g2⟩ <;> rcases h' with ⟨k1, k2⟩ | ⟨k1, k2⟩
  · rw [g2] at k2; simpa using k2.symm
  · exact absurd g1 k1
  · exact absurd k1 g1
  · rw [g2, k2]

theorem xml_string {a : XmlA} {e} (h : XmlA.asString a = .error e) : e = .adapter .childElements ∧ ¬ TextOnly true a.value := by
  have h1 : ¬ TextOnly true a.value := fun ht => by
    rw [XmlA.asString_iff.mpr ⟨ht, rfl⟩] at h; cases h
  refine ⟨?_, h1⟩
  unfold XmlA.asString XmlA.assertNoChildren at h
  split at h
  · rename_i e' he
    cases h
    split at he
    · split at he <;> cases he; rfl
    · cases he
  · cases h

theorem xml_noString {a : XmlA} (h : ¬ TextOnly true a.value) : XmlA.asString a = .error (.adapter .childElements) := by
  cases hs : XmlA.asString a with
  | ok s => exact absurd (XmlA.asString_iff.mp hs).1 h
  | error e => rw [(xml_string hs).1]

theorem xml_bool {a : XmlA} {e} : XmlA.asBool a = .error e ↔ e = .adapter .childElements ∧ ¬ TextOnly true a.value := by
  have hs := fun e => @xml_string a e
  have hn := @xml_noString a
  unfold XmlA.asString at hs hn
  unfold XmlA.asBool
  cases h : XmlA.assertNoChildren a.value with
  | error e' =>
    rw [h] at hs hn
    simp only [Except.error.injEq] at hs ⊢
    constructor
    · rintro rfl; exact hs _ rfl
    · rintro ⟨rfl, -⟩; exact (hs _ rfl).1
  | ok u =>
    rw [h] at hn
    simp only [reduceCtorEq, imp_false, Classical.not_not, false_iff, not_and] at hn ⊢
    exact fun _ => hn

theorem GFault.xml {sc : Schema C E S F} (hs : Sane sc) (hx : XmlNames sc) {ty a n} (h : GFault xmlOps sc ty a n) : XFault sc ty a.value a.path n := by
  refine GFault.rec (ops := xmlOps) (sc := sc) (motive_1 := fun ty a n _ => XFault sc ty a.value a.path n)
    (motive_2 := fun c' a n _ => ∀ c, Chosen xmlOps sc c a c' → XFault sc (.cls c) a.value a.path n) ?_ ?_ ?_ ?_ ?_ ?_ ?_ ?_ ?_ ?_ ?_ ?_ ?_ ?_ ?_ ?_ h
  · intro ty a k ht he
    obtain ⟨e, h⟩ := xml_string he
    cases e
    exact .children (.inl ht) h
  · intro c a he
    obtain ⟨e, h⟩ := xml_string he
    cases e
  · intro c a s h1 h2
    obtain ⟨h3, rfl⟩ := XmlA.asString_iff.mp h1
    exact .format h3 h2
  · intro e a s h1 h2
    obtain ⟨h3, rfl⟩ := XmlA.asString_iff.mp h1
    exact .notInEnum h3 h2
  · intro a k h1
    obtain ⟨e, h⟩ := xml_bool.mp h1
    cases e
    exact .children (.inr rfl) h
  · intro it ae a k h1
    change XmlA.asList _ _ = _ at h1
    unfold XmlA.asList at h1
    split at h1
    · rename_i h2
      cases h1
      simp only [Bool.and_eq_true, List.isEmpty_iff, Bool.not_eq_true'] at h2
      obtain ⟨h2, rfl⟩ := h2
      exact .emptyList h2
    · cases h1
  · intro it ae a as b n h1 h2 _ ih
    obtain ⟨-, rfl⟩ := XmlA.asList_ok h1
    obtain ⟨i, h5, h6⟩ := XmlA.mem_items h2
    rw [h6] at ih
    exact .item h5 ih
  · intro c a k hab h1
    change XmlA.modelType a = _ at h1
    rcases xml_modelType a with ⟨h, h2⟩ | ⟨d, -, -, h2⟩ | ⟨d, -, -, h2⟩
    · rw [h1] at h2
      cases h2
      exact .noContent hab h
    · rw [h1] at h2; cases h2
    · rw [h1] at h2; cases h2
  · intro c a m hab h1 h2
    change XmlA.modelType a = _ at h1
    rcases xml_modelType a with ⟨h, h3⟩ | ⟨d, h4, h5, h3⟩ | ⟨d, -, -, h3⟩
    · rw [h1] at h3; cases h3
    · rw [h1] at h3
      cases h3
      refine .invalidModelType hab h4 h5 fun c' hc e => ?_
      have h6 : some (typeOf d) = some (sc.className c') := congrArg some ((called_iff hx).mp e)
      rw [(find_class hs).mpr ⟨hc, h6⟩] at h2
      cases h2
    · rw [h1] at h3; cases h3
  · intro c c' a n h1 _ ih
    exact ih c h1
  · intro c' a k h1 c hc
    refine .bad ?_ (asObject_bad.mp h1)
    cases hab : sc.abstract c with
    | false => exact .inl rfl
    | true =>
      right
      rcases xml_data a.value with ⟨d, h2, -⟩ | ⟨h2, -⟩
      · exact ⟨c', d, h2, (xml_chosen hs hx h2).mp hc⟩
      · rcases hc with ⟨h, -⟩ | ⟨-, m, h3, -⟩
        · rw [hab] at h; cases h
        · change XmlA.modelType a = _ at h3
          rcases xml_modelType a with ⟨h, h4⟩ | ⟨d, h4, -⟩ | ⟨d, h4, -⟩
          · rw [h3] at h4; cases h4
          · exact absurd h4 (h2 d)
          · exact absurd h4 (h2 d)
  · intro c' a obj k h1 h2 h3 c hc
    obtain ⟨d, h4, -⟩ := asObject_opens h1
    change XmlA.modelType a = _ at h3
    rcases xml_modelType a with ⟨h, -⟩ | ⟨d, -, -, h5⟩ | ⟨d, -, -, h5⟩
    · exact absurd h4.2.2.1 (h d)
    · rw [h3] at h5; cases h5
    · rw [h3] at h5; cases h5
  · intro c' a obj m h1 h2 h3 h3' c hc
    obtain ⟨d, h4, -⟩ := asObject_opens h1
    change XmlA.modelType a = _ at h3
    rcases xml_modelType a with ⟨h, -⟩ | ⟨d', h5, h6, h7⟩ | ⟨d, -, -, h5⟩
    · exact absurd h4.2.2.1 (h d)
    · obtain rfl := content_unique h4.2.2.1 h5
      rw [h3] at h7
      cases h7
      rcases hc with ⟨hab, rfl⟩ | ⟨-, m, h8, h9⟩
      · exact .wrongModelType hab h2 h4 h6 fun e => h3' (congrArg some ((called_iff hx).mp e))
      · change XmlA.modelType a = _ at h8
        rw [h3] at h8
        cases h8
        exact absurd ((find_class hs).mp h9).2 h3'
    · rw [h3] at h5; cases h5
  · intro c' a obj f key ty h1 h2 h3 c hc
    obtain ⟨d, h4, h5⟩ := asObject_opens h1
    rcases h5 key with ⟨e, pre, y, post, h6, -⟩ | ⟨h6, -⟩
    · rw [h3] at h6; cases h6
    · exact .missing h4 ((xml_chosen hs hx h4.2.2.1).mp hc) h2 h6
  · intro c' a obj f key ty req b n h1 h2 h3 _ ih c hc
    have hb := (xml_places.object _ _ trivial h1).2 _ (dictGet_mem h3)
    rw [show b.path = a.path ++ [.key key] from hb.1] at ih
    obtain ⟨d, h4, h5⟩ := asObject_opens h1
    rcases h5 key with ⟨e, pre, y, post, h6, h7, h8, h9, h10⟩ | ⟨-, h6⟩
    · rw [h3] at h6
      cases h6
      exact .value h4 ((xml_chosen hs hx h4.2.2.1).mp hc) h2 h7 h8 h9 h10 ih
    · rw [h3] at h6; cases h6
  · intro c' a obj e h1 h2 h3 c hc
    obtain ⟨d, h4, -⟩ := asObject_opens h1
    obtain ⟨-, -, d', h5, h6⟩ := XmlA.asObject_iff.mp h1
    obtain rfl := content_unique h4.2.2.1 (content_iff.mpr h5)
    rcases XmlA.mem_members h6 e h2 with h7 | ⟨y, h7, h8, -⟩
    · cases h7
    · exact .unknown h4 ((xml_chosen hs hx h4.2.2.1).mp hc) h7 h8 fun f ty req hm => h3 (mem_allKeys.mpr ⟨f, ty, req, hm⟩)

theorem xfault_generic {sc : Schema C E S F} (hs : Sane sc) (hx : XmlNames sc) {ty x p n} (h : XFault sc ty x p n) : GFault xmlOps sc ty ⟨x, p⟩ n := by
  induction h with
  | @children ty x p ht h =>
    rcases ht with ht | rfl
    · exact .string (a := (⟨x, p⟩ : XmlA)) ht (xml_noString h)
    · exact .bool (a := (⟨x, p⟩ : XmlA)) (xml_bool.mpr ⟨rfl, h⟩)
  | @notInEnum e x p h h' => exact .enum (a := (⟨x, p⟩ : XmlA)) (XmlA.asString_iff.mpr ⟨h, rfl⟩) h'
  | @format c x p h h' => exact .format (a := (⟨x, p⟩ : XmlA)) (XmlA.asString_iff.mpr ⟨h, rfl⟩) h'
  | @emptyList it x p h =>
    refine .list (a := (⟨x, p⟩ : XmlA)) ?_
    change XmlA.asList _ _ = _
    unfold XmlA.asList
    dsimp only
    rw [h]
    rfl
  | @item it ae x i y p n h1 _ ih =>
    refine .item (a := (⟨x, p⟩ : XmlA)) (as := XmlA.items p 0 x.children) ?_ ?_ ih
    · change XmlA.asList _ _ = _
      unfold XmlA.asList
      dsimp only
      cases hc : x.children with
      | nil => rw [hc] at h1; simp at h1
      | cons x l => rfl
    · rw [XmlA.items_eq, List.mem_mapIdx]
      obtain ⟨hi, e⟩ := List.getElem?_eq_some_iff.mp h1
      exact ⟨i, hi, by rw [e, Nat.zero_add]⟩
  | @noContent c x p hab h =>
    rcases xml_modelType ⟨x, p⟩ with ⟨-, h1⟩ | ⟨d, h1, -⟩ | ⟨d, h1, -⟩
    · exact .noType (a := (⟨x, p⟩ : XmlA)) hab h1
    · exact absurd h1 (h d)
    · exact absurd h1 (h d)
  | @invalidModelType c x d p hab h1 h2 h3 =>
    refine .badType (a := (⟨x, p⟩ : XmlA)) hab (modelType_named (content_iff.mp h1) h2) ?_
    cases hf : (sc.subclasses c).find? (fun s => decide (some (XmlA.upperFirst (d.tag.drop xmlns.length)) = some (sc.className s))) with
    | none => rfl
    | some c' =>
      obtain ⟨h4, h5⟩ := (find_class hs).mp hf
      exact absurd ((called_iff hx).mpr (Option.some.inj h5)) (h3 _ h4)
  | @bad c x k p h1 h2 =>
    have hb : GObj xmlOps sc c ⟨x, p⟩ ⟨k, p⟩ := .object (a := (⟨x, p⟩ : XmlA)) (asObject_bad.mpr h2)
    rcases h1 with h1 | ⟨c', d, h3, h4⟩
    · exact .cls (.inl ⟨h1, rfl⟩) hb
    · exact .cls ((xml_chosen hs hx (a := ⟨x, p⟩) h3).mpr h4) (.object (a := (⟨x, p⟩ : XmlA)) (asObject_bad.mpr h2))
  | @wrongModelType c x d p hab hn h1 h2 h3 =>
    obtain ⟨obj, ho⟩ := opens_asObject (a := ⟨x, p⟩) h1
    exact .cls (.inl ⟨hab, rfl⟩) (.wrongType (a := (⟨x, p⟩ : XmlA)) ho hn (modelType_named (content_iff.mp h1.2.2.1) h2)
      fun e => h3 ((called_iff hx).mpr (Option.some.inj e)))
  | @missing c c' x d p f key ty h1 hr h2 h3 =>
    obtain ⟨obj, ho⟩ := opens_asObject (a := ⟨x, p⟩) h1
    refine .cls ((xml_chosen hs hx (a := ⟨x, p⟩) h1.2.2.1).mpr hr) (.missing (a := (⟨x, p⟩ : XmlA)) ho h2 ?_)
    obtain ⟨d', h4, h5⟩ := asObject_opens ho
    obtain rfl := opens_unique h1 h4
    rcases h5 key with ⟨e, pre, y, post, -, h6, h7, -⟩ | ⟨-, h6⟩
    · exact absurd h7 (h3 y (by rw [h6]; simp))
    · exact h6
  | @unknown c c' x d p k y h1 hr h2 h3 h4 =>
    obtain ⟨obj, ho⟩ := opens_asObject (a := ⟨x, p⟩) h1
    refine .cls ((xml_chosen hs hx (a := ⟨x, p⟩) h1.2.2.1).mpr hr) ?_
    obtain ⟨d', h5, h6⟩ := asObject_opens ho
    obtain rfl := opens_unique h1 h5
    rcases h6 k with ⟨e, pre, y, post, h7, -⟩ | ⟨h7, -⟩
    · refine .unknown (a := (⟨x, p⟩ : XmlA)) (e := (k, e)) ho (dictGet_mem h7) fun hm => ?_
      obtain ⟨f, ty, req, hm⟩ := mem_allKeys.mp hm
      exact h4 f ty req hm
    · exact absurd h3 (h7 y h2)
  | @value c c' x d p f key ty req pre y post z n h1 hr h2 h3 h4 h5 h6 _ ih =>
    obtain ⟨obj, ho⟩ := opens_asObject (a := ⟨x, p⟩) h1
    refine .cls ((xml_chosen hs hx (a := ⟨x, p⟩) h1.2.2.1).mpr hr) ?_
    obtain ⟨d', h7, h8⟩ := asObject_opens ho
    obtain rfl := opens_unique h1 h7
    rcases h8 key with ⟨e, pre', y', post', h9, h10, h11, h12, h13⟩ | ⟨h9, -⟩
    · obtain rfl := last_unique h3 h10 h4 h11 h5 h12
      have hz := inside_unique h6 h13
      have hb := (xml_places.object _ _ trivial ho).2 _ (dictGet_mem h9)
      obtain ⟨ev, ep⟩ := e
      change ep = p ++ [.key key] ∧ _ at hb
      dsimp only at hz
      rw [hz, hb.1] at h9
      exact .value (a := (⟨x, p⟩ : XmlA)) ho h2 h9 ih
    · exact absurd h4 (h9 y (by rw [h3]; simp))

theorem xml_fault {sc : Schema C E S F} (hs : Sane sc) (hx : XmlNames sc) {ty a n} : GFault xmlOps sc ty a n ↔ XFault sc ty a.value a.path n :=
  ⟨fun h => h.xml hs hx, fun h => xfault_generic hs hx h⟩

end
end Verif.Parse
