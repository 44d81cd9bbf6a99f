import Verif.ResultLemmas
import Verif.Spec.Parse

/-!
# The traversal of `check_constraints`
-/

namespace Verif.Parse
open Verif Verif.Spec.Parse Res

section
variable {C E S F : Type} (name : F → Str) (checks : C → List (Val C E S F → Chk Unit))

/-- the check raises something else than a violation -/
def Raises (x : Val C E S F) (e : PyExc) (f : Val C E S F → Chk Unit) : Prop := f x = .error (.py e)

/-- outcome of checking some objects: all violations in order, or an exception -/
def Checked (objs : List (List PTok × Val C E S F)) (res : Res Note) : Except PyExc (Res Note) → Prop
  | .ok res' => res' = res.appendAll (objs.flatMap fun o => (checksOf checks o.2).filterMap (violation o.1 o.2)) ∧
      ∀ o ∈ objs, ∀ f ∈ checksOf checks o.2, ∀ e, ¬ Raises o.2 e f
  | .error e => ∃ o ∈ objs, ∃ f ∈ checksOf checks o.2, Raises o.2 e f

theorem runChecks_spec (v : Val C E S F) (p : List PTok) : ∀ (fs : List (Val C E S F → Chk Unit)) (res : Res Note),
    match runChecks v p fs res with
    | .ok res' => res' = res.appendAll (fs.filterMap (violation p v)) ∧ ∀ f ∈ fs, ∀ e, ¬ Raises v e f
    | .error e => ∃ f ∈ fs, Raises v e f
  | [], res => ⟨rfl, by simp⟩
  | f :: fs, res => by
    unfold runChecks
    cases hf : f v with
    | ok u =>
      have ih := runChecks_spec v p fs res
      have hv : violation p v f = none := by simp [violation, hf]
      simp only
      cases hr : runChecks v p fs res with
      | ok res' =>
        rw [hr] at ih
        refine ⟨by rw [List.filterMap_cons, hv]; exact ih.1, ?_⟩
        intro g hg
        rcases List.mem_cons.mp hg with rfl | hg
        · simp [Raises, hf]
        · exact ih.2 g hg
      | error e =>
        rw [hr] at ih
        obtain ⟨g, hg, h⟩ := ih
        exact ⟨g, List.mem_cons_of_mem _ hg, h⟩
    | error e =>
      cases e with
      | py e => exact ⟨f, List.mem_cons_self, hf⟩
      | violated t l =>
        have ih := runChecks_spec v p fs (res.append (Res.new ⟨.constraint t, p⟩ l))
        have hv : violation p v f = some (Res.new ⟨.constraint t, p⟩ l) := by simp [violation, hf]
        simp only
        cases hr : runChecks v p fs (res.append (Res.new ⟨.constraint t, p⟩ l)) with
        | ok res' =>
          rw [hr] at ih
          refine ⟨by rw [List.filterMap_cons, hv]; exact ih.1, ?_⟩
          intro g hg
          rcases List.mem_cons.mp hg with rfl | hg
          · simp [Raises, hf]
          · exact ih.2 g hg
        | error e =>
          rw [hr] at ih
          obtain ⟨g, hg, h⟩ := ih
          exact ⟨g, List.mem_cons_of_mem _ hg, h⟩

theorem Checked.nil {res : Res Note} : Checked checks [] res (.ok res) := ⟨rfl, by simp⟩

/-- first some objects, then others -/
theorem Checked.seq {a b : List (List PTok × Val C E S F)} {res : Res Note} {x : Except PyExc (Res Note)}
    {k : Res Note → Except PyExc (Res Note)} (h1 : Checked checks a res x) (h2 : ∀ res', Checked checks b res' (k res')) :
    Checked checks (a ++ b) res (match (generalizing := false) x with | .error e => .error e | .ok r => k r) := by
  cases x with
  | error e =>
    obtain ⟨o, ho, h⟩ := h1
    exact ⟨o, List.mem_append_left _ ho, h⟩
  | ok r =>
    obtain ⟨rfl, h1⟩ := h1
    simp only
    generalize hr : res.appendAll (a.flatMap fun o => (checksOf checks o.2).filterMap (violation o.1 o.2)) = r
    have h2 := h2 r
    cases hk : k r with
    | error e =>
      rw [hk] at h2
      obtain ⟨o, ho, h⟩ := h2
      exact ⟨o, List.mem_append_right _ ho, h⟩
    | ok r' =>
      rw [hk] at h2
      refine ⟨by rw [h2.1, ← hr, List.flatMap_append, appendAll_append], fun o ho => ?_⟩
      rcases List.mem_append.mp ho with ho | ho
      · exact h1 o ho
      · exact h2.2 o ho

mutual
theorem checkConstraints_spec : ∀ (v : Val C E S F) (p : List PTok) (res : Res Note),
    Checked checks (objects name v p) res (checkConstraints name checks v p res)
  | .obj c attrs, p, res => by
    have h1 : Checked checks [(p, Val.obj c attrs)] res (runChecks (.obj c attrs) p (checks c) res) := by
      have := runChecks_spec (.obj c attrs) p (checks c) res
      cases hr : runChecks (.obj c attrs) p (checks c) res with
      | ok r => rw [hr] at this; exact ⟨by simpa [checksOf] using this.1, by simpa [checksOf] using this.2⟩
      | error e => rw [hr] at this; exact ⟨(p, .obj c attrs), List.mem_singleton.mpr rfl, this⟩
    have := Checked.seq (checks := checks) h1 (fun res' => checkAttrs_spec attrs p res')
    simp only [checkConstraints, objects]
    exact this
  | .none, _, _ => by simp only [objects, checkConstraints]; exact Checked.nil checks
  | .invalid, _, _ => by simp only [objects, checkConstraints]; exact Checked.nil checks
  | .foreign, _, _ => by simp only [objects, checkConstraints]; exact Checked.nil checks
  | .str _, _, _ => by simp only [objects, checkConstraints]; exact Checked.nil checks
  | .bool _, _, _ => by simp only [objects, checkConstraints]; exact Checked.nil checks
  | .enum _ _, _, _ => by simp only [objects, checkConstraints]; exact Checked.nil checks
  | .sfv _ _, _, _ => by simp only [objects, checkConstraints]; exact Checked.nil checks
  | .list _, _, _ => by simp only [objects, checkConstraints]; exact Checked.nil checks
  | .path _ _ _, _, _ => by simp only [objects, checkConstraints]; exact Checked.nil checks
theorem checkAttrs_spec : ∀ (attrs : List (F × Val C E S F)) (p : List PTok) (res : Res Note),
    Checked checks (objectsA name attrs p) res (checkAttrs name checks attrs p res)
  | [], _, _ => by simp only [objectsA, checkAttrs]; exact Checked.nil checks
  | (f, v) :: rest, p, res => by
    have hrest := checkAttrs_spec rest p
    have hv := checkConstraints_spec v (p ++ [.key (name f)]) res
    cases v with
    | list l =>
      simp only [objectsA, checkAttrs]
      exact Checked.seq checks (checkItems_spec l (p ++ [.key (name f)]) 0 res) hrest
    | _ =>
      simp only [objectsA, checkAttrs]
      exact Checked.seq checks hv hrest
theorem checkItems_spec : ∀ (l : List (Val C E S F)) (p : List PTok) (i : Nat) (res : Res Note),
    Checked checks (objectsL name l p i) res (checkItems name checks l p i res)
  | [], _, _, _ => by simp only [objectsL, checkItems]; exact Checked.nil checks
  | v :: vs, p, i, res => by
    simp only [objectsL, checkItems]
    exact Checked.seq checks (checkConstraints_spec v (p ++ [.idx i]) res) (fun r => checkItems_spec vs p (i + 1) r)
end

mutual
/-- `objects` lists the nested objects -/
theorem mem_objects : ∀ (v : Val C E S F) (p : List PTok) (o : List PTok × Val C E S F),
    o ∈ objects name v p ↔ ∃ q, o.1 = p ++ q ∧ Nested name v q o.2
  | .obj c attrs, p, o => by
    simp only [objects, List.mem_cons, mem_objectsA attrs p o]
    constructor
    · rintro (rfl | ⟨f, w, hm, q, h1, h2⟩ | ⟨f, l, i, w, hm, hi, q, h1, h2⟩)
      · exact ⟨[], by simp, .here c attrs⟩
      · exact ⟨_, h1, .attr hm h2⟩
      · exact ⟨_, h1, .item hm hi h2⟩
    · rintro ⟨q, h1, h2⟩
      obtain ⟨q', x⟩ := o
      simp only at h1 h2
      cases h2 with
      | here => left; simp [h1]
      | attr hm h => right; left; exact ⟨_, _, hm, _, h1, h⟩
      | item hm hi h => right; right; exact ⟨_, _, _, _, hm, hi, _, h1, h⟩
  | .none, p, o => by simp only [objects, List.not_mem_nil, false_iff]; rintro ⟨q, _, h⟩; cases h
  | .invalid, p, o => by simp only [objects, List.not_mem_nil, false_iff]; rintro ⟨q, _, h⟩; cases h
  | .foreign, p, o => by simp only [objects, List.not_mem_nil, false_iff]; rintro ⟨q, _, h⟩; cases h
  | .str _, p, o => by simp only [objects, List.not_mem_nil, false_iff]; rintro ⟨q, _, h⟩; cases h
  | .bool _, p, o => by simp only [objects, List.not_mem_nil, false_iff]; rintro ⟨q, _, h⟩; cases h
  | .enum _ _, p, o => by simp only [objects, List.not_mem_nil, false_iff]; rintro ⟨q, _, h⟩; cases h
  | .sfv _ _, p, o => by simp only [objects, List.not_mem_nil, false_iff]; rintro ⟨q, _, h⟩; cases h
  | .list _, p, o => by simp only [objects, List.not_mem_nil, false_iff]; rintro ⟨q, _, h⟩; cases h
  | .path _ _ _, p, o => by simp only [objects, List.not_mem_nil, false_iff]; rintro ⟨q, _, h⟩; cases h
theorem mem_objectsA : ∀ (attrs : List (F × Val C E S F)) (p : List PTok) (o : List PTok × Val C E S F),
    o ∈ objectsA name attrs p ↔
      (∃ f w, (f, w) ∈ attrs ∧ ∃ q, o.1 = p ++ .key (name f) :: q ∧ Nested name w q o.2) ∨
      (∃ f l i w, (f, Val.list l) ∈ attrs ∧ l[i]? = some w ∧ ∃ q, o.1 = p ++ .key (name f) :: .idx i :: q ∧ Nested name w q o.2)
  | [], p, o => by simp [objectsA]
  | (f, v) :: rest, p, o => by
    have ih := mem_objectsA rest p o
    have hv := mem_objects v (p ++ [.key (name f)]) o
    have hnl : (∀ l, v ≠ .list l) → (o ∈ objects name v (p ++ [.key (name f)]) ++ objectsA name rest p ↔
        (∃ g w, (g, w) ∈ (f, v) :: rest ∧ ∃ q, o.1 = p ++ .key (name g) :: q ∧ Nested name w q o.2) ∨
        (∃ g l i w, (g, Val.list l) ∈ (f, v) :: rest ∧ l[i]? = some w ∧
          ∃ q, o.1 = p ++ .key (name g) :: .idx i :: q ∧ Nested name w q o.2)) := by
      intro hne
      rw [List.mem_append, ih, hv]
      constructor
      · rintro (⟨q, h1, h2⟩ | ⟨g, w, hm, h⟩ | ⟨g, l, i, w, hm, h⟩)
        · exact .inl ⟨f, v, List.mem_cons_self, q, by simpa using h1, h2⟩
        · exact .inl ⟨g, w, List.mem_cons_of_mem _ hm, h⟩
        · exact .inr ⟨g, l, i, w, List.mem_cons_of_mem _ hm, h⟩
      · rintro (⟨g, w, hm, q, h1, h2⟩ | ⟨g, l, i, w, hm, h⟩)
        · rcases List.mem_cons.mp hm with e | hm
          · cases e; exact .inl ⟨q, by simpa using h1, h2⟩
          · exact .inr (.inl ⟨g, w, hm, q, h1, h2⟩)
        · rcases List.mem_cons.mp hm with e | hm
          · cases e; exact absurd rfl (hne l)
          · exact .inr (.inr ⟨g, l, i, w, hm, h⟩)
    cases v with
    | list l =>
      simp only [objectsA, List.mem_append, ih, mem_objectsL l (p ++ [.key (name f)]) 0 o]
      constructor
      · rintro (⟨i, w, hi, q, h1, h2⟩ | ⟨g, w, hm, h⟩ | ⟨g, l', i, w, hm, h⟩)
        · exact .inr ⟨f, l, i, w, List.mem_cons_self, hi, q, by simpa using h1, h2⟩
        · exact .inl ⟨g, w, List.mem_cons_of_mem _ hm, h⟩
        · exact .inr ⟨g, l', i, w, List.mem_cons_of_mem _ hm, h⟩
      · rintro (⟨g, w, hm, q, h1, h2⟩ | ⟨g, l', i, w, hm, hi, q, h1, h2⟩)
        · rcases List.mem_cons.mp hm with e | hm
          · cases e; cases h2
          · exact .inr (.inl ⟨g, w, hm, q, h1, h2⟩)
        · rcases List.mem_cons.mp hm with e | hm
          · cases e; exact .inl ⟨i, w, hi, q, by simpa using h1, h2⟩
          · exact .inr (.inr ⟨g, l', i, w, hm, hi, q, h1, h2⟩)
    | _ => simp only [objectsA]; exact hnl (by simp)
theorem mem_objectsL : ∀ (l : List (Val C E S F)) (p : List PTok) (k : Nat) (o : List PTok × Val C E S F),
    o ∈ objectsL name l p k ↔ ∃ i w, l[i]? = some w ∧ ∃ q, o.1 = p ++ .idx (k + i) :: q ∧ Nested name w q o.2
  | [], p, k, o => by simp [objectsL]
  | v :: vs, p, k, o => by
    simp only [objectsL, List.mem_append, mem_objects v (p ++ [.idx k]) o, mem_objectsL vs p (k + 1) o]
    constructor
    · rintro (⟨q, h1, h2⟩ | ⟨i, w, hi, q, h1, h2⟩)
      · exact ⟨0, v, rfl, q, by simpa using h1, h2⟩
      · exact ⟨i + 1, w, by simpa using hi, q, by rw [h1, Nat.add_right_comm, Nat.add_assoc], h2⟩
    · rintro ⟨i, w, hi, q, h1, h2⟩
      cases i with
      | zero => left; cases hi; exact ⟨q, by simpa using h1, h2⟩
      | succ i => right; exact ⟨i, w, by simpa using hi, q, by rw [h1, Nat.add_right_comm, Nat.add_assoc], h2⟩
end

mutual
theorem places_nodup : ∀ (v : Val C E S F) (p : List PTok), DistinctNames name v → ((objects name v p).map (·.1)).Nodup
  | .obj c attrs, p, h => by
    simp only [objects, List.map_cons, List.nodup_cons]
    refine ⟨fun hm => ?_, placesA_nodup attrs p (h [] c attrs (.here c attrs)) (fun f w hw q c' a' hn => h _ c' a' (.attr hw hn))
      fun f l hl w hw q c' a' hn => ?_⟩
    · obtain ⟨o, ho, he⟩ := List.mem_map.mp hm
      rcases (mem_objectsA name attrs p o).mp ho with ⟨f, w, -, q, h1, -⟩ | ⟨f, l, i, w, -, -, q, h1, -⟩ <;>
        · rw [he] at h1
          have := congrArg List.length h1
          simp only [List.length_append, List.length_cons] at this
          omega
    · obtain ⟨i, hi⟩ := List.getElem?_of_mem hw
      exact h _ c' a' (.item hl hi hn)
  | .none, p, _ => List.nodup_nil
  | .invalid, p, _ => List.nodup_nil
  | .foreign, p, _ => List.nodup_nil
  | .str _, p, _ => List.nodup_nil
  | .bool _, p, _ => List.nodup_nil
  | .enum _ _, p, _ => List.nodup_nil
  | .sfv _ _, p, _ => List.nodup_nil
  | .list _, p, _ => List.nodup_nil
  | .path _ _ _, p, _ => List.nodup_nil
theorem placesA_nodup : ∀ (attrs : List (F × Val C E S F)) (p : List PTok), (attrs.map fun a => name a.1).Nodup →
    (∀ f w, (f, w) ∈ attrs → DistinctNames name w) → (∀ f l, (f, Val.list l) ∈ attrs → ∀ w ∈ l, DistinctNames name w) →
    ((objectsA name attrs p).map (·.1)).Nodup
  | [], p, _, _, _ => List.nodup_nil
  | (f, v) :: rest, p, hn, ha, hl => by
    rw [List.map_cons, List.nodup_cons] at hn
    have ih := placesA_nodup rest p hn.2 (fun g w h => ha g w (.tail _ h)) fun g l h => hl g l (.tail _ h)
    have hr : ∀ o ∈ objectsA name rest p, ∀ q, o.1 ≠ p ++ .key (name f) :: q := by
      intro o ho q he
      have hne : ∀ g w, (g, w) ∈ rest → name g ≠ name f := fun g w hm heq => hn.1 (List.mem_map.mpr ⟨_, hm, heq⟩)
      rcases (mem_objectsA name rest p o).mp ho with ⟨g, w, hm, q', h1, -⟩ | ⟨g, l, i, w, hm, -, q', h1, -⟩ <;>
        · rw [he, List.append_cancel_left_eq, List.cons.injEq] at h1
          exact hne _ _ hm (PTok.key.inj h1.1).symm
    have key : ∀ L : List (List PTok × Val C E S F), (L.map (·.1)).Nodup → (∀ o ∈ L, ∃ q, o.1 = p ++ .key (name f) :: q) →
        ((L ++ objectsA name rest p).map (·.1)).Nodup := by
      intro L hL hq
      rw [List.map_append, List.nodup_append]
      refine ⟨hL, ih, fun a ha b hb hab => ?_⟩
      obtain ⟨o, ho, rfl⟩ := List.mem_map.mp ha
      obtain ⟨o', ho', rfl⟩ := List.mem_map.mp hb
      obtain ⟨q, hq⟩ := hq o ho
      exact hr o' ho' q (hab ▸ hq)
    have hv : ∀ o ∈ objects name v (p ++ [.key (name f)]), ∃ q, o.1 = p ++ .key (name f) :: q := by
      intro o ho
      obtain ⟨q, h1, -⟩ := (mem_objects name v _ o).mp ho
      exact ⟨q, by simpa using h1⟩
    have hvn := places_nodup v (p ++ [.key (name f)]) (ha f v (.head _))
    cases v with
    | list l =>
      rw [objectsA]
      refine key _ (placesL_nodup l _ 0 fun w hw => hl f l (.head _) w hw) fun o ho => ?_
      obtain ⟨i, w, -, q, h1, -⟩ := (mem_objectsL name l _ 0 o).mp ho
      exact ⟨_, by simpa using h1⟩
    | _ => simp only [objectsA]; exact key _ hvn hv
theorem placesL_nodup : ∀ (l : List (Val C E S F)) (p : List PTok) (k : Nat), (∀ w ∈ l, DistinctNames name w) → ((objectsL name l p k).map (·.1)).Nodup
  | [], p, k, _ => List.nodup_nil
  | v :: vs, p, k, h => by
    rw [objectsL, List.map_append, List.nodup_append]
    refine ⟨places_nodup v _ (h v (.head _)), placesL_nodup vs p (k + 1) fun w hw => h w (.tail _ hw), fun a ha b hb hab => ?_⟩
    obtain ⟨o, ho, rfl⟩ := List.mem_map.mp ha
    obtain ⟨o', ho', rfl⟩ := List.mem_map.mp hb
    obtain ⟨q, h1, -⟩ := (mem_objects name v _ o).mp ho
    obtain ⟨i, w, -, q', h2, -⟩ := (mem_objectsL name vs p (k + 1) o').mp ho'
    rw [h1, h2, List.append_assoc, List.append_cancel_left_eq] at hab
    simp only [List.cons_append, List.nil_append, List.cons.injEq, PTok.idx.injEq] at hab
    omega
end

theorem nested_obj {v x : Val C E S F} {p : List PTok} (h : Nested name v p x) : ∃ c attrs, x = .obj c attrs := by
  induction h with
  | here c attrs => exact ⟨c, attrs, rfl⟩
  | attr _ _ ih => exact ih
  | item _ _ _ ih => exact ih

end
end Verif.Parse
