import Verif.SuiteFacts10

/-! # The paths of elements in valid responses -/

namespace Verif.Api.Suites
open Verif Verif.Parse Verif.Aas Verif.Spec Verif.Spec.Parse Verif.Spec.Model Verif.Spec.Suites Verif.Props
open Verif.Api hiding sane supported

theorem Nested.trans' {C E S F : Type} {name : F → Str} {x y z : Val C E S F} {p q : List PTok} (h : Nested name x p y) (h' : Nested name y q z) :
    Nested name x (p ++ q) z := by
  induction h with
  | here => exact h'
  | attr hm _ ih => exact .attr hm (ih h')
  | item hm hi _ ih => exact .item hm hi (ih h')

theorem find_emb {f : Fld} {w : RVal} : ∀ {attrs : List (Fld × AVal)}, ((embAttrs attrs).find? fun a => decide (a.1 = RFld.model f)) = some (.model f, w) →
    ∃ w', w = embVal w' ∧ (attrs.find? fun a => decide (a.1 = f)) = some (f, w')
  | [], h => by simp [embAttrs] at h
  | (g, v) :: rest, h => by
    rw [embAttrs, List.find?_cons] at h
    rw [List.find?_cons]
    by_cases hg : g = f
    · subst hg
      simp at h
      exact ⟨v, h.symm, by simp⟩
    · simp [hg] at h ⊢
      exact find_emb h

theorem hasAttr_emb {a : AVal} {f : Fld} {w : RVal} (h : HasAttr (embVal a) (.model f) w) : ∃ w', w = embVal w' ∧ Spec.Model.get a f = w' := by
  obtain ⟨c, attrs, he, hf⟩ := h
  cases a <;> simp only [embVal, reduceCtorEq] at he
  cases he
  obtain ⟨w', h1, h2⟩ := find_emb hf
  exact ⟨w', h1, by simp [Spec.Model.get, h2]⟩

theorem hasAttr_mem {v : RVal} {f : RFld} {w : RVal} (h : HasAttr v f w) : ∃ c attrs, v = .obj c attrs ∧ (f, w) ∈ attrs :=
  let ⟨c, attrs, he, hf⟩ := h; ⟨c, attrs, he, List.mem_of_find?_eq_some hf⟩

theorem hasIdShort_emb {a : AVal} {s : Str} (h : HasIdShort (embVal a) s) : idShort? a = some s := by
  obtain ⟨c, h⟩ := h
  obtain ⟨w', h1, h2⟩ := hasAttr_emb h
  cases w' <;> simp [embVal] at h1
  simp [idShort?, h2, h1.2]

theorem nested_here {v : RVal} {f : RFld} {w : RVal} (h : HasAttr v f w) : Nested RFld.pyName v [] v := by
  obtain ⟨c, attrs, rfl, -⟩ := h
  exact .here c attrs

theorem nested_item {v : RVal} {f : RFld} {l : List RVal} {i : Nat} {z : RVal} (h : HasAttr v f (.list l)) (hi : l[i]? = some z) (hz : Nested RFld.pyName z [] z) :
    ∃ p, Nested RFld.pyName v p z := by
  obtain ⟨c, attrs, rfl, hm⟩ := hasAttr_mem h
  exact ⟨_, .item hm hi hz⟩

theorem embVals_get : ∀ {l : List AVal} {j : Nat} {z : RVal}, (embVals l)[j]? = some z → ∃ a ∈ l, z = embVal a
  | [], _, _, h => by simp [embVals] at h
  | a :: l, 0, _, h => by
    simp [embVals] at h
    exact ⟨a, List.mem_cons_self, h.symm⟩
  | a :: l, j + 1, z, h => by
    simp [embVals] at h
    obtain ⟨b, hb, he⟩ := embVals_get h
    exact ⟨b, List.mem_cons_of_mem _ hb, he⟩

variable {lim : Option Nat}

/-- no element of a list has an idShort (AASd-120) -/
def ListsOk (v : RVal) : Prop := ∀ p attrs l (j : Nat) z s, Nested RFld.pyName v p (.obj (.model .submodelElementList) attrs) →
  HasAttr (.obj (.model .submodelElementList) attrs) (.model .value) (.list l) → l[j]? = some z → ¬ HasIdShort z s

theorem lists_ok {ty : RTy} {r : Response} {v : RVal} (hg : rgoodTy ty = true) (h : Good lim ty r v) : ListsOk v := by
  intro p attrs l j z s hn ha hj hid
  obtain ⟨-, -, js, -, -, hb⟩ := id h
  rcases nested_resp hn hg (acceptable_typed h) with ⟨a, c, he, hobj, -⟩ | ⟨c, attrs', he, hc⟩
  · rw [he] at hn ha
    obtain ⟨w, h1, h2⟩ := hasAttr_emb ha
    cases w <;> simp [embVal] at h1
    rename_i l'
    subst h1
    obtain ⟨b, hb', rfl⟩ := embVals_get hj
    refine hb p py!"AASd-120" ⟨a, hn, .aasd120 ?_ fun hno => ?_⟩
    · cases a <;> simp [embVal] at he
      rw [className, ← he.1]
      rfl
    · have := hno b (by rw [elems, h2]; exact hb')
      rw [hasIdShort_emb hid] at this
      cases this
  · cases he
    exact absurd rfl (hc _)

theorem below_path {pre : Str} {i : Nat} {x y : RVal} {p : Str} (h : Below pre i x y p) : ListsOk x →
    ∃ s, HasIdShort x s ∧ PathOf [.submodelElementCollection] (pre ++ s) x y p := by
  have hid : ∀ {pre i x y p}, Below pre i x y p → ∃ s, HasIdShort x s := fun h => by cases h <;> exact ⟨_, ‹_›⟩
  induction h with
  | self h => exact fun _ => ⟨_, h, .self⟩
  | collection h1 h2 h3 h4 ih =>
    intro hl
    have hz : Nested RFld.pyName _ [] _ := let ⟨_, hs⟩ := hid h4; nested_here hs.choose_spec
    obtain ⟨q, hn⟩ := nested_item h2 h3 hz
    obtain ⟨s', h5, h6⟩ := ih fun p attrs l j z s hp => hl (q ++ p) attrs l j z s (Nested.trans' hn hp)
    exact ⟨_, h1, .named (by simp) (by simp) h2 (List.mem_of_getElem? h3) h5 h6⟩
  | list h1 h2 h3 h4 ih =>
    intro hl
    obtain ⟨s', h5⟩ := hid h4
    exact absurd h5 (hl [] _ _ _ _ _ (.here _ _) h2 h3)

theorem path_below {p : Str} {x y : RVal} {q : Str} (h : PathOf [.submodelElementCollection] p x y q) :
    ∀ {pre s : Str} (i : Nat), HasIdShort x s → p = pre ++ s → Below pre i x y q := by
  induction h with
  | self => intro pre s i hs he; subst he; exact .self hs
  | named h1 h2 h3 h4 h5 h6 ih =>
    intro pre s i hs he
    subst he
    simp only [List.mem_singleton] at h2
    subst h2
    simp at h1
    subst h1
    obtain ⟨j, hj⟩ := List.mem_iff_getElem?.mp h4
    exact .collection hs h3 hj (ih j h5 (by simp))
  | indexed h1 => simp at h1

theorem located_paths {r : Response} {v : RVal} {l : List RVal} (h : Good lim (.cls (.page .elements)) r v) (hl : Entries v l) (c : Cls) (p : Str) :
    Located l c p ↔ HasPath [.submodelElementCollection] l c p := by
  constructor
  · rintro ⟨i, x, attrs, hi, hb⟩
    have hok : ListsOk x := by
      intro q attrs' l' j z s hn
      have hx : Nested RFld.pyName x [] x := by
        cases hn with
        | here => exact .here _ _
        | attr => exact .here _ _
        | item => exact .here _ _
      obtain ⟨q', hq⟩ := nested_item hl hi hx
      exact lists_ok rfl h (q' ++ q) attrs' l' j z s (Nested.trans' hq hn)
    obtain ⟨s, h1, h2⟩ := below_path hb hok
    exact ⟨x, List.mem_of_getElem? hi, s, attrs, h1, h2⟩
  · rintro ⟨x, hx, s, attrs, h1, h2⟩
    obtain ⟨i, hi⟩ := List.mem_iff_getElem?.mp hx
    exact ⟨i, x, attrs, hi, path_below h2 i h1 rfl⟩

end Verif.Api.Suites
