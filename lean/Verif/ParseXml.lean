import Verif.Adapter
import Verif.ParseLemmas
import Verif.Spec.Parse

/-! # The XML adapter -/

namespace Verif.Parse
open Verif Verif.Spec.Parse

theorem xsize_mem {l : List Xml} {x : Xml} (h : x ∈ l) : x.size ≤ Xml.sizeL l := by
  induction l with
  | nil => simp at h
  | cons y l ih =>
    unfold Xml.sizeL
    rcases List.mem_cons.mp h with rfl | h
    · omega
    · have := ih h; omega

theorem xsize_child {x c : Xml} (h : c ∈ x.children) : c.size < x.size := by
  obtain ⟨t, s, l⟩ := x
  have := xsize_mem (show c ∈ l from h)
  simp only [Xml.size]
  omega

namespace XmlA

theorem singleChild_ok {x c : Xml} (h : singleChild x = .ok c) : x.children = [c] := by
  unfold singleChild at h
  split at h
  · rename_i heq; cases h; exact heq
  · cases h

theorem data_ok {x d : Xml} (h : data x = .ok d) :
    (py!"dataSpecificationContent" <:+ x.tag ∧ x.children = [d]) ∨ (¬ py!"dataSpecificationContent" <:+ x.tag ∧ d = x) := by
  unfold data at h
  split at h
  · rename_i hs; exact .inl ⟨hs, singleChild_ok h⟩
  · rename_i hs; cases h; exact .inr ⟨hs, rfl⟩

theorem data_size {x d : Xml} (h : data x = .ok d) : d.size ≤ x.size := by
  rcases data_ok h with ⟨-, h⟩ | ⟨-, rfl⟩
  · exact Nat.le_of_lt (xsize_child (by simp [h]))
  · exact Nat.le_refl _

theorem mem_dictSet {α : Type} {k : Str} {v : α} : ∀ {l : List (Str × α)} {e : Str × α}, e ∈ dictSet k v l → e = (k, v) ∨ e ∈ l
  | [], e, h => by simp [dictSet] at h; exact .inl h
  | (k', v') :: l, e, h => by
    unfold dictSet at h
    split at h
    · rename_i hk
      rcases List.mem_cons.mp h with h | h
      · exact .inl (by rw [h, hk])
      · exact .inr (List.mem_cons_of_mem _ h)
    · rcases List.mem_cons.mp h with h | h
      · exact .inr (by simp [h])
      · rcases mem_dictSet h with h | h
        · exact .inl h
        · exact .inr (List.mem_cons_of_mem _ h)

/-- what the members of an object are -/
theorem mem_members {a : XmlA} : ∀ {cs : List Xml} {acc obj : List (Str × XmlA)}, members a cs acc = .ok obj → ∀ e ∈ obj,
    e ∈ acc ∨ ∃ c ∈ cs, c.tag = ns ++ e.1 ∧ e.2.path = a.path ++ [.key e.1] ∧ (e.2.value = c ∨ c.children = [e.2.value])
  | [], acc, obj, h, e, he => by cases h; exact .inl he
  | c :: cs, acc, obj, h, e, he => by
    unfold members at h
    split at h
    · rename_i hp
      have htag : c.tag = ns ++ c.tag.drop ns.length := by
        obtain ⟨t, ht⟩ := hp
        rw [← ht]; simp
      cases hm : modelType a with
      | error e => simp [hm] at h
      | ok mt =>
        simp only [hm] at h
        split at h
        · cases hs : singleChild c with
          | error e => simp [hs] at h
          | ok d =>
            simp only [hs] at h
            rcases mem_members h e he with h' | ⟨c', h1, h2⟩
            · rcases mem_dictSet h' with rfl | h'
              · exact .inr ⟨c, by simp, htag, rfl, .inr (singleChild_ok hs)⟩
              · exact .inl h'
            · exact .inr ⟨c', by simp [h1], h2⟩
        · rcases mem_members h e he with h' | ⟨c', h1, h2⟩
          · rcases mem_dictSet h' with rfl | h'
            · exact .inr ⟨c, by simp, htag, rfl, .inl rfl⟩
            · exact .inl h'
          · exact .inr ⟨c', by simp [h1], h2⟩
    · cases h

theorem asObject_ok {a : XmlA} {obj} (h : asObject a = .ok obj) : ∃ d, data a.value = .ok d ∧ members a d.children [] = .ok obj := by
  unfold asObject at h
  split at h
  · cases ht : assertNoText a.value with
    | error e => simp [ht] at h
    | ok u =>
      simp only [ht] at h
      cases hd : data a.value with
      | error e => simp [hd] at h
      | ok d => simp only [hd] at h; exact ⟨d, rfl, h⟩
  · cases h

theorem items_eq (p : List PTok) (l : List Xml) : ∀ i, items p i l = l.mapIdx (fun k j => ⟨j, p ++ [.idx (i + k)]⟩) := by
  induction l with
  | nil => intro i; rfl
  | cons j l ih =>
    intro i
    simp only [items, List.mapIdx_cons, Nat.add_zero, ih, List.cons.injEq, true_and]
    congr 1
    funext k j
    have : i + 1 + k = i + (k + 1) := by omega
    rw [this]

theorem mem_items {p : List PTok} {l : List Xml} {a : XmlA} (h : a ∈ items p 0 l) :
    ∃ i, l[i]? = some a.value ∧ a.path = p ++ [.idx i] := by
  rw [items_eq] at h
  obtain ⟨i, hi, rfl⟩ := List.mem_mapIdx.mp h
  exact ⟨i, by simp [hi], by simp⟩

theorem asList_ok {a : XmlA} {ae l} (h : asList a ae = .ok l) :
    (a.value.children ≠ [] ∨ ae = true) ∧ l = items a.path 0 a.value.children := by
  unfold asList at h
  split at h
  · cases h
  · rename_i hc
    cases h
    refine ⟨?_, rfl⟩
    cases ae
    · left; simpa using hc
    · right; rfl

end XmlA

theorem xml_lawful : xmlOps.Lawful (fun a => a.value.size) where
  object a obj h e he := by
    obtain ⟨d, hd, hm⟩ := XmlA.asObject_ok h
    have h1 := XmlA.data_size hd
    rcases XmlA.mem_members hm e he with h' | ⟨c, hc, -, -, h2⟩
    · simp at h'
    · have h3 := xsize_child hc
      rcases h2 with h2 | h2
      · rw [h2]; omega
      · have h4 := xsize_child (x := c) (c := e.2.value) (by simp [h2])
        omega
  list a ae as h b hb := by
    obtain ⟨-, rfl⟩ := XmlA.asList_ok h
    obtain ⟨i, hi, -⟩ := XmlA.mem_items hb
    exact xsize_child (List.mem_of_getElem? hi)

theorem xml_nonempty : ∀ a as, xmlOps.asList a false = .ok as → as ≠ [] := by
  intro a as h
  obtain ⟨hn, rfl⟩ := XmlA.asList_ok h
  intro e
  rw [XmlA.items_eq] at e
  simp at e hn
  exact hn e

def InXml (x : Xml) (a : XmlA) : Prop := XAt x a.path a.value

theorem xml_closed (x : Xml) : xmlOps.Closed (InXml x) where
  object a obj h hi e he := by
    obtain ⟨d, hd, hm⟩ := XmlA.asObject_ok h
    have hd' : XAt x a.path d := by
      rcases XmlA.data_ok hd with ⟨-, h⟩ | ⟨-, rfl⟩
      · exact .wrap hi h
      · exact hi
    rcases XmlA.mem_members hm e he with h' | ⟨c, hc, h1, h2, h3⟩
    · simp at h'
    · unfold InXml
      rw [h2]
      have hk : XAt x (a.path ++ [.key e.1]) c := .key hd' hc h1
      rcases h3 with h3 | h3
      · rw [h3]; exact hk
      · exact .wrap hk h3
  list a ae as h hi b hb := by
    obtain ⟨-, rfl⟩ := XmlA.asList_ok h
    obtain ⟨i, h1, h2⟩ := XmlA.mem_items hb
    unfold InXml
    rw [h2]
    exact .idx hi h1

end Verif.Parse
