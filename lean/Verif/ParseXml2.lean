import Verif.ParseXml
import Verif.ParseDescribes
import Verif.Spec.Xml
import Verif.ConfigLemmas

/-! # The XML adapter, exactly -/

namespace Verif.Parse
open Verif Verif.Spec.Parse

namespace XmlA

theorem ns_eq : ns = xmlns := rfl

theorem upperFirst_iff {t name : Str} (hn : ∃ a s, name = a :: s ∧ 65 ≤ a ∧ a ≤ 90) :
    upperFirst t = name ↔ (t = lowerFirst name ∨ t = name ∨ (∃ s, name = pc! 'I' :: s ∧ t = 0x131 :: s) ∨
      (∃ s, name = pc! 'S' :: s ∧ t = 0x17f :: s)) := by
  obtain ⟨a, s, rfl, h1, h2⟩ := hn
  have hl : lowerFirst (a :: s) = (a + 32) :: s := by simp [lowerFirst, h1, h2]
  rw [hl]
  cases t with
  | nil => simp [upperFirst]
  | cons c t =>
    simp only [upperFirst, upperChar, List.cons.injEq]
    simp only [Bool.and_eq_true, decide_eq_true_eq]
    constructor
    · rintro ⟨h, rfl⟩
      split at h
      · exact .inr (.inr (.inl ⟨t, ⟨h.symm, rfl⟩, by assumption, rfl⟩))
      · split at h
        · exact .inr (.inr (.inr ⟨t, ⟨h.symm, rfl⟩, by assumption, rfl⟩))
        · split at h
          · left; exact ⟨by omega, rfl⟩
          · exact .inr (.inl ⟨h, rfl⟩)
    · rintro (⟨rfl, rfl⟩ | ⟨rfl, rfl⟩ | ⟨s', ⟨rfl, rfl⟩, rfl, rfl⟩ | ⟨s', ⟨rfl, rfl⟩, rfl, rfl⟩)
      · refine ⟨?_, rfl⟩
        rw [if_neg (by omega), if_neg (by omega), if_pos (by omega)]; omega
      · refine ⟨?_, rfl⟩
        rw [if_neg (by omega), if_neg (by omega), if_neg (by omega)]
      · simp
      · simp

theorem assertNoText_iff {x : Xml} : assertNoText x = .ok () ↔ NoText x := by
  unfold assertNoText NoText
  cases x.text with
  | none => simp
  | some t =>
    simp only [Option.some.injEq, forall_eq']
    split
    · rename_i h; exact ⟨fun _ => (Config.strip_isEmpty t).mp h, fun _ => rfl⟩
    · rename_i h
      simp only [reduceCtorEq, false_iff]
      exact fun hh => h ((Config.strip_isEmpty t).mpr hh)

theorem asString_iff {a : XmlA} {s : Str} : asString a = .ok s ↔ TextOnly true a.value ∧ s = a.value.text.getD [] := by
  unfold asString assertNoChildren TextOnly
  cases a.value.children with
  | nil => exact ⟨fun h => by cases h; exact ⟨.inl rfl, rfl⟩, fun h => by rw [h.2]⟩
  | cons y ys =>
    simp only [List.isEmpty_iff, reduceCtorEq, List.cons.injEq, true_and, false_or]
    by_cases h : y.children = []
    · simp only [h, ↓reduceIte, Except.ok.injEq]
      constructor
      · rintro rfl; exact ⟨⟨y, ys, ⟨rfl, rfl⟩, h⟩, rfl⟩
      · rintro ⟨-, rfl⟩; rfl
    · simp only [h, ↓reduceIte, reduceCtorEq, false_iff]
      rintro ⟨⟨y', ys', ⟨rfl, rfl⟩, h'⟩, -⟩
      exact h h'

theorem asBool_iff {a : XmlA} {b : Bool} : asBool a = .ok b ↔ TextOnly true a.value ∧ BoolText true a.value.text b := by
  have hs := @asString_iff a (a.value.text.getD [])
  unfold asString at hs
  unfold asBool
  cases h : assertNoChildren a.value with
  | error e => simp only [h, reduceCtorEq, and_true, false_iff] at hs; simp [hs]
  | ok u =>
    cases u
    simp only [h, and_true, true_iff] at hs
    simp only [Except.ok.injEq, hs, true_and, BoolText]
    by_cases ht : a.value.text = some py!"true"
    · simp [ht, eq_comm]
    · simp [ht, eq_comm]

/-! ## members -/

theorem dictGet_dictSet {α : Type} (k k' : Str) (v : α) (l : List (Str × α)) :
    dictGet k' (dictSet k v l) = if k = k' then some v else dictGet k' l := by
  induction l with
  | nil => simp [dictSet, dictGet]
  | cons e l ih =>
    obtain ⟨k0, v0⟩ := e
    unfold dictSet
    split
    · rename_i h; subst h
      simp only [dictGet]
      split <;> rfl
    · rename_i h
      simp only [dictGet, ih]
      split
      · rename_i h'; subst h'
        rw [if_neg (Ne.symm h)]
      · rfl

/-- the element that stands for a member, given the name of the surrounding element -/
def Entry (mt : Option Str) (key : Str) (c y : Xml) : Prop :=
  if mt = some py!"OperationVariable" ∧ key = py!"value" then c.children = [y] else y = c

theorem members_get {a : XmlA} {mt : Option Str} (hmt : modelType a = .ok mt) : ∀ {cs : List Xml} {acc obj : List (Str × XmlA)},
    members a cs acc = .ok obj → ∀ key,
      (∃ e pre c post, dictGet key obj = some e ∧ cs = pre ++ c :: post ∧ c.tag = ns ++ key ∧ (∀ z ∈ post, z.tag ≠ ns ++ key) ∧
        Entry mt key c e.value) ∨
      ((∀ z ∈ cs, z.tag ≠ ns ++ key) ∧ dictGet key obj = dictGet key acc)
  | [], acc, obj, h, key => by cases h; exact .inr ⟨by simp, rfl⟩
  | c :: cs, acc, obj, h, key => by
    unfold members at h
    split at h
    · rename_i hp
      have htag : c.tag = ns ++ c.tag.drop ns.length := by
        obtain ⟨t, ht⟩ := hp
        rw [← ht]; simp
      simp only [hmt] at h
      obtain ⟨e, he, h⟩ : ∃ e : XmlA, Entry mt (c.tag.drop ns.length) c e.value ∧
          members a cs (dictSet (c.tag.drop ns.length) e acc) = .ok obj := by
        split at h
        · rename_i hc
          cases hs : singleChild c with
          | error e => simp [hs] at h
          | ok d =>
            simp only [hs] at h
            exact ⟨_, by rw [Entry, if_pos hc]; exact singleChild_ok hs, h⟩
        · rename_i hc
          exact ⟨_, by rw [Entry, if_neg hc], h⟩
      rcases members_get hmt h key with ⟨e', pre, c', post, h1, rfl, h3⟩ | ⟨h1, h2⟩
      · exact .inl ⟨e', c :: pre, c', post, h1, rfl, h3⟩
      · rw [dictGet_dictSet] at h2
        by_cases hk : c.tag.drop ns.length = key
        · rw [if_pos hk] at h2
          exact .inl ⟨e, [], c, cs, h2, rfl, by rw [htag, hk], h1, hk ▸ he⟩
        · rw [if_neg hk] at h2
          refine .inr ⟨?_, h2⟩
          intro z hz
          rcases List.mem_cons.mp hz with rfl | hz
          · intro e
            rw [e] at hk
            simp at hk
          · exact h1 z hz
    · cases h

theorem members_exists {a : XmlA} {mt : Option Str} (hmt : modelType a = .ok mt) : ∀ {cs : List Xml} {acc : List (Str × XmlA)},
    (∀ c ∈ cs, ns <+: c.tag) → (mt = some py!"OperationVariable" → ∀ c ∈ cs, c.tag = ns ++ py!"value" → ∃ y, c.children = [y]) →
    ∃ obj, members a cs acc = .ok obj
  | [], acc, _, _ => ⟨_, rfl⟩
  | c :: cs, acc, h1, h2 => by
    unfold members
    have hp := h1 c List.mem_cons_self
    have htag : c.tag = ns ++ c.tag.drop ns.length := by
      obtain ⟨t, ht⟩ := hp
      rw [← ht]; simp
    rw [if_pos hp]
    simp only [hmt]
    have ih := fun acc => members_exists hmt (cs := cs) (acc := acc) (fun c hc => h1 c (List.mem_cons_of_mem _ hc))
      (fun e c hc => h2 e c (List.mem_cons_of_mem _ hc))
    split
    · rename_i hc
      obtain ⟨y, hy⟩ := h2 hc.1 c List.mem_cons_self (by rw [htag, hc.2])
      have : singleChild c = .ok y := by rw [singleChild, hy]
      simp only [this]
      exact ih _
    · exact ih _

theorem members_prefix {a : XmlA} : ∀ {cs : List Xml} {acc obj : List (Str × XmlA)},
    members a cs acc = .ok obj → (∀ c ∈ cs, ns <+: c.tag) ∧ (cs ≠ [] → ∃ mt, modelType a = .ok mt)
  | [], acc, obj, h => by simp
  | c :: cs, acc, obj, h => by
    unfold members at h
    split at h
    · rename_i hp
      cases hm : modelType a with
      | error e => simp [hm] at h
      | ok mt =>
        simp only [hm] at h
        refine ⟨?_, fun _ => ⟨_, rfl⟩⟩
        intro z hz
        rcases List.mem_cons.mp hz with rfl | hz
        · exact hp
        · split at h
          · cases hs : singleChild c with
            | error e => simp [hs] at h
            | ok d => simp only [hs] at h; exact (members_prefix h).1 z hz
          · exact (members_prefix h).1 z hz
    · cases h

theorem asObject_iff {a : XmlA} {obj} : asObject a = .ok obj ↔
    ns <+: a.value.tag ∧ NoText a.value ∧ ∃ d, data a.value = .ok d ∧ members a d.children [] = .ok obj := by
  unfold asObject
  rw [← assertNoText_iff]
  split
  · rename_i hp
    simp only [hp, true_and]
    cases ht : assertNoText a.value with
    | error e => simp
    | ok u =>
      simp only [true_and]
      cases hd : data a.value with
      | error e => simp
      | ok d => simp
  · rename_i hp; simp [hp]

theorem modelType_iff {a : XmlA} {s : Str} : modelType a = .ok (some s) ↔
    ∃ d, data a.value = .ok d ∧ d.tag.drop ns.length ≠ [] ∧ upperFirst (d.tag.drop ns.length) = s := by
  unfold modelType
  cases data a.value with
  | error e => simp
  | ok d =>
    simp only [Except.ok.injEq, exists_eq_left']
    unfold modelTypeOf
    cases hd : d.tag.drop ns.length with
    | nil => simp
    | cons c t => simp

theorem modelType_some {a : XmlA} {mt} (h : modelType a = .ok mt) : ∃ s, mt = some s := by
  unfold modelType at h
  split at h
  · cases h
  · split at h
    · cases h
    · cases h; exact ⟨_, rfl⟩

theorem data_iff {x d : Xml} : data x = .ok d ↔
    (py!"dataSpecificationContent" <:+ x.tag ∧ x.children = [d]) ∨ (¬ py!"dataSpecificationContent" <:+ x.tag ∧ d = x) := by
  refine ⟨data_ok, ?_⟩
  unfold data
  rintro (⟨h1, h2⟩ | ⟨h1, rfl⟩)
  · rw [if_pos h1, singleChild, h2]
  · rw [if_neg h1]

end XmlA

end Verif.Parse
