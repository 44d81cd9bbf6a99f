import Verif.Spec.Paths
import Verif.CheckLemmas

/-! # `_set_path` and `elements` -/

namespace Verif.Aas
open Verif Verif.Parse Verif.Spec.Parse Verif.Spec.Model Verif.Spec.Paths Verif.DataTypes Verif.Spec

variable {lim : Option Nat} {ri : Option Str} {rid : Str}

theorem get_obj (c : Cls) (attrs : List (Fld × AVal)) (f : Fld) : Model.get (.obj c attrs) f = (lookup f attrs).getD .none := by
  rw [Model.get, find_lookup]

/-! ## paths -/

theorem map_ok {ε α β : Type} {x : Except ε α} {f : α → β} {b : β} (h : x.map f = .ok b) : ∃ a, x = .ok a ∧ f a = b := by
  cases x with
  | error => cases h
  | ok a => exact ⟨a, rfl, by injection h⟩

/-- what `_set_path` does to the attributes -/
theorem setPathA_lookup (c : Cls) (p : List Tok) : ∀ (attrs attrs' : List (Fld × AVal)), setPathA ri rid c p attrs = .ok attrs' →
    (lookup .idShortPath attrs' = (lookup .idShortPath attrs).map fun _ => .path ri rid p) ∧
    (∀ f, f ≠ .idShortPath → f ≠ .value → lookup f attrs' = lookup f attrs) ∧
    (∀ l', lookup .value attrs' = some (.list l') → ∃ l, lookup .value attrs = some (.list l) ∧
      (c = .submodelElementCollection → setPathL ri rid p l = .ok l') ∧ (c = .submodelElementList → setPathI ri rid p 0 l = .ok l'))
  | [], attrs', h => by rw [setPathA] at h; injection h with h; subst h; simp [lookup]
  | a :: rest, attrs', h => by
    rw [setPathA.eq_def] at h
    split at h
    · contradiction
    · rename_i heq
      simp only [List.cons.injEq] at heq
      obtain ⟨rfl, rfl⟩ := heq
      obtain ⟨as, e, rfl⟩ := map_ok h
      obtain ⟨h1, h2, h3⟩ := setPathA_lookup c p rest as e
      refine ⟨by simp [lookup], ?_, ?_⟩
      · intro f hf hf'; rw [lookup, lookup, if_neg (Ne.symm hf), if_neg (Ne.symm hf)]; exact h2 f hf hf'
      · intro l' hl; rw [lookup, if_neg (by decide)] at hl ⊢; exact h3 l' hl
    · rename_i l rest' heq
      simp only [List.cons.injEq] at heq
      obtain ⟨rfl, rfl⟩ := heq
      have fin : ∀ l1 as, (c = .submodelElementCollection → setPathL ri rid p l = .ok l1) →
          (c = .submodelElementList → setPathI ri rid p 0 l = .ok l1) → setPathA ri rid c p rest = .ok as →
          attrs' = (.value, .list l1) :: as →
          (lookup .idShortPath attrs' = (lookup .idShortPath ((.value, .list l) :: rest)).map fun _ => .path ri rid p) ∧
          (∀ f, f ≠ .idShortPath → f ≠ .value → lookup f attrs' = lookup f ((.value, .list l) :: rest)) ∧
          (∀ l', lookup .value attrs' = some (.list l') → ∃ l2, lookup .value ((.value, .list l) :: rest) = some (.list l2) ∧
            (c = .submodelElementCollection → setPathL ri rid p l2 = .ok l') ∧
            (c = .submodelElementList → setPathI ri rid p 0 l2 = .ok l')) := by
        intro l1 as hc hl e he
        subst he
        obtain ⟨h1, h2, h3⟩ := setPathA_lookup c p rest as e
        refine ⟨?_, ?_, ?_⟩
        · rw [lookup, lookup, if_neg (by decide), if_neg (by decide)]; exact h1
        · intro f hf hf'; rw [lookup, lookup, if_neg (Ne.symm hf'), if_neg (Ne.symm hf')]; exact h2 f hf hf'
        · intro l' hl'
          rw [lookup, if_pos rfl] at hl'
          injection hl' with hl'
          injection hl' with hl'
          subst hl'
          exact ⟨l, by rw [lookup, if_pos rfl], hc, hl⟩
      split at h
      · rename_i hc
        subst hc
        simp only [bind, Except.bind] at h
        split at h
        · cases h
        · rename_i l1 e1
          obtain ⟨as, e, he⟩ := map_ok h
          exact fin l1 as (fun _ => e1) (by simp) e he.symm
      · rename_i hc
        split at h
        · rename_i hc'
          subst hc'
          simp only [bind, Except.bind] at h
          split at h
          · cases h
          · rename_i l1 e1
            obtain ⟨as, e, he⟩ := map_ok h
            exact fin l1 as (by simp) (fun _ => e1) e he.symm
        · rename_i hc'
          obtain ⟨as, e, he⟩ := map_ok h
          exact fin l as (fun h => absurd h hc) (fun h => absurd h hc') e he.symm
    · rename_i a' rest' hn1 hn2 heq
      simp only [List.cons.injEq] at heq
      obtain ⟨rfl, rfl⟩ := heq
      obtain ⟨as, e, rfl⟩ := map_ok h
      obtain ⟨h1, h2, h3⟩ := setPathA_lookup c p rest as e
      obtain ⟨g, w⟩ := a
      have hg : g ≠ .idShortPath := fun he => hn1 w (by rw [he])
      refine ⟨?_, ?_, ?_⟩
      · rw [lookup, lookup, if_neg hg, if_neg hg]; exact h1
      · intro f hf hf'; rw [lookup, lookup]; split
        · rfl
        · exact h2 f hf hf'
      · intro l' hl
        rw [lookup] at hl ⊢
        split
        · rename_i hv
          subst hv
          rw [if_pos rfl] at hl
          injection hl with hl
          subst hl
          exact absurd rfl (hn2 l')
        · rename_i hv
          rw [if_neg hv] at hl
          exact h3 l' hl

theorem setPath_inv {p : List Tok} {v w : AVal} (h : setPath ri rid p v = .ok w) : ∃ c attrs attrs', v = .obj c attrs ∧ w = .obj c attrs' ∧
    hasSetPath c = true ∧ setPathA ri rid c p attrs = .ok attrs' := by
  rw [setPath.eq_def] at h
  split at h
  · rename_i c attrs
    split at h
    · rename_i hc
      obtain ⟨as, e, rfl⟩ := map_ok h
      exact ⟨c, attrs, as, rfl, rfl, hc, e⟩
    · cases h
  · cases h

theorem called_of_nameTok {p : List Tok} {v w : AVal} {t : Tok} (h : setPath ri rid p v = .ok w) (ht : nameTok v = .ok t) : called w = t := by
  obtain ⟨c, attrs, attrs', rfl, rfl, -, ha⟩ := setPath_inv h
  have := (setPathA_lookup c p attrs attrs' ha).2.1 .idShort (by decide) (by decide)
  rw [called, idShort?, get_obj, this]
  rw [nameTok] at ht
  split at ht
  · cases ht
  · rename_i e; rw [e]; injection ht
  · rename_i e; rw [e]; injection ht
  · cases ht

theorem setPathL_get {p : List Tok} : ∀ (l l' : List AVal), setPathL ri rid p l = .ok l' → ∀ (i : Nat) (w : AVal), l'[i]? = some w →
    ∃ v, setPath ri rid (p ++ [called w]) v = .ok w
  | [], l', h, i, w, hw => by rw [setPathL] at h; injection h with h; subst h; simp at hw
  | v :: vs, l', h, i, w, hw => by
    rw [setPathL] at h
    simp only [bind, Except.bind] at h
    split at h
    · cases h
    · rename_i t ht
      split at h
      · cases h
      · rename_i v' hv'
        obtain ⟨l2, e, rfl⟩ := map_ok h
        cases i with
        | zero =>
          simp only [List.getElem?_cons_zero, Option.some.injEq] at hw
          subst hw
          exact ⟨v, by rw [called_of_nameTok hv' ht]; exact hv'⟩
        | succ i => exact setPathL_get vs l2 e i w (by simpa using hw)

theorem setPathI_get {p : List Tok} : ∀ (l : List AVal) (k : Nat) (l' : List AVal), setPathI ri rid p k l = .ok l' → ∀ (i : Nat) (w : AVal), l'[i]? = some w →
    ∃ v, setPath ri rid (p ++ [.idx (k + i)]) v = .ok w
  | [], k, l', h, i, w, hw => by rw [setPathI] at h; injection h with h; subst h; simp at hw
  | v :: vs, k, l', h, i, w, hw => by
    rw [setPathI] at h
    simp only [bind, Except.bind] at h
    split at h
    · cases h
    · rename_i v' hv'
      obtain ⟨l2, e, rfl⟩ := map_ok h
      cases i with
      | zero =>
        simp only [List.getElem?_cons_zero, Option.some.injEq] at hw
        subst hw
        exact ⟨v, hv'⟩
      | succ i =>
        have := setPathI_get vs (k + 1) l2 e i w (by simpa using hw)
        rw [show k + (i + 1) = k + 1 + i by omega]
        exact this

theorem elems_get {c : Cls} {attrs : List (Fld × AVal)} {f : Fld} {i : Nat} {x : AVal} (h : (elems (.obj c attrs) f)[i]? = some x) :
    ∃ l, lookup f attrs = some (.list l) ∧ l[i]? = some x := by
  rw [elems, get_obj] at h
  cases hl : lookup f attrs with
  | none => simp [hl, Model.items] at h
  | some v =>
    rw [hl] at h
    cases v <;> simp [Model.items] at h
    exact ⟨_, rfl, h⟩

/-- the path of all elements below -/
theorem setPath_under {w x : AVal} {is : List Nat} {ts : List Tok} (hu : Under w is ts x) :
    ∀ {v : AVal} {p : List Tok}, setPath ri rid p v = .ok w → ∃ v', setPath ri rid (p ++ ts) v' = .ok x := by
  induction hu with
  | here => intro v p h; exact ⟨v, by simpa using h⟩
  | @step x y z i t is ts hc _ ih =>
    intro v p h
    obtain ⟨c, attrs, attrs', rfl, rfl, hs, ha⟩ := setPath_inv h
    have key : ∃ v', setPath ri rid (p ++ [t]) v' = .ok y := by
      cases hc with
      | submodel hm => exact absurd hs (by decide)
      | collection hm =>
        obtain ⟨l', hl, hi⟩ := elems_get hm
        obtain ⟨l, -, h1, -⟩ := (setPathA_lookup _ p attrs attrs' ha).2.2 l' hl
        exact setPathL_get l l' (h1 rfl) i y hi
      | list hm =>
        obtain ⟨l', hl, hi⟩ := elems_get hm
        obtain ⟨l, -, -, h1⟩ := (setPathA_lookup _ p attrs attrs' ha).2.2 l' hl
        have := setPathI_get l 0 l' (h1 rfl) i y hi
        rwa [Nat.zero_add] at this
    obtain ⟨v', hv'⟩ := key
    have := ih hv'
    rwa [List.append_assoc] at this

theorem lookup_setAttr (f g : Fld) (w : AVal) : ∀ attrs : List (Fld × AVal),
    lookup g (setAttr f w attrs) = if g = f then (lookup f attrs).map (fun _ => w) else lookup g attrs
  | [] => by simp [setAttr, lookup]
  | (k, v) :: rest => by
    rw [setAttr]
    by_cases hk : k = f
    · subst hk
      rw [if_pos rfl, lookup, lookup]
      by_cases hg : k = g
      · subst hg; simp
      · rw [if_neg hg, if_neg (Ne.symm hg), lookup, if_neg hg]
    · rw [if_neg hk, lookup, lookup_setAttr f g w rest]
      by_cases hg : k = g
      · subst hg; simp [hk, lookup]
      · rw [if_neg hg, lookup, lookup, if_neg hk, if_neg hg]

end Verif.Aas
