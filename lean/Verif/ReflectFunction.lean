import Verif.ReflectLemmas2

/-!
# Helper lemmas: reflection of functions
-/

namespace Verif.Reflect
open Verif Spec.Reflect

variable {C E S : Type} {w : World C E S}

theorem mapM_inv {α β ε : Type} {f : α → Except ε β} {g : α → β} (hf : ∀ x y, f x = .ok y → y = g x) :
    ∀ {l : List α} {l' : List β}, l.mapM f = .ok l' → l' = l.map g
  | [], l', h => by
    rw [List.mapM_nil] at h
    injection h with h
    exact h.symm
  | x :: l, l', h => by
    rw [List.mapM_cons] at h
    simp only [bind, Except.bind, pure, Except.pure] at h
    split at h
    · cases h
    · rename_i y hy
      split at h
      · cases h
      · rename_i ys hys
        injection h with h
        rw [← h, hf x y hy, mapM_inv hf hys]
        rfl

theorem resolveRef_inv {t : Tbl C E S} {a : Ann C E S} {k : Str} (h : resolveRef w t a = .ok k) : k = w.key a := by
  rw [resolveRef] at h
  split at h
  · injection h with h
    exact h.symm
  · cases h

theorem resolveSym_byText {t : Tbl C E S} {s : Sym C E S (Ann C E S)} {s' : Sym C E S Str} (h : resolveSym w t s = .ok s') : s' = byText w s := by
  cases s with
  | none | bool | str | any | number | bytes | enum _ | sfv _ => injection h with h; exact h.symm
  | list i ae =>
    rw [resolveSym] at h
    simp only [bind, Except.bind, pure, Except.pure] at h
    split at h
    · cases h
    · rename_i k hk
      injection h with h
      rw [← h, resolveRef_inv hk]
      rfl
  | cls c attrs static subs =>
    rw [resolveSym] at h
    simp only [bind, Except.bind, pure, Except.pure] at h
    split at h
    · cases h
    · rename_i as has
      split at h
      · cases h
      · rename_i bs hbs
        injection h with h
        rw [← h, mapM_inv (fun x y hxy => resolveRef_inv hxy) hbs,
          mapM_inv (g := fun a : Attribute (Ann C E S) => (⟨a.name, w.key a.type, a.required, a.forceName⟩ : Attribute Str)) (fun x y hxy => ?_) has]
        · rfl
        · split at hxy
          · cases hxy
          · rename_i k hk
            injection hxy with hxy
            rw [← hxy, resolveRef_inv hk]

/-- the table holds symbols of types in `R`, and what they use -/
def Good (w : World C E S) (R : Ann C E S → Prop) (t : Tbl C E S) : Prop :=
  (keys t).Nodup ∧ ∀ p ∈ t, ∃ b s, R b ∧ p = (w.key b, some s) ∧ symOf w b = some s ∧ ∀ b', Uses w b b' → w.key b' ∈ keys t

theorem Good.reaches {R : Ann C E S → Prop} {t : Tbl C E S} (h : Good w R t) (hk : ∀ b b', R b → R b' → w.key b = w.key b' → b = b')
    (hR : ∀ b b', R b → Reachable w b b' → R b') {a b : Ann C E S} (hab : Reachable w a b) (ha : R a) (hm : w.key a ∈ keys t) :
    w.key b ∈ keys t := by
  induction hab with
  | refl => exact hm
  | @step x y z hu _ ih =>
    refine ih (hR x y ha (.step hu .refl)) ?_
    obtain ⟨p, hp, e⟩ := List.mem_map.mp hm
    obtain ⟨b', s, h1, rfl, -, h4⟩ := h.2 p hp
    have := hk b' x h1 ha e
    subst this
    exact h4 _ hu

theorem Good.supported {R : Ann C E S → Prop} {t : Tbl C E S} (h : Good w R t) (hk : ∀ b b', R b → R b' → w.key b = w.key b' → b = b')
    (hR : ∀ b b', R b → Reachable w b b' → R b') {a b : Ann C E S} (hab : Reachable w a b) (ha : R a) (hm : w.key a ∈ keys t) :
    Supported w b := by
  obtain ⟨p, hp, e⟩ := List.mem_map.mp (h.reaches hk hR hab ha hm)
  obtain ⟨b', s, h1, rfl, h3, -⟩ := h.2 p hp
  have := hk b' b h1 (hR a b ha hab) e
  subst this
  exact symOf_some.mp ⟨s, h3⟩

theorem Good.entry {R : Ann C E S → Prop} {t : Tbl C E S} (hw : Grounded w) (h : Good w R t)
    (hk : ∀ b b', R b → R b' → w.key b = w.key b' → b = b') {a : Ann C E S} (ha : R a) (hm : w.key a ∈ keys t) :
    ∃ s, (dictGet (w.key a) t).join = some s ∧ Describes w a (byText w s) := by
  cases hg : dictGet (w.key a) t with
  | none =>
    obtain ⟨p, hp, e⟩ := List.mem_map.mp hm
    rw [Parse.dictGet_eq_none] at hg
    exact absurd (e ▸ hp) (hg p.2)
  | some o =>
    obtain ⟨b, s, h1, h2, h3, h4⟩ := h.2 _ (Parse.dictGet_mem hg)
    injection h2 with h2 h2'
    have := hk b a h1 ha h2.symm
    subst this
    subst h2'
    obtain ⟨s', h5, h6⟩ := resolveSym_ok hw h3 h4
    rw [resolveSym_byText h5] at h6
    exact ⟨s, rfl, h6⟩

section
variable (hw : Grounded w) {U : List (Ann C E S)} {R : Ann C E S → Prop} (hU : ∀ b, R b → b ∈ U)
  (hk : ∀ b b', R b → R b' → w.key b = w.key b' → b = b') (hR : ∀ b b', R b → Reachable w b b' → R b') {n : Nat} (hn : U.length < n)
include hw hU hR hn

/-- one call on a table that is already good -/
theorem reflectF_good {a : Ann C E S} (ha : R a) {t : Tbl C E S} (ht : Good w R t) :
    match reflectF w n a t with
    | .ok t' => Good w R t' ∧ w.key a ∈ keys t'
    | .error _ => ∃ b, Reachable w a b ∧ ¬ Supported w b := by
  have hp := reflectF_post hw U n a t (fun b hb => hU b (hR a b ha hb)) ht.1 (Nat.lt_of_le_of_lt (List.length_filter_le _ _) hn)
  cases hr : reflectF w n a t with
  | error e => rw [hr] at hp; exact hp
  | ok t' =>
    rw [hr] at hp
    obtain ⟨⟨new, rfl, h1, h2⟩, h3⟩ := hp
    refine ⟨⟨h1, fun p hp => ?_⟩, h3⟩
    rcases List.mem_append.mp hp with hp | hp
    · obtain ⟨b, s, g1, g2, g3, g4⟩ := ht.2 p hp
      exact ⟨b, s, g1, g2, g3, fun b' hb' => by
        rw [keys, List.map_append]
        exact List.mem_append.mpr (.inl (g4 b' hb'))⟩
    · obtain ⟨b, s, g1, g2⟩ := h2 p hp
      exact ⟨b, s, hR a b ha g1, g2⟩

include hk

/-- the loop over the annotations -/
theorem reflectArgs_good : ∀ (l : List (Str × Ann C E S)), (∀ p ∈ parameters l, R (bare p.2)) → ∀ {t : Tbl C E S}, Good w R t →
    match reflectArgs w n l t with
    | .ok args => (∀ p ∈ parameters l, ∀ b, Reachable w (bare p.2) b → Supported w b) ∧ args.length = (parameters l).length ∧
        ∀ q ∈ (parameters l).zip args, q.2.name = q.1.1 ∧ (q.2.required = true ↔ ∀ x, q.1.2 ≠ .optional x) ∧
          ∃ s, q.2.type = some s ∧ Describes w (bare q.1.2) (byText w s)
    | .error _ => ∃ p ∈ parameters l, ∃ b, Reachable w (bare p.2) b ∧ ¬ Supported w b
  | [], _, t, _ => by simp [reflectArgs, parameters]
  | (key, value) :: rest, hl, t, ht => by
    rw [reflectArgs]
    by_cases hkey : key = py!"return"
    · rw [if_pos hkey]
      have e : parameters ((key, value) :: rest) = parameters rest := by simp [parameters, hkey]
      rw [e] at hl ⊢
      exact reflectArgs_good rest hl ht
    · rw [if_neg hkey]
      have e : parameters ((key, value) :: rest) = (key, value) :: parameters rest := by simp [parameters, hkey]
      rw [e] at hl ⊢
      have ha : R (bare value) := hl (key, value) (by simp)
      have h1 := reflectF_good hw hU hR hn ha ht
      simp only [unwrapOptional_eq, bind, Except.bind, pure, Except.pure]
      cases hr : reflectF w n (bare value) t with
      | error e =>
        rw [hr] at h1
        obtain ⟨b, h2, h3⟩ := h1
        exact ⟨(key, value), by simp, b, h2, h3⟩
      | ok t' =>
        rw [hr] at h1
        obtain ⟨hg, hm⟩ := h1
        have h2 := reflectArgs_good rest (fun p hp => hl p (by simp [hp])) hg
        dsimp only
        cases hr2 : reflectArgs w n rest t' with
        | error e =>
          rw [hr2] at h2
          obtain ⟨p, hp, h3⟩ := h2
          exact ⟨p, by simp [hp], h3⟩
        | ok args =>
          rw [hr2] at h2
          obtain ⟨h3, h4, h5⟩ := h2
          refine ⟨?_, by simp [h4], ?_⟩
          · intro p hp b hb
            rcases List.mem_cons.mp hp with rfl | hp
            · exact hg.supported hk hR hb ha hm
            · exact h3 p hp b hb
          · intro q hq
            rw [List.zip_cons_cons] at hq
            rcases List.mem_cons.mp hq with rfl | hq
            · exact ⟨rfl, unwrapOptional_required value, hg.entry hw hk ha hm⟩
            · exact h5 q hq
end

theorem same_iff (a b : Argument C E S) : a.same b = true ↔ a.name = b.name ∧ a.required = b.required := by
  unfold Argument.same
  by_cases h : a.name = b.name <;> by_cases h' : a.required = b.required <;> simp [h, h']

theorem sameArgs_iff : ∀ (l l' : List (Argument C E S)), sameArgs l l' = true ↔
    l.map (fun a => (a.name, a.required)) = l'.map (fun a => (a.name, a.required))
  | [], [] => by simp [sameArgs]
  | [], _ :: _ => by simp [sameArgs]
  | _ :: _, [] => by simp [sameArgs]
  | a :: as, b :: bs => by simp [sameArgs, same_iff, sameArgs_iff as bs]

/-- the annotation of the result -/
theorem isResult (l : List (Str × Ann C E S)) (hd : (l.map Prod.fst).Nodup) (a : Ann C E S) :
    IsResult l a ↔ a = (dictGet py!"return" l).getD .none := by
  unfold IsResult
  cases hg : dictGet py!"return" l with
  | none =>
    rw [Parse.dictGet_eq_none] at hg
    simp only [hg, false_or, Option.getD_none, not_false_eq_true, implies_true, and_true]
  | some x =>
    have hx := Parse.dictGet_mem hg
    constructor
    · rintro (h | ⟨-, h⟩)
      · exact Option.some.inj ((Parse.dictGet_of_mem hd h).symm.trans hg)
      · exact absurd hx (h x)
    · rintro rfl
      exact .inl hx

end Verif.Reflect
