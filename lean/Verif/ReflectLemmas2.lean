import Verif.ReflectLemmas

/-! # Reflection: resolved tables -/

namespace Verif.Reflect
open Verif Verif.Spec.Reflect

variable {C E S : Type} {w : World C E S}

theorem mapM_ok {α β ε : Type} {f : α → Except ε β} {g : α → β} : ∀ {l : List α}, (∀ x ∈ l, f x = .ok (g x)) → l.mapM f = .ok (l.map g)
  | [], _ => rfl
  | x :: l, h => by
    rw [List.mapM_cons, h x (by simp), mapM_ok (l := l) (fun y hy => h y (by simp [hy]))]
    rfl

theorem resolveRef_ok {t : Tbl C E S} {a : Ann C E S} (h : w.key a ∈ keys t) : resolveRef w t a = .ok (w.key a) := by
  rw [resolveRef]
  cases hg : dictGet (w.key a) t with
  | some v => rfl
  | none =>
    obtain ⟨p, hp, e⟩ := List.mem_map.mp h
    rw [Parse.dictGet_eq_none] at hg
    exact absurd (e ▸ hp) (hg p.2)

/-- an attribute with its type by key -/
def byKey (w : World C E S) (a : Attribute (Ann C E S)) : Attribute Str := ⟨a.name, w.key a.type, a.required, a.forceName⟩

theorem fieldsSym_spec : ∀ {fs : List (PField C E S)} {attrs : List (Attribute (Ann C E S))} {static : List Str},
    fieldsSym w fs = some (attrs, static) →
    static = (fs.filterMap fun f => if f.exclude then some f.name else none) ∧ attrs.length = (fs.filter fun f => !f.exclude).length ∧
    (∀ p ∈ (fs.filter fun f => !f.exclude).zip (attrs.map (byKey w)), IsAttribute w p.1 p.2) ∧
    (∀ x ∈ attrs, ∃ f ∈ fs, f.exclude = false ∧ Means w (bare f.type) x.type)
  | [], attrs, static, h => by
    simp only [fieldsSym, Option.some.injEq, Prod.mk.injEq] at h
    obtain ⟨rfl, rfl⟩ := h
    simp
  | g :: fs, attrs, static, h => by
    rw [fieldsSym] at h
    split at h
    · rename_i hg
      obtain ⟨p, hp, e⟩ := Option.map_eq_some_iff.mp h
      simp only [Prod.mk.injEq] at e
      obtain ⟨rfl, rfl⟩ := e
      obtain ⟨h1, h2, h3, h4⟩ := fieldsSym_spec hp
      refine ⟨by simp [hg, h1], by simp [hg, h2], by simpa [hg] using h3, fun x hx => ?_⟩
      obtain ⟨f, hf, r⟩ := h4 x hx
      exact ⟨f, by simp [hf], r⟩
    · rename_i hg
      simp only [Bool.not_eq_true] at hg
      split at h
      · cases h
      · rename_i ty hty
        have hm := unwrapForward_ok.mp hty
        obtain ⟨p, hp, e⟩ := Option.map_eq_some_iff.mp h
        simp only [Prod.mk.injEq] at e
        obtain ⟨rfl, rfl⟩ := e
        obtain ⟨h1, h2, h3, h4⟩ := fieldsSym_spec hp
        refine ⟨by simp [hg, h1], by simp [hg, h2], ?_, ?_⟩
        · intro q hq
          simp only [List.filter_cons, hg, Bool.not_false, if_true, List.map_cons, List.zip_cons_cons, List.mem_cons] at hq
          rcases hq with rfl | hq
          · exact ⟨rfl, unwrapOptional_required g.type, rfl, ty, hm, rfl⟩
          · exact h3 q hq
        · intro x hx
          rcases List.mem_cons.mp hx with rfl | hx
          · exact ⟨g, by simp, hg, hm⟩
          · obtain ⟨f, hf, r⟩ := h4 x hx
            exact ⟨f, by simp [hf], r⟩

theorem resolveSym_ok (hw : Grounded w) {t : Tbl C E S} {b : Ann C E S} {s : Sym C E S (Ann C E S)} (hs : symOf w b = some s)
    (hu : ∀ b', Uses w b b' → w.key b' ∈ keys t) : ∃ s', resolveSym w t s = .ok s' ∧ Describes w b s' := by
  match b with
  | .none | .bool | .str | .any | .int | .bytes | .enum _ | .sfv _ =>
    simp only [symOf, Option.some.injEq] at hs
    subst hs
    exact ⟨_, rfl, rfl⟩
  | .optional _ | .forward _ | .other _ => simp [symOf] at hs
  | .list i ae =>
    rw [symOf] at hs
    split at hs
    · cases hs
    · rename_i x hx
      have hm := unwrapForward_ok.mp hx
      injection hs with hs
      subst hs
      refine ⟨.list (w.key x) ae, ?_, x, hm, rfl⟩
      rw [resolveSym, resolveRef_ok (hu x (.item hm))]
      rfl
  | .cls c =>
    rw [symOf] at hs
    split at hs
    · obtain ⟨⟨attrs, static⟩, hp, rfl⟩ := Option.map_eq_some_iff.mp hs
      obtain ⟨h1, h2, h3, h4⟩ := fieldsSym_spec hp
      refine ⟨.cls c (attrs.map (byKey w)) static ((collect w w.height c).map fun d => w.key (.cls d)), ?_, attrs.map (byKey w),
        (collect w w.height c).map (fun d => w.key (.cls d)), by rw [h1], by simp [h2], h3, fun k => ?_⟩
      · rw [resolveSym]
        have e1 : (attrs.mapM fun a => do return { name := a.name, type := ← resolveRef w t a.type, required := a.required, forceName := a.forceName } : Except PyExc (List (Attribute Str))) =
            .ok (attrs.map (byKey w)) := by
          refine mapM_ok fun x hx => ?_
          obtain ⟨f, hf, hx, hm⟩ := h4 x hx
          rw [resolveRef_ok (hu _ (.attr hf hx hm))]
          rfl
        have e2 : ((collect w w.height c).map Ann.cls).mapM (resolveRef w t) = .ok (((collect w w.height c).map Ann.cls).map w.key) := by
          refine mapM_ok fun x hx => ?_
          obtain ⟨d, hd, rfl⟩ := List.mem_map.mp hx
          have := (collect_iff hw c d).mp hd
          exact resolveRef_ok (hu _ (.sub this.1 this.2))
        simp only [bind, Except.bind, pure, Except.pure] at e1 ⊢
        rw [e1]
        dsimp only
        rw [e2, List.map_map]
        rfl
      · rw [List.mem_map]
        constructor
        · rintro ⟨d, hd, rfl⟩
          have := (collect_iff hw c d).mp hd
          exact ⟨d, this.1, this.2, rfl⟩
        · rintro ⟨d, h1, h2, rfl⟩
          exact ⟨d, (collect_iff hw c d).mpr ⟨h1, h2⟩, rfl⟩
    · cases hs

/-- a table complete for the types reachable from `a` -/
def Complete (w : World C E S) (a : Ann C E S) (t : Tbl C E S) : Prop :=
  (keys t).Nodup ∧ w.key a ∈ keys t ∧
    ∀ p ∈ t, ∃ b s, Reachable w a b ∧ p = (w.key b, some s) ∧ symOf w b = some s ∧ ∀ b', Uses w b b' → w.key b' ∈ keys t

theorem reflectF_complete (hw : Grounded w) {U : List (Ann C E S)} {a : Ann C E S} (hU : ∀ b, Reachable w a b → b ∈ U) {n : Nat}
    (hn : U.length < n) :
    match reflectF w n a [] with
    | .ok t => Complete w a t
    | .error _ => ∃ b, Reachable w a b ∧ ¬ Supported w b := by
  have hf : free w U [] < n := Nat.lt_of_le_of_lt (List.length_filter_le _ _) hn
  have := reflectF_post hw U n a [] hU (by simp [keys]) hf
  cases hr : reflectF w n a [] with
  | error e => rw [hr] at this; exact this
  | ok t =>
    rw [hr] at this
    obtain ⟨⟨new, rfl, h1, h2⟩, h3⟩ := this
    exact ⟨h1, h3, h2⟩

theorem Complete.reaches {a : Ann C E S} {t : Tbl C E S} (h : Complete w a t)
    (hk : ∀ b b', Reachable w a b → Reachable w a b' → w.key b = w.key b' → b = b') {b : Ann C E S} (hb : Reachable w a b) : w.key b ∈ keys t := by
  have main : ∀ x b, Reachable w x b → Reachable w a x → w.key x ∈ keys t → w.key b ∈ keys t := by
    intro x b hxb
    induction hxb with
    | refl => exact fun _ h => h
    | @step x y z hu _ ih =>
      intro hax hx
      refine ih (Reachable.trans hax (.step hu .refl)) ?_
      obtain ⟨p, hp, e⟩ := List.mem_map.mp hx
      obtain ⟨b', s, h1, rfl, -, h4⟩ := h.2.2 p hp
      have := hk b' x h1 hax e
      subst this
      exact h4 _ hu
  exact main a b hb .refl h.2.1

theorem mapM_each {α β ε : Type} {f : α → Except ε β} {P : α → β → Prop} : ∀ {l : List α}, (∀ x ∈ l, ∃ y, f x = .ok y ∧ P x y) →
    ∃ l', l.mapM f = .ok l' ∧ l'.length = l.length ∧ ∀ p ∈ l.zip l', P p.1 p.2
  | [], _ => ⟨[], rfl, rfl, by simp⟩
  | x :: l, h => by
    obtain ⟨y, hy, py⟩ := h x (by simp)
    obtain ⟨l', h1, h2, h3⟩ := mapM_each (l := l) (fun z hz => h z (by simp [hz]))
    refine ⟨y :: l', by rw [List.mapM_cons, hy, h1]; rfl, by simp [h2], fun p hp => ?_⟩
    rcases List.mem_cons.mp hp with rfl | hp
    · exact py
    · exact h3 p hp

theorem zip_right {α β : Type} : ∀ {l : List α} {l' : List β}, l'.length = l.length → ∀ y ∈ l', ∃ x, (x, y) ∈ l.zip l'
  | [], [], _, _, h => by cases h
  | x :: l, z :: l', h, y, hy => by
    rcases List.mem_cons.mp hy with rfl | hy
    · exact ⟨x, by simp⟩
    · obtain ⟨x', hx'⟩ := zip_right (l := l) (by simpa using h) y hy
      exact ⟨x', by simp [hx']⟩

theorem zip_keys {α β γ : Type} : ∀ {l : List (α × β)} {l' : List (α × γ)}, l'.length = l.length → (∀ p ∈ l.zip l', p.2.1 = p.1.1) →
    l'.map Prod.fst = l.map Prod.fst
  | [], [], _, _ => rfl
  | x :: l, z :: l', h, hp => by
    rw [List.map_cons, List.map_cons, zip_keys (l := l) (by simpa using h) (fun p hq => hp p (by simp [hq])), hp (x, z) (by simp)]

theorem resolve_complete (hw : Grounded w) {a : Ann C E S} {t : Tbl C E S} (ht : Complete w a t) :
    ∃ t', resolve w t = .ok t' ∧ t'.map Prod.fst = keys t ∧
      ∀ p ∈ t', ∃ b s, Reachable w a b ∧ p = (w.key b, some s) ∧ Supported w b ∧ Describes w b s ∧ ∀ b', Uses w b b' → w.key b' ∈ keys t := by
  have each : ∀ p ∈ t, ∃ q, (match p.2 with
        | none => (.ok (p.1, none) : Except PyExc (Str × Option (Sym C E S Str)))
        | some s => do return (p.1, some (← resolveSym w t s))) = .ok q ∧
      (q.1 = p.1 ∧ ∃ b s, Reachable w a b ∧ q = (w.key b, some s) ∧ Supported w b ∧ Describes w b s ∧ ∀ b', Uses w b b' → w.key b' ∈ keys t) := by
    intro p hp
    obtain ⟨b, s, h1, rfl, h3, h4⟩ := ht.2.2 p hp
    obtain ⟨s', hs', hd⟩ := resolveSym_ok hw h3 h4
    exact ⟨(w.key b, some s'), by simp only [bind, Except.bind, hs']; rfl, rfl, b, s', h1, rfl, symOf_some.mp ⟨s, h3⟩, hd, h4⟩
  obtain ⟨t', h1, h2, h3⟩ := mapM_each each
  refine ⟨t', h1, zip_keys h2 fun p hp => (h3 p hp).1, fun q hq => ?_⟩
  obtain ⟨p, hp⟩ := zip_right h2 q hq
  exact (h3 _ hp).2

/-! ### more fuel -/

section
variable {rec rec' : Ann C E S → Tbl C E S → Except PyExc (Tbl C E S)} (hr : ∀ a t t', rec a t = .ok t' → rec' a t = .ok t')
include hr

theorem reflectFields_mono : ∀ (fs : List (PField C E S)) (t : Tbl C E S) r, reflectFields w rec fs t = .ok r → reflectFields w rec' fs t = .ok r
  | [], _, _, h => h
  | f :: fs, t, r, h => by
    rw [reflectFields] at h ⊢
    simp only [bind, Except.bind] at h ⊢
    split at h
    · rename_i hx
      rw [if_pos hx]
      split at h
      · cases h
      · rename_i hf
        rw [reflectFields_mono fs t _ hf]
        exact h
    · rename_i hx
      rw [if_neg hx]
      split at h
      · cases h
      · rename_i ty hty
        split at h
        · cases h
        · rename_i t' ht
          rw [hr _ _ _ ht]
          dsimp only
          split at h
          · cases h
          · rename_i hf
            rw [reflectFields_mono fs t' _ hf]
            exact h

theorem reflectSubs_mono : ∀ (cs : List C) (t : Tbl C E S) r, reflectSubs rec cs t = .ok r → reflectSubs rec' cs t = .ok r
  | [], _, _, h => h
  | c :: cs, t, r, h => by
    rw [reflectSubs] at h ⊢
    simp only [bind, Except.bind] at h ⊢
    split at h
    · cases h
    · rename_i t' ht
      rw [hr _ _ _ ht]
      exact reflectSubs_mono cs t' _ h

theorem reflectRaw_mono (a : Ann C E S) (t : Tbl C E S) r (h : reflectRaw w rec a t = .ok r) : reflectRaw w rec' a t = .ok r := by
  match a with
  | .none | .bool | .str | .any | .int | .bytes | .enum _ | .sfv _ => exact h
  | .optional _ | .forward _ | .other _ => exact h
  | .list i ae =>
    rw [reflectRaw] at h ⊢
    simp only [bind, Except.bind] at h ⊢
    split at h
    · cases h
    · split at h
      · cases h
      · rename_i ht
        rw [hr _ _ _ ht]
        exact h
  | .cls c =>
    rw [reflectRaw] at h ⊢
    split at h
    · cases h
    · rename_i hc
      rw [if_neg hc]
      simp only [bind, Except.bind] at h ⊢
      split at h
      · cases h
      · rename_i hf
        rw [reflectFields_mono hr _ _ _ hf]
        dsimp only at h ⊢
        split at h
        · cases h
        · rename_i hs
          rw [reflectSubs_mono hr _ _ _ hs]
          exact h
end

theorem reflectF_mono : ∀ (n : Nat) (a : Ann C E S) (t t' : Tbl C E S), reflectF w n a t = .ok t' → reflectF w (n + 1) a t = .ok t'
  | 0, _, _, _, h => by cases h
  | n + 1, a, t, t', h => by
    rw [reflectF] at h ⊢
    split at h
    · exact h
    · simp only [bind, Except.bind] at h ⊢
      split at h
      · cases h
      · rename_i hx
        rw [reflectRaw_mono (reflectF_mono n) a _ _ hx]
        exact h

theorem reflectF_mono_le {n m : Nat} (hnm : n ≤ m) {a : Ann C E S} {t t' : Tbl C E S} (h : reflectF w n a t = .ok t') : reflectF w m a t = .ok t' := by
  induction hnm with
  | refl => exact h
  | step _ ih => exact reflectF_mono _ _ _ _ ih

end Verif.Reflect
