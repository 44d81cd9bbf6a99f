import Verif.Spec.Result

/-! # Helper lemmas about result trees -/

namespace Verif
open Spec

namespace Level

theorem or_value (a b : Level) : (a.or b).value = max a.value b.value := by
  cases a <;> cases b <;> rfl

theorem value_inj {a b : Level} (h : a.value = b.value) : a = b := by
  cases a <;> cases b <;> first | rfl | (simp [value] at h)

theorem or_eq_left {a b : Level} (h : b.value ≤ a.value) : a.or b = a :=
  value_inj (by rw [or_value]; omega)

theorem or_mem (a b : Level) : a.or b = a ∨ a.or b = b := by
  cases a <;> cases b <;> first | exact Or.inl rfl | exact Or.inr rfl

theorem or_comm_right (a b c : Level) : (a.or b).or c = (a.or c).or b :=
  value_inj (by simp only [or_value]; omega)

end Level

namespace Res
variable {μ : Type}

theorem ok_iff (r : Res μ) : r.ok = true ↔ ¬ Fails r.level := by
  cases r with | mk m l ss => cases l <;> simp [ok, level, Fails]

theorem ok_iff_value (r : Res μ) : r.ok = true ↔ r.level.value ≤ 1 := by
  cases r with | mk m l ss => cases l <;> simp [ok, level, Level.value]

theorem fails_iff (l : Level) : Fails l ↔ 2 ≤ l.value := by
  cases l <;> simp [Fails, Level.value]

@[simp] theorem append_level (r s : Res μ) : (r.append s).level = r.level.or s.level := rfl
@[simp] theorem append_subs (r s : Res μ) : (r.append s).subs = r.subs ++ [s] := rfl
@[simp] theorem append_msg (r s : Res μ) : (r.append s).msg = r.msg := rfl
@[simp] theorem new_level (m : μ) (l : Level) : (Res.new m l).level = l := rfl
@[simp] theorem new_subs (m : μ) (l : Level) : (Res.new m l).subs = [] := rfl

theorem appendAll_nil (r : Res μ) : r.appendAll [] = r := rfl
theorem appendAll_cons (r s : Res μ) (ss : List (Res μ)) :
    r.appendAll (s :: ss) = (r.append s).appendAll ss := rfl
theorem appendAll_append (r : Res μ) (ss ts : List (Res μ)) :
    r.appendAll (ss ++ ts) = (r.appendAll ss).appendAll ts := by
  simp [appendAll, List.foldl_append]

theorem appendAll_subs (r : Res μ) (ss : List (Res μ)) :
    (r.appendAll ss).subs = r.subs ++ ss := by
  induction ss generalizing r with
  | nil => simp [appendAll]
  | cons s ss ih => rw [appendAll_cons, ih]; simp

theorem appendAll_msg (r : Res μ) (ss : List (Res μ)) : (r.appendAll ss).msg = r.msg := by
  induction ss generalizing r with
  | nil => rfl
  | cons s ss ih => rw [appendAll_cons, ih]; rfl

theorem le_appendAll_level (r : Res μ) (ss : List (Res μ)) :
    r.level.value ≤ (r.appendAll ss).level.value := by
  induction ss generalizing r with
  | nil => simp [appendAll]
  | cons s ss ih =>
    rw [appendAll_cons]
    have := ih (r.append s)
    rw [append_level, Level.or_value] at this
    omega

theorem sub_le_appendAll_level (r : Res μ) (ss : List (Res μ)) :
    ∀ s ∈ ss, s.level.value ≤ (r.appendAll ss).level.value := by
  induction ss generalizing r with
  | nil => intro s hs; cases hs
  | cons s ss ih =>
    intro t ht
    rw [appendAll_cons]
    rcases List.mem_cons.mp ht with rfl | ht
    · have := le_appendAll_level (r.append t) ss
      rw [append_level, Level.or_value] at this
      omega
    · exact ih _ t ht

theorem appendAll_level_mem (r : Res μ) (ss : List (Res μ)) :
    (r.appendAll ss).level = r.level ∨ ∃ s ∈ ss, (r.appendAll ss).level = s.level := by
  induction ss generalizing r with
  | nil => exact Or.inl rfl
  | cons s ss ih =>
    rw [appendAll_cons]
    rcases ih (r.append s) with h | ⟨t, ht, h⟩
    · rw [append_level] at h
      rcases Level.or_mem r.level s.level with h' | h'
      · exact Or.inl (h.trans h')
      · exact Or.inr ⟨s, List.mem_cons_self, h.trans h'⟩
    · exact Or.inr ⟨t, List.mem_cons_of_mem _ ht, h⟩

theorem appendAll_level_le_iff (r : Res μ) (ss : List (Res μ)) (n : Nat) :
    (r.appendAll ss).level.value ≤ n ↔
      r.level.value ≤ n ∧ ∀ s ∈ ss, s.level.value ≤ n := by
  constructor
  · intro h
    exact ⟨Nat.le_trans (le_appendAll_level r ss) h,
      fun s hs => Nat.le_trans (sub_le_appendAll_level r ss s hs) h⟩
  · rintro ⟨h1, h2⟩
    rcases appendAll_level_mem r ss with h | ⟨s, hs, h⟩
    · rw [h]; exact h1
    · rw [h]; exact h2 s hs

/-- the verdict after several appends -/
theorem appendAll_ok (r : Res μ) (ss : List (Res μ)) :
    (r.appendAll ss).ok = true ↔ r.ok = true ∧ ∀ s ∈ ss, s.ok = true := by
  simp only [ok_iff_value]
  exact appendAll_level_le_iff r ss 1

theorem append_ok (r s : Res μ) : (r.append s).ok = true ↔ r.ok = true ∧ s.ok = true := by
  have := appendAll_ok r [s]
  simpa [appendAll] using this

theorem new_appendAll_eq (m : μ) (l : Level) (ss : List (Res μ)) :
    (Res.new m l).appendAll ss = .mk m ((Res.new m l).appendAll ss).level ss := by
  have h1 := appendAll_subs (Res.new m l) ss
  have h2 := appendAll_msg (Res.new m l) ss
  cases h : (Res.new m l).appendAll ss with
  | mk m' l' ss' =>
    rw [h] at h1 h2
    simp [Res.subs, Res.msg, Res.new] at h1 h2
    simp [Res.level, h1, h2]

end Res

namespace Spec.Build
variable {μ : Type}

theorem runL_eq (r : Res μ) (bs : List (Build μ)) : runL r bs = r.appendAll (bs.map run) := by
  induction bs generalizing r with
  | nil => rfl
  | cons b bs ih => rw [runL, ih]; rfl

theorem run_eq (m : μ) (l : Level) (bs : List (Build μ)) :
    run (.node m l bs) = (Res.new m l).appendAll (bs.map run) := by
  rw [run, runL_eq]

theorem mem_levelsL {bs : List (Build μ)} {l : Level} :
    l ∈ levelsL bs ↔ ∃ b ∈ bs, l ∈ b.levels := by
  induction bs with
  | nil => simp [levelsL]
  | cons b bs ih => simp [levelsL, ih]

mutual
theorem isWorst : ∀ b : Build μ, IsWorst b.levels b.run.level
  | .node m l bs => by
    have ih := isWorstL bs
    rw [run_eq]
    constructor
    · rcases Res.appendAll_level_mem (Res.new m l) (bs.map run) with h | ⟨s, hs, h⟩
      · rw [h]; simp [levels]
      · rw [h]
        obtain ⟨b, hb, rfl⟩ := List.mem_map.mp hs
        rw [levels]
        exact List.mem_cons_of_mem _ (mem_levelsL.mpr ⟨b, hb, (ih b hb).1⟩)
    · intro x hx
      rw [levels] at hx
      rcases List.mem_cons.mp hx with rfl | hx
      · exact Res.le_appendAll_level (Res.new m x) _
      · obtain ⟨b, hb, hx⟩ := mem_levelsL.mp hx
        exact Nat.le_trans ((ih b hb).2 x hx)
          (Res.sub_le_appendAll_level _ _ _ (List.mem_map_of_mem hb))
theorem isWorstL : ∀ bs : List (Build μ), ∀ b ∈ bs, IsWorst b.levels b.run.level
  | [] => by intro b hb; cases hb
  | b :: bs => by
    intro c hc
    rcases List.mem_cons.mp hc with h | h
    · rw [h]; exact isWorst b
    · exact isWorstL bs c h
end

end Spec.Build
end Verif
