import Verif.MessageLemmas
import Verif.Spec.Messages
import Verif.CheckTable
import Verif.DocumentLemmas

/-! # What the texts say: inversion of the methods -/

namespace Verif.Aas
open Verif Verif.Parse Verif.Spec.Parse Verif.Spec.Model Verif.DataTypes Verif.Spec

/-- violates nothing -/
def Quiet {α : Type} (x : Chk α) : Prop := ∀ t l, x ≠ .error (.violated t l)

theorem quiet_ok {α : Type} (a : α) : Quiet (.ok a : Chk α) := fun _ _ h => by cases h
theorem quiet_py {α : Type} (e : PyExc) : Quiet (pyErr e : Chk α) := fun _ _ h => by cases h
theorem quiet_bind {α β : Type} {x : Chk α} {f : α → Chk β} (h : Quiet x) (hf : ∀ a, Quiet (f a)) : Quiet (x >>= f) := by
  intro t l he
  cases x with
  | ok a => exact hf a t l he
  | error e => exact h t l (by simpa [Bind.bind, Except.bind] using he)
theorem quiet_ite {α : Type} {p : Prop} [Decidable p] {x y : Chk α} (h : Quiet x) (h' : Quiet y) : Quiet (if p then x else y) := by
  split <;> assumption

theorem quiet_attr (v : AVal) (f : Fld) : Quiet (attr v f) := by
  unfold attr
  split
  · split
    · exact quiet_ok _
    · exact quiet_py _
  · exact quiet_py _
theorem quiet_raw (v : AVal) : Quiet (rawValue v) := by unfold rawValue; split; exact quiet_ok _; exact quiet_py _
theorem quiet_asStr (v : AVal) : Quiet (asStr v) := by unfold asStr; split; exact quiet_ok _; exact quiet_py _
theorem quiet_iter (v : AVal) : Quiet (iter v) := by unfold iter; split; exact quiet_ok _; exact quiet_py _
theorem quiet_head (l : List AVal) : Quiet (head l) := by unfold head; split; exact quiet_py _; exact quiet_ok _
theorem quiet_last (l : List AVal) : Quiet (last l) := by unfold last; split; exact quiet_py _; exact quiet_ok _
theorem quiet_keyType (v : AVal) : Quiet (keyType v) := quiet_attr v _
theorem quiet_any {α : Type} {p : α → Chk Bool} (h : ∀ x, Quiet (p x)) : ∀ l, Quiet (anyM p l)
  | [] => quiet_ok _
  | x :: xs => quiet_bind (h x) fun _ => quiet_ite (quiet_ok _) (quiet_any h xs)
theorem quiet_english (v : AVal) : Quiet (anyEnglish v) :=
  quiet_bind (quiet_iter v) fun _ => quiet_any (fun _ => quiet_bind (quiet_attr _ _) fun _ => quiet_bind (quiet_asStr _) fun _ => quiet_ok _) _
theorem quiet_template (v : AVal) : Quiet (anyTemplateQualifier v) :=
  quiet_bind (quiet_iter v) fun _ => quiet_any (fun _ => quiet_bind (quiet_attr _ _) fun _ => quiet_ok _) _
theorem quiet_keyEq (a b : AVal) : Quiet (keyEq a b) :=
  quiet_bind (quiet_attr _ _) fun _ => quiet_bind (quiet_attr _ _) fun _ => quiet_ite
    (quiet_bind (quiet_attr _ _) fun _ => quiet_bind (quiet_raw _) fun _ => quiet_bind (quiet_attr _ _) fun _ => quiet_bind (quiet_raw _) fun _ => quiet_ok _)
    (quiet_ok _)
theorem quiet_keysEq : ∀ a b : List AVal, Quiet (keysEq a b)
  | x :: xs, y :: ys => quiet_bind (quiet_keyEq x y) fun _ => quiet_ite (quiet_keysEq xs ys) (quiet_ok _)
  | [], _ => quiet_ok _
  | _ :: _, [] => quiet_ok _
theorem quiet_refEq (a b : AVal) : Quiet (refEq a b) :=
  quiet_bind (quiet_attr _ _) fun _ => quiet_bind (quiet_attr _ _) fun _ => quiet_ite
    (quiet_bind (quiet_attr _ _) fun _ => quiet_bind (quiet_iter _) fun _ => quiet_bind (quiet_attr _ _) fun _ =>
      quiet_bind (quiet_iter _) fun _ => quiet_ite (quiet_ok _) (quiet_keysEq _ _)) (quiet_ok _)

theorem bind_tells {α β : Type} {x : Chk α} {f : α → Chk β} {t : Str} {l : Level} (h : Quiet x) :
    (x >>= f) = .error (.violated t l) ↔ ∃ a, x = .ok a ∧ f a = .error (.violated t l) := by
  cases x with
  | ok a => exact ⟨fun hf => ⟨a, rfl, hf⟩, fun ⟨b, hb, hf⟩ => by cases hb; exact hf⟩
  | error e =>
    constructor
    · intro hf; exact absurd (show (Except.error e : Chk α) = .error (.violated t l) by simpa [Bind.bind, Except.bind] using hf) (h t l)
    · rintro ⟨_, h, -⟩; cases h

theorem ite_tells {α : Type} {p : Prop} [Decidable p] {x y z : Chk α} : (if p then x else y) = z ↔ (p ∧ x = z) ∨ (¬ p ∧ y = z) := by
  by_cases hp : p <;> simp [hp]

theorem ok_tells {α : Type} {a : α} {e : Fail} : ((Except.ok a : Chk α) = .error e) ↔ False := by simp
theorem py_tells {α : Type} {e : PyExc} {t : Str} {l : Level} : ((pyErr e : Chk α) = .error (.violated t l)) ↔ False := by simp [pyErr]
theorem violated_tells {α : Type} {s t : Str} {k l : Level} : ((violated s k : Chk α) = .error (.violated t l)) ↔ t = s ∧ l = k := by
  simp only [violated, Except.error.injEq, Fail.violated.injEq]
  exact ⟨fun h => ⟨h.1.symm, h.2.symm⟩, fun h => ⟨h.1.symm, h.2.symm⟩⟩

theorem forI_tells {α : Type} {f : Nat → α → Chk Unit} {t : Str} {l : Level} : ∀ {xs : List α} {i : Nat},
    forI f i xs = .error (.violated t l) → ∃ j x, xs[j]? = some x ∧ f (i + j) x = .error (.violated t l)
  | [], _, h => by simp [forI] at h
  | x :: xs, i, h => by
    rw [forI] at h
    cases hx : f i x with
    | ok u =>
      rw [hx] at h
      obtain ⟨j, y, hj, hy⟩ := forI_tells (xs := xs) (i := i + 1) h
      exact ⟨j + 1, y, by simpa using hj, by rw [show i + (j + 1) = i + 1 + j by omega]; exact hy⟩
    | error e =>
      rw [hx] at h
      exact ⟨0, x, rfl, by rw [Nat.add_zero, hx]; exact h⟩

theorem forM_tells {α : Type} {f : α → Chk Unit} {t : Str} {l : Level} : ∀ {xs : List α},
    Aas.forM f xs = .error (.violated t l) → ∃ x ∈ xs, f x = .error (.violated t l)
  | [], h => by simp [Aas.forM] at h
  | x :: xs, h => by
    rw [Aas.forM] at h
    cases hx : f x with
    | ok u =>
      rw [hx] at h
      obtain ⟨y, hy, he⟩ := forM_tells (xs := xs) h
      exact ⟨y, List.mem_cons_of_mem _ hy, he⟩
    | error e => rw [hx] at h; exact ⟨x, List.mem_cons_self, by rw [hx]; exact h⟩

theorem at_tells {v : AVal} {s t : Str} {l : Level} : tellAt v s = .error (.violated t l) →
    t = s ++ py!" @ " ++ pathShown (get v .idShortPath) ∧ l = .error := by
  intro h
  rw [tellAt, bind_tells (quiet_attr _ _)] at h
  obtain ⟨p, hp, h⟩ := h
  rw [violated_tells] at h
  rw [attr_ok hp]
  exact h

/-- the texts are those of broken rules -/
theorem tell_broken {lim : Option Nat} {c : Cls} {v : AVal} {m : Method} {t : Str} {l : Level} (h : Obj lim c v) (hc : c ≠ .langStringSet)
    (hm : m ∈ checkTable c) (ht : tellMethod lim m v = .error (.violated t l)) : ¬ ruleOf lim m v ∧ levelOf m = l := by
  have hs := tell_same lim m v
  rw [SameBut, ht] at hs
  have hd := method_does h hc hm
  cases hr : runMethod lim m v with
  | ok u => rw [hr] at hs; simp [Except.mapError] at hs
  | error e =>
    cases e with
    | py e => rw [hr] at hs; simp [Except.mapError, mute] at hs
    | violated s k =>
      rw [hr] at hs
      simp only [Except.mapError, mute, Except.error.injEq, Fail.violated.injEq, true_and] at hs
      have hn : ¬ crashOf lim m v := by
        intro hcr
        obtain ⟨e, -, he⟩ := hd.crashes hcr
        rw [hr] at he; cases he
      obtain ⟨-, h2, h3⟩ := (hd.violated hn).mp hr
      exact ⟨h3, by rw [h2, hs]⟩

end Verif.Aas
