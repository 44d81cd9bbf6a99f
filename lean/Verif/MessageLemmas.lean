import Verif.Messages

/-! # The methods with texts do what the methods without texts do -/

namespace Verif.Aas
open Verif Verif.Parse Verif.DataTypes

/-- without the text -/
def mute : Fail → Fail
  | .violated _ l => .violated [] l
  | .py e => .py e

/-- the outcomes differ in the text only -/
def SameBut {α : Type} (x y : Chk α) : Prop := x.mapError mute = y.mapError mute

theorem SameBut.refl {α : Type} (x : Chk α) : SameBut x x := rfl

theorem SameBut.bind {α β : Type} {x y : Chk α} {f g : α → Chk β} (h : SameBut x y) (hf : ∀ a, SameBut (f a) (g a)) :
    SameBut (x >>= f) (y >>= g) := by
  unfold SameBut at *
  cases x with
  | ok a =>
    cases y with
    | ok b => simp only [Except.mapError, Except.ok.injEq] at h; subst h; exact hf a
    | error e => simp [Except.mapError] at h
  | error e =>
    cases y with
    | ok b => simp [Except.mapError] at h
    | error e' =>
      simp only [Except.mapError, Except.error.injEq] at h
      show Except.mapError mute (.error e) = Except.mapError mute (.error e')
      simp only [Except.mapError, h]

theorem SameBut.bindSame {α β : Type} {x : Chk α} {f g : α → Chk β} (hf : ∀ a, SameBut (f a) (g a)) :
    SameBut (x >>= f) (x >>= g) := SameBut.bind (.refl x) hf

theorem SameBut.violated {α : Type} (s t : Str) (l : Level) : SameBut (violated s l : Chk α) (violated t l) := rfl

theorem SameBut.ite {α : Type} {p : Prop} [Decidable p] {a b c d : Chk α} (h : SameBut a c) (h' : SameBut b d) :
    SameBut (if p then a else b) (if p then c else d) := by
  by_cases hp : p
  · simpa [hp] using h
  · simpa [hp] using h'

theorem SameBut.at (v : AVal) (s t : Str) : SameBut (tellAt v s) (violatedAt v t) :=
  SameBut.bindSame fun _ => rfl

theorem SameBut.forI {α : Type} {f : Nat → α → Chk Unit} {g : α → Chk Unit} (h : ∀ i x, SameBut (f i x) (g x)) :
    ∀ (l : List α) (i : Nat), SameBut (forI f i l) (forM g l)
  | [], _ => rfl
  | x :: xs, i => SameBut.bind (h i x) fun _ => SameBut.forI h xs (i + 1)

theorem SameBut.forM {α : Type} {f g : α → Chk Unit} (h : ∀ x, SameBut (f x) (g x)) :
    ∀ (l : List α), SameBut (Aas.forM f l) (Aas.forM g l)
  | [] => rfl
  | x :: xs => SameBut.bind (h x) fun _ => SameBut.forM h xs

macro "agree0" : tactic => `(tactic| repeat (first
  | with_reducible exact SameBut.refl _
  | with_reducible exact SameBut.violated _ _ _
  | with_reducible exact SameBut.at _ _ _
  | with_reducible refine SameBut.ite ?_ ?_
  | with_reducible refine SameBut.forI (fun _ _ => ?_) _ _
  | with_reducible refine SameBut.forM (fun _ => ?_) _
  | with_reducible refine SameBut.bindSame fun _ => ?_))

variable (lim : Option Nat)

theorem value_same (s : Str) (t p : AVal) : SameBut (tellValue lim s t p) (validateValue lim s t) := by
  by_cases h : ∃ x, t = .enum .dataTypeDefXsd x
  · obtain ⟨x, rfl⟩ := h
    simp only [tellValue, validateValue]
    cases xsdOf x with
    | none => rfl
    | some t =>
      simp only
      cases validate lim t s with
      | error e => rfl
      | ok b => cases b <;> rfl
  · have h1 : tellValue lim s t p = pyErr .keyError := by
      unfold tellValue
      split
      · rename_i x; exact absurd ⟨x, rfl⟩ h
      · rfl
    have h2 : validateValue lim s t = pyErr .keyError := by
      unfold validateValue
      split
      · rename_i x; exact absurd ⟨x, rfl⟩ h
      · rfl
    rw [h1, h2]; rfl

theorem have_same (l p : AVal) : SameBut (tellHaveIdShorts l p) (ensureHaveIdShorts l) := by
  unfold tellHaveIdShorts ensureHaveIdShorts
  agree0

theorem unique_loop_same : ∀ (l : List AVal) (seen : List Str), SameBut (tellUnique l seen) (uniqueIdShorts l seen)
  | [], _ => rfl
  | v :: vs, seen => by
    unfold tellUnique uniqueIdShorts
    refine SameBut.bindSame fun _ => SameBut.ite (unique_loop_same vs seen) (SameBut.bindSame fun raw => SameBut.ite rfl (unique_loop_same vs _))

theorem unique_same (l : AVal) : SameBut (tellUniqueIdShorts l) (ensureUniqueIdShorts l) :=
  SameBut.ite rfl (SameBut.bindSame fun _ => unique_loop_same _ _)

theorem tell127_same : ∀ (l : List AVal) (i : Nat) (p : Option AVal), SameBut (tell127 i p l) (check127 p l)
  | [], _, _ => rfl
  | k :: ks, i, p => by
    unfold tell127 check127
    refine SameBut.bindSame fun _ => ?_
    cases p with
    | none => exact tell127_same ks _ _
    | some q =>
      exact SameBut.ite (SameBut.bindSame fun _ => SameBut.ite (tell127_same ks _ _) rfl) (tell127_same ks _ _)

theorem tell128_same : ∀ (l : List AVal) (i : Nat), SameBut (tell128 lim i l) (check128 lim l)
  | [], _ => rfl
  | k :: ks, i => by
    unfold tell128 check128
    refine SameBut.bindSame fun _ => ?_
    cases ks with
    | nil => rfl
    | cons n ns =>
      exact SameBut.ite (SameBut.bindSame fun _ => SameBut.bindSame fun _ => SameBut.ite (tell128_same (n :: ns) _) rfl) (tell128_same (n :: ns) _)

theorem variables_same (v : AVal) : ∀ (l : List AVal) (seen : List Str), SameBut (tellVariables v l seen) (checkVariables v l seen)
  | [], _ => rfl
  | x :: xs, seen => by
    unfold tellVariables checkVariables
    refine SameBut.bindSame fun _ => SameBut.bindSame fun _ => SameBut.ite (variables_same v xs seen)
      (SameBut.bindSame fun raw => SameBut.ite (SameBut.bindSame fun _ => rfl) (variables_same v xs _))

theorem variableList_same (v l : AVal) (seen : List Str) : SameBut (tellVariableList v l seen) (checkVariableList v l seen) :=
  SameBut.ite rfl (SameBut.bindSame fun _ => variables_same v _ _)

theorem tell114_same (v : AVal) : ∀ (l : List AVal) (i : Nat) (t : Option AVal), SameBut (tell114 v i t l) (check114 v t l)
  | [], _, t => by cases t <;> rfl
  | el :: els, i, none => by
    unfold tell114 check114
    exact SameBut.bindSame fun _ => SameBut.ite (tell114_same v els _ _) (tell114_same v els _ _)
  | el :: els, i, some t => by
    unfold tell114 check114
    exact SameBut.bindSame fun _ => SameBut.ite (SameBut.bindSame fun _ => SameBut.ite (tell114_same v els _ _) (SameBut.at _ _ _))
      (tell114_same v els _ _)

theorem iec_same (v : AVal) (cs : List Str) (name : Str) : SameBut (tellIec61360 v cs name) (checkIec61360 v cs name) := by
  unfold tellIec61360 checkIec61360
  agree0

macro "agree" : tactic => `(tactic| repeat (first
  | with_reducible exact SameBut.refl _
  | with_reducible exact SameBut.violated _ _ _
  | with_reducible exact SameBut.at _ _ _
  | with_reducible refine SameBut.ite ?_ ?_
  | with_reducible refine SameBut.forI (fun _ _ => ?_) _ _
  | with_reducible refine SameBut.forM (fun _ => ?_) _
  | with_reducible exact value_same _ _ _ _
  | with_reducible exact have_same _ _
  | with_reducible exact unique_same _
  | with_reducible exact tell127_same _ _ _
  | with_reducible exact tell128_same _ _ _
  | with_reducible exact tell114_same _ _ _ _
  | with_reducible exact iec_same _ _ _
  | with_reducible refine SameBut.bind (variableList_same _ _ _) fun _ => ?_
  | with_reducible refine SameBut.bindSame fun _ => ?_))

theorem tell_same (m : Method) (v : AVal) : SameBut (tellMethod lim m v) (runMethod lim m v) := by
  cases m <;> simp only [tellMethod, runMethod] <;> try (agree; done)
  case langStringSet_text =>
    refine SameBut.bindSame fun _ => SameBut.bindSame fun t => SameBut.ite rfl ?_
    cases (clsOf v).bind maxLenText with
    | none => rfl
    | some n => exact SameBut.ite rfl rfl
  case submodelElementList_aasd_108 =>
    refine SameBut.bindSame fun w => SameBut.ite rfl (SameBut.bindSame fun t => SameBut.ite rfl ?_)
    cases t with
    | enum e s => cases e <;> first | rfl | agree
    | _ => rfl

end Verif.Aas
