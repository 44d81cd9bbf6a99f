import Verif.CheckTable
import Verif.Props.Parse
import Verif.ParseDescribes

/-! # Documents: all objects of an environment and their checks -/

namespace Verif.Aas
open Verif Verif.Parse Verif.Spec.Parse Verif.Spec.Model Verif.DataTypes Verif.Spec Verif.Props

variable {lim : Option Nat} {c : Cls} {v : AVal}

/-- classes of objects in a document -/
def good (c : Cls) : Bool := !isAbstract c && decide (c ≠ .langStringSet)

def goodTy : ATy → Bool
  | .cls c => if isAbstract c then (subclassesOf c).all good else good c
  | .list it _ => goodTy it
  | _ => true

theorem all_good : ∀ c, (fieldsOf c).all (fun f => match f.slot with
    | .attr _ ty _ => goodTy ty
    | .excluded => true) = true := by
  intro c; cases c <;> decide +kernel

theorem not_nested {name : Fld → Str} {v x : AVal} {p : List PTok} (hv : ∀ c attrs, v ≠ .obj c attrs) : ¬ Nested name v p x := by
  intro h
  cases h <;> exact hv _ _ rfl

theorem good_of_isA {c c' : Cls} (hg : goodTy (.cls c) = true) (hi : IsA (schema lim) c c') : good c' = true := by
  unfold goodTy at hg
  rcases hi with ⟨h, rfl⟩ | ⟨h, hm⟩
  · change isAbstract c' = false at h
    rw [h] at hg
    simpa using hg
  · change isAbstract c = true at h
    rw [h, if_pos rfl, List.all_eq_true] at hg
    exact hg _ hm

theorem hasType_is_cls {ty : ATy} {attrs} (h : HasType (schema lim) ty (.obj c attrs)) : ∃ c0, ty = .cls c0 := by
  cases h; exact ⟨_, rfl⟩

/-- all objects of a typed value are typed objects of concrete classes -/
theorem nested_obj {name : Fld → Str} {v x : AVal} {p : List PTok} (h : Nested name v p x) :
    ∀ {ty : ATy}, goodTy ty = true → HasType (schema lim) ty v → ∃ c, Obj lim c x ∧ good c = true := by
  have attr : ∀ {c0 c : Cls} {attrs : List (Fld × AVal)} {f : Fld} {w : AVal}, HasType (schema lim) (.cls c0) (.obj c attrs) →
      (f, w) ∈ attrs → (∀ a b t, w ≠ .path a b t) → w ≠ .none → ∃ ty, goodTy ty = true ∧ HasType (schema lim) ty w := by
    intro c0 c attrs f w ht hm hp hn
    obtain ⟨hi, hf⟩ := hasType_obj.mp ht
    obtain ⟨⟨g, slot⟩, hg, hok⟩ := fieldsOk_mem hf hm
    have := all_good c
    rw [List.all_eq_true] at this
    have hgood := this _ hg
    obtain ⟨-, hok⟩ := hok
    cases slot with
    | excluded =>
      rcases hok with hok | ⟨a, b, t, hok⟩
      · exact absurd hok hn
      · exact absurd hok (hp a b t)
    | attr key ty req =>
      rcases hok with ⟨hok, -⟩ | hok
      · exact absurd hok hn
      · exact ⟨ty, hgood, hok⟩
  induction h with
  | here c attrs =>
    intro ty hg ht
    obtain ⟨c0, rfl⟩ := hasType_is_cls ht
    obtain ⟨hi, hf⟩ := hasType_obj.mp ht
    exact ⟨c, ⟨attrs, rfl, hf⟩, good_of_isA hg hi⟩
  | @attr c attrs f w p x hm hn ih =>
    intro ty hg ht
    obtain ⟨c0, rfl⟩ := hasType_is_cls ht
    obtain ⟨ty, hg', ht'⟩ := attr ht hm (fun a b t he => not_nested (by simp [he]) hn) (fun he => not_nested (by simp [he]) hn)
    exact ih hg' ht'
  | @item c attrs f l i w p x hm hi hn ih =>
    intro ty hg ht
    obtain ⟨c0, rfl⟩ := hasType_is_cls ht
    obtain ⟨ty, hg', ht'⟩ := attr ht hm (by simp) (by simp)
    cases ht' with
    | list _ hall => exact ih (by simpa [goodTy] using hg') (hall w (List.mem_of_getElem? hi))

/-- the outcome of a check, by the rule it checks -/
theorem Does.violated {m : Method} (h : Does lim m v) (hc : ¬ crashOf lim m v) {t : Str} {l : Level} :
    runMethod lim m v = .error (.violated t l) ↔ labelOf m = t ∧ levelOf m = l ∧ ¬ ruleOf lim m v := by
  by_cases hr : ruleOf lim m v
  · rw [h.accepts hc hr]; simp [hr]
  · rw [h.reports hc hr]; simp [hr]

theorem Does.raises {m : Method} (h : Does lim m v) : (∃ e, runMethod lim m v = .error (.py e)) ↔ crashOf lim m v := by
  constructor
  · rintro ⟨e, he⟩
    apply Classical.byContradiction
    intro hc
    by_cases hr : ruleOf lim m v
    · rw [h.accepts hc hr] at he; cases he
    · rw [h.reports hc hr] at he; cases he
  · intro hc
    obtain ⟨e, -, he⟩ := h.crashes hc
    exact ⟨e, he⟩

theorem Does.kind {m : Method} (h : Does lim m v) {e : PyExc} (he : runMethod lim m v = .error (.py e)) : Mishap e := by
  obtain ⟨e', hk, he'⟩ := h.crashes (h.raises.mp ⟨e, he⟩)
  rw [he] at he'
  cases he'
  exact hk

theorem good_iff : good c = true ↔ isAbstract c = false ∧ c ≠ .langStringSet := by simp [good]

theorem checksOf_obj (h : Obj lim c v) : checksOf (checks lim) v = (checkTable c).map (runMethod lim) := by
  obtain ⟨attrs, rfl, -⟩ := h.fields
  rfl

theorem obj_raises (h : Obj lim c v) (hg : good c = true) :
    (∃ e, ∃ check ∈ checksOf (checks lim) v, check v = .error (.py e)) ↔ Crashes lim v := by
  obtain ⟨-, hc⟩ := good_iff.mp hg
  rw [crashes_iff h, checksOf_obj h]
  constructor
  · rintro ⟨e, f, hf, he⟩
    obtain ⟨m, hm, rfl⟩ := List.mem_map.mp hf
    exact ⟨m, hm, (method_does h hc hm).raises.mp ⟨e, he⟩⟩
  · rintro ⟨m, hm, hcr⟩
    obtain ⟨e, he⟩ := (method_does h hc hm).raises.mpr hcr
    exact ⟨e, _, List.mem_map.mpr ⟨m, hm, rfl⟩, he⟩

theorem obj_kind (h : Obj lim c v) (hg : good c = true) {e : PyExc} {check : AVal → Chk Unit} (hf : check ∈ checksOf (checks lim) v)
    (he : check v = .error (.py e)) : Mishap e := by
  obtain ⟨-, hc⟩ := good_iff.mp hg
  rw [checksOf_obj h] at hf
  obtain ⟨m, hm, rfl⟩ := List.mem_map.mp hf
  exact (method_does h hc hm).kind he

theorem obj_violates (h : Obj lim c v) (hg : good c = true) (hn : ¬ Crashes lim v) {t : Str} {l : Level} :
    (∃ check ∈ checksOf (checks lim) v, check v = .error (.violated t l)) ↔ Broken lim (Num128 lim) v t l := by
  obtain ⟨ha, hc⟩ := good_iff.mp hg
  rw [crashes_iff h] at hn
  rw [broken_iff h ha hc, checksOf_obj h]
  constructor
  · rintro ⟨f, hf, he⟩
    obtain ⟨m, hm, rfl⟩ := List.mem_map.mp hf
    exact ⟨m, hm, ((method_does h hc hm).violated fun hcr => hn ⟨m, hm, hcr⟩).mp he⟩
  · rintro ⟨m, hm, hr⟩
    exact ⟨_, List.mem_map.mpr ⟨m, hm, rfl⟩, ((method_does h hc hm).violated fun hcr => hn ⟨m, hm, hcr⟩).mpr hr⟩

end Verif.Aas
