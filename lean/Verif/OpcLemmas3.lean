import Verif.OpcLemmas2

/-! # Lemmas about package scanning: the scan and the specification -/

namespace Verif.Opc
open Verif Spec

theorem declared_iff (z : Zip) (dep : List (Str × Str)) (d f t q : Str) :
    (t, q) ∈ declared z dep (d, f) ↔ ∃ type, StandsFor dep type t ∧ Declares z d f type q := by
  unfold declared Declares
  simp only []
  have hmem : ∀ els : List Elem, (t, q) ∈ els.filterMap (relOf dep d) ↔
      ∃ e ∈ els, ∃ type target, States e type target ∧ StandsFor dep type t ∧ Resolved d target q := by
    intro els
    rw [List.mem_filterMap]
    simp only [relOf_iff]
  cases hf : z.find (relsName d f) with
  | none =>
    simp only [List.not_mem_nil, false_iff]
    rintro ⟨_, _, els, e, target, hm, _⟩
    have := (find_iff z _ _).mpr hm
    rw [show relsPart d f = relsName d f from rfl, hf] at this; cases this
  | some p =>
    cases p with
    | broken =>
      simp only [List.not_mem_nil, false_iff]
      rintro ⟨_, _, els, e, target, hm, _⟩
      have := (find_iff z _ _).mpr hm
      rw [show relsPart d f = relsName d f from rfl, hf] at this; cases this
    | xml tag els =>
      simp only []
      have hm := (find_iff z _ _).mp hf
      split
      · rename_i ht
        simp only [List.not_mem_nil, false_iff]
        rintro ⟨_, _, els, e, target, hm', _⟩
        have := (find_iff z _ _).mpr hm'
        rw [show relsPart d f = relsName d f from rfl, hf] at this; cases this
        exact ht rfl
      · rename_i ht
        have ht : tag = relationshipsTag := Classical.not_not.mp ht
        subst ht
        rw [hmem]
        constructor
        · rintro ⟨e, he, type, target, h1, h2, h3⟩
          exact ⟨type, h2, els, e, target, hm, he, h1, h3⟩
        · rintro ⟨type, h2, els', e, target, hm', he, h1, h3⟩
          have := (find_iff z _ _).mpr hm'
          rw [show relsPart d f = relsName d f from rfl, hf] at this; cases this
          exact ⟨e, he, type, target, h1, h2, h3⟩

theorem standsFor_total (dep : List (Str × Str)) (type : Str) : ∃ t, StandsFor dep type t := ⟨_, (standsFor_iff dep type _).mpr rfl⟩

theorem declares_iff (z : Zip) (dep : List (Str × Str)) (d f q : Str) :
    (∃ type, Declares z d f type q) ↔ ∃ p ∈ declared z dep (d, f), p.2 = q := by
  constructor
  · rintro ⟨type, h⟩
    obtain ⟨t, ht⟩ := standsFor_total dep type
    exact ⟨(t, q), (declared_iff z dep d f t q).mpr ⟨type, ht, h⟩, rfl⟩
  · rintro ⟨⟨t, q'⟩, h, rfl⟩
    obtain ⟨type, _, h⟩ := (declared_iff z dep d f t q').mp h
    exact ⟨type, h⟩

theorem reach_closed (z : Zip) (dep : List (Str × Str)) : ∀ d f, Reach py!"/" z d f → ∀ p ∈ declared z dep (d, f), p.2 ∈ z.namelist →
    Reach py!"/" z (place p.2).1 (place p.2).2 := by
  intro d f hr p hp hn
  obtain ⟨type, _, h⟩ := (declared_iff z dep d f p.1 p.2).mp hp
  exact .step hr h ((mem_namelist z p.2).mp hn) ((located_iff p.2 _ _).mpr rfl)

/-- a reached place is the root or the place of a visited member -/
theorem reach_visited {z dep r} (h : scanRoot z dep = .ok r) : ∀ d f, Reach py!"/" z d f →
    (d = [] ∧ f = []) ∨ ∃ v ∈ r.visited, v ∈ z.namelist ∧ place v = (d, f) := by
  have hp := ((scanF_spec z dep (z.length + 1) [] [] [] []).1 r h).post
  intro d f hr
  induction hr with
  | root => exact .inl ⟨rfl, rfl⟩
  | @step dir file type q d f _ hd hq hl ih =>
    right
    obtain ⟨p, hp1, hp2⟩ := (declares_iff z dep dir file q).mp ⟨type, hd⟩
    have hl := (located_iff q d f).mp hl
    refine ⟨q, ?_, (mem_namelist z q).mpr hq, hl⟩
    rcases ih with ⟨e1, e2⟩ | ⟨v, hv, hvn, e⟩
    · subst e1 e2; rw [← hp2]; exact hp.seen p hp1
    · rw [← e] at hp1
      rw [← hp2]; exact hp.closed v hv (by simp) hvn p hp1

/-- the visited targets are the targets found from the root -/
theorem visited_iff {z dep r} (h : scanRoot z dep = .ok r) (q : Str) : q ∈ r.visited ↔ ∃ type, Found py!"/" z type q := by
  have hp := ((scanF_spec z dep (z.length + 1) [] [] [] []).1 r h).post
  constructor
  · intro hq
    refine hp.source (fun q => ∃ type, Found py!"/" z type q) ?_ ?_ q hq (by simp)
    · intro p hp
      obtain ⟨type, hd⟩ := (declares_iff z dep [] [] p.2).mpr ⟨p, hp, rfl⟩
      exact ⟨type, [], [], .root, hd⟩
    · rintro v ⟨type, dir, file, hr, hd⟩ hn p hp
      obtain ⟨type', hd'⟩ := (declares_iff z dep _ _ p.2).mpr ⟨p, hp, rfl⟩
      exact ⟨type', _, _, .step hr hd ((mem_namelist z v).mp hn) ((located_iff v _ _).mpr rfl), hd'⟩
  · rintro ⟨type, dir, file, hr, hd⟩
    obtain ⟨p, hp1, hp2⟩ := (declares_iff z dep dir file q).mp ⟨type, hd⟩
    rw [← hp2]
    rcases reach_visited h dir file hr with ⟨e1, e2⟩ | ⟨v, hv, hvn, e⟩
    · subst e1 e2; exact hp.seen p hp1
    · rw [← e] at hp1; exact hp.closed v hv (by simp) hvn p hp1

theorem scanRoot_ok_iff (z : Zip) (dep : List (Str × Str)) : (∃ r, scanRoot z dep = .ok r) ↔ Readable py!"/" z := by
  have hs := scanF_spec z dep (z.length + 1) [] [] [] []
  constructor
  · rintro ⟨r, h⟩ dir file hr hm
    have hc := hs.1 r h
    have hm := (find_iff z _ _).mpr hm
    rcases reach_visited h dir file hr with ⟨e1, e2⟩ | ⟨v, hv, hvn, e⟩
    · subst e1 e2; exact hc.clean hm
    · have := hc.post.clean v hv (by simp) hvn
      rw [e] at this; exact this hm
  · intro h
    cases hr : scanRoot z dep with
    | ok r => exact ⟨r, rfl⟩
    | error e =>
      exfalso
      obtain ⟨_, h2⟩ := hs.2 e hr (by rw [fresh_nil]; omega)
      obtain ⟨d, f, h3, h4⟩ := h2 (Reach py!"/" z) .root (reach_closed z dep)
      exact h d f h3 ((find_iff z _ _).mp h4)

theorem scanRoot_error (z : Zip) (dep : List (Str × Str)) (e : PyExc) (h : scanRoot z dep = .error e) : e = .parseError :=
  ((scanF_spec z dep (z.length + 1) [] [] [] []).2 e h (by rw [fresh_nil]; omega)).1

theorem relOf_isSome_iff (dir : Str) (e : Elem) : (relOf [] dir e).isSome = true ↔ ∃ type target, States e type target := by
  rw [Option.isSome_iff_exists]
  constructor
  · rintro ⟨⟨t, q⟩, h⟩
    obtain ⟨type, target, h1, _⟩ := (relOf_iff [] dir e t q).mp h
    exact ⟨type, target, h1⟩
  · rintro ⟨type, target, h⟩
    exact ⟨(type, resolve dir target), (relOf_iff [] dir e _ _).mpr ⟨type, target, h, .inr ⟨by simp, rfl⟩, (resolved_iff _ _ _).mpr rfl⟩⟩

/-- all documents and all targets are fine iff the relationship parts have no mistakes -/
theorem proper_iff {z dep r} (h : scanRoot z dep = .ok r) :
    (DocOk z ([], []) ∧ NewOk z [] r.visited) ↔
      ∀ dir file, Reach py!"/" z dir file → ∀ tag els, Member z (relsPart dir file) (.xml tag els) → ProperRels z dir tag els := by
  constructor
  · rintro ⟨h1, h2⟩ dir file hr tag els hm
    have hdoc : DocOk z (dir, file) := by
      rcases reach_visited h dir file hr with ⟨e1, e2⟩ | ⟨v, hv, hvn, e⟩
      · subst e1 e2; exact h1
      · rw [← e]; exact (h2 v hv (by simp)).2
    obtain ⟨ht, he⟩ := hdoc tag els ((find_iff z _ _).mpr hm)
    refine ⟨ht, fun e hm' => ?_⟩
    obtain ⟨type, target, hst⟩ := (relOf_isSome_iff dir e).mp (he e hm')
    refine ⟨type, target, resolve dir target, hst, (resolved_iff _ _ _).mpr rfl, ?_⟩
    rw [← mem_namelist]
    refine (h2 _ ?_ (by simp)).1
    rw [visited_iff h]
    refine ⟨type, dir, file, hr, els, e, target, ?_, hm', hst, (resolved_iff _ _ _).mpr rfl⟩
    rw [← ht]; exact hm
  · intro hall
    have hdoc : ∀ d f, Reach py!"/" z d f → DocOk z (d, f) := by
      intro d f hr tag els hf
      obtain ⟨ht, he⟩ := hall d f hr tag els ((find_iff z _ _).mp hf)
      refine ⟨ht, fun e hm => ?_⟩
      obtain ⟨type, target, _, hst, _⟩ := he e hm
      exact (relOf_isSome_iff d e).mpr ⟨type, target, hst⟩
    refine ⟨hdoc [] [] .root, ?_⟩
    intro v hv _
    obtain ⟨type, dir, file, hr, hd⟩ := (visited_iff h v).mp hv
    have hv' : HasPart z v := by
      obtain ⟨els, e, target, hm, he, hst, hres⟩ := hd
      obtain ⟨_, target', q, hst', hres', hq⟩ := (hall dir file hr _ els hm).2 e he
      have e1 := ((attr_iff _ _ _).mp hst.2.2).symm.trans ((attr_iff _ _ _).mp hst'.2.2)
      have e1 := Option.some.inj e1
      rw [resolved_iff] at hres hres'
      rw [← hres, e1, hres']; exact hq
    refine ⟨(mem_namelist z v).mpr hv', ?_⟩
    exact hdoc _ _ (.step hr hd hv' ((located_iff v _ _).mpr rfl))

end Verif.Opc
