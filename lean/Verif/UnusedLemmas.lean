import Verif.Spec.Unused
import Verif.FileLemmas

/-!
# Lemmas for C105
-/

namespace Verif.Opc
open Verif Verif.Spec Verif.Spec.Unused

theorem find_agree {z z' : Zip} {n : Str} (h : ∀ p, Member z n p ↔ Member z' n p) : z.find n = z'.find n := by
  apply Option.ext
  intro p
  rw [find_iff, find_iff]; exact h p

theorem contains_agree {z z' : Zip} {q : Str} (h : HasPart z q ↔ HasPart z' q) : z.namelist.contains q = z'.namelist.contains q := by
  rw [Bool.eq_iff_iff, List.contains_iff_mem, List.contains_iff_mem, mem_namelist, mem_namelist]; exact h

/-! ## more fuel -/

theorem scanRel_mono {z : Zip} {dep : List (Str × Str)} {call call' : Str → Str → List Str → List Str → Except PyExc Scanned}
    (hc : ∀ d f V F, call d f V F ≠ .error .runtimeError → call' d f V F = call d f V F) (dir : Str) (st : Scan) (e : Elem)
    (h : scanRel z dep call dir st e ≠ .error .runtimeError) : scanRel z dep call' dir st e = scanRel z dep call dir st e := by
  unfold scanRel at h ⊢
  simp only at h ⊢
  split
  · rfl
  rename_i h1
  rw [if_neg h1] at h
  split
  · rfl
  rename_i type ht
  rw [ht] at h
  simp only at h
  split
  · rfl
  rename_i target htg
  rw [htg] at h
  simp only at h
  split
  · rfl
  rename_i hv
  rw [if_neg hv] at h
  split
  · rfl
  rename_i hn
  rw [if_neg hn] at h
  rw [hc]
  intro hr
  rw [hr] at h
  exact h rfl

theorem scanRels_mono {z : Zip} {dep : List (Str × Str)} {call call' : Str → Str → List Str → List Str → Except PyExc Scanned}
    (hc : ∀ d f V F, call d f V F ≠ .error .runtimeError → call' d f V F = call d f V F) (dir : Str) (es : List Elem) : ∀ (st : Scan),
    scanRels z dep call dir st es ≠ .error .runtimeError → scanRels z dep call' dir st es = scanRels z dep call dir st es := by
  induction es with
  | nil => intro st _; rfl
  | cons e es ih =>
    intro st h
    simp only [scanRels] at h ⊢
    have h1 : scanRel z dep call dir st e ≠ .error .runtimeError := by
      intro hr; rw [hr] at h; exact h rfl
    rw [scanRel_mono hc dir st e h1]
    cases hs : scanRel z dep call dir st e with
    | error x => rfl
    | ok st' =>
      rw [hs] at h
      exact ih st' h

theorem scanF_mono (z : Zip) (dep : List (Str × Str)) (n : Nat) : ∀ (d f : Str) (V F : List Str),
    scanF z dep n d f V F ≠ .error .runtimeError → scanF z dep (n + 1) d f V F = scanF z dep n d f V F := by
  induction n with
  | zero => intro d f V F h; exact absurd rfl h
  | succ n ih =>
    intro d f V F h
    rw [scanF] at h ⊢
    rw [scanF.eq_2 z dep d f V F n]
    cases hf : z.find (relsName d f) with
    | none => rfl
    | some p =>
      cases p with
      | broken => rfl
      | xml tag els =>
        rw [hf] at h
        simp only at h ⊢
        split
        · rfl
        rename_i ht
        rw [if_neg ht] at h
        rw [scanRels_mono ih]
        intro hr
        rw [hr] at h
        exact h rfl

theorem scanF_more (z : Zip) (dep : List (Str × Str)) (n k : Nat) (d f : Str) (V F : List Str)
    (h : scanF z dep n d f V F ≠ .error .runtimeError) : scanF z dep (n + k) d f V F = scanF z dep n d f V F := by
  induction k with
  | zero => rfl
  | succ k ih => rw [← Nat.add_assoc, scanF_mono z dep (n + k) d f V F (by rw [ih]; exact h), ih]

/-! ## the same scan -/

theorem scanRels_agree {z z' : Zip} {dep : List (Str × Str)} {call call' : Str → Str → List Str → List Str → Except PyExc Scanned} (dir : Str)
    (es : List Elem) (hn : ∀ e ∈ es, ∀ type target, States e type target →
      z.namelist.contains (resolve dir target) = z'.namelist.contains (resolve dir target) ∧
      (z.namelist.contains (resolve dir target) = true → ∀ V F,
        call (place (resolve dir target)).1 (place (resolve dir target)).2 V F = call' (place (resolve dir target)).1 (place (resolve dir target)).2 V F)) :
    ∀ (st : Scan), scanRels z dep call dir st es = scanRels z' dep call' dir st es := by
  induction es with
  | nil => intro st; rfl
  | cons e es ih =>
    intro st
    have h1 : scanRel z dep call dir st e = scanRel z' dep call' dir st e := by
      unfold scanRel
      simp only
      split
      · rfl
      rename_i hg
      split
      · rfl
      rename_i type ht
      split
      · rfl
      rename_i target htg
      obtain ⟨ha, hb⟩ := hn e (by simp) type target
        ⟨(Classical.not_not.mp hg).trans (by decide), (attr_iff _ _ _).mpr ht, (attr_iff _ _ _).mpr htg⟩
      split
      · rfl
      rw [← ha]
      split
      · rfl
      rename_i hc
      rw [show call ((splitpath (resolve dir target)).1 ++ py!"/") (splitpath (resolve dir target)).2 = _ from
        funext fun V => funext fun F => hb (by simpa using hc) V F]
      rfl
    simp only [scanRels]
    rw [h1]
    cases scanRel z' dep call' dir st e with
    | error x => rfl
    | ok st' => exact ih (fun e' he' => hn e' (by simp [he'])) st'

theorem scanF_agree {z z' : Zip} (h : SameReached py!"/" z z') (dep : List (Str × Str)) (n : Nat) : ∀ (d f : Str) (V F : List Str),
    Reach py!"/" z d f → scanF z dep n d f V F = scanF z' dep n d f V F := by
  induction n with
  | zero => intros; rfl
  | succ n ih =>
    intro d f V F hr
    rw [scanF, scanF]
    have hfind : z.find (relsName d f) = z'.find (relsName d f) := find_agree (h.rels d f hr)
    rw [← hfind]
    cases hf : z.find (relsName d f) with
    | none => rfl
    | some p =>
      cases p with
      | broken => rfl
      | xml tag els =>
        simp only
        split
        · rfl
        rename_i ht
        rw [scanRels_agree (z := z) (z' := z') (call := scanF z dep n) (call' := scanF z' dep n)]
        intro e he type target hs
        have hd : Declares z d f type (resolve d target) := by
          refine ⟨els, e, target, ?_, he, hs, (resolved_iff _ _ _).mpr rfl⟩
          have := (find_iff z _ _).mp hf
          rw [Classical.not_not.mp ht] at this
          exact this
        refine ⟨contains_agree (h.parts type _ ⟨d, f, hr, hd⟩), fun hc V F => ?_⟩
        rw [List.contains_iff_mem, mem_namelist] at hc
        exact ih _ _ V F (.step hr hd hc ((located_iff _ _ _).mpr rfl))

theorem scanRoot_agree {z z' : Zip} (h : SameReached py!"/" z z') (dep : List (Str × Str)) : scanRoot z dep = scanRoot z' dep := by
  have hz : ∀ y : Zip, scanF y dep (y.length + 1) [] [] [] [] ≠ .error .runtimeError := by
    intro y hy
    cases scanRoot_error y dep _ hy
  unfold scanRoot
  rw [← scanF_more z dep (z.length + 1) (z'.length + 1) _ _ _ _ (hz z), ← scanF_more z' dep (z'.length + 1) (z.length + 1) _ _ _ _ (hz z'),
    Nat.add_comm (z'.length + 1)]
  exact scanF_agree h dep _ _ _ _ _ .root

theorem readOpc_agree {z z' : Zip} (h : SameReached py!"/" z z') (root : Res Str) (dep : List (Str × Str)) :
    readOpc z root dep = readOpc z' root dep := by
  unfold readOpc checkRelationships checkContentType
  rw [scanRoot_agree h, show z.find contentTypesXml = z'.find contentTypesXml from find_agree h.types]

end Verif.Opc

namespace Verif.File
open Verif Verif.Spec Verif.Opc Verif.Spec.Unused

variable {J X : Type} {g : Engine J X} {z z' : Zip} {files files' : Str → Content J X}

theorem checkSpec_agree {q : Str} (h1 : HasPart z q ↔ HasPart z' q) (h2 : HasPart z q → files q = files' q) :
    checkSpec g z files q = checkSpec g z' files' q := by
  unfold checkSpec
  rw [← contains_agree h1]
  cases hc : z.namelist.contains q with
  | false => rfl
  | true =>
    rw [List.contains_iff_mem, mem_namelist] at hc
    rw [h2 hc]

theorem checkSpecs_agree (specs : List Relationship) : ∀ (res : Res Str),
    (∀ s ∈ specs, checkSpec g z files s.target = checkSpec g z' files' s.target) →
    checkSpecs g z files res specs = checkSpecs g z' files' res specs := by
  induction specs with
  | nil => intros; rfl
  | cons s specs ih =>
    intro res h
    simp only [checkSpecs]
    rw [h s (by simp)]
    cases checkSpec g z' files' s.target with
    | error e => cases e <;> rfl
    | ok r => exact ih _ fun s' hs' => h s' (by simp [hs'])

theorem checkOrigins_agree (origins : List Relationship) : ∀ (res : Res Str),
    (∀ q ∈ origins.flatMap (fun o => (o.subRelsByType typeSpec).map (·.target)), checkSpec g z files q = checkSpec g z' files' q) →
    checkOrigins g z files res origins = checkOrigins g z' files' res origins := by
  induction origins with
  | nil => intros; rfl
  | cons o origins ih =>
    intro res h
    simp only [checkOrigins]
    rw [checkSpecs_agree (o.subRelsByType typeSpec) _ fun s hs => h _ (by simp only [List.flatMap_cons]; exact List.mem_append_left _ (List.mem_map.mpr ⟨s, hs, rfl⟩))]
    generalize checkSpecs g z' files' _ _ = out
    match out with
    | .error e => rfl
    | .ok none => rfl
    | .ok (some r) => exact ih r fun q hq => h q (by simp only [List.flatMap_cons]; exact List.mem_append_right _ hq)

theorem linked_found {q : Str} (h : Linked py!"/" z q) : ∃ type, Found py!"/" z type q := by
  obtain ⟨ot, o, dir, file, st, _, h2, h3, h4, _, h6⟩ := h
  exact ⟨st, dir, file, .step .root h2 h3 h4, h6⟩

theorem checkAasxData_agree (h : SameReached py!"/" z z') (hf : SameFiles py!"/" z files files') :
    checkAasxData g z files = checkAasxData g z' files' := by
  unfold checkAasxData
  simp only [← readOpc_agree h]
  cases hr : readOpc z (Res.new py!"Checking AASX package") deprecatedTypes with
  | error e => rfl
  | ok p =>
    obtain ⟨res, rels⟩ := p
    simp only [bind, Except.bind]
    split
    · rfl
    rename_i hok
    have hrels : rels = [] ∨ ∃ r, scanRoot z deprecatedTypes = .ok r ∧ r.rels = rels := by
      unfold readOpc checkRelationships at hr
      simp only [bind, Except.bind] at hr
      split at hr
      · cases hr
      split at hr
      · cases hr; exact .inl rfl
      cases hs : scanRoot z deprecatedTypes with
      | error e => rw [hs] at hr; cases hr
      | ok r =>
        rw [hs] at hr
        simp only at hr
        right
        refine ⟨r, rfl, ?_⟩
        cases hx : r.result <;> · rw [hx] at hr; cases hr; rfl
    have : checkFiles g z files (.mk py!"ROOT" py!"/" rels) = checkFiles g z' files' (.mk py!"ROOT" py!"/" rels) := by
      unfold checkFiles
      simp only
      rw [checkOrigins_agree]
      intro q hq
      rcases hrels with rfl | ⟨r, hs, rfl⟩
      · cases hq
      · have hl := checked_linked hs q hq
        obtain ⟨type, hfd⟩ := linked_found hl
        exact checkSpec_agree (h.parts type q hfd) (hf q hl)
    rw [this]

end Verif.File
