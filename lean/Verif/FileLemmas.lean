import Verif.Spec.File
import Verif.OpcLemmas4

/-! # Lemmas about the AASX check -/

namespace Verif.File
open Verif Spec Opc

variable {J X : Type} {g : Engine J X} {z : Zip} {files : Str → Content J X}

/-- the check of one file -/
def verdict (g : Engine J X) (files : Str → Content J X) (q : Str) : Except PyExc (Res Str) :=
  if Py.endsWith q py!".xml" then checkXmlFile g (files q) environment
  else if Py.endsWith q py!".json" then checkJsonFile g (files q) environment
  else .ok (Res.new py!"Unknown filetype" .warning)

theorem endsWith_iff (q s : Str) : Py.endsWith q s = true ↔ ∃ pre, q = pre ++ s := by
  unfold Py.endsWith
  rw [List.isSuffixOf_iff_suffix]
  exact ⟨fun ⟨p, h⟩ => ⟨p, h.symm⟩, fun ⟨p, h⟩ => ⟨p, h.symm⟩⟩

theorem not_both (q : Str) (h1 : Py.endsWith q py!".xml" = true) (h2 : Py.endsWith q py!".json" = true) : False := by
  obtain ⟨a, h1⟩ := (endsWith_iff _ _).mp h1
  obtain ⟨b, h2⟩ := (endsWith_iff _ _).mp h2
  have e1 : q.getLast? = some (pc! 'l') := by rw [h1]; simp
  have e2 : q.getLast? = some (pc! 'n') := by rw [h2]; simp
  rw [e1] at e2; cases e2

theorem verdict_iff (q : Str) (v : Except PyExc (Res Str)) : Verdict g files q v ↔ verdict g files q = v := by
  unfold verdict checkXmlFile checkJsonFile checkXmlData checkJsonData environment Res.new
  constructor
  · intro h
    cases h with
    | xml pre data hq hd => rw [if_pos ((endsWith_iff _ _).mpr ⟨pre, hq⟩), hd]
    | noXml pre data hq hd => rw [if_pos ((endsWith_iff _ _).mpr ⟨pre, hq⟩), hd]
    | xmlRaises pre e hq hd => rw [if_pos ((endsWith_iff _ _).mpr ⟨pre, hq⟩), hd]
    | json pre data hq hd =>
      have := (endsWith_iff _ _).mpr ⟨pre, hq⟩
      rw [if_neg (fun h => not_both q h this), if_pos this, hd]
    | noJson pre data hq hd =>
      have := (endsWith_iff _ _).mpr ⟨pre, hq⟩
      rw [if_neg (fun h => not_both q h this), if_pos this, hd]
    | jsonRaises pre e hq hd =>
      have := (endsWith_iff _ _).mpr ⟨pre, hq⟩
      rw [if_neg (fun h => not_both q h this), if_pos this, hd]
    | other h1 h2 => rw [if_neg (fun h => h1 ((endsWith_iff _ _).mp h)), if_neg (fun h => h2 ((endsWith_iff _ _).mp h))]
  · rintro rfl
    by_cases h1 : Py.endsWith q py!".xml" = true
    · obtain ⟨pre, hq⟩ := (endsWith_iff _ _).mp h1
      rw [if_pos h1]
      cases hx : (files q).xml with
      | ok d => exact .xml pre d hq hx
      | error e =>
        cases e with
        | malformed e => exact .noXml pre e hq hx
        | raised e => exact .xmlRaises pre e hq hx
    · rw [if_neg h1]
      by_cases h2 : Py.endsWith q py!".json" = true
      · obtain ⟨pre, hq⟩ := (endsWith_iff _ _).mp h2
        rw [if_pos h2]
        cases hx : (files q).json with
        | ok d => exact .json pre d hq hx
        | error e =>
          cases e with
          | malformed e => exact .noJson pre e hq hx
          | raised e => exact .jsonRaises pre e hq hx
      · rw [if_neg h2]
        exact .other (fun h => h1 ((endsWith_iff _ _).mpr h)) (fun h => h2 ((endsWith_iff _ _).mpr h))

theorem passes_iff (q : Str) : Passes g files q ↔ ∃ r, verdict g files q = .ok r ∧ r.ok = true := by
  unfold Passes; simp only [verdict_iff]

theorem checkSpec_member (q : Str) (h : q ∈ z.namelist) :
    checkSpec g z files q = (verdict g files q).map fun r => (Res.new (py!"Checking " ++ q)).append r := by
  unfold checkSpec verdict
  have : z.namelist.contains q = true := by simpa using h
  simp only [this, Bool.not_true, Bool.false_eq_true, if_false, bind, Except.bind, pure, Except.pure]
  split
  · cases checkXmlFile g (files q) environment <;> rfl
  · split
    · cases checkJsonFile g (files q) environment <;> rfl
    · rfl

theorem checkSpec_ok (q : Str) (h : q ∈ z.namelist) (x : Res Str) (hx : checkSpec g z files q = .ok x) :
    ∃ v, verdict g files q = .ok v ∧ (x.ok = true ↔ v.ok = true) := by
  rw [checkSpec_member q h] at hx
  cases hv : verdict g files q with
  | error e => rw [hv] at hx; cases hx
  | ok v =>
    rw [hv] at hx
    cases hx
    refine ⟨v, rfl, ?_⟩
    rw [append_ok]; simp only [new_ok]; simp

theorem checkSpec_error (q : Str) (h : q ∈ z.namelist) (e : PyExc) (hx : checkSpec g z files q = .error e) :
    verdict g files q = .error e := by
  rw [checkSpec_member q h] at hx
  cases hv : verdict g files q with
  | error e' => rw [hv] at hx; cases hx; rfl
  | ok v => rw [hv] at hx; cases hx

/-- what the loop over files gives -/
def Loop (g : Engine J X) (files : Str → Content J X) (res : Res Str) (qs : List Str) : Except PyExc (Option (Res Str)) → Prop
  | .ok (some r) => (∀ q ∈ qs, ∃ v, verdict g files q = .ok v) ∧ (r.ok = true ↔ res.ok = true ∧ ∀ q ∈ qs, Passes g files q)
  | .ok none => ∃ q ∈ qs, verdict g files q = .error .keyError
  | .error e => ∃ q ∈ qs, verdict g files q = .error e

theorem checkSpecs_loop : ∀ (specs : List Relationship) (res : Res Str), (∀ s ∈ specs, s.target ∈ z.namelist) →
    Loop g files res (specs.map (·.target)) (checkSpecs g z files res specs) := by
  intro specs
  induction specs with
  | nil => intro res _; simp [checkSpecs, Loop]
  | cons s specs ih =>
    intro res hm
    have hs : s.target ∈ z.namelist := hm s (by simp)
    rw [checkSpecs]
    cases hc : checkSpec g z files s.target with
    | error e =>
      have := checkSpec_error _ hs e hc
      cases e <;> exact ⟨s.target, by simp, this⟩
    | ok x =>
      obtain ⟨v, hv, hvo⟩ := checkSpec_ok _ hs x hc
      simp only
      have := ih (res.append x) (fun s' h' => hm s' (by simp [h']))
      generalize checkSpecs g z files (res.append x) specs = out at this
      match out, this with
      | .error e, ⟨q, hq, h⟩ => exact ⟨q, by simp only [List.map_cons]; exact List.mem_cons_of_mem _ hq, h⟩
      | .ok none, ⟨q, hq, h⟩ => exact ⟨q, by simp only [List.map_cons]; exact List.mem_cons_of_mem _ hq, h⟩
      | .ok (some r), ⟨h1, h2⟩ =>
        refine ⟨?_, ?_⟩
        · simp only [List.map_cons, List.forall_mem_cons]; exact ⟨⟨v, hv⟩, h1⟩
        · rw [h2, append_ok]
          simp only [List.map_cons, List.forall_mem_cons]
          rw [passes_iff s.target, hv]
          simp [hvo, and_assoc]

/-- the files the code checks -/
def checked (rels : List Relationship) : List Str :=
  (rels.filter fun i => i.type == typeOrigin).flatMap fun o => (o.subRels.filter fun i => i.type == typeSpec).map (·.target)

theorem checkOrigins_loop : ∀ (origins : List Relationship) (res : Res Str),
    (∀ o ∈ origins, ∀ s ∈ o.subRels, s.target ∈ z.namelist) →
    Loop g files res (origins.flatMap fun o => (o.subRelsByType typeSpec).map (·.target)) (checkOrigins g z files res origins) := by
  intro origins
  induction origins with
  | nil => intro res _; simp [checkOrigins, Loop]
  | cons o origins ih =>
    intro res hm
    rw [checkOrigins]
    have hr : ∀ b : Bool, (if b = true then res.append (Res.new py!"No aas spec found" .warning) else res).ok = true ↔ res.ok = true := by
      intro b
      cases b
      · simp
      · simp only [if_true, append_ok, new_ok]; simp
    have hr := hr (o.subRelsByType typeSpec).isEmpty
    show Loop g files res _ (match checkSpecs g z files (if (o.subRelsByType typeSpec).isEmpty = true then
      res.append (Res.new py!"No aas spec found" .warning) else res) (o.subRelsByType typeSpec) with
      | .error e => .error e
      | .ok none => .ok none
      | .ok (some r) => checkOrigins g z files r origins)
    generalize (if (o.subRelsByType typeSpec).isEmpty = true then res.append (Res.new py!"No aas spec found" .warning) else res) = res' at hr ⊢
    have h1 := checkSpecs_loop (g := g) (z := z) (files := files) (o.subRelsByType typeSpec) res'
      (fun s hs => hm o (by simp) s (List.mem_filter.mp hs).1)
    rw [List.flatMap_cons]
    generalize checkSpecs g z files res' (o.subRelsByType typeSpec) = out at h1
    match out, h1 with
    | .error e, ⟨q, hq, h⟩ => exact ⟨q, List.mem_append_left _ hq, h⟩
    | .ok none, ⟨q, hq, h⟩ => exact ⟨q, List.mem_append_left _ hq, h⟩
    | .ok (some r), ⟨a1, a2⟩ =>
      simp only
      have h2 := ih r (fun o' h' => hm o' (by simp [h']))
      generalize checkOrigins g z files r origins = out' at h2
      match out', h2 with
      | .error e, ⟨q, hq, h⟩ => exact ⟨q, List.mem_append_right _ hq, h⟩
      | .ok none, ⟨q, hq, h⟩ => exact ⟨q, List.mem_append_right _ hq, h⟩
      | .ok (some r'), ⟨b1, b2⟩ =>
        refine ⟨fun q hq => (List.mem_append.mp hq).elim (a1 q) (b1 q), ?_⟩
        rw [b2, a2, hr]
        simp only [List.mem_append]
        constructor
        · rintro ⟨⟨x, y⟩, w⟩; exact ⟨x, fun q hq => hq.elim (y q) (w q)⟩
        · rintro ⟨x, y⟩; exact ⟨⟨x, fun q hq => y q (.inl hq)⟩, fun q hq => y q (.inr hq)⟩

/-- what `_check_files` gives -/
def FilesLoop (g : Engine J X) (files : Str → Content J X) (qs : List Str) : Except PyExc (Res Str) → Prop
  | .ok r => ((∀ q ∈ qs, ∃ v, verdict g files q = .ok v) ∧ (r.ok = true ↔ ∀ q ∈ qs, Passes g files q)) ∨
      ((∃ q ∈ qs, verdict g files q = .error .keyError) ∧ r.ok = true)
  | .error e => ∃ q ∈ qs, verdict g files q = .error e

theorem checkFiles_loop (rels : List Relationship) (hm : ∀ o ∈ rels, ∀ s ∈ o.subRels, s.target ∈ z.namelist) :
    FilesLoop g files (checked rels) (checkFiles g z files (.mk py!"ROOT" py!"/" rels)) := by
  unfold checkFiles
  have hr : ∀ (p : Prop) [Decidable p] (m : Str), (if p then (Res.new py!"Checking files").append (Res.new m .warning)
      else Res.new py!"Checking files").ok = true := by
    intro p _ m
    split
    · simp only [append_ok, new_ok]; simp
    · simp only [new_ok]; simp
  simp only
  have hr := hr (((Relationship.mk py!"ROOT" py!"/" rels).subRelsByType typeOrigin).length ≠ 1)
    (py!"Expected exactly one aas origin, but found " ++ Py.natStr ((Relationship.mk py!"ROOT" py!"/" rels).subRelsByType typeOrigin).length)
  generalize (if ((Relationship.mk py!"ROOT" py!"/" rels).subRelsByType typeOrigin).length ≠ 1 then _ else _ : Res Str) = res at hr ⊢
  have h := checkOrigins_loop (g := g) (z := z) (files := files) ((Relationship.mk py!"ROOT" py!"/" rels).subRelsByType typeOrigin) res
    (fun o ho => hm o (List.mem_filter.mp ho).1)
  have e : (((Relationship.mk py!"ROOT" py!"/" rels).subRelsByType typeOrigin).flatMap fun o => (o.subRelsByType typeSpec).map (·.target))
    = checked rels := rfl
  rw [e] at h
  generalize checkOrigins g z files res _ = out at h
  match out, h with
  | .error e, h => exact h
  | .ok none, h => exact .inr ⟨h, by simp only [new_ok]; simp⟩
  | .ok (some r), ⟨h1, h2⟩ => exact .inl ⟨h1, by rw [h2, hr]; simp⟩

/-! ## the checked files -/

theorem canon_three (d1 d2 d3 t1 t2 t3 x t : Str) (h : canon [(d1, t1), (d2, t2), (d3, t3)] x = t) :
    (x = d1 ∧ t = t1) ∨ (x = d2 ∧ t = t2) ∨ (x = d3 ∧ t = t3) ∨ x = t := by
  unfold canon at h
  simp only [dictGet] at h
  split at h
  · exact .inl ⟨by symm; assumption, h.symm⟩
  · split at h
    · exact .inr (.inl ⟨by symm; assumption, h.symm⟩)
    · split at h
      · exact .inr (.inr (.inl ⟨by symm; assumption, h.symm⟩))
      · exact .inr (.inr (.inr h))

theorem isOrigin_iff (type : Str) : IsOrigin type ↔ StandsFor deprecatedTypes type typeOrigin := by
  rw [standsFor_iff]
  constructor
  · rintro (rfl | rfl) <;> decide +kernel
  · intro h
    rcases canon_three _ _ _ _ _ _ _ _ h with h | h | h | h
    · exact .inr h.1
    · exact absurd h.2 (by decide +kernel)
    · exact absurd h.2 (by decide +kernel)
    · exact .inl h

theorem isSpec_iff (type : Str) : IsSpec type ↔ StandsFor deprecatedTypes type typeSpec := by
  rw [standsFor_iff]
  constructor
  · rintro (rfl | rfl) <;> decide +kernel
  · intro h
    rcases canon_three _ _ _ _ _ _ _ _ h with h | h | h | h
    · exact absurd h.2 (by decide +kernel)
    · exact .inr h.1
    · exact absurd h.2 (by decide +kernel)
    · exact .inl h

mutual
/-- a relationship in the tree is at the top or directly below another one -/
theorem allRels_parent : ∀ (rels : List Relationship) (n : Relationship), n ∈ allRels rels →
    n ∈ rels ∨ ∃ m ∈ allRels rels, n ∈ m.subRels
  | [], n, h => by simp [allRels] at h
  | r :: rs, n, h => by
    rw [allRels] at h ⊢
    rcases List.mem_append.mp h with h | h
    · rcases relsIn_parent r n h with rfl | ⟨m, hm, hn⟩
      · left; simp
      · exact .inr ⟨m, List.mem_append_left _ hm, hn⟩
    · rcases allRels_parent rs n h with h | ⟨m, hm, hn⟩
      · left; simp [h]
      · exact .inr ⟨m, List.mem_append_right _ hm, hn⟩
theorem relsIn_parent : ∀ (r : Relationship) (n : Relationship), n ∈ relsIn r → n = r ∨ ∃ m ∈ relsIn r, n ∈ m.subRels
  | .mk t q subs, n, h => by
    rw [relsIn] at h ⊢
    rcases List.mem_cons.mp h with rfl | h
    · exact .inl rfl
    · rcases allRels_parent subs n h with h | ⟨m, hm, hn⟩
      · exact .inr ⟨.mk t q subs, List.mem_cons_self, h⟩
      · exact .inr ⟨m, List.mem_cons_of_mem _ hm, hn⟩
end

variable {r : Scanned}

theorem root_mem (h : scanRoot z deprecatedTypes = .ok r) (t q : Str) :
    (∃ n ∈ r.rels, n.type = t ∧ n.target = q) ↔ ∃ type, StandsFor deprecatedTypes type t ∧ Declares z [] [] type q := by
  have hp := ((scanF_spec z deprecatedTypes (z.length + 1) [] [] [] []).1 r h).post
  rw [← mem_shallow, hp.shallow, declared_iff]

/-- every checked file is linked -/
theorem checked_linked (h : scanRoot z deprecatedTypes = .ok r) (q : Str) (hq : q ∈ checked r.rels) : Linked py!"/" z q := by
  have hp := ((scanF_spec z deprecatedTypes (z.length + 1) [] [] [] []).1 r h).post
  unfold checked at hq
  simp only [List.mem_flatMap, List.mem_map, List.mem_filter, beq_iff_eq] at hq
  obtain ⟨o, ⟨ho, ht⟩, s, ⟨hs, hst⟩, rfl⟩ := hq
  obtain ⟨ot, hot, hd⟩ := (root_mem h o.type o.target).mp ⟨o, ho, rfl, rfl⟩
  rw [ht, ← isOrigin_iff] at hot
  rcases hp.nodes o (mem_allRels_self _ o ho) with h0 | ⟨h1, h2⟩
  · rw [h0] at hs; cases hs
  · have : (s.type, s.target) ∈ shallow o.subRels := (mem_shallow _ _ _).mpr ⟨s, hs, rfl, rfl⟩
    rw [h1] at this
    obtain ⟨st, hst', hsd⟩ := (declared_iff z deprecatedTypes _ _ s.type s.target).mp this
    rw [hst, ← isSpec_iff] at hst'
    exact ⟨ot, o.target, _, _, st, hot, hd, (mem_namelist z _).mp h2, (located_iff _ _ _).mpr rfl, hst', hsd⟩

/-- if the package is proper, the targets of checked files are members -/
theorem sub_targets (h : scanRoot z deprecatedTypes = .ok r) (hp : ProperPackage py!"/" z) :
    ∀ o ∈ r.rels, ∀ s ∈ o.subRels, s.target ∈ z.namelist := by
  intro o ho s hs
  have hmem := mem_allRels_sub r.rels o s (mem_allRels_self _ o ho) hs
  obtain ⟨type, _, dir, file, hr, hd⟩ := (tree_iff h s.type s.target).mp ⟨s, hmem, rfl, rfl⟩
  obtain ⟨els, e, target, hm, he, hst, hres⟩ := hd
  obtain ⟨_, hall⟩ := hp.2.2 dir file hr _ els hm
  obtain ⟨_, target', q', hst', hres', hq'⟩ := hall e he
  have e1 := Option.some.inj (((attr_iff _ _ _).mp hst.2.2).symm.trans ((attr_iff _ _ _).mp hst'.2.2))
  rw [resolved_iff] at hres hres'
  rw [← e1, hres] at hres'
  rw [mem_namelist, hres']; exact hq'

/-- if origins are linked in the plain way only, every linked file is checked -/
theorem linked_checked (h : scanRoot z deprecatedTypes = .ok r) (hpl : PlainOrigins z) (q : Str) (hq : Linked py!"/" z q) :
    q ∈ checked r.rels := by
  have hp := ((scanF_spec z deprecatedTypes (z.length + 1) [] [] [] []).1 r h).post
  obtain ⟨ot, o, dir, file, st, h1, h2, h3, h4, h5, h6⟩ := hq
  have hv : o ∈ r.visited := (visited_iff h o).mpr ⟨ot, [], [], .root, h2⟩
  obtain ⟨n, hn, hnt, hns⟩ := hp.full o hv (by simp) ((mem_namelist z o).mpr h3)
  have hpl' : (∃ type, IsOrigin type ∧ StandsFor deprecatedTypes type n.type) ∧ n ∈ r.rels := by
    rcases allRels_parent r.rels n hn with hn' | ⟨m, hm, hn'⟩
    · refine ⟨?_, hn'⟩
      obtain ⟨type, ht, hd⟩ := (root_mem h n.type n.target).mp ⟨n, hn', rfl, rfl⟩
      rw [hnt] at hd
      exact ⟨type, (hpl ot o h1 h2 [] [] type .root hd).2.2, ht⟩
    · exfalso
      rcases hp.nodes m hm with h0 | ⟨m1, m2⟩
      · rw [h0] at hn'; cases hn'
      · have : (n.type, n.target) ∈ shallow m.subRels := (mem_shallow _ _ _).mpr ⟨n, hn', rfl, rfl⟩
        rw [m1] at this
        obtain ⟨type, ht, hd⟩ := (declared_iff z deprecatedTypes _ _ n.type n.target).mp this
        rw [hnt] at hd
        obtain ⟨mt, _, md, mf, mr, mdcl⟩ := (tree_iff h m.type m.target).mp ⟨m, hm, rfl, rfl⟩
        have hl : Located py!"/" m.target (place m.target).1 (place m.target).2 := (located_iff _ _ _).mpr rfl
        have hreach : Reach py!"/" z (place m.target).1 (place m.target).2 := .step mr mdcl ((mem_namelist z _).mp m2) hl
        have := (hpl ot o h1 h2 _ _ type hreach hd).1
        rcases hl with ⟨d, _, _, e⟩ | ⟨_, _, e⟩
        · rw [this] at e; simp at e
        · rw [this] at e; cases e
  obtain ⟨⟨type, ht1, ht2⟩, hnr⟩ := hpl'
  rw [isOrigin_iff] at ht1
  have hty : n.type = typeOrigin := by
    rw [standsFor_iff] at ht1 ht2
    rw [← ht1, ← ht2]
  have : (typeSpec, q) ∈ shallow n.subRels := by
    rw [hns]
    have := (located_iff _ _ _).mp h4
    rw [show place o = ((place o).1, (place o).2) from rfl, declared_iff]
    refine ⟨st, (isSpec_iff st).mp h5, ?_⟩
    rw [this]; exact h6
  obtain ⟨s, hs, hs1, hs2⟩ := (mem_shallow _ _ _).mp this
  unfold checked
  simp only [List.mem_flatMap, List.mem_map, List.mem_filter, beq_iff_eq]
  exact ⟨n, ⟨hnr, hty⟩, s, ⟨hs, hs1⟩, hs2⟩

end Verif.File
