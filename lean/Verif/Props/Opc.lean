import Verif.OpcLemmas4

/-! # C29-C32, C34: paths and packages -/

namespace Verif.Props
open Verif Spec Opc

/-! ## C29 -/

/-- C29: the normal form is the place where the path leads. -/
theorem C29_normpath (p q : Str) : normpath p = q ↔ Normal p q := (normal_iff p q).symm

/-- C29: a normal form consists of proper names only (no blank segment, no `.`, no `..`), and it is absolute exactly if the
path is. -/
theorem C29_normal_form (p : Str) : ∃ t names, Trimmed p t ∧ (∀ s ∈ names, ProperName s) ∧
    (Absolute t ∧ normpath p = py!"/" ++ Py.join py!"/" names ∨ ¬ Absolute t ∧ normpath p = Py.join py!"/" names) := by
  obtain ⟨t, ht, h⟩ := normal_normpath p
  rcases h with ⟨rfl, h⟩ | ⟨_, segs, pos, h1, h2, h3⟩
  · exact ⟨[], [], ht, by simp, .inr ⟨fun ⟨_, hu⟩ => (nomatch hu), by rw [h]; rfl⟩⟩
  · exact ⟨t, pos, ht, walk_proper h2 (by simp) h1.2.1, h3⟩

/-- C29: a path of proper names without surrounding white space is its own normal form. -/
theorem C29_fixed_point (names : List Str) (abs : Bool) (h : ∀ s ∈ names, ProperName s)
    (p : Str) (hp : p = (if abs then py!"/" else []) ++ Py.join py!"/" names) (ht : Trimmed p p) (habs : abs = false → ¬ Absolute p) :
    normpath p = p := by
  rw [C29_normpath]
  refine ⟨p, ht, ?_⟩
  by_cases h0 : p = []
  · exact .inl ⟨h0, h0⟩
  · refine .inr ⟨h0, ?_⟩
    cases abs with
    | true =>
      simp only [if_true] at hp
      cases names with
      | nil =>
        refine ⟨[[], []], [], ⟨by simp, by simp, by rw [hp]; rfl⟩, ?_, .inl ⟨⟨_, by rw [hp]; rfl⟩, hp⟩⟩
        exact .stay (.inl (by intro c hc; cases hc)) (.stay (.inl (by intro c hc; cases hc)) .done)
      | cons n ns =>
        refine ⟨[] :: n :: ns, n :: ns, ⟨by simp, ?_, by rw [hp]; rfl⟩, ?_, .inl ⟨⟨_, by rw [hp]; rfl⟩, hp⟩⟩
        · intro t ht'
          rcases List.mem_cons.mp ht' with rfl | ht'
          · simp
          · exact (h t ht').2.2.2
        · exact .stay (.inl (by intro c hc; cases hc)) (walk_down _ h [])
    | false =>
      simp only [Bool.false_eq_true, if_false, List.nil_append] at hp
      have hne : names ≠ [] := by rintro rfl; exact h0 hp
      exact ⟨names, names, ⟨hne, fun t ht' => (h t ht').2.2.2, hp⟩, walk_down _ h [], .inr ⟨habs rfl, hp⟩⟩

theorem join_head (names : List Str) (h : ∀ s ∈ names, ProperName s) : ¬ Absolute (Py.join py!"/" names) := by
  rintro ⟨u, hu⟩
  cases names with
  | nil => cases hu
  | cons n ns =>
    have hn := h n (by simp)
    have hne : n ≠ [] := by rintro rfl; exact hn.1 (by intro c hc; cases hc)
    cases n with
    | nil => exact hne rfl
    | cons c n =>
      have : c = pc! '/' := by
        cases ns <;> simp [Py.join] at hu <;> exact hu.1
      exact hn.2.2.2 (by rw [this]; simp)

/-- C29: normalising twice is the same as normalising once, provided the normal form has no surrounding white space. -/
theorem C29_idempotent (p : Str) (h : Trimmed (normpath p) (normpath p)) : normpath (normpath p) = normpath p := by
  obtain ⟨t, names, _, hn, ha | ha⟩ := C29_normal_form p
  · exact C29_fixed_point names true hn _ (by rw [ha.2]; rfl) h (by intro h; cases h)
  · exact C29_fixed_point names false hn _ (by rw [ha.2]; rfl) h (fun _ => by rw [ha.2]; exact join_head names hn)

/-- the condition is needed: the blank after `./` becomes the beginning of the path -/
theorem C29_white_space_violated : normpath (normpath py!"./ a") ≠ normpath py!"./ a" := by decide

/-- C29: climbing above the root ends at the root, for any number of steps. -/
theorem C29_no_escape (n : Nat) (names : List Str) (h : ∀ s ∈ names, ProperName s) :
    Walk [] (List.replicate n py!".." ++ names) names := by
  have h1 : Walk [] (List.replicate n py!"..") [] := by
    induction n with
    | zero => exact .done
    | succ n ih => rw [List.replicate_succ]; exact .top ih
  have := walk_append h1 (walk_down names h [])
  simpa using this

/-- C29: `..` removes the preceding name. -/
theorem C29_parent (pos ss res : List Str) (x : Str) (h : ProperName x) : Walk pos (x :: py!".." :: ss) res ↔ Walk pos ss res := by
  constructor
  · intro hw
    cases hw with
    | stay hs _ => rcases hs with hs | hs; exact absurd hs h.1; exact absurd hs h.2.1
    | top _ => exact absurd rfl h.2.2.1
    | up _ => exact absurd rfl h.2.2.1
    | down _ _ _ hw =>
      have : Walk (pos ++ [x]) (py!".." :: ss) (normLoop pos ss) := .up (walk_normLoop ss pos)
      rw [walk_unique hw this]; exact walk_normLoop ss pos
  · intro hw; exact .down h.1 h.2.1 h.2.2.1 (.up hw)

/-- C29: a target is resolved relative to the folder of its source, or to the root if it begins with a slash. -/
theorem C29_resolve (dir target q : Str) : resolve dir target = q ↔ Resolved dir target q := (resolved_iff dir target q).symm

/-- C29: a path is split at its last slash. -/
theorem C29_splitpath (p : Str) :
    (∀ d f, pc! '/' ∉ f → p = d ++ py!"/" ++ f → splitpath p = (d, f)) ∧ (pc! '/' ∉ p → splitpath p = ([], p)) ∧
    (pc! '/' ∈ p → ∃ d f, p = d ++ py!"/" ++ f ∧ pc! '/' ∉ f) :=
  ⟨fun d f hf e => by rw [e]; exact splitpath_some d f hf, splitpath_none p, last_slash p⟩

example : normpath py!" //a/./b/../c/ /../../../d " = py!"/d" ∧ resolve py!"aasx/x/" py!"../y/./z.xml" = py!"aasx/y/z.xml" ∧
    resolve py!"aasx/" py!"/y/z.xml" = py!"y/z.xml" ∧ splitpath py!"a/b/c" = (py!"a/b", py!"c") := by decide
example : Trimmed py!"/a b/c" py!"/a b/c" := ⟨[], [], by simp, by simp [Blank], by simp [Blank], by simp; decide, by simp; decide⟩
example : ProperName py!"a" := by unfold ProperName Blank; decide

/-! ## C30 -/

/-- C30: the scan ends normally exactly if all relationship parts it gets to are XML; otherwise it ends with the parser's
exception. In particular it always ends (the bound on the recursion depth is never used up). -/
theorem C30_terminates (z : Zip) (dep : List (Str × Str)) :
    ((∃ r, scanRoot z dep = .ok r) ↔ Readable py!"/" z) ∧ ∀ e, scanRoot z dep = .error e → e = .parseError :=
  ⟨scanRoot_ok_iff z dep, scanRoot_error z dep⟩

/-- C30: the bound on the recursion depth does not matter. -/
theorem C30_fuel (z : Zip) (dep : List (Str × Str)) (n : Nat) (hn : z.length < n) (dir file : Str) (e : PyExc)
    (h : scanF z dep n dir file [] [] = .error e) : e = .parseError :=
  ((scanF_spec z dep n dir file [] []).2 e h (by rw [fresh_nil]; exact hn)).1

/-- C30: the relationships of every part are followed at most once, and exactly those of the found parts. -/
theorem C30_once (z : Zip) (dep : List (Str × Str)) (r : Scanned) (h : scanRoot z dep = .ok r) :
    r.followed.Nodup ∧ r.visited.Nodup ∧ ∀ q, q ∈ r.followed ↔ HasPart z q ∧ ∃ type, Found py!"/" z type q := by
  have hp := ((scanF_spec z dep (z.length + 1) [] [] [] []).1 r h).post
  obtain ⟨new, e, d, m⟩ := hp.followed
  rw [List.nil_append] at e
  refine ⟨by rw [e]; exact d, hp.nodup (by simp), fun q => ?_⟩
  rw [e, m, ← visited_iff h, ← mem_namelist]
  simp [and_comm]

theorem nodup_length_le : ∀ (l m : List Str), l.Nodup → (∀ q ∈ l, q ∈ m) → l.length ≤ m.length := by
  intro l
  induction l with
  | nil => simp
  | cons x l ih =>
    intro m hd hs
    have hx : x ∈ m := hs x (by simp)
    have hl := List.length_erase_of_mem hx
    have hpos := List.length_pos_of_mem hx
    have := ih (m.erase x) (List.nodup_cons.mp hd).2 (fun q hq => by
      have hne : q ≠ x := by rintro rfl; exact (List.nodup_cons.mp hd).1 hq
      exact (List.mem_erase_of_ne hne).mpr (hs q (by simp [hq])))
    simp only [List.length_cons]; omega

/-- C30: the number of calls is bounded by the number of members. -/
theorem C30_calls (z : Zip) (dep : List (Str × Str)) (r : Scanned) (h : scanRoot z dep = .ok r) : r.followed.length ≤ z.length := by
  obtain ⟨h1, _, h3⟩ := C30_once z dep r h
  have : r.followed.length ≤ z.namelist.length := by
    have hs : ∀ q ∈ r.followed, q ∈ z.namelist := fun q hq => (mem_namelist z q).mpr ((h3 q).mp hq).1
    clear h h3
    generalize r.followed = l at *
    generalize z.namelist = m at *
    exact nodup_length_le l m h1 hs
  simpa [Zip.namelist] using this

/-! ## C31 -/

theorem contentTypes_ok (z : Zip) (c : Res Str) (h : checkContentType z = .ok c) :
    c.ok = true ↔ ∃ els, Member z py!"[Content_Types].xml" (.xml typesTag els) := by
  unfold checkContentType at h
  have hn : contentTypesXml = py!"[Content_Types].xml" := rfl
  have ht : nsContentTypes ++ py!"Types" = typesTag := by decide
  simp only [ht] at h
  simp only [← find_iff, ← hn]
  cases hf : z.find contentTypesXml with
  | none =>
    rw [hf] at h; cases h
    simp only [append_ok, new_ok]; simp
  | some p =>
    cases p with
    | broken => rw [hf] at h; cases h
    | xml tag els =>
      rw [hf] at h
      simp only at h
      split at h
      · rename_i hne
        cases h
        rw [append_ok, new_ok]
        simp only [new_ok]; simp [hne]
      · rename_i hne
        cases h
        have : tag = typesTag := Classical.not_not.mp hne
        subst this
        rw [new_ok]; simp

/-- C31: the package check passes exactly if the package has no mistakes. Parts at the top level are taken to be in the
folder `/` as the code does. -/
theorem C31_verdict (z : Zip) (r0 : Res Str) (dep : List (Str × Str)) (r : Res Str) (rels : List Relationship)
    (h0 : r0.ok = true) (h : readOpc z r0 dep = .ok (r, rels)) : r.ok = true ↔ ProperPackage py!"/" z := by
  unfold readOpc at h
  cases hc : checkContentType z with
  | error e => rw [hc] at h; cases h
  | ok c =>
    have hcok := contentTypes_ok z c hc
    simp only [hc, bind, Except.bind] at h
    unfold ProperPackage
    rw [← hcok]
    cases hok : (r0.append c).ok with
    | false =>
      simp only [hok, Bool.not_false, if_true, pure, Except.pure] at h
      cases h
      have : c.ok = false := by
        cases hcc : c.ok with
        | false => rfl
        | true => rw [(append_ok r0 c).mpr ⟨h0, hcc⟩] at hok; cases hok
      simp [hok, this]
    | true =>
      simp only [hok, Bool.not_true, Bool.false_eq_true, if_false] at h
      have hc1 := ((append_ok r0 c).mp hok).2
      unfold checkRelationships at h
      cases hs : scanRoot z dep with
      | error e => rw [hs] at h; cases h
      | ok s =>
        have hcp := (scanF_spec z dep (z.length + 1) [] [] [] []).1 s hs
        have hroot : relsName [] [] = py!"_rels/.rels" := rfl
        rw [← proper_iff hs]
        simp only [hs, bind, Except.bind] at h
        cases hr : s.result with
        | none =>
          simp only [hr, pure, Except.pure] at h
          cases h
          have : ¬ HasPart z py!"_rels/.rels" := by
            have := hcp.absent.mp hr
            rw [hroot] at this
            exact (find_none z _).mp this
          simp [append_ok, new_ok, this]
        | some x =>
          simp only [hr, pure, Except.pure] at h
          cases h
          have : HasPart z py!"_rels/.rels" := by
            apply Classical.byContradiction
            intro hh
            have := (find_none z _).mpr hh
            rw [← hroot] at this
            rw [hcp.absent.mpr this] at hr; cases hr
          simp [append_ok, new_ok, this, h0, hc1, hcp.ok x hr]

/-- C31 for the standard's notion of folders: exact for packages in which no part at the top level has relationships. -/
theorem C31_standard (z : Zip) (r0 : Res Str) (dep : List (Str × Str)) (r : Res Str) (rels : List Relationship)
    (hz : FlatTop z) (h0 : r0.ok = true) (h : readOpc z r0 dep = .ok (r, rels)) : r.ok = true ↔ ProperPackage [] z := by
  rw [C31_verdict z r0 dep r rels h0 h, proper_flat hz]

/-- C31: a relationship that is found and has no target makes the check fail. -/
theorem C31_dangling (z : Zip) (r0 : Res Str) (dep : List (Str × Str)) (r : Res Str) (rels : List Relationship)
    (h : readOpc z r0 dep = .ok (r, rels)) (type q : Str) (hf : Found py!"/" z type q) (hq : ¬ HasPart z q) (h0 : r0.ok = true) : r.ok = false := by
  cases hr : r.ok with
  | false => rfl
  | true =>
    obtain ⟨_, _, h3⟩ := (C31_verdict z r0 dep r rels h0 h).mp hr
    obtain ⟨dir, file, h4, els, e, target, hm, he, hst, hres⟩ := hf
    obtain ⟨_, hall⟩ := h3 dir file h4 _ els hm
    obtain ⟨_, target', q', hst', hres', hq'⟩ := hall e he
    have e1 := Option.some.inj (((attr_iff _ _ _).mp hst.2.2).symm.trans ((attr_iff _ _ _).mp hst'.2.2))
    rw [resolved_iff] at hres hres'
    rw [← e1, hres] at hres'
    exact absurd (hres' ▸ hq') hq

/-- a small package -/
def samplePackage : Zip :=
  [(py!"[Content_Types].xml", .xml typesTag []),
   (py!"_rels/.rels", .xml relationshipsTag [⟨relationshipTag, [(py!"Type", py!"origin"), (py!"Target", py!"/aasx/origin")]⟩]),
   (py!"aasx/origin", .broken),
   (py!"aasx/_rels/origin.rels", .xml relationshipsTag [⟨relationshipTag, [(py!"Type", py!"spec"), (py!"Target", py!"a.xml")]⟩]),
   (py!"aasx/a.xml", .broken)]

example : (readOpc samplePackage (Res.new []) []).map (fun p => (p.1.ok, shallow (allRels p.2))) =
    .ok (true, [(py!"origin", py!"aasx/origin"), (py!"spec", py!"aasx/a.xml")]) := by decide +kernel
/-- the same without the file -/
example : (readOpc (samplePackage.take 4) (Res.new []) []).map (·.1.ok) = .ok false := by decide +kernel

/-! ## C32 -/

/-- C32, as the code has it (parts at the top level are in the folder `/`): the recorded relationships are exactly the
relationships found from the root. -/
theorem C32_found (z : Zip) (dep : List (Str × Str)) (r : Scanned) (h : scanRoot z dep = .ok r) (t q : Str) :
    (∃ n ∈ allRels r.rels, n.type = t ∧ n.target = q) ↔ ∃ type, StandsFor dep type t ∧ Found py!"/" z type q := tree_iff h t q

/-- C32, what holds in the standard's notion of folders: all relationships of parts that are reached through parts in folders
are recorded. Missing for the full claim: relationships of parts at the top level (`C32_top_level_violated`). -/
theorem C32_followed_partial (z : Zip) (dep : List (Str × Str)) (r : Scanned) (h : scanRoot z dep = .ok r) (dir file type t q : Str)
    (hr : FolderReach z dir file) (hd : Declares z dir file type q) (ht : StandsFor dep type t) :
    ∃ n ∈ allRels r.rels, n.type = t ∧ n.target = q :=
  (tree_iff h t q).mpr ⟨type, ht, dir, file, folderReach z dir file hr, hd⟩

/-- C32 is exact for packages in which no part at the top level has relationships. -/
theorem C32_flat (z : Zip) (dep : List (Str × Str)) (r : Scanned) (hz : FlatTop z) (h : scanRoot z dep = .ok r) (t q : Str) :
    (∃ n ∈ allRels r.rels, n.type = t ∧ n.target = q) ↔ ∃ type, StandsFor dep type t ∧ Found [] z type q := by
  rw [tree_iff h]; simp only [found_flat hz]

/-- each recorded relationship to a part carries either no relationships or all relationships of that part, in order -/
theorem C32_sub_relationships (z : Zip) (dep : List (Str × Str)) (r : Scanned) (h : scanRoot z dep = .ok r) :
    (∀ n ∈ allRels r.rels, n.subRels = [] ∨ shallow n.subRels = declared z dep (place n.target)) ∧
    ∀ q, q ∈ r.followed → ∃ n ∈ allRels r.rels, n.target = q ∧ shallow n.subRels = declared z dep (place q) := by
  have hp := ((scanF_spec z dep (z.length + 1) [] [] [] []).1 r h).post
  refine ⟨fun n hn => (hp.nodes n hn).imp id And.left, fun q hq => ?_⟩
  obtain ⟨new, e, d, m⟩ := hp.followed
  rw [List.nil_append] at e
  obtain ⟨a, b, c⟩ := (m q).mp (e ▸ hq)
  exact hp.full q a b c

/-- a package whose top level part `a` has a relationship to a missing part -/
def topLevelPackage : Zip :=
  [(py!"[Content_Types].xml", .xml typesTag []),
   (py!"_rels/.rels", .xml relationshipsTag [⟨relationshipTag, [(py!"Type", py!"origin"), (py!"Target", py!"/a")]⟩]),
   (py!"a", .broken),
   (py!"_rels/a.rels", .xml relationshipsTag [⟨relationshipTag, [(py!"Type", py!"spec"), (py!"Target", py!"/b.xml")]⟩])]

theorem topLevel_found : Found [] topLevelPackage py!"spec" py!"b.xml" := by
  have hm : ∀ n p, topLevelPackage.find n = some p → Member topLevelPackage n p := fun n p h => (find_iff _ _ _).mp h
  have h1 : Declares topLevelPackage [] [] py!"origin" py!"a" :=
    ⟨[⟨relationshipTag, [(py!"Type", py!"origin"), (py!"Target", py!"/a")]⟩], _, py!"/a", hm _ _ (by decide +kernel), List.mem_cons_self, ⟨rfl, (attr_iff _ _ _).mpr (by decide), (attr_iff _ _ _).mpr (by decide)⟩,
      (resolved_iff _ _ _).mpr (by decide +kernel)⟩
  have h2 : Declares topLevelPackage [] py!"a" py!"spec" py!"b.xml" :=
    ⟨[⟨relationshipTag, [(py!"Type", py!"spec"), (py!"Target", py!"/b.xml")]⟩], _, py!"/b.xml", hm _ _ (by decide +kernel), List.mem_cons_self, ⟨rfl, (attr_iff _ _ _).mpr (by decide), (attr_iff _ _ _).mpr (by decide)⟩,
      (resolved_iff _ _ _).mpr (by decide +kernel)⟩
  exact ⟨[], py!"a", .step .root h1 ⟨.broken, by decide +kernel⟩ (.inr ⟨by decide, rfl, rfl⟩), h2⟩

/-- C32 fails: the relationships of a part at the top level are not followed, a dangling relationship is not noticed and the
package passes. -/
theorem C32_top_level_violated : Found [] topLevelPackage py!"spec" py!"b.xml" ∧ ¬ HasPart topLevelPackage py!"b.xml" ∧
    (readOpc topLevelPackage (Res.new []) []).map (fun p => (p.1.ok, shallow (allRels p.2))) = .ok (true, [(py!"origin", py!"a")]) := by
  refine ⟨topLevel_found, ?_, by decide +kernel⟩
  rw [← mem_namelist]; decide +kernel

/-! ## C34 -/

/-- C34: packages that differ in deprecated spellings of relationship types only have the same verdict, the same failures,
the same relationships (hence the same files are checked), or both end with the same exception. -/
theorem C34_spelling (dep : List (Str × Str)) (z z' : Zip) (r0 : Res Str) (h : RespelledZip dep z z') :
    match readOpc z r0 dep, readOpc z' r0 dep with
    | .ok (r, rels), .ok (r', rels') => r.ok = r'.ok ∧ failures r = failures r' ∧ rels = rels'
    | .error e, .error e' => e = e'
    | _, _ => False := by
  have hcont : ∀ {c c' : Res Str}, SameEntry c c' → SameRes (r0.append c) (r0.append c') := fun hc => (⟨rfl, rfl⟩ : SameRes r0 r0).append hc
  have hct : checkContentType z = checkContentType z' := by
    unfold checkContentType
    have hf := find_respelled h contentTypesXml
    cases hx : z.find contentTypesXml with
    | none =>
      cases hy : z'.find contentTypesXml with
      | none => rfl
      | some p' => rw [hx, hy] at hf; exact hf.elim
    | some p =>
      cases hy : z'.find contentTypesXml with
      | none => rw [hx, hy] at hf; exact hf.elim
      | some p' =>
        rw [hx, hy] at hf
        cases p with
        | broken => cases p' with
          | broken => rfl
          | xml _ _ => exact hf.elim
        | xml tag els => cases p' with
          | broken => exact hf.elim
          | xml tag' els' => obtain ⟨rfl, _⟩ := hf; rfl
  unfold readOpc checkRelationships
  rw [← hct]
  cases hc : checkContentType z with
  | error e => simp [bind, Except.bind]
  | ok c =>
    simp only [bind, Except.bind]
    by_cases hok : (r0.append c).ok = true
    · simp only [hok, Bool.not_true, Bool.false_eq_true, if_false]
      have hs := scanRoot_same h
      cases hx : scanRoot z dep with
      | error e =>
        cases hy : scanRoot z' dep with
        | error e' => rw [hx, hy] at hs; simpa [BothE] using hs
        | ok y => rw [hx, hy] at hs; exact hs.elim
      | ok x =>
        cases hy : scanRoot z' dep with
        | error e' => rw [hx, hy] at hs; exact hs.elim
        | ok y =>
          rw [hx, hy] at hs
          obtain ⟨c1, c2, _, _⟩ := hs
          have key : ∀ {a b : Res Str}, SameEntry a b →
              SameRes ((r0.append c).append ((Res.new py!"Checking relationships").append a))
                ((r0.append c).append ((Res.new py!"Checking relationships").append b)) := by
            intro a b hab
            refine (⟨rfl, rfl⟩ : SameRes _ _).append ?_
            exact failuresL_one ((⟨rfl, rfl⟩ : SameRes _ _).append hab) (.inr (append_subs_ne _ _)) (.inr (append_subs_ne _ _))
          cases hrx : x.result with
          | none =>
            cases hry : y.result with
            | none => simp only [hrx, hry, pure, Except.pure]; exact ⟨trivial, trivial, c2⟩
            | some b => rw [hrx, hry] at c1; exact c1.elim
          | some a =>
            cases hry : y.result with
            | none => rw [hrx, hry] at c1; exact c1.elim
            | some b =>
              rw [hrx, hry] at c1
              simp only [hrx, hry, pure, Except.pure]
              have := key c1
              exact ⟨this.ok, this.failures, c2⟩
    · simp only [Bool.not_eq_true] at hok
      simp [hok, pure, Except.pure]

/-- the sample package with the types in a deprecated spelling -/
def deprecatedPackage : Zip :=
  [(py!"[Content_Types].xml", .xml typesTag []),
   (py!"_rels/.rels", .xml relationshipsTag [⟨relationshipTag, [(py!"Type", py!"old origin"), (py!"Target", py!"/aasx/origin")]⟩]),
   (py!"aasx/origin", .broken),
   (py!"aasx/_rels/origin.rels", .xml relationshipsTag [⟨relationshipTag, [(py!"Target", py!"a.xml"), (py!"Type", py!"old spec")]⟩]),
   (py!"aasx/a.xml", .broken)]

example : RespelledZip [(py!"old origin", py!"origin"), (py!"old spec", py!"spec")] deprecatedPackage samplePackage := by
  refine ⟨⟨rfl, rfl, trivial⟩, ⟨rfl, rfl, .inr ⟨rfl, ?_, ?_⟩, trivial⟩, ⟨rfl, trivial⟩, ⟨rfl, rfl, .inr ⟨rfl, ?_, ?_⟩, trivial⟩, ⟨rfl, trivial⟩, trivial⟩
  · exact ⟨py!"old origin", py!"origin", py!"origin", (attr_iff _ _ _).mpr rfl, (attr_iff _ _ _).mpr rfl,
      (standsFor_iff _ _ _).mpr (by decide), (standsFor_iff _ _ _).mpr (by decide)⟩
  · intro k v hk
    rw [attr_iff, attr_iff]
    have hk' : py!"Type" ≠ k := fun h => hk h.symm
    simp only [dictGet, if_neg hk']
  · exact ⟨py!"old spec", py!"spec", py!"spec", (attr_iff _ _ _).mpr (by decide), (attr_iff _ _ _).mpr (by decide),
      (standsFor_iff _ _ _).mpr (by decide), (standsFor_iff _ _ _).mpr (by decide)⟩
  · intro k v hk
    rw [attr_iff, attr_iff]
    have hk' : py!"Type" ≠ k := fun h => hk h.symm
    simp only [dictGet, if_neg hk']

end Verif.Props
