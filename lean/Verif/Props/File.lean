import Verif.FileLemmas
import Verif.Props.Opc

/-! # C33, C34: the AASX check -/

namespace Verif.Props
open Verif Spec Opc File

variable {J X : Type} {g : Engine J X} {z : Zip} {files : Str → Content J X}

theorem readOpc_rels (r0 r : Res Str) (dep : List (Str × Str)) (rels : List Relationship) (h : readOpc z r0 dep = .ok (r, rels))
    (hok : r.ok = true) : ∃ s, scanRoot z dep = .ok s ∧ rels = s.rels := by
  unfold readOpc checkRelationships at h
  cases hc : checkContentType z with
  | error e => rw [hc] at h; cases h
  | ok c =>
    simp only [hc, bind, Except.bind, pure, Except.pure] at h
    split at h
    · cases h
      rename_i h'
      rw [hok] at h'; cases h'
    · cases hs : scanRoot z dep with
      | error e => rw [hs] at h; cases h
      | ok s =>
        rw [hs] at h
        refine ⟨s, rfl, ?_⟩
        cases hr : s.result <;> (simp only [hr] at h; cases h; rfl)

theorem readOpc_error (r0 : Res Str) (dep : List (Str × Str)) (e : PyExc) (h : readOpc z r0 dep = .error e) :
    e = .parseError ∧ (Member z py!"[Content_Types].xml" .broken ∨ ¬ Readable py!"/" z) := by
  unfold readOpc checkRelationships at h
  cases hc : checkContentType z with
  | error e' =>
    rw [hc] at h; cases h
    unfold checkContentType at hc
    cases hf : z.find contentTypesXml with
    | none => rw [hf] at hc; cases hc
    | some p =>
      cases p with
      | broken => rw [hf] at hc; cases hc; exact ⟨rfl, .inl ((find_iff _ _ _).mp hf)⟩
      | xml tag els => rw [hf] at hc; simp only at hc; split at hc <;> cases hc
  | ok c =>
    simp only [hc, bind, Except.bind, pure, Except.pure] at h
    split at h
    · cases h
    · cases hs : scanRoot z dep with
      | error e' =>
        rw [hs] at h; cases h
        refine ⟨scanRoot_error z dep e hs, .inr (fun hr => ?_)⟩
        obtain ⟨s, hs'⟩ := (scanRoot_ok_iff z dep).mpr hr
        rw [hs] at hs'; cases hs'
      | ok s =>
        rw [hs] at h
        cases hr : s.result <;> (simp only [hr] at h; cases h)

/-- the two stages of the check -/
theorem checkAasx_cases (g : Engine J X) (z : Zip) (files : Str → Content J X) :
    (∃ e, readOpc z (Res.new py!"Checking AASX package") deprecatedTypes = .error e ∧ checkAasxData g z files = .error e) ∨
    (∃ r rels, readOpc z (Res.new py!"Checking AASX package") deprecatedTypes = .ok (r, rels) ∧ r.ok = false ∧ checkAasxData g z files = .ok r) ∨
    (∃ r s, readOpc z (Res.new py!"Checking AASX package") deprecatedTypes = .ok (r, s.rels) ∧ r.ok = true ∧
      scanRoot z deprecatedTypes = .ok s ∧ ProperPackage py!"/" z ∧
      checkAasxData g z files = (checkFiles g z files (.mk py!"ROOT" py!"/" s.rels)).map fun x => r.append x) := by
  unfold checkAasxData
  cases h : readOpc z (Res.new py!"Checking AASX package") deprecatedTypes with
  | error e => exact .inl ⟨e, rfl, by simp only [h]; rfl⟩
  | ok p =>
    obtain ⟨r, rels⟩ := p
    simp only [h, bind, Except.bind, pure, Except.pure]
    cases hok : r.ok with
    | false => exact .inr (.inl ⟨r, rels, rfl, hok, by simp⟩)
    | true =>
      obtain ⟨s, hs, rfl⟩ := readOpc_rels _ _ _ _ h hok
      refine .inr (.inr ⟨r, s, rfl, hok, hs, ?_, ?_⟩)
      · exact (C31_verdict z _ _ r _ (by simp only [new_ok]; simp) h).mp hok
      · simp only [Bool.not_true, Bool.false_eq_true, if_false]
        cases checkFiles g z files (.mk py!"ROOT" py!"/" s.rels) <;> rfl

/-- C33, for packages in which origins are linked in the plain way only: the package passes exactly if it has no mistakes and
every linked file passes. Missing: packages with other links to the origin part (`C33_second_link_violated`), and checks that
raise `KeyError` (`C33_key_error_violated`). -/
theorem C33_verdict_partial (r : Res Str) (h : checkAasxData g z files = .ok r) (hpl : PlainOrigins z)
    (hk : ∀ q, Linked py!"/" z q → ¬ Verdict g files q (.error .keyError)) :
    r.ok = true ↔ ProperPackage py!"/" z ∧ ∀ q, Linked py!"/" z q → Passes g files q := by
  rcases checkAasx_cases g z files with ⟨e, _, he⟩ | ⟨r', rels, h1, h2, h3⟩ | ⟨r', s, h1, h2, h3, h4, h5⟩
  · rw [h] at he; cases he
  · rw [h] at h3; cases h3
    simp only [h2, Bool.false_eq_true, false_iff, not_and]
    intro hp
    rw [(C31_verdict z _ _ r _ (by simp only [new_ok]; simp) h1).mpr hp] at h2; cases h2
  · have hl := checkFiles_loop (g := g) (files := files) s.rels (sub_targets h3 h4)
    rw [h] at h5
    cases hc : checkFiles g z files (.mk py!"ROOT" py!"/" s.rels) with
    | error e => rw [hc] at h5; cases h5
    | ok x =>
      rw [hc] at h5 hl; cases h5
      rw [append_ok]
      simp only [h2, true_and, h4]
      rcases hl with ⟨_, h6⟩ | ⟨⟨q, hq, h6⟩, _⟩
      · rw [h6]
        exact ⟨fun h q hq => h q (linked_checked h3 hpl q hq), fun h q hq => h q (checked_linked h3 q hq)⟩
      · exact absurd ((verdict_iff q _).mpr h6) (hk q (checked_linked h3 q hq))

/-- C33: there are no false alarms, for any package. -/
theorem C33_no_false_alarm (r : Res Str) (h : checkAasxData g z files = .ok r) (hp : ProperPackage py!"/" z)
    (hall : ∀ q, Linked py!"/" z q → Passes g files q) : r.ok = true := by
  rcases checkAasx_cases g z files with ⟨e, _, he⟩ | ⟨r', rels, h1, h2, h3⟩ | ⟨r', s, h1, h2, h3, h4, h5⟩
  · rw [h] at he; cases he
  · rw [(C31_verdict z _ _ r' _ (by simp only [new_ok]; simp) h1).mpr hp] at h2; cases h2
  · have hl := checkFiles_loop (g := g) (files := files) s.rels (sub_targets h3 h4)
    rw [h] at h5
    cases hc : checkFiles g z files (.mk py!"ROOT" py!"/" s.rels) with
    | error e => rw [hc] at h5; cases h5
    | ok x =>
      rw [hc] at h5 hl; cases h5
      rw [append_ok]
      refine ⟨h2, ?_⟩
      rcases hl with ⟨_, h6⟩ | ⟨_, h6⟩
      · rw [h6]; exact fun q hq => hall q (checked_linked h3 q hq)
      · exact h6

/-- C33: if the check raises an exception then because of broken XML in the package itself or because the check of a linked
file does. -/
theorem C33_raises (e : PyExc) (h : checkAasxData g z files = .error e) :
    (e = .parseError ∧ (Member z py!"[Content_Types].xml" .broken ∨ ¬ Readable py!"/" z)) ∨
    ∃ q, Linked py!"/" z q ∧ Verdict g files q (.error e) := by
  rcases checkAasx_cases g z files with ⟨e', h1, he⟩ | ⟨r', rels, h1, h2, h3⟩ | ⟨r', s, h1, h2, h3, h4, h5⟩
  · rw [h] at he; cases he
    exact .inl (readOpc_error _ _ e h1)
  · rw [h] at h3; cases h3
  · have hl := checkFiles_loop (g := g) (files := files) s.rels (sub_targets h3 h4)
    rw [h] at h5
    cases hc : checkFiles g z files (.mk py!"ROOT" py!"/" s.rels) with
    | ok x => rw [hc] at h5; cases h5
    | error e' =>
      rw [hc] at h5 hl; cases h5
      obtain ⟨q, hq, h6⟩ := hl
      exact .inr ⟨q, checked_linked h3 q hq, (verdict_iff q _).mpr h6⟩

theorem linked_flat (hz : FlatTop z) (he : ¬ HasPart z []) (q : Str) : Linked [] z q ↔ Linked py!"/" z q := by
  constructor
  · rintro ⟨ot, o, dir, file, st, h1, h2, h3, h4, h5, h6⟩
    refine ⟨ot, o, dir, file, st, h1, h2, h3, ?_, h5, h6⟩
    rcases h4 with h4 | ⟨a, rfl, rfl⟩
    · exact .inl h4
    · by_cases h0 : file = []
      · subst h0; exact absurd h3 he
      · exact absurd (declares_part h6) (hz.1 _ h0)
  · rintro ⟨ot, o, dir, file, st, h1, h2, h3, h4, h5, h6⟩
    refine ⟨ot, o, dir, file, st, h1, h2, h3, ?_, h5, h6⟩
    rcases h4 with h4 | ⟨a, rfl, rfl⟩
    · exact .inl h4
    · exact absurd (declares_part h6) (hz.2 _ ⟨_, rfl⟩)

/-- C33 in terms of the standard, for packages without relationships of parts at the top level. -/
theorem C33_standard_partial (r : Res Str) (h : checkAasxData g z files = .ok r) (hpl : PlainOrigins z) (hz : FlatTop z)
    (he : ¬ HasPart z []) (hk : ∀ q, Linked [] z q → ¬ Verdict g files q (.error .keyError)) :
    r.ok = true ↔ ProperPackage [] z ∧ ∀ q, Linked [] z q → Passes g files q := by
  rw [C33_verdict_partial r h hpl (fun q hq => hk q ((linked_flat hz he q).mpr hq)), proper_flat hz]
  simp only [linked_flat hz he]

def relElem (type target : Str) : Elem := ⟨relationshipTag, [(py!"Type", type), (py!"Target", target)]⟩
def originUrl : Str := py!"http://admin-shell.io/aasx/relationships/aasx-origin"
def specUrl : Str := py!"http://admin-shell.io/aasx/relationships/aas-spec"

/-- a package with one file; the package has the given relationships -/
def aasxPackage (root : List Elem) : Zip :=
  [(py!"[Content_Types].xml", .xml typesTag []),
   (py!"_rels/.rels", .xml relationshipsTag root),
   (py!"aasx/origin", .broken),
   (py!"aasx/_rels/origin.rels", .xml relationshipsTag [relElem specUrl py!"a.json"]),
   (py!"aasx/a.json", .broken)]

/-- an engine that accepts the data `true` only and raises `KeyError` for `none` -/
def sampleEngine : Engine (Option Bool) Unit :=
  ⟨fun b _ => match b with
    | some true => .ok (.mk py!"fine" .info [])
    | some false => .ok (.mk py!"wrong" .error [])
    | none => .error .keyError, fun _ _ => .ok (.mk py!"fine" .info [])⟩

def filesWith (b : Option Bool) : Str → Content (Option Bool) Unit := fun _ => ⟨.ok b, .error (.malformed py!"no XML")⟩

/-- what the check says about the sample package with the given data -/
example : (checkAasxData sampleEngine (aasxPackage [relElem originUrl py!"/aasx/origin"]) (filesWith (some true))).map Res.ok = .ok true ∧
    (checkAasxData sampleEngine (aasxPackage [relElem originUrl py!"/aasx/origin"]) (filesWith (some false))).map Res.ok = .ok false := by
  decide +kernel

/-- the condition of `C33_verdict_partial` can be computed -/
theorem plainOrigins_of {s : Scanned} (h : scanRoot z deprecatedTypes = .ok s)
    (hc : ∀ p ∈ declared z deprecatedTypes ([], []), p.1 = typeOrigin →
      (∀ p' ∈ declared z deprecatedTypes ([], []), p'.2 = p.2 → p'.1 = typeOrigin) ∧
      ∀ v ∈ s.visited, ∀ p' ∈ declared z deprecatedTypes (place v), p'.2 ≠ p.2) : PlainOrigins z := by
  intro ot o ho hd dir file type hr hd'
  have h1 : (typeOrigin, o) ∈ declared z deprecatedTypes ([], []) := (declared_iff _ _ _ _ _ _).mpr ⟨ot, (isOrigin_iff ot).mp ho, hd⟩
  obtain ⟨h2, h3⟩ := hc _ h1 rfl
  obtain ⟨t, ht⟩ := standsFor_total deprecatedTypes type
  have h4 : (t, o) ∈ declared z deprecatedTypes (dir, file) := (declared_iff _ _ _ _ _ _).mpr ⟨type, ht, hd'⟩
  rcases reach_visited h dir file hr with ⟨rfl, rfl⟩ | ⟨v, hv, _, e⟩
  · have := h2 _ h4 rfl
    simp only at this
    exact ⟨rfl, rfl, (isOrigin_iff type).mpr (this ▸ ht)⟩
  · rw [← e] at h4
    exact absurd rfl (h3 v hv (t, o) h4)

/-- it holds for the sample package -/
example : PlainOrigins (aasxPackage [relElem originUrl py!"/aasx/origin"]) :=
  plainOrigins_of (s := ⟨_, _, [py!"aasx/origin", py!"aasx/a.json"], _⟩) rfl (by decide +kernel)

/-- C33 fails if the package links the origin part under another type first: the linked file is wrong, the package passes. -/
theorem C33_second_link_violated :
    let z := aasxPackage [relElem py!"other" py!"/aasx/origin", relElem originUrl py!"/aasx/origin"]
    (checkAasxData sampleEngine z (filesWith (some false))).map Res.ok = .ok true ∧ Linked [] z py!"aasx/a.json" ∧
    Verdict sampleEngine (filesWith (some false)) py!"aasx/a.json" (.ok (.mk py!"wrong" .error [])) := by
  intro z
  refine ⟨by decide +kernel, ?_, (verdict_iff _ _).mpr rfl⟩
  have hm : ∀ n p, z.find n = some p → Member z n p := fun n p h => (find_iff _ _ _).mp h
  refine ⟨originUrl, py!"aasx/origin", py!"aasx/", py!"origin", specUrl, .inl rfl, ?_, ⟨.broken, by decide +kernel⟩,
    .inl ⟨py!"aasx", by decide +kernel⟩, .inl rfl, ?_⟩
  · exact ⟨[relElem py!"other" py!"/aasx/origin", relElem originUrl py!"/aasx/origin"], relElem originUrl py!"/aasx/origin", py!"/aasx/origin",
      hm _ _ (by decide +kernel), by simp, ⟨rfl, (attr_iff _ _ _).mpr (by decide +kernel), (attr_iff _ _ _).mpr (by decide +kernel)⟩,
      (resolved_iff _ _ _).mpr (by decide +kernel)⟩
  · exact ⟨[relElem specUrl py!"a.json"], relElem specUrl py!"a.json", py!"a.json", hm _ _ (by decide +kernel), by simp,
      ⟨rfl, (attr_iff _ _ _).mpr (by decide +kernel), (attr_iff _ _ _).mpr (by decide +kernel)⟩, (resolved_iff _ _ _).mpr (by decide +kernel)⟩

/-- C33 fails if the check of a file raises `KeyError`: it is taken for a missing file, and a missing file is not an error. -/
theorem C33_key_error_violated :
    checkAasxData sampleEngine (aasxPackage [relElem originUrl py!"/aasx/origin"]) (filesWith none) =
      (readOpc (aasxPackage [relElem originUrl py!"/aasx/origin"]) (Res.new py!"Checking AASX package") deprecatedTypes).map
        (fun p => p.1.append (Res.new py!"File does not exist")) ∧
    (checkAasxData sampleEngine (aasxPackage [relElem originUrl py!"/aasx/origin"]) (filesWith none)).map Res.ok = .ok true := by
  constructor <;> rfl

/-- C34 for the whole check: packages that differ in deprecated spellings only have the same verdict and the same failures,
whatever the files contain. -/
theorem C34_package {z' : Zip} (h : RespelledZip deprecatedTypes z z') :
    match checkAasxData g z files, checkAasxData g z' files with
    | .ok r, .ok r' => r.ok = r'.ok ∧ failures r = failures r'
    | .error e, .error e' => e = e'
    | _, _ => False := by
  have hnames : z.namelist = z'.namelist := by
    unfold Zip.namelist
    revert h
    unfold RespelledZip
    generalize deprecatedTypes = dep
    intro h
    induction z generalizing z' with
    | nil => cases z' with
      | nil => rfl
      | cons _ _ => exact h.elim
    | cons m z ih => cases z' with
      | nil => exact h.elim
      | cons m' z' => rw [List.map_cons, List.map_cons, h.1.1, ih h.2]
  have h1 : ∀ q, checkSpec g z files q = checkSpec g z' files q := by intro q; unfold checkSpec; rw [hnames]
  have h2 : ∀ specs res, checkSpecs g z files res specs = checkSpecs g z' files res specs := by
    intro specs
    induction specs with
    | nil => intro res; rfl
    | cons s specs ih => intro res; rw [checkSpecs, checkSpecs, h1]; cases checkSpec g z' files s.target <;> simp [ih]
  have h3 : ∀ os res, checkOrigins g z files res os = checkOrigins g z' files res os := by
    intro os
    induction os with
    | nil => intro res; rfl
    | cons s os ih => intro res; rw [checkOrigins, checkOrigins]; simp only [h2, ih]
  have h4 : ∀ root, checkFiles g z files root = checkFiles g z' files root := by intro root; unfold checkFiles; simp only [h3]
  have hs := C34_spelling deprecatedTypes z z' (Res.new py!"Checking AASX package") h
  unfold checkAasxData
  simp only [h4]
  generalize readOpc z (Res.new py!"Checking AASX package") deprecatedTypes = a at hs ⊢
  generalize readOpc z' (Res.new py!"Checking AASX package") deprecatedTypes = b at hs ⊢
  match a, b, hs with
  | .error e, .error e', hs => simp only [bind, Except.bind]; exact hs
  | .error _, .ok _, hs => exact hs.elim
  | .ok _, .error _, hs => exact hs.elim
  | .ok (r, rels), .ok (r', rels'), hs =>
    obtain ⟨e1, e2, rfl⟩ := hs
    simp only [bind, Except.bind, pure, Except.pure, ← e1]
    cases hok : r.ok with
    | false => simp only [Bool.not_false, if_true]; exact ⟨e1, e2⟩
    | true =>
      simp only [Bool.not_true, Bool.false_eq_true, if_false]
      cases checkFiles g z' files (.mk py!"ROOT" py!"/" rels) with
      | error e => rfl
      | ok x =>
        have := (⟨e1, e2⟩ : SameRes r r').append (⟨rfl, rfl⟩ : SameEntry x x)
        exact ⟨this.ok, this.failures⟩

end Verif.Props
