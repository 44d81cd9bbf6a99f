import Verif.PackageLemmas
import Verif.Props.File

/-!
# C104: every mistake of a package is reported once, with its place
-/

namespace Verif.Props
open Verif Verif.Spec Verif.Opc Verif.Spec.Packages

theorem failed_new (m : Str) : failed (Res.new m) = [] := by simp [failed, failedL, Res.new]

theorem failed_single (a : Str) (x : Res Str) : failed ((Res.new a).append x) = failedL a [x] := by
  rw [failed_append, failed_new, List.nil_append]; rfl

theorem failed_below (m : Str) (a : Res Str) (x : Res Str) : failedL m [a.append x] = failed a ++ failedL a.msg [x] := by
  rw [failedL_plain _ _ (.inr (append_subs_ne _ _)), failed_append]

/-- without proper content types there are no other mistakes -/
theorem untyped {z : Zip} (ht : ¬ Typed z) (f : Fault) (h : HasFault py!"/" z f) : f = .noTypes ∨ ∃ t, f = .typesTag t := by
  cases f with
  | noTypes => exact .inl rfl
  | typesTag t => exact .inr ⟨t, rfl⟩
  | _ => exact absurd h.1 ht

/-- C104: the failed lines of the check of a package are the lines of its mistakes, one for each mistake and no others, each below the heading
where it belongs. -/
theorem C104_lines (z : Zip) (m : Str) (dep : List (Str × Str)) (r : Res Str) (rels : List Relationship) (h : readOpc z (Res.new m) dep = .ok (r, rels)) :
    ∃ fs : List (Fault × Heading), failed r = fs.map line ∧ (fs.map (·.1)).Nodup ∧ (∀ f, f ∈ fs.map (·.1) ↔ HasFault py!"/" z f) ∧
      ∀ p ∈ fs, At py!"/" z p.1 p.2 := by
  show Lines z (HasFault py!"/" z) (failed r)
  unfold readOpc checkContentType at h
  have htag : nsContentTypes ++ py!"Types" = typesTag := by decide
  simp only [htag] at h
  cases hf : z.find contentTypesXml with
  | none =>
    rw [hf] at h
    simp only [bind, Except.bind, pure, Except.pure] at h
    cases h
    have hno : ¬ Typed z := fun ht => by
      obtain ⟨els, h'⟩ := typed_find z ht
      rw [hf] at h'; cases h'
    rw [failed_single, failed_below, failed_new, List.nil_append, failedL_new, if_pos (Or.inl rfl)]
    refine Lines.one (f := .noTypes) (h := .types) (fun g => ?_) rfl
    constructor
    · intro hg
      rcases untyped hno g hg with e | ⟨t, rfl⟩
      · exact e
      · obtain ⟨_, els, h'⟩ := hg
        have := (find_iff z _ _).mpr h'
        rw [show z.find py!"[Content_Types].xml" = z.find contentTypesXml from rfl, hf] at this; cases this
    · rintro rfl; exact (find_none z _).mp hf
  | some p =>
    cases p with
    | broken => rw [hf] at h; cases h
    | xml tag els =>
      rw [hf] at h
      by_cases ht : tag = typesTag
      · subst ht
        have hty : Typed z := ⟨els, (find_iff z _ _).mp hf⟩
        simp only [ne_eq, not_true_eq_false, if_false, bind, Except.bind] at h
        rw [if_neg (by rw [(append_ok _ _).mpr ⟨(new_ok _ _).mpr (.inl rfl), (new_ok _ _).mpr (.inl rfl)⟩]; simp)] at h
        unfold checkRelationships at h
        cases hs : scanRoot z dep with
        | error e => rw [hs] at h; cases h
        | ok s =>
          simp only [hs, bind, Except.bind] at h
          have hspec := (scanF_spec z dep (z.length + 1) [] [] [] []).1 s hs
          obtain ⟨_, hl⟩ := scanF_lines z dep (z.length + 1) .root [] [] s .relationships hs (fun _ e => nomatch e) .root (fun _ => rfl)
          have hiff := faults_iff hs hty
          have hroot : relsName [] [] = py!"_rels/.rels" := rfl
          cases hr : s.result with
          | none =>
            simp only [hr, pure, Except.pure] at h
            cases h
            have hno : ¬ HasPart z py!"_rels/.rels" := by
              have := hspec.absent.mp hr
              rw [hroot] at this
              exact (find_none z _).mp this
            rw [hr] at hl
            rw [failed_append, failed_single, failed_below, failed_new, List.nil_append, failedL_plain _ (Res.new _) (.inl rfl), failed_new, List.nil_append,
              failedL_new, if_pos (Or.inl rfl)]
            have hone : Lines z (fun f => f = .noRoot ∧ ¬ HasPart z py!"_rels/.rels") [(Heading.relationships.text, Fault.noRoot.text)] :=
              Lines.one (fun g => ⟨And.left, fun e => ⟨e, hno⟩⟩) rfl
            have := hone.join hl (C := HasFault py!"/" z) ?_ hiff
            · rw [show failedL Heading.relationships.text (none : Option (Res Str)).toList = [] by simp [failedL], List.append_nil] at this
              exact this
            · rintro f ⟨rfl, _⟩ (hL | ⟨v, _, _, hN⟩)
              · exact hL
              · rcases hN with ⟨_, e⟩ | ⟨_, hL⟩
                · cases e
                · exact hL
          | some x =>
            simp only [hr, pure, Except.pure] at h
            cases h
            have hyes : HasPart z py!"_rels/.rels" := by
              apply Classical.byContradiction
              intro hh
              have := (find_none z _).mpr hh
              rw [← hroot] at this
              rw [hspec.absent.mpr this] at hr; cases hr
            rw [hr] at hl
            rw [failed_append, failed_single, failed_below, failed_new, List.nil_append, failedL_plain _ _ (.inl rfl), failed_new, List.nil_append]
            refine Lines.congr hl fun f => ?_
            rw [hiff f]
            constructor
            · rintro (⟨_, h'⟩ | h')
              · exact absurd hyes h'
              · exact h'
            · exact .inr
      · have hno : ¬ Typed z := fun hh => by
          obtain ⟨els', h'⟩ := typed_find z hh
          rw [hf] at h'; cases h'; exact ht rfl
        simp only [ne_eq, ht, not_false_eq_true, if_true, bind, Except.bind] at h
        rw [if_pos (by rfl)] at h
        cases h
        rw [failed_single, failed_below, failed_new, List.nil_append, failedL_new, if_pos (Or.inl rfl)]
        refine Lines.one (f := .typesTag tag) (h := .types) (fun g => ?_) rfl
        constructor
        · intro hg
          rcases untyped hno g hg with rfl | ⟨t, rfl⟩
          · exact absurd ((find_none z _).mpr hg) (by show ¬ z.find contentTypesXml = none; rw [hf]; simp)
          · obtain ⟨_, els', h'⟩ := hg
            have := (find_iff z _ _).mpr h'
            rw [show z.find py!"[Content_Types].xml" = z.find contentTypesXml from rfl, hf] at this; cases this; rfl
        · rintro rfl; exact ⟨ht, els, (find_iff z _ _).mp hf⟩

/-- a proper package has none of the mistakes -/
theorem proper_no_fault {z : Zip} (h : ProperPackage py!"/" z) (f : Fault) : ¬ HasFault py!"/" z f := by
  obtain ⟨⟨els, h1⟩, h2, h3⟩ := h
  have hr : ∀ {s d f}, Packages.Linked py!"/" z s → Placed py!"/" s d f → Reach py!"/" z d f := by
    intro s d f hl hp
    have := linked_reach hl
    rwa [(placed_iff s d f).mp hp] at this
  cases f with
  | noTypes => exact fun hn => hn (member_has h1)
  | typesTag t =>
    rintro ⟨hne, els', h'⟩
    rw [← find_iff] at h1 h'
    rw [h1] at h'; cases h'; exact hne rfl
  | noRoot => exact fun hn => hn.2 h2
  | relsTag s t =>
    rintro ⟨_, hl, hne, d, f, els', hp, hm⟩
    exact hne (h3 d f (hr hl hp) t els' hm).1
  | element s i w =>
    rintro ⟨_, hl, d, f, els', e, hp, hm, hi, hw⟩
    obtain ⟨type, target, q, hst, _⟩ := (h3 d f (hr hl hp) _ els' hm).2 e (List.mem_of_getElem? hi)
    exact right_of hst w hw
  | dangling q =>
    rintro ⟨_, hq, s, hl, d, f, type, hp, els', e, target, hm, he, hst, hres⟩
    obtain ⟨_, target', q', hst', hres', hq'⟩ := (h3 d f (hr hl hp) _ els' hm).2 e he
    have e1 := Option.some.inj (((attr_iff _ _ _).mp hst.2.2).symm.trans ((attr_iff _ _ _).mp hst'.2.2))
    rw [resolved_iff] at hres hres'
    rw [← e1, hres] at hres'
    exact hq (hres' ▸ hq')

/-- a package with readable content types and without these mistakes is proper -/
theorem no_fault_proper {z : Zip} (h : ∀ f, ¬ HasFault py!"/" z f) (hb : ¬ Member z py!"[Content_Types].xml" .broken) : ProperPackage py!"/" z := by
  have ht : Typed z := by
    cases hf : z.find contentTypesXml with
    | none => exact absurd ((find_none z _).mp hf) (h .noTypes)
    | some p =>
      cases p with
      | broken => exact absurd ((find_iff z _ _).mp hf) hb
      | xml t els =>
        have : t = typesTag := Classical.byContradiction fun hn => h (.typesTag t) ⟨hn, els, (find_iff z _ _).mp hf⟩
        subst this
        exact ⟨els, (find_iff z _ _).mp hf⟩
  refine ⟨ht, Classical.byContradiction fun hn => h .noRoot ⟨ht, hn⟩, fun d f hr tag els hm => ?_⟩
  obtain ⟨s, hl, hp⟩ := reach_linked hr
  have hp := (placed_iff s d f).mpr hp
  have htag : tag = relationshipsTag := Classical.byContradiction fun hn => h (.relsTag s tag) ⟨ht, hl, hn, d, f, els, hp, hm⟩
  subst htag
  refine ⟨rfl, fun e he => ?_⟩
  obtain ⟨i, hi⟩ := List.getElem?_of_mem he
  have hw : ∀ w, ¬ IsWrong e w := fun w hw => h (.element s i w) ⟨ht, hl, d, f, els, e, hp, hm, hi, hw⟩
  have h1 : e.tag = relationshipTag := Classical.byContradiction fun hn => hw (.tag e.tag) ⟨rfl, hn⟩
  obtain ⟨type, h2⟩ : ∃ v, Attr e py!"Type" v := Classical.byContradiction fun hn => hw .noType ⟨h1, hn⟩
  obtain ⟨target, h3⟩ : ∃ v, Attr e py!"Target" v := Classical.byContradiction fun hn => hw .noTarget ⟨h1, ⟨type, h2⟩, hn⟩
  refine ⟨type, target, resolve d target, ⟨h1, h2, h3⟩, (resolved_iff _ _ _).mpr rfl, Classical.byContradiction fun hn => ?_⟩
  exact h (.dangling (resolve d target)) ⟨ht, hn, s, hl, d, f, type, hp, els, e, target, hm, he, ⟨h1, h2, h3⟩, (resolved_iff _ _ _).mpr rfl⟩

/-! ## the files of the package -/

section
open Verif.File
variable {J X : Type} {g : Engine J X} {z : Zip} {files : Str → Content J X}

/-- the lines about these files -/
def fileLines (ps : List (Str × Res Str)) : List (Str × Str) := (ps.map fun p => failedL (py!"Checking " ++ p.1) [p.2]).flatten

/-- what the loops add to the report -/
def Added (g : Engine J X) (files : Str → Content J X) (res : Res Str) (qs : List Str) : Except PyExc (Option (Res Str)) → Prop
  | .ok (some r) => r.msg = res.msg ∧ Plain r ∧ ∃ ps : List (Str × Res Str), ps.map (·.1) = qs ∧ (∀ p ∈ ps, verdict g files p.1 = .ok p.2) ∧
      failed r = failed res ++ fileLines ps
  | _ => True

theorem checkSpecs_added : ∀ (specs : List Relationship) (res : Res Str), Plain res → (∀ s ∈ specs, s.target ∈ z.namelist) →
    Added g files res (specs.map (·.target)) (checkSpecs g z files res specs)
  | [], res, hp, _ => ⟨rfl, hp, [], rfl, fun _ h => (nomatch h), by simp [fileLines]⟩
  | s :: specs, res, hp, hm => by
    have hs : s.target ∈ z.namelist := hm s List.mem_cons_self
    unfold checkSpecs
    rw [checkSpec_member s.target hs]
    cases hv : verdict g files s.target with
    | error e => cases e <;> exact trivial
    | ok v =>
      simp only [Except.map]
      have ih := checkSpecs_added specs (res.append ((Res.new (py!"Checking " ++ s.target)).append v)) (.inr (append_subs_ne _ _))
        (fun s h => hm s (List.mem_cons_of_mem _ h))
      cases hc : checkSpecs g z files (res.append ((Res.new (py!"Checking " ++ s.target)).append v)) specs with
      | error e => exact trivial
      | ok o =>
        cases o with
        | none => exact trivial
        | some r =>
          rw [hc] at ih
          obtain ⟨h1, h2, ps, h3, h4, h5⟩ := ih
          refine ⟨h1, h2, (s.target, v) :: ps, by rw [List.map_cons, h3]; rfl, fun p hp => ?_, ?_⟩
          · rcases List.mem_cons.mp hp with rfl | hp
            · exact hv
            · exact h4 p hp
          · rw [h5, failed_append, failed_below, failed_new, List.nil_append, List.append_assoc]; rfl

theorem checkOrigins_added : ∀ (origins : List Relationship) (res : Res Str), Plain res → (∀ o ∈ origins, ∀ s ∈ o.subRels, s.target ∈ z.namelist) →
    Added g files res (origins.flatMap fun o => (o.subRelsByType typeSpec).map (·.target)) (checkOrigins g z files res origins)
  | [], res, hp, _ => ⟨rfl, hp, [], rfl, fun _ h => (nomatch h), by simp [fileLines]⟩
  | o :: origins, res, hp, hm => by
    unfold checkOrigins
    simp only
    generalize hres : (if (o.subRelsByType typeSpec).isEmpty then res.append (Res.new py!"No aas spec found" .warning) else res) = res1
    have h1 : res1.msg = res.msg ∧ Plain res1 ∧ failed res1 = failed res := by
      rw [← hres]
      split
      · exact ⟨rfl, .inr (append_subs_ne _ _), by rw [failed_append, failedL_new]; simp⟩
      · exact ⟨rfl, hp, rfl⟩
    have ha := checkSpecs_added (g := g) (files := files) (z := z) (o.subRelsByType typeSpec) res1 h1.2.1
      (fun s h => hm o List.mem_cons_self s (List.mem_filter.mp h).1)
    cases hc : checkSpecs g z files res1 (o.subRelsByType typeSpec) with
    | error e => exact trivial
    | ok x =>
      cases x with
      | none => exact trivial
      | some r =>
        rw [hc] at ha
        obtain ⟨a1, a2, ps, a3, a4, a5⟩ := ha
        have ih := checkOrigins_added origins r a2 (fun o h => hm o (List.mem_cons_of_mem _ h))
        simp only
        cases hc' : checkOrigins g z files r origins with
        | error e => exact trivial
        | ok x =>
          cases x with
          | none => exact trivial
          | some r' =>
            rw [hc'] at ih
            obtain ⟨b1, b2, ps', b3, b4, b5⟩ := ih
            refine ⟨b1.trans (a1.trans h1.1), b2, ps ++ ps', by rw [List.map_append, a3, b3]; rfl, fun p hp => ?_, ?_⟩
            · rcases List.mem_append.mp hp with hp | hp
              · exact a4 p hp
              · exact b4 p hp
            · rw [b5, a5, h1.2.2]; simp [fileLines, List.append_assoc]

/-- C104, files of a proper package: each failed line is one of the check of a linked file, below its name. -/
theorem C104_files (r : Res Str) (h : checkAasxData g z files = .ok r) (hp : ProperPackage py!"/" z) :
    ∃ ps : List (Str × Res Str), (∀ p ∈ ps, Spec.Linked py!"/" z p.1 ∧ Verdict g files p.1 (.ok p.2)) ∧
      failed r = (ps.map fun p => failedL (py!"Checking " ++ p.1) [p.2]).flatten ∧
      (PlainOrigins z → (∀ q, Spec.Linked py!"/" z q → ¬ Verdict g files q (.error .keyError)) → ∀ q, Spec.Linked py!"/" z q → q ∈ ps.map (·.1)) := by
  rcases checkAasx_cases g z files with ⟨e, _, he⟩ | ⟨r', rels, h1, h2, h3⟩ | ⟨r', s, h1, h2, h3, h4, h5⟩
  · rw [h] at he; cases he
  · rw [(C31_verdict z _ _ r' _ (by simp only [new_ok]; simp) h1).mpr hp] at h2; cases h2
  · rw [h] at h5
    have hnone : failed r' = [] := by
      obtain ⟨fs, e1, _, e2, _⟩ := C104_lines z _ _ r' _ h1
      cases fs with
      | nil => exact e1
      | cons p fs => exact absurd ((e2 p.1).mp (by simp)) (proper_no_fault hp p.1)
    have hsub := sub_targets h3 h4
    unfold checkFiles at h5
    simp only at h5
    have hor : Relationship.subRelsByType (.mk py!"ROOT" py!"/" s.rels) typeOrigin = s.rels.filter fun i => i.type == typeOrigin := rfl
    generalize Relationship.subRelsByType (.mk py!"ROOT" py!"/" s.rels) typeOrigin = origins at h5 hor
    generalize hst : (if origins.length ≠ 1
      then (Res.new py!"Checking files").append (Res.new (py!"Expected exactly one aas origin, but found " ++ Py.natStr origins.length) .warning)
      else Res.new py!"Checking files") = start at h5
    have hplain : Plain start ∧ failed start = [] := by
      rw [← hst]
      split
      · exact ⟨.inr (append_subs_ne _ _), by rw [failed_single, failedL_new]; simp⟩
      · exact ⟨.inl rfl, failed_new _⟩
    have hmem : ∀ o ∈ origins, ∀ x ∈ o.subRels, x.target ∈ z.namelist := fun o ho => hsub o (List.mem_filter.mp (hor ▸ ho)).1
    have hch : (origins.flatMap fun o => (o.subRelsByType typeSpec).map (·.target)) = checked s.rels := by rw [hor]; rfl
    have ha := checkOrigins_added (g := g) (files := files) (z := z) origins start hplain.1 hmem
    have hloop := checkOrigins_loop (g := g) (files := files) (z := z) origins start hmem
    rw [hch] at ha hloop
    cases hc : checkOrigins g z files start origins with
    | error e => rw [hc] at h5; cases h5
    | ok x =>
      rw [hc] at h5 ha hloop
      cases x with
      | none =>
        cases h5
        obtain ⟨q, hq, hk⟩ := hloop
        refine ⟨[], fun _ h => (nomatch h), ?_, fun _ hno => absurd ((verdict_iff q _).mpr hk) (hno q (checked_linked h3 q hq))⟩
        rw [failed_append, hnone, failedL_new]; simp
      | some y =>
        cases h5
        obtain ⟨_, a2, ps, a3, a4, a5⟩ := ha
        refine ⟨ps, fun p hp => ⟨checked_linked h3 p.1 ?_, (verdict_iff _ _).mpr (a4 p hp)⟩, ?_, fun hpl _ q hq => ?_⟩
        · exact a3 ▸ List.mem_map_of_mem hp
        · rw [failed_append, hnone, List.nil_append, failedL_plain _ _ a2, a5, hplain.2, List.nil_append]; rfl
        · rw [a3]; exact linked_checked h3 hpl q hq

/-- C104, the whole check: for another package the failed lines are those of its mistakes. -/
theorem C104_package (r : Res Str) (h : checkAasxData g z files = .ok r) (hp : ¬ ProperPackage py!"/" z) :
    ∃ fs : List (Fault × Heading), fs ≠ [] ∧ failed r = fs.map line ∧ (fs.map (·.1)).Nodup ∧ (∀ f, f ∈ fs.map (·.1) ↔ HasFault py!"/" z f) ∧
      ∀ p ∈ fs, At py!"/" z p.1 p.2 := by
  rcases checkAasx_cases g z files with ⟨e, _, he⟩ | ⟨r', rels, h1, h2, h3⟩ | ⟨r', s, h1, h2, h3, h4, h5⟩
  · rw [h] at he; cases he
  · rw [h] at h3; cases h3
    obtain ⟨fs, e1, e2, e3, e4⟩ := C104_lines z _ _ r _ h1
    refine ⟨fs, ?_, e1, e2, e3, e4⟩
    rintro rfl
    refine hp (no_fault_proper (fun f hf => by simpa using (e3 f).mpr hf) fun hb => ?_)
    have hb : z.find contentTypesXml = some .broken := (find_iff z _ _).mpr hb
    unfold readOpc checkContentType at h1
    rw [hb] at h1; cases h1
  · exact absurd h4 hp
end

/-- a package with several mistakes -/
def faultyPackage : Zip :=
  [(py!"[Content_Types].xml", .xml typesTag []),
   (py!"_rels/.rels", .xml relationshipsTag
     [⟨relationshipTag, [(py!"Type", py!"origin"), (py!"Target", py!"/aasx/origin")]⟩, ⟨py!"Relation", []⟩, ⟨relationshipTag, [(py!"Type", py!"x"), (py!"Target", py!"gone")]⟩]),
   (py!"aasx/origin", .broken),
   (py!"aasx/_rels/origin.rels", .xml relationshipsTag
     [⟨relationshipTag, [(py!"Type", py!"spec"), (py!"Target", py!"a.xml")]⟩, ⟨relationshipTag, [(py!"Target", py!"a.xml")]⟩, ⟨relationshipTag, [(py!"Type", py!"spec"), (py!"Target", py!"../gone")]⟩]),
   (py!"aasx/a.xml", .broken),
   (py!"aasx/_rels/a.xml.rels", .xml py!"Relationships" [])]

/-- one line for the missing part, though two relationships lead to it -/
example : (readOpc faultyPackage (Res.new py!"Checking AASX package") []).map (fun p => failed p.1) = .ok
    [(py!"Checking relationships of aasx/origin", py!"Invalid root tag Relationships, expected " ++ relationshipsTag),
     (py!"Checking relationships of aasx/origin", py!"Attribute 'Type' is missing"),
     (py!"Checking relationships of aasx/origin", py!"Relationship has non-existing target gone"),
     (py!"Checking root relationship", py!"Invalid tag Relation")] := by decide +kernel

/-- a proper package with two files -/
def twoFiles : Zip :=
  [(py!"[Content_Types].xml", .xml typesTag []),
   (py!"_rels/.rels", .xml relationshipsTag [⟨relationshipTag, [(py!"Type", File.typeOrigin), (py!"Target", py!"/aasx/origin")]⟩]),
   (py!"aasx/origin", .broken),
   (py!"aasx/_rels/origin.rels", .xml relationshipsTag
     [⟨relationshipTag, [(py!"Type", File.typeSpec), (py!"Target", py!"a.json")]⟩, ⟨relationshipTag, [(py!"Type", File.typeSpec), (py!"Target", py!"b.xml")]⟩]),
   (py!"aasx/a.json", .broken), (py!"aasx/b.xml", .broken)]

/-- the first is no JSON, the second has a mistake -/
example : (File.checkAasxData (J := Unit) (X := Unit)
      { json := fun _ _ => .ok (Res.new []), xml := fun _ _ => .ok ((Res.new py!"Check meta model").append (Res.new py!"Attribute missing" .error)) } twoFiles
      fun _ => { json := .error (.malformed py!"Expecting value"), xml := .ok () }).map failed = .ok
    [(py!"Checking aasx/a.json", py!"Invalid JSON: Expecting value"), (py!"Check meta model", py!"Attribute missing")] := by decide +kernel

end Verif.Props
