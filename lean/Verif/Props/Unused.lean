import Verif.UnusedLemmas

/-!
# C105: the report about a package depends only on what relationships lead to
-/

namespace Verif.Props
open Verif Verif.Spec Verif.Opc Verif.File Verif.Spec.Unused

variable {J X : Type}

/-- C105: two packages that agree in the content types, in the relationships of everything that can be reached, in the existence of the parts that
are named there and in the content of the files that are linked as specifications get the same report (or fail with the same exception). -/
theorem C105_reached (g : Engine J X) (z z' : Zip) (files files' : Str → Content J X) (h : SameReached py!"/" z z')
    (hf : SameFiles py!"/" z files files') : checkAasxData g z files = checkAasxData g z' files' := checkAasxData_agree h hf

/-- the last member of a name is the only one if names are different -/
theorem member_mem {z : Zip} (hn : (z.map (·.1)).Nodup) (n : Str) (p : Part) : Member z n p ↔ (n, p) ∈ z := by
  constructor
  · rintro ⟨pre, post, rfl, _⟩; simp
  · intro h
    obtain ⟨pre, post, rfl⟩ := List.append_of_mem h
    refine ⟨pre, post, rfl, fun m hm e => ?_⟩
    rw [List.map_append, List.map_cons, List.nodup_append] at hn
    exact (List.nodup_cons.mp hn.2.1).1 (e ▸ List.mem_map_of_mem (f := (·.1)) hm)

/-- C105: the order of the members of an archive does not matter. -/
theorem C105_order (g : Engine J X) (z z' : Zip) (files : Str → Content J X) (hp : z.Perm z') (hn : (z.map (·.1)).Nodup) :
    checkAasxData g z files = checkAasxData g z' files := by
  have hn' : (z'.map (·.1)).Nodup := (hp.map _).nodup hn
  have hm : ∀ n p, Member z n p ↔ Member z' n p := fun n p => by rw [member_mem hn, member_mem hn', hp.mem_iff]
  exact C105_reached g z z' files files ⟨hm _, fun d f _ => hm _, fun t q _ => ⟨fun ⟨p, h⟩ => ⟨p, hp.mem_iff.mp h⟩, fun ⟨p, h⟩ => ⟨p, hp.mem_iff.mpr h⟩⟩⟩ fun _ _ _ => rfl

/-- the last member of a name in a list without or with another member -/
theorem member_insert (pre post : Zip) (m : Str × Part) (n : Str) (hne : m.1 ≠ n) (p : Part) :
    Member (pre ++ post) n p ↔ Member (pre ++ m :: post) n p := by
  rw [← find_iff, ← find_iff]
  unfold Zip.find
  rw [List.reverse_append, List.reverse_append, List.reverse_cons, List.append_assoc]
  generalize post.reverse = a
  generalize pre.reverse = b
  have : dictGet n (a ++ b) = dictGet n (a ++ ([m] ++ b)) := by
    induction a with
    | nil => obtain ⟨k, v⟩ := m; simp only [List.nil_append, List.cons_append, dictGet]; rw [if_neg hne]
    | cons x a ih => obtain ⟨k, v⟩ := x; simp only [List.cons_append, dictGet]; rw [ih, List.cons_append, List.nil_append]
  rw [this]

/-- C105: a member to which nothing leads does not matter, whatever it contains and wherever it is in the archive. -/
theorem C105_ignored (g : Engine J X) (pre post : Zip) (name : Str) (p : Part) (files files' : Str → Content J X)
    (h : Ignored py!"/" (pre ++ post) name) (hf : ∀ q, q ≠ name → files q = files' q) :
    checkAasxData g (pre ++ post) files = checkAasxData g (pre ++ (name, p) :: post) files' := by
  refine C105_reached g _ _ files files' ⟨member_insert pre post _ _ h.1, fun d f hr => member_insert pre post _ _ (h.2.1 d f hr), fun t q hq => ?_⟩ ?_
  · have hne := h.2.2 t q hq
    unfold HasPart
    constructor
    · rintro ⟨x, hx⟩; exact ⟨x, by simp only [List.mem_append, List.mem_cons] at hx ⊢; rcases hx with hx | hx <;> simp [hx]⟩
    · rintro ⟨x, hx⟩
      refine ⟨x, ?_⟩
      simp only [List.mem_append, List.mem_cons] at hx ⊢
      rcases hx with hx | hx | hx
      · exact .inl hx
      · cases hx; exact absurd rfl hne
      · exact .inr hx
  · intro q hl _
    obtain ⟨type, hq⟩ := linked_found hl
    exact hf q fun e => h.2.2 type q hq e.symm

/-- C105: of members with the same name only the last one matters. -/
theorem C105_last (g : Engine J X) (pre mid post : Zip) (name : Str) (p p' : Part) (files : Str → Content J X) :
    checkAasxData g (pre ++ (name, p) :: (mid ++ (name, p') :: post)) files = checkAasxData g (pre ++ (mid ++ (name, p') :: post)) files := by
  have hm : ∀ n x, Member (pre ++ (name, p) :: (mid ++ (name, p') :: post)) n x ↔ Member (pre ++ (mid ++ (name, p') :: post)) n x := by
    intro n x
    by_cases hne : name = n
    · subst hne
      rw [← find_iff, ← find_iff]
      unfold Zip.find
      have : ∀ a b : Zip, dictGet name (a ++ (name, p') :: b) = dictGet name (a ++ [(name, p')]) := by
        intro a b
        induction a with
        | nil => simp [dictGet]
        | cons y a ih => obtain ⟨k, v⟩ := y; simp only [List.cons_append, dictGet]; rw [ih]
      simp only [List.reverse_append, List.reverse_cons, List.append_assoc, List.cons_append, List.nil_append]
      rw [this _ (List.reverse mid ++ _), this _ (List.reverse mid ++ _)]
    · exact (member_insert _ _ _ _ hne _).symm
  refine C105_reached g _ _ files files ⟨hm _, fun d f _ => hm _, fun t q _ => ?_⟩ fun _ _ _ => rfl
  rw [← mem_namelist, ← mem_namelist]
  simp only [Zip.namelist, List.map_append, List.map_cons, List.mem_append, List.mem_cons]
  constructor
  · rintro (h | h | h | h | h) <;> simp [h]
  · rintro (h | h | h | h) <;> simp [h]

/-! ## examples -/

/-- a package with one file -/
def oneFile : Zip :=
  [(py!"[Content_Types].xml", .xml typesTag []),
   (py!"_rels/.rels", .xml relationshipsTag [⟨relationshipTag, [(py!"Type", File.typeOrigin), (py!"Target", py!"/aasx/origin")]⟩]),
   (py!"aasx/origin", .broken),
   (py!"aasx/_rels/origin.rels", .xml relationshipsTag [⟨relationshipTag, [(py!"Type", File.typeSpec), (py!"Target", py!"a.json")]⟩]),
   (py!"aasx/a.json", .broken)]

/-- how to see that a member is ignored -/
theorem ignored_of (z : Zip) (name : Str) (r : Scanned) (h : scanRoot z [] = .ok r) (h1 : name ≠ py!"[Content_Types].xml") (h2 : name ≠ relsName [] [])
    (h3 : ∀ q ∈ r.visited, name ≠ q ∧ name ≠ relsName (place q).1 (place q).2) : Ignored py!"/" z name := by
  refine ⟨h1, fun d f hr => ?_, fun type q ⟨d, f, hr, hd⟩ => (h3 q ((visited_iff h q).mpr ⟨type, d, f, hr, hd⟩)).1⟩
  cases hr with
  | root => exact h2
  | step hr hd hp hl =>
    rename_i q
    have := (h3 q ((visited_iff h q).mpr ⟨_, _, _, hr, hd⟩)).2
    rw [(located_iff _ _ _).mp hl] at this
    exact this

/-- the thumbnail that nobody links, and the relationships of a part that nobody links, are ignored -/
theorem oneFile_ignored : ∀ name ∈ [py!"thumbnail.png", py!"docs/_rels/readme.rels", py!"_rels/a.json.rels"], Ignored py!"/" oneFile name := by
  intro name hn
  cases h : scanRoot oneFile [] with
  | error e =>
    have h' : (match scanRoot oneFile [] with | .error _ => false | .ok _ => true) = true := by decide +kernel
    rw [h] at h'; cases h'
  | ok r =>
    have hv : r.visited = [py!"aasx/origin", py!"aasx/a.json"] := by
      have h' : (scanRoot oneFile []).map (·.visited) = .ok [py!"aasx/origin", py!"aasx/a.json"] := by decide +kernel
      rw [h] at h'; exact Except.ok.inj h'
    refine ignored_of oneFile name r h ?_ ?_ ?_
    · revert name; decide +kernel
    · revert name; decide +kernel
    · rw [hv]; revert name; decide +kernel

example (g : Engine J X) (p : Part) (files : Str → Content J X) :
    checkAasxData g oneFile files = checkAasxData g (oneFile ++ [(py!"docs/_rels/readme.rels", p)]) files := by
  have := C105_ignored g oneFile [] py!"docs/_rels/readme.rels" p files files (by rw [List.append_nil]; exact oneFile_ignored _ (by simp)) fun _ _ => rfl
  rwa [List.append_nil] at this

/-- the relationships of the origin are not ignored -/
example : ¬ Ignored py!"/" oneFile py!"aasx/_rels/origin.rels" := by
  intro h
  have hd : Declares oneFile [] [] File.typeOrigin py!"aasx/origin" :=
    ⟨_, ⟨relationshipTag, [(py!"Type", File.typeOrigin), (py!"Target", py!"/aasx/origin")]⟩, py!"/aasx/origin",
      (find_iff oneFile (relsName [] []) _).mp (by decide +kernel), List.mem_singleton.mpr rfl,
      ⟨rfl, (attr_iff _ _ _).mpr (by decide +kernel), (attr_iff _ _ _).mpr (by decide +kernel)⟩, (resolved_iff _ _ _).mpr (by decide +kernel)⟩
  exact h.2.1 py!"aasx/" py!"origin" (.step .root hd ⟨.broken, by decide +kernel⟩ ((located_iff _ _ _).mpr (by decide +kernel))) rfl

/-- they matter: with other relationships the report is another one -/
example : (checkAasxData (J := Unit) (X := Unit) ⟨fun _ _ => .ok (Res.new []), fun _ _ => .ok (Res.new [])⟩ oneFile fun _ => ⟨.ok (), .ok ()⟩).map (·.ok) = .ok true ∧
    (checkAasxData (J := Unit) (X := Unit) ⟨fun _ _ => .ok (Res.new []), fun _ _ => .ok (Res.new [])⟩
      (oneFile ++ [(py!"aasx/_rels/origin.rels", .xml [] [])]) fun _ => ⟨.ok (), .ok ()⟩).map (·.ok) = .ok false := by decide +kernel

end Verif.Props
