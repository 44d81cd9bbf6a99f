import Verif.OpcLemmas3

/-! # Lemmas about package scanning: the tree of relationships, top level parts, deprecated types -/

namespace Verif.Opc
open Verif Spec

/-! ## the tree of relationships -/

mutual
theorem nodes_found (z : Zip) (dep : List (Str × Str)) (P : Str × Str → Prop)
    (hc : ∀ p, P p → p.2 ∈ z.namelist → ∀ p' ∈ declared z dep (place p.2), P p') : ∀ rels : List Relationship,
    (∀ n ∈ allRels rels, n.subRels = [] ∨ (shallow n.subRels = declared z dep (place n.target) ∧ n.target ∈ z.namelist)) →
    (∀ p ∈ shallow rels, P p) → ∀ n ∈ allRels rels, P (n.type, n.target)
  | [], _, _, n, h => by simp [allRels] at h
  | r :: rs, hn, hp, n, h => by
    rw [allRels] at h
    rcases List.mem_append.mp h with h | h
    · exact nodes_found1 z dep P hc r (fun n h' => hn n (by rw [allRels]; exact List.mem_append_left _ h'))
        (hp _ (by simp [shallow])) n h
    · exact nodes_found z dep P hc rs (fun n h' => hn n (by rw [allRels]; exact List.mem_append_right _ h'))
        (fun p h' => hp p (by unfold shallow at h' ⊢; rw [List.map_cons]; exact List.mem_cons_of_mem _ h')) n h
theorem nodes_found1 (z : Zip) (dep : List (Str × Str)) (P : Str × Str → Prop)
    (hc : ∀ p, P p → p.2 ∈ z.namelist → ∀ p' ∈ declared z dep (place p.2), P p') : ∀ r : Relationship,
    (∀ n ∈ relsIn r, n.subRels = [] ∨ (shallow n.subRels = declared z dep (place n.target) ∧ n.target ∈ z.namelist)) →
    P (r.type, r.target) → ∀ n ∈ relsIn r, P (n.type, n.target)
  | .mk t q subs, hn, hp, n, h => by
    rw [relsIn] at h
    rcases List.mem_cons.mp h with rfl | h
    · exact hp
    · refine nodes_found z dep P hc subs (fun n h' => hn n (by rw [relsIn]; exact List.mem_cons_of_mem _ h')) ?_ n h
      intro p h'
      rcases hn (.mk t q subs) (by rw [relsIn]; simp) with h0 | ⟨h1, h2⟩
      · simp only [Relationship.subRels] at h0; subst h0; simp [shallow] at h'
      · simp only [Relationship.subRels, Relationship.target] at h1 h2
        rw [h1] at h'
        exact hc (t, q) hp h2 p h'
end

theorem mem_allRels_self (rels : List Relationship) : ∀ n ∈ rels, n ∈ allRels rels := by
  induction rels with
  | nil => simp
  | cons r rs ih =>
    intro n h
    rw [allRels]
    rcases List.mem_cons.mp h with rfl | h
    · cases n; simp [relsIn]
    · simp [ih n h]

mutual
theorem mem_allRels_sub : ∀ (rels : List Relationship) (n m : Relationship), n ∈ allRels rels → m ∈ n.subRels → m ∈ allRels rels
  | [], n, m, h, _ => by simp [allRels] at h
  | r :: rs, n, m, h, hm => by
    rw [allRels] at h ⊢
    rcases List.mem_append.mp h with h | h
    · exact List.mem_append_left _ (mem_relsIn_sub r n m h hm)
    · exact List.mem_append_right _ (mem_allRels_sub rs n m h hm)
theorem mem_relsIn_sub : ∀ (r : Relationship) (n m : Relationship), n ∈ relsIn r → m ∈ n.subRels → m ∈ relsIn r
  | .mk t q subs, n, m, h, hm => by
    rw [relsIn] at h ⊢
    rcases List.mem_cons.mp h with rfl | h
    · exact List.mem_cons_of_mem _ (mem_allRels_self subs m hm)
    · exact List.mem_cons_of_mem _ (mem_allRels_sub subs n m h hm)
end

theorem mem_shallow (rels : List Relationship) (t q : Str) : (t, q) ∈ shallow rels ↔ ∃ n ∈ rels, n.type = t ∧ n.target = q := by
  unfold shallow; simp [Prod.ext_iff]

/-- the relationships in the tree are the relationships found from the root -/
theorem tree_iff {z dep r} (h : scanRoot z dep = .ok r) (t q : Str) :
    (∃ n ∈ allRels r.rels, n.type = t ∧ n.target = q) ↔ ∃ type, StandsFor dep type t ∧ Found py!"/" z type q := by
  have hp := ((scanF_spec z dep (z.length + 1) [] [] [] []).1 r h).post
  constructor
  · rintro ⟨n, hn, rfl, rfl⟩
    refine nodes_found z dep (fun p => ∃ type, StandsFor dep type p.1 ∧ Found py!"/" z type p.2) ?_ r.rels hp.nodes ?_ n hn
    · rintro p ⟨type, _, dir, file, hr, hd⟩ hn p' hp'
      obtain ⟨type', h1, h2⟩ := (declared_iff z dep _ _ p'.1 p'.2).mp hp'
      exact ⟨type', h1, _, _, .step hr hd ((mem_namelist z _).mp hn) ((located_iff _ _ _).mpr rfl), h2⟩
    · intro p hp'
      rw [hp.shallow] at hp'
      obtain ⟨type', h1, h2⟩ := (declared_iff z dep _ _ p.1 p.2).mp hp'
      exact ⟨type', h1, [], [], .root, h2⟩
  · rintro ⟨type, hs, dir, file, hr, hd⟩
    have hm := (declared_iff z dep dir file t q).mpr ⟨type, hs, hd⟩
    rcases reach_visited h dir file hr with ⟨e1, e2⟩ | ⟨v, hv, hvn, e⟩
    · subst e1 e2
      rw [← hp.shallow, mem_shallow] at hm
      obtain ⟨n, hn, e⟩ := hm
      exact ⟨n, mem_allRels_self _ n hn, e⟩
    · obtain ⟨m, hmm, _, hsub⟩ := hp.full v hv (by simp) hvn
      rw [← e, ← hsub, mem_shallow] at hm
      obtain ⟨n, hn, e⟩ := hm
      exact ⟨n, mem_allRels_sub _ m n hmm hn, e⟩

/-! ## parts at the top level -/

theorem folderReach (z : Zip) (d f : Str) (h : FolderReach z d f) : Reach py!"/" z d f := by
  induction h with
  | root => exact .root
  | step _ hd hq hs hl ih =>
    refine .step ih hd hq ?_
    rcases hl with hl | ⟨hn, _⟩
    · exact .inl hl
    · exact absurd hs hn

theorem declares_part {z : Zip} {d f type q : Str} (h : Declares z d f type q) : HasPart z (relsPart d f) := by
  obtain ⟨els, _, _, hm, _⟩ := h
  rw [← find_iff] at hm
  exact Classical.byContradiction fun hn => by rw [(find_none z _).mpr hn] at hm; cases hm

theorem reach_flat {z : Zip} (hz : FlatTop z) (d f : Str) : Reach [] z d f → Reach py!"/" z d f ∨ (d = [] ∧ f ≠ []) := by
  intro h
  induction h with
  | root => exact .inl .root
  | @step dir file type q d f _ hd hq hl ih =>
    rcases ih with ih | ⟨rfl, h0⟩
    · rcases hl with hl | ⟨hn, rfl, rfl⟩
      · exact .inl (.step ih hd hq (.inl hl))
      · by_cases e : f = []
        · subst e; exact .inl .root
        · exact .inr ⟨rfl, e⟩
    · exact absurd (declares_part hd) (hz.1 file h0)

theorem flat_reach {z : Zip} (hz : FlatTop z) (d f : Str) : Reach py!"/" z d f → Reach [] z d f ∨ Absolute d := by
  intro h
  induction h with
  | root => exact .inl .root
  | @step dir file type q d f _ hd hq hl ih =>
    rcases ih with ih | ⟨u, rfl⟩
    · rcases hl with hl | ⟨hn, rfl, rfl⟩
      · exact .inl (.step ih hd hq (.inl hl))
      · exact .inr ⟨[], rfl⟩
    · exact absurd (declares_part hd) (hz.2 _ ⟨u ++ (py!"_rels/" ++ (file ++ py!".rels")), by simp [relsPart]⟩)

theorem found_flat {z : Zip} (hz : FlatTop z) (type q : Str) : Found [] z type q ↔ Found py!"/" z type q := by
  constructor
  · rintro ⟨d, f, hr, hd⟩
    rcases reach_flat hz d f hr with h | ⟨rfl, h0⟩
    · exact ⟨d, f, h, hd⟩
    · exact absurd (declares_part hd) (hz.1 f h0)
  · rintro ⟨d, f, hr, hd⟩
    rcases flat_reach hz d f hr with h | ⟨u, rfl⟩
    · exact ⟨d, f, h, hd⟩
    · exact absurd (declares_part hd) (hz.2 _ ⟨u ++ (py!"_rels/" ++ (f ++ py!".rels")), by simp [relsPart]⟩)

theorem member_has {z : Zip} {n : Str} {p : Part} (h : Member z n p) : HasPart z n := by
  obtain ⟨pre, post, rfl, _⟩ := h; exact ⟨p, by simp⟩

theorem proper_flat {z : Zip} (hz : FlatTop z) : ProperPackage [] z ↔ ProperPackage py!"/" z := by
  unfold ProperPackage
  constructor
  · rintro ⟨h1, h2, h3⟩
    refine ⟨h1, h2, fun d f hr tag els hm => ?_⟩
    rcases flat_reach hz d f hr with h | ⟨u, rfl⟩
    · exact h3 d f h tag els hm
    · exact absurd (member_has hm) (hz.2 _ ⟨u ++ (py!"_rels/" ++ (f ++ py!".rels")), by simp [relsPart]⟩)
  · rintro ⟨h1, h2, h3⟩
    refine ⟨h1, h2, fun d f hr tag els hm => ?_⟩
    rcases reach_flat hz d f hr with h | ⟨rfl, h0⟩
    · exact h3 d f h tag els hm
    · exact absurd (member_has hm) (hz.1 f h0)

/-! ## deprecated types -/

theorem all2_append {α β : Type} {R : α → β → Prop} : ∀ {a b c d}, All2 R a b → All2 R c d → All2 R (a ++ c) (b ++ d)
  | [], [], _, _, _, h => h
  | _ :: _, _ :: _, _, _, h, h' => ⟨h.1, all2_append h.2 h'⟩
  | [], _ :: _, _, _, h, _ => h.elim
  | _ :: _, [], _, _, h, _ => h.elim

theorem all2_reverse {α β : Type} {R : α → β → Prop} : ∀ {a b}, All2 R a b → All2 R a.reverse b.reverse
  | [], [], _ => trivial
  | _ :: _, _ :: _, h => by
    rw [List.reverse_cons, List.reverse_cons]
    exact all2_append (all2_reverse h.2) ⟨h.1, trivial⟩
  | [], _ :: _, h => h.elim
  | _ :: _, [], h => h.elim

/-- both absent, or both present and related -/
def Both {α β : Type} (R : α → β → Prop) : Option α → Option β → Prop
  | none, none => True
  | some a, some b => R a b
  | _, _ => False

theorem dictGet_all2 {α β : Type} {R : α → β → Prop} (k : Str) : ∀ {a : List (Str × α)} {b : List (Str × β)},
    All2 (fun m m' => m.1 = m'.1 ∧ R m.2 m'.2) a b → Both R (dictGet k a) (dictGet k b)
  | [], [], _ => trivial
  | (k1, v1) :: _, (k2, v2) :: _, h => by
    obtain ⟨⟨e, hr⟩, h⟩ := h
    simp only at e hr
    subst e
    unfold dictGet
    split
    · exact hr
    · exact dictGet_all2 k h
  | [], _ :: _, h => h.elim
  | _ :: _, [], h => h.elim

theorem find_respelled {dep z z'} (h : RespelledZip dep z z') (n : Str) : Both (RespelledPart dep) (z.find n) (z'.find n) :=
  dictGet_all2 n (all2_reverse h)

theorem namelist_respelled {dep} : ∀ {z z'}, RespelledZip dep z z' → z.namelist = z'.namelist
  | [], [], _ => rfl
  | _ :: _, _ :: _, h => by
    have := namelist_respelled h.2
    unfold Zip.namelist at this ⊢
    rw [List.map_cons, List.map_cons, this, h.1.1]
  | [], _ :: _, h => h.elim
  | _ :: _, [], h => h.elim

theorem failuresL_append (a b : List (Res Str)) : failuresL (a ++ b) = failuresL a ++ failuresL b := by
  induction a with
  | nil => simp [failuresL]
  | cons x a ih => cases x; simp only [List.cons_append, failuresL, ih, List.append_assoc]

theorem failures_append (a b : Res Str) : failures (a.append b) = failures a ++ failuresL [b] := by
  cases a; simp only [Res.append, Res.subs, failures, failuresL_append]

/-- the same failures -/
structure SameRes (a b : Res Str) : Prop where
  ok : a.ok = b.ok
  failures : failures a = failures b

structure SameEntry (a b : Res Str) : Prop where
  ok : a.ok = b.ok
  failures : failuresL [a] = failuresL [b]

theorem SameEntry.refl (a : Res Str) : SameEntry a a := ⟨rfl, rfl⟩

theorem SameRes.append {a b x y : Res Str} (h : SameRes a b) (h' : SameEntry x y) : SameRes (a.append x) (b.append y) := by
  refine ⟨?_, by rw [failures_append, failures_append, h.failures, h'.failures]⟩
  rw [Bool.eq_iff_iff, append_ok, append_ok, h.ok, h'.ok]

theorem SameRes.warn {a b : Res Str} (h : SameRes a b) (m : Str) : SameRes (a.append (Res.new m .warning)) b := by
  refine ⟨?_, by rw [failures_append]; simp [h.failures, failuresL, Res.new]⟩
  rw [Bool.eq_iff_iff, append_ok, new_ok, h.ok]; simp

theorem SameRes.symm {a b : Res Str} (h : SameRes a b) : SameRes b a := ⟨h.ok.symm, h.failures.symm⟩

theorem SameRes.dep {a b : Res Str} (h : SameRes a b) (dep : List (Str × Str)) (t t' : Str) :
    SameRes (depResult dep t a) (depResult dep t' b) := by
  unfold depResult
  cases dictGet t dep <;> cases dictGet t' dep
  · exact h
  · exact (h.symm.warn _).symm
  · exact h.warn _
  · exact ((h.warn _).symm.warn _).symm

theorem SameRes.rel {a b : Res Str} (h : SameRes a b) (dep : List (Str × Str)) (t t' q : Str) (e : canon dep t = canon dep t') :
    SameRes (relResult dep t q a) (relResult dep t' q b) := by
  unfold relResult
  rw [e]
  exact (h.dep dep t t').append (.refl _)

/-- states of the loop that differ in warnings only -/
structure SameScan (a b : Scan) : Prop where
  result : SameRes a.result b.result
  rels : a.rels = b.rels
  visited : a.visited = b.visited
  followed : a.followed = b.followed

/-- the same for results of calls -/
structure SameScanned (a b : Scanned) : Prop where
  result : Both SameEntry a.result b.result
  rels : a.rels = b.rels
  visited : a.visited = b.visited
  followed : a.followed = b.followed

/-- the same exception, or related values -/
def BothE {α : Type} (R : α → α → Prop) : Except PyExc α → Except PyExc α → Prop
  | .error e, .error e' => e = e'
  | .ok a, .ok b => R a b
  | _, _ => False

def SameCalls (c c' : Str → Str → List Str → List Str → Except PyExc Scanned) : Prop :=
  ∀ d f V F, BothE SameScanned (c d f V F) (c' d f V F)

theorem respelled_cases {dep : List (Str × Str)} {e e' : Elem} (h : Respelled dep e e') :
    e.tag = e'.tag ∧ Both (fun t t' => canon dep t = canon dep t') (dictGet py!"Type" e.attrib) (dictGet py!"Type" e'.attrib) ∧
    dictGet py!"Target" e.attrib = dictGet py!"Target" e'.attrib := by
  rcases h with rfl | ⟨h1, ⟨t, t', c, h2, h3, h4, h5⟩, h6⟩
  · refine ⟨rfl, ?_, rfl⟩
    cases dictGet py!"Type" e.attrib <;> simp [Both]
  · refine ⟨h1, ?_, ?_⟩
    · rw [(attr_iff _ _ _).mp h2, (attr_iff _ _ _).mp h3]
      simp only [Both]
      rw [(standsFor_iff _ _ _).mp h4, (standsFor_iff _ _ _).mp h5]
    · have h7 : ∀ v, dictGet py!"Target" e.attrib = some v ↔ dictGet py!"Target" e'.attrib = some v := by
        intro v
        rw [← attr_iff, ← attr_iff]
        exact h6 _ v (by decide)
      cases h8 : dictGet py!"Target" e.attrib with
      | some v => exact ((h7 v).mp h8).symm
      | none =>
        cases h9 : dictGet py!"Target" e'.attrib with
        | none => rfl
        | some v => have := (h7 v).mpr h9; rw [h8] at this; cases this

theorem scanRel_same {dep z z' call call'} (hz : RespelledZip dep z z') (hc : SameCalls call call') (dir : Str) {st st' : Scan}
    (hs : SameScan st st') {e e' : Elem} (he : Respelled dep e e') :
    BothE SameScan (scanRel z dep call dir st e) (scanRel z' dep call' dir st' e') := by
  obtain ⟨h1, h2, h3⟩ := respelled_cases he
  rw [scanRel_eq, scanRel_eq, ← h1, ← h3, ← namelist_respelled hz]
  obtain ⟨hs1, hs2, hs3, hs4⟩ := hs
  by_cases ht : e.tag ≠ relationshipTag
  · rw [if_pos ht, if_pos ht]
    exact ⟨hs1.append (.refl _), hs2, hs3, hs4⟩
  · rw [if_neg ht, if_neg ht]
    cases hT : dictGet py!"Type" e.attrib with
    | none =>
      cases hT' : dictGet py!"Type" e'.attrib with
      | none => exact ⟨hs1.append (.refl _), hs2, hs3, hs4⟩
      | some t' => rw [hT, hT'] at h2; exact h2.elim
    | some t =>
      cases hT' : dictGet py!"Type" e'.attrib with
      | none => rw [hT, hT'] at h2; exact h2.elim
      | some t' =>
        rw [hT, hT'] at h2
        simp only [Both] at h2
        cases hg : dictGet py!"Target" e.attrib with
        | none => exact ⟨hs1.append (.refl _), hs2, hs3, hs4⟩
        | some target =>
          simp only []
          rw [← hs3, ← hs4, ← hs2, ← h2]
          generalize resolve dir target = q
          have hr : SameRes (relResult dep t q st.result) (relResult dep t' q st'.result) := hs1.rel dep t t' q h2
          split
          · exact ⟨hr.append (.refl _), rfl, rfl, rfl⟩
          · split
            · exact ⟨hr.append (.refl _), rfl, rfl, rfl⟩
            · have hcc := hc (place q).1 (place q).2 (st.visited ++ [q]) (st.followed ++ [q])
              cases hx : call (place q).1 (place q).2 (st.visited ++ [q]) (st.followed ++ [q]) with
              | error x =>
                cases hy : call' (place q).1 (place q).2 (st.visited ++ [q]) (st.followed ++ [q]) with
                | error y => rw [hx, hy] at hcc; exact hcc
                | ok y => rw [hx, hy] at hcc; exact hcc.elim
              | ok x =>
                cases hy : call' (place q).1 (place q).2 (st.visited ++ [q]) (st.followed ++ [q]) with
                | error y => rw [hx, hy] at hcc; exact hcc.elim
                | ok y =>
                  rw [hx, hy] at hcc
                  simp only [BothE] at hcc ⊢
                  obtain ⟨c1, c2, c3, c4⟩ := hcc
                  refine ⟨?_, by rw [c2], c3, c4⟩
                  cases hrx : x.result with
                  | none =>
                    cases hry : y.result with
                    | none => exact hr
                    | some b => rw [hrx, hry] at c1; exact c1.elim
                  | some a =>
                    cases hry : y.result with
                    | none => rw [hrx, hry] at c1; exact c1.elim
                    | some b => rw [hrx, hry] at c1; exact hr.append c1

theorem scanRels_same {dep z z' call call'} (hz : RespelledZip dep z z') (hc : SameCalls call call') (dir : Str) :
    ∀ {els els' : List Elem}, All2 (Respelled dep) els els' → ∀ {st st' : Scan}, SameScan st st' →
    BothE SameScan (scanRels z dep call dir st els) (scanRels z' dep call' dir st' els')
  | [], [], _, _, _, hs => hs
  | e :: els, e' :: els', h, st, st', hs => by
    have h1 := scanRel_same hz hc dir hs h.1
    unfold scanRels
    cases hx : scanRel z dep call dir st e with
    | error x =>
      cases hy : scanRel z' dep call' dir st' e' with
      | error y => rw [hx, hy] at h1; exact h1
      | ok y => rw [hx, hy] at h1; exact h1.elim
    | ok x =>
      cases hy : scanRel z' dep call' dir st' e' with
      | error y => rw [hx, hy] at h1; exact h1.elim
      | ok y => rw [hx, hy] at h1; exact scanRels_same hz hc dir h.2 h1
  | [], _ :: _, h, _, _, _ => h.elim
  | _ :: _, [], h, _, _, _ => h.elim

theorem failuresL_one {a b : Res Str} (h : SameRes a b) (ha : a.level = .info ∨ a.subs ≠ []) (hb : b.level = .info ∨ b.subs ≠ []) :
    SameEntry a b := by
  refine ⟨h.ok, ?_⟩
  obtain ⟨m, l, ss⟩ := a
  obtain ⟨m', l', ss'⟩ := b
  have hf := h.failures
  simp only [failures, Res.level, Res.subs] at hf ha hb
  have key : ∀ (m : Str) (l : Level) (ss : List (Res Str)), (l = .info ∨ ss ≠ []) → failuresL [.mk m l ss] = failuresL ss := by
    intro m l ss h
    cases ss with
    | nil =>
      rcases h with h | h
      · subst h; simp [failuresL]
      · exact absurd rfl h
    | cons x ss => simp [failuresL]
  rw [key _ _ _ ha, key _ _ _ hb, hf]

theorem append_subs_ne (a b : Res Str) : (a.append b).subs ≠ [] := by simp

/-- a result that has entries or is still as created -/
def Plain (a : Res Str) : Prop := a.level = .info ∨ a.subs ≠ []

theorem relResult_plain (dep : List (Str × Str)) (t q : Str) (a : Res Str) : Plain (relResult dep t q a) := by
  unfold relResult; exact .inr (append_subs_ne _ _)

theorem scanRel_plain {z dep call dir st e st'} (h : scanRel z dep call dir st e = .ok st') : Plain st'.result := by
  rw [scanRel_eq] at h
  split at h
  · cases h; exact .inr (append_subs_ne _ _)
  · split at h
    · cases h; exact .inr (append_subs_ne _ _)
    · cases h; exact .inr (append_subs_ne _ _)
    · split at h
      · cases h; exact .inr (append_subs_ne _ _)
      · split at h
        · cases h; exact .inr (append_subs_ne _ _)
        · split at h
          · cases h
          · cases h
            simp only []
            split
            · exact .inr (append_subs_ne _ _)
            · exact relResult_plain _ _ _ _

theorem scanRels_plain {z dep call dir} : ∀ {els st st'}, Plain st.result → scanRels z dep call dir st els = .ok st' → Plain st'.result
  | [], _, _, hp, h => by cases h; exact hp
  | e :: els, st, st', hp, h => by
    unfold scanRels at h
    cases hx : scanRel z dep call dir st e with
    | error x => rw [hx] at h; cases h
    | ok x => rw [hx] at h; exact scanRels_plain (scanRel_plain hx) h

theorem scanF_same {dep z z'} (hz : RespelledZip dep z z') (n : Nat) : SameCalls (scanF z dep n) (scanF z' dep n) := by
  induction n with
  | zero => intro d f V F; rfl
  | succ n ih =>
    intro d f V F
    unfold scanF
    simp only []
    have hf := find_respelled hz (relsName d f)
    cases hx : z.find (relsName d f) with
    | none =>
      cases hy : z'.find (relsName d f) with
      | none => exact ⟨trivial, rfl, rfl, rfl⟩
      | some p' => rw [hx, hy] at hf; exact hf.elim
    | some p =>
      cases hy : z'.find (relsName d f) with
      | none => rw [hx, hy] at hf; exact hf.elim
      | some p' =>
        rw [hx, hy] at hf
        simp only [Both] at hf
        cases p with
        | broken =>
          cases p' with
          | broken => rfl
          | xml _ _ => exact hf.elim
        | xml tag els =>
          cases p' with
          | broken => exact hf.elim
          | xml tag' els' =>
            obtain ⟨rfl, hf⟩ := hf
            simp only []
            split
            · exact ⟨SameEntry.refl _, rfl, rfl, rfl⟩
            · generalize hr : (if d.isEmpty then Res.new py!"Checking root relationship"
                else Res.new (py!"Checking relationships of " ++ d ++ f) : Res Str) = r0
              have hp0 : Plain r0 := by rw [← hr]; split <;> exact .inl rfl
              have h1 := scanRels_same hz ih d hf (st := ⟨r0, [], V, F⟩) (st' := ⟨r0, [], V, F⟩) ⟨⟨rfl, rfl⟩, rfl, rfl, rfl⟩
              cases ha : scanRels z dep (scanF z dep n) d ⟨r0, [], V, F⟩ els with
              | error x =>
                cases hb : scanRels z' dep (scanF z' dep n) d ⟨r0, [], V, F⟩ els' with
                | error y => rw [ha, hb] at h1; exact h1
                | ok y => rw [ha, hb] at h1; exact h1.elim
              | ok x =>
                cases hb : scanRels z' dep (scanF z' dep n) d ⟨r0, [], V, F⟩ els' with
                | error y => rw [ha, hb] at h1; exact h1.elim
                | ok y =>
                  rw [ha, hb] at h1
                  obtain ⟨c1, c2, c3, c4⟩ := h1
                  exact ⟨failuresL_one c1 (scanRels_plain hp0 ha) (scanRels_plain hp0 hb), c2, c3, c4⟩

theorem length_respelled {dep} : ∀ {z z'}, RespelledZip dep z z' → z.length = z'.length := by
  intro z z' h
  have := congrArg List.length (namelist_respelled h)
  simpa [Zip.namelist] using this

theorem scanRoot_same {dep z z'} (hz : RespelledZip dep z z') : BothE SameScanned (scanRoot z dep) (scanRoot z' dep) := by
  unfold scanRoot
  rw [← length_respelled hz]
  exact scanF_same hz _ [] [] [] []

end Verif.Opc
