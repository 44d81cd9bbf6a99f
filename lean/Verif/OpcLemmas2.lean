import Verif.OpcLemmas

/-! # Lemmas about package scanning: what a scan finds -/

namespace Verif.Opc
open Verif Spec

/-! ## lookups -/

theorem dictGet_iff {α : Type} (k : Str) (l : List (Str × α)) (v : α) :
    dictGet k l = some v ↔ ∃ pre post, l = pre ++ (k, v) :: post ∧ ∀ m ∈ pre, m.1 ≠ k := by
  induction l with
  | nil => simp [dictGet]
  | cons p l ih =>
    obtain ⟨k', v'⟩ := p
    unfold dictGet
    by_cases h : k' = k
    · rw [if_pos h]; subst h
      constructor
      · intro e; cases e; exact ⟨[], l, rfl, by simp⟩
      · rintro ⟨pre, post, e, hp⟩
        cases pre with
        | nil => cases e; rfl
        | cons q pre => cases e; exact absurd rfl (hp (k', v') (by simp))
    · rw [if_neg h, ih]
      constructor
      · rintro ⟨pre, post, e, hp⟩
        refine ⟨(k', v') :: pre, post, by rw [e]; rfl, ?_⟩
        intro m hm
        rcases List.mem_cons.mp hm with rfl | hm
        · exact h
        · exact hp m hm
      · rintro ⟨pre, post, e, hp⟩
        cases pre with
        | nil => cases e; exact absurd rfl h
        | cons q pre => cases e; exact ⟨pre, post, rfl, fun m hm => hp m (by simp [hm])⟩

theorem dictGet_none {α : Type} (k : Str) (l : List (Str × α)) : dictGet k l = none ↔ ∀ m ∈ l, m.1 ≠ k := by
  induction l with
  | nil => simp [dictGet]
  | cons p l ih =>
    obtain ⟨k', v'⟩ := p
    unfold dictGet
    by_cases h : k' = k
    · rw [if_pos h]; subst h; simp
    · rw [if_neg h, ih]
      simp [h]

theorem find_iff (z : Zip) (name : Str) (p : Part) : z.find name = some p ↔ Member z name p := by
  unfold Zip.find Member
  rw [dictGet_iff]
  constructor
  · rintro ⟨pre, post, e, h⟩
    refine ⟨post.reverse, pre.reverse, ?_, fun m hm => h m (List.mem_reverse.mp hm)⟩
    have := congrArg List.reverse e
    simpa using this
  · rintro ⟨pre, post, e, h⟩
    refine ⟨post.reverse, pre.reverse, ?_, fun m hm => h m (List.mem_reverse.mp hm)⟩
    rw [e]; simp

theorem mem_namelist (z : Zip) (q : Str) : q ∈ z.namelist ↔ HasPart z q := by
  unfold Zip.namelist HasPart; simp

theorem find_none (z : Zip) (name : Str) : z.find name = none ↔ ¬ HasPart z name := by
  unfold Zip.find HasPart
  rw [dictGet_none]
  constructor
  · rintro h ⟨p, hp⟩; exact h (name, p) (by simpa using hp) rfl
  · intro h m hm e; exact h ⟨m.2, by rw [← e]; simpa using hm⟩

/-! ## what a relationships part declares -/

/-- the type that counts -/
def canon (deprecated : List (Str × Str)) (type : Str) : Str := (dictGet type deprecated).getD type

theorem standsFor_iff (deprecated : List (Str × Str)) (type t : Str) : StandsFor deprecated type t ↔ canon deprecated type = t := by
  unfold StandsFor canon
  rw [← dictGet_iff, ← dictGet_none]
  cases h : dictGet type deprecated with
  | none => simp [eq_comm]
  | some v => simp

/-- type and target of a relationship element -/
def relOf (deprecated : List (Str × Str)) (dir : Str) (e : Elem) : Option (Str × Str) :=
  if e.tag ≠ relationshipTag then none
  else
    match dictGet py!"Type" e.attrib, dictGet py!"Target" e.attrib with
    | some type, some target => some (canon deprecated type, resolve dir target)
    | _, _ => none

theorem attr_iff (e : Elem) (k v : Str) : Attr e k v ↔ dictGet k e.attrib = some v := (dictGet_iff k e.attrib v).symm

theorem relOf_iff (deprecated : List (Str × Str)) (dir : Str) (e : Elem) (t q : Str) :
    relOf deprecated dir e = some (t, q) ↔ ∃ type target, States e type target ∧ StandsFor deprecated type t ∧ Resolved dir target q := by
  unfold relOf States
  simp only [attr_iff, standsFor_iff, resolved_iff]
  split
  · rename_i h
    constructor
    · intro h'; cases h'
    · rintro ⟨_, _, ⟨h1, _⟩, _⟩; exact absurd h1 h
  · rename_i h
    have h : e.tag = relationshipTag := Classical.not_not.mp h
    split
    · rename_i type target h1 h2
      constructor
      · intro e; cases e; exact ⟨type, target, ⟨h, h1, h2⟩, rfl, rfl⟩
      · rintro ⟨type', target', ⟨_, h1', h2'⟩, e1, e2⟩
        rw [h1] at h1'; rw [h2] at h2'; cases h1'; cases h2'; rw [← e1, ← e2]
    · rename_i hn
      constructor
      · intro e; cases e
      · rintro ⟨type', target', ⟨_, h1', h2'⟩, e1, e2⟩; exact absurd h2' (hn _ _ h1')

/-- the relationships of a place -/
def declared (z : Zip) (deprecated : List (Str × Str)) (pl : Str × Str) : List (Str × Str) :=
  match z.find (relsName pl.1 pl.2) with
  | some (.xml tag els) => if tag ≠ relationshipsTag then [] else els.filterMap (relOf deprecated pl.1)
  | _ => []

/-- the relationships part of a place has no mistakes, apart from missing targets -/
def DocOk (z : Zip) (pl : Str × Str) : Prop :=
  ∀ tag els, z.find (relsName pl.1 pl.2) = some (.xml tag els) → tag = relationshipsTag ∧ ∀ e ∈ els, (relOf [] pl.1 e).isSome = true

theorem relOf_isSome (deprecated : List (Str × Str)) (dir : Str) (e : Elem) : (relOf deprecated dir e).isSome = (relOf [] dir e).isSome := by
  unfold relOf; split
  · rfl
  · split <;> rfl

/-! ## invariants of a scan -/

/-- type and target of relationships -/
def shallow (rs : List Relationship) : List (Str × Str) := rs.map fun r => (r.type, r.target)

/-- what is true after a scan of relationships `ds`, with `rels` the relationships it appended -/
structure Post (z : Zip) (dep : List (Str × Str)) (V0 V1 F0 F1 : List Str) (ds : List (Str × Str)) (rels : List Relationship) : Prop where
  grow : ∀ v ∈ V0, v ∈ V1
  nodup : V0.Nodup → V1.Nodup
  shallow : shallow rels = ds
  seen : ∀ p ∈ ds, p.2 ∈ V1
  closed : ∀ v ∈ V1, v ∉ V0 → v ∈ z.namelist → ∀ p ∈ declared z dep (place v), p.2 ∈ V1
  source : ∀ P : Str → Prop, (∀ p ∈ ds, P p.2) → (∀ v, P v → v ∈ z.namelist → ∀ p ∈ declared z dep (place v), P p.2) →
    ∀ v ∈ V1, v ∉ V0 → P v
  full : ∀ v ∈ V1, v ∉ V0 → v ∈ z.namelist → ∃ n ∈ allRels rels, n.target = v ∧ Opc.shallow n.subRels = declared z dep (place v)
  nodes : ∀ n ∈ allRels rels, n.subRels = [] ∨ (Opc.shallow n.subRels = declared z dep (place n.target) ∧ n.target ∈ z.namelist)
  clean : ∀ v ∈ V1, v ∉ V0 → v ∈ z.namelist → z.find (relsName (place v).1 (place v).2) ≠ some .broken
  followed : ∃ new : List Str, F1 = F0 ++ new ∧ new.Nodup ∧ ∀ v, v ∈ new ↔ v ∈ V1 ∧ v ∉ V0 ∧ v ∈ z.namelist

/-- the newly visited targets are fine -/
def NewOk (z : Zip) (V0 V1 : List Str) : Prop := ∀ v ∈ V1, v ∉ V0 → v ∈ z.namelist ∧ DocOk z (place v)

theorem allRels_append (a b : List Relationship) : allRels (a ++ b) = allRels a ++ allRels b := by
  induction a with
  | nil => simp [allRels]
  | cons r a ih => simp [allRels, ih]

theorem post_comp {z dep V0 V1 V2 F0 F1 F2 ds1 ds2 rels1 rels2} (h1 : Post z dep V0 V1 F0 F1 ds1 rels1)
    (h2 : Post z dep V1 V2 F1 F2 ds2 rels2) : Post z dep V0 V2 F0 F2 (ds1 ++ ds2) (rels1 ++ rels2) where
  grow v h := h2.grow v (h1.grow v h)
  nodup h := h2.nodup (h1.nodup h)
  shallow := by unfold Opc.shallow; rw [List.map_append]; exact congr (congrArg _ h1.shallow) h2.shallow
  seen p h := by
    rcases List.mem_append.mp h with h | h
    · exact h2.grow _ (h1.seen p h)
    · exact h2.seen p h
  closed v h h0 hn p hp := by
    by_cases hv : v ∈ V1
    · exact h2.grow _ (h1.closed v hv h0 hn p hp)
    · exact h2.closed v h hv hn p hp
  source P hd hc v h h0 := by
    by_cases hv : v ∈ V1
    · exact h1.source P (fun p hp => hd p (by simp [hp])) hc v hv h0
    · exact h2.source P (fun p hp => hd p (by simp [hp])) hc v h hv
  full v h h0 hn := by
    rw [allRels_append]
    by_cases hv : v ∈ V1
    · obtain ⟨n, hm, hh⟩ := h1.full v hv h0 hn; exact ⟨n, by simp [hm], hh⟩
    · obtain ⟨n, hm, hh⟩ := h2.full v h hv hn; exact ⟨n, by simp [hm], hh⟩
  nodes n h := by
    rw [allRels_append] at h
    rcases List.mem_append.mp h with h | h
    · exact h1.nodes n h
    · exact h2.nodes n h
  clean v h h0 hn := by
    by_cases hv : v ∈ V1
    · exact h1.clean v hv h0 hn
    · exact h2.clean v h hv hn
  followed := by
    obtain ⟨n1, e1, d1, m1⟩ := h1.followed
    obtain ⟨n2, e2, d2, m2⟩ := h2.followed
    refine ⟨n1 ++ n2, by rw [e2, e1, List.append_assoc], ?_, ?_⟩
    · rw [List.nodup_append]
      refine ⟨d1, d2, ?_⟩
      intro a ha b hb e
      subst e
      exact ((m2 a).mp hb).2.1 ((m1 a).mp ha).1
    · intro v
      rw [List.mem_append, m1, m2]
      constructor
      · rintro (⟨a, b, c⟩ | ⟨a, b, c⟩)
        · exact ⟨h2.grow v a, b, c⟩
        · exact ⟨a, fun h => b (h1.grow v h), c⟩
      · rintro ⟨a, b, c⟩
        by_cases hv : v ∈ V1
        · exact .inl ⟨hv, b, c⟩
        · exact .inr ⟨a, hv, c⟩

theorem post_nil (z dep) (V F : List Str) : Post z dep V V F F [] [] where
  grow v h := h
  nodup h := h
  shallow := rfl
  seen p h := by cases h
  closed v h h0 := absurd h h0
  source P _ _ v h h0 := absurd h h0
  full v h h0 := absurd h h0
  nodes n h := by simp [allRels] at h
  clean v h h0 := absurd h h0
  followed := ⟨[], by simp, by simp, by
    intro v; constructor
    · intro h; cases h
    · rintro ⟨a, b, _⟩; exact absurd a b⟩

theorem allRels_one (r : Relationship) : allRels [r] = r :: allRels r.subRels := by
  cases r; simp [allRels, relsIn, Relationship.subRels]

theorem post_visited (z dep) (V F : List Str) (t q : Str) (h : q ∈ V) : Post z dep V V F F [(t, q)] [.mk t q []] where
  grow v h := h
  nodup h := h
  shallow := rfl
  seen p hp := by rw [List.mem_singleton.mp hp]; exact h
  closed v h h0 := absurd h h0
  source P _ _ v h h0 := absurd h h0
  full v h h0 := absurd h h0
  nodes n h := by
    rw [allRels_one] at h
    rcases List.mem_cons.mp h with rfl | h
    · exact .inl rfl
    · simp [Relationship.subRels, allRels] at h
  clean v h h0 := absurd h h0
  followed := ⟨[], by simp, by simp, by
    intro v; constructor
    · intro h; cases h
    · rintro ⟨a, b, _⟩; exact absurd a b⟩

theorem nodup_snoc {V : List Str} {q : Str} (h : V.Nodup) (hq : q ∉ V) : (V ++ [q]).Nodup := by
  rw [List.nodup_append]
  refine ⟨h, by simp, ?_⟩
  intro a ha b hb e
  rw [List.mem_singleton.mp hb] at e
  exact hq (e ▸ ha)

theorem post_missing (z dep) (V F : List Str) (t q : Str) (h : q ∉ V) (hn : q ∉ z.namelist) :
    Post z dep V (V ++ [q]) F F [(t, q)] [.mk t q []] := by
  have hnew : ∀ v ∈ V ++ [q], v ∉ V → v = q := by
    intro v hv h0
    rcases List.mem_append.mp hv with hv | hv
    · exact absurd hv h0
    · exact List.mem_singleton.mp hv
  exact {
    grow := fun v h => by simp [h]
    nodup := fun hd => nodup_snoc hd h
    shallow := rfl
    seen := fun p hp => by rw [List.mem_singleton.mp hp]; simp
    closed := fun v hv h0 hn' => absurd (hnew v hv h0 ▸ hn') hn
    source := fun P hd _ v hv h0 => by rw [hnew v hv h0]; exact hd (t, q) (by simp)
    full := fun v hv h0 hn' => absurd (hnew v hv h0 ▸ hn') hn
    nodes := fun n h => by
      rw [allRels_one] at h
      rcases List.mem_cons.mp h with rfl | h
      · exact .inl rfl
      · simp [Relationship.subRels, allRels] at h
    clean := fun v hv h0 hn' => absurd (hnew v hv h0 ▸ hn') hn
    followed := ⟨[], by simp, by simp, by
      intro v; constructor
      · intro h; cases h
      · rintro ⟨a, b, c⟩; exact absurd (hnew v a b ▸ c) hn⟩ }

theorem post_call {z dep} {V V1 F F1 : List Str} {t q : Str} {rels : List Relationship} (h : q ∉ V) (hn : q ∈ z.namelist)
    (hc : z.find (relsName (place q).1 (place q).2) ≠ some .broken)
    (hp : Post z dep (V ++ [q]) V1 (F ++ [q]) F1 (declared z dep (place q)) rels) :
    Post z dep V V1 F F1 [(t, q)] [.mk t q rels] := by
  have hq : q ∈ V1 := hp.grow q (by simp)
  have hnew : ∀ v, v ∉ V → v ≠ q → v ∉ V ++ [q] := by
    intro v h1 h2 h3
    rcases List.mem_append.mp h3 with h3 | h3
    · exact h1 h3
    · exact h2 (List.mem_singleton.mp h3)
  exact {
    grow := fun v h => hp.grow v (by simp [h])
    nodup := fun hd => hp.nodup (nodup_snoc hd h)
    shallow := rfl
    seen := fun p hp' => by rw [List.mem_singleton.mp hp']; exact hq
    closed := fun v hv h0 hn' p hp' => by
      by_cases e : v = q
      · subst e; exact hp.seen p hp'
      · exact hp.closed v hv (hnew v h0 e) hn' p hp'
    source := fun P hd hcl v hv h0 => by
      have hPq : P q := hd (t, q) (by simp)
      by_cases e : v = q
      · subst e; exact hPq
      · exact hp.source P (hcl q hPq hn) hcl v hv (hnew v h0 e)
    full := fun v hv h0 hn' => by
      rw [allRels_one]
      by_cases e : v = q
      · subst e; exact ⟨.mk t v rels, by simp, rfl, hp.shallow⟩
      · obtain ⟨n, hm, hh⟩ := hp.full v hv (hnew v h0 e) hn'
        exact ⟨n, List.mem_cons_of_mem _ hm, hh⟩
    nodes := fun n hm => by
      rw [allRels_one] at hm
      rcases List.mem_cons.mp hm with rfl | hm
      · exact .inr ⟨hp.shallow, hn⟩
      · exact hp.nodes n hm
    clean := fun v hv h0 hn' => by
      by_cases e : v = q
      · subst e; exact hc
      · exact hp.clean v hv (hnew v h0 e) hn'
    followed := by
      obtain ⟨new, e, d, m⟩ := hp.followed
      refine ⟨q :: new, by rw [e]; simp, ?_, ?_⟩
      · rw [List.nodup_cons]; exact ⟨fun hm => ((m q).mp hm).2.1 (by simp), d⟩
      · intro v
        rw [List.mem_cons, m]
        constructor
        · rintro (rfl | ⟨a, b, c⟩)
          · exact ⟨hq, h, hn⟩
          · exact ⟨a, fun hv => b (by simp [hv]), c⟩
        · rintro ⟨a, b, c⟩
          by_cases e : v = q
          · exact .inl e
          · exact .inr ⟨a, hnew v b e, c⟩ }

theorem newOk_comp {z dep V0 V1 V2 F0 F1 F2 ds1 ds2 rels1 rels2} (h1 : Post z dep V0 V1 F0 F1 ds1 rels1)
    (h2 : Post z dep V1 V2 F1 F2 ds2 rels2) : NewOk z V0 V2 ↔ NewOk z V0 V1 ∧ NewOk z V1 V2 := by
  unfold NewOk
  constructor
  · intro h; exact ⟨fun v hv h0 => h v (h2.grow v hv) h0, fun v hv h0 => h v hv fun hx => h0 (h1.grow v hx)⟩
  · rintro ⟨a, b⟩ v hv h0
    by_cases e : v ∈ V1
    · exact a v e h0
    · exact b v hv e

/-! ## the scan -/

/-- what is true of a call for the place `pl` that gives back `r` -/
structure CallPost (z : Zip) (dep : List (Str × Str)) (pl : Str × Str) (V0 F0 : List Str) (r : Scanned) : Prop where
  post : Post z dep V0 r.visited F0 r.followed (declared z dep pl) r.rels
  clean : z.find (relsName pl.1 pl.2) ≠ some .broken
  absent : r.result = none ↔ z.find (relsName pl.1 pl.2) = none
  ok : ∀ x, r.result = some x → (x.ok = true ↔ DocOk z pl ∧ NewOk z V0 r.visited)
  same : r.result = none → r.visited = V0

theorem append_ok (a b : Res Str) : (a.append b).ok = true ↔ a.ok = true ∧ b.ok = true := by
  have := Res.appendAll_ok a [b]
  simpa [Res.appendAll] using this

theorem new_ok (m : Str) (l : Level) : (Res.new m l).ok = true ↔ l = .info ∨ l = .warning := by
  unfold Res.new Res.ok Res.level; simp

theorem tag_eq : nsRelationships ++ py!"Relationship" = relationshipTag := by decide
theorem tags_eq : nsRelationships ++ py!"Relationships" = relationshipsTag := by decide

/-- the result with the entry for a deprecated type -/
def depResult (dep : List (Str × Str)) (type : Str) (r : Res Str) : Res Str :=
  match dictGet type dep with
  | some newType => r.append (Res.new (py!"Deprecated type " ++ type ++ py!", considering as " ++ newType) .warning)
  | none => r

theorem depResult_ok (dep : List (Str × Str)) (type : Str) (r : Res Str) : (depResult dep type r).ok = r.ok := by
  unfold depResult
  split
  · rw [Bool.eq_iff_iff, append_ok, new_ok]; simp
  · rfl

/-- the entry for a relationship -/
def relResult (dep : List (Str × Str)) (type target : Str) (r : Res Str) : Res Str :=
  (depResult dep type r).append (Res.new (py!"Relationship " ++ target ++ py!" is of type " ++ canon dep type) .info)

theorem relResult_ok (dep : List (Str × Str)) (type target : Str) (r : Res Str) : (relResult dep type target r).ok = r.ok := by
  unfold relResult
  rw [Bool.eq_iff_iff, append_ok, new_ok, depResult_ok]; simp

/-- `scanRel` by cases -/
theorem scanRel_eq (z : Zip) (dep : List (Str × Str)) (call : Str → Str → List Str → List Str → Except PyExc Scanned)
    (dir : Str) (st : Scan) (e : Elem) :
    scanRel z dep call dir st e =
      if e.tag ≠ relationshipTag then .ok { st with result := st.result.append (Res.new (py!"Invalid tag " ++ e.tag) .error) }
      else
        match dictGet py!"Type" e.attrib, dictGet py!"Target" e.attrib with
        | none, _ => .ok { st with result := st.result.append (Res.new py!"Attribute 'Type' is missing" .error) }
        | some _, none => .ok { st with result := st.result.append (Res.new py!"Attribute 'Target' is missing" .error) }
        | some type, some target =>
          if st.visited.contains (resolve dir target) then
            .ok { st with
              result := (relResult dep type (resolve dir target) st.result).append (Res.new (py!"Already checked " ++ (resolve dir target)) .info)
              rels := st.rels ++ [.mk (canon dep type) (resolve dir target) []] }
          else if !z.namelist.contains (resolve dir target) then
            .ok { st with
              result := (relResult dep type (resolve dir target) st.result).append (Res.new (py!"Relationship has non-existing target " ++ (resolve dir target)) .error)
              rels := st.rels ++ [.mk (canon dep type) (resolve dir target) []]
              visited := st.visited ++ [resolve dir target] }
          else
            match call (place (resolve dir target)).1 (place (resolve dir target)).2 (st.visited ++ [resolve dir target]) (st.followed ++ [resolve dir target]) with
            | .error e => .error e
            | .ok r => .ok {
                result := match r.result with
                  | some x => (relResult dep type (resolve dir target) st.result).append x
                  | none => relResult dep type (resolve dir target) st.result
                rels := st.rels ++ [.mk (canon dep type) (resolve dir target) r.rels]
                visited := r.visited
                followed := r.followed } := by
  unfold scanRel
  rw [tag_eq]
  split
  · rfl
  · cases dictGet py!"Type" e.attrib with
    | none => rfl
    | some type =>
      cases dictGet py!"Target" e.attrib with
      | none => rfl
      | some target =>
        simp only [place, relResult, depResult, canon]
        cases dictGet type dep <;> rfl

/-- number of members not visited yet -/
def fresh (z : Zip) (V : List Str) : Nat := (z.namelist.filter fun n => !V.contains n).length

theorem fresh_lt (z : Zip) (V : List Str) (q : Str) (h : q ∉ V) (hn : q ∈ z.namelist) : fresh z (V ++ [q]) < fresh z V := by
  unfold fresh
  generalize z.namelist = l at hn
  have hle : ∀ l : List Str, (l.filter fun n => !(V ++ [q]).contains n).length ≤ (l.filter fun n => !V.contains n).length := by
    intro l
    induction l with
    | nil => simp
    | cons x l ih =>
      simp only [List.filter_cons]
      by_cases hx : x ∈ V
      · simpa [hx] using ih
      · by_cases hq : x = q
        · subst hq; simp [hx]; simpa using Nat.le_succ_of_le ih
        · simp [hx, hq]; simpa using ih
  induction l with
  | nil => cases hn
  | cons x l ih =>
    simp only [List.filter_cons]
    by_cases hq : x = q
    · subst hq
      have := hle l
      simp [h]; simpa using Nat.lt_succ_of_le this
    · have := ih (by rcases List.mem_cons.mp hn with e | e; exact absurd e.symm hq; exact e)
      by_cases hx : x ∈ V
      · simpa [hx] using this
      · simp [hx, hq]; simpa using this

theorem fresh_mono (z : Zip) (V V' : List Str) (h : ∀ v ∈ V, v ∈ V') : fresh z V' ≤ fresh z V := by
  unfold fresh
  generalize z.namelist = l
  induction l with
  | nil => simp
  | cons x l ih =>
    simp only [List.filter_cons]
    by_cases hx : x ∈ V
    · simpa [hx, h x hx] using ih
    · by_cases hx' : x ∈ V'
      · simp [hx, hx']; simpa using Nat.le_succ_of_le ih
      · simp [hx, hx']; simpa using ih

theorem fresh_nil (z : Zip) : fresh z [] = z.length := by
  unfold fresh Zip.namelist
  rw [List.filter_eq_self.mpr (by simp), List.length_map]

/-- what is known about recursive calls -/
def CallSpec (z : Zip) (dep : List (Str × Str)) (n : Nat) (call : Str → Str → List Str → List Str → Except PyExc Scanned) : Prop :=
  ∀ dir file V F,
    (∀ r, call dir file V F = .ok r → CallPost z dep (dir, file) V F r) ∧
    (∀ e, call dir file V F = .error e → fresh z V < n → e = .parseError ∧
      ∀ P : Str → Str → Prop, P dir file → (∀ d f, P d f → ∀ p ∈ declared z dep (d, f), p.2 ∈ z.namelist → P (place p.2).1 (place p.2).2) →
        ∃ d f, P d f ∧ z.find (relsName d f) = some .broken)

theorem scanRel_spec {z dep n call} (hcall : CallSpec z dep n call) (dir : Str) (st : Scan) (e : Elem) :
    (∀ st', scanRel z dep call dir st e = .ok st' → ∃ rels, st'.rels = st.rels ++ rels ∧
      Post z dep st.visited st'.visited st.followed st'.followed (relOf dep dir e).toList rels ∧
      (st'.result.ok = true ↔ st.result.ok = true ∧ (relOf [] dir e).isSome = true ∧ NewOk z st.visited st'.visited)) ∧
    (∀ x, scanRel z dep call dir st e = .error x → fresh z st.visited ≤ n → x = .parseError ∧
      ∃ t q, relOf dep dir e = some (t, q) ∧ q ∈ z.namelist ∧
        ∀ P : Str → Str → Prop, P (place q).1 (place q).2 →
          (∀ d f, P d f → ∀ p ∈ declared z dep (d, f), p.2 ∈ z.namelist → P (place p.2).1 (place p.2).2) →
          ∃ d f, P d f ∧ z.find (relsName d f) = some .broken) := by
  rw [scanRel_eq]
  have hnone : relOf dep dir e = none → (relOf [] dir e).isSome = false := by
    intro h; rw [← relOf_isSome dep, h]; rfl
  have hsome : ∀ p, relOf dep dir e = some p → (relOf [] dir e).isSome = true := by
    intro p h; rw [← relOf_isSome dep, h]; rfl
  have bad : ∀ (m : Str), relOf dep dir e = none → ∀ st', Except.ok { st with result := st.result.append (Res.new m .error) } = (Except.ok st' : Except PyExc Scan) →
      ∃ rels, st'.rels = st.rels ++ rels ∧
      Post z dep st.visited st'.visited st.followed st'.followed (relOf dep dir e).toList rels ∧
      (st'.result.ok = true ↔ st.result.ok = true ∧ (relOf [] dir e).isSome = true ∧ NewOk z st.visited st'.visited) := by
    intro m hn st' h
    cases h
    refine ⟨[], by simp, by rw [hn]; exact post_nil _ _ _ _, ?_⟩
    rw [append_ok, new_ok, hnone hn]; simp
  by_cases ht : e.tag ≠ relationshipTag
  · rw [if_pos ht]
    have hn : relOf dep dir e = none := by unfold relOf; rw [if_pos ht]
    exact ⟨bad _ hn, by intro x h; cases h⟩
  · rw [if_neg ht]
    cases h1 : dictGet py!"Type" e.attrib with
    | none =>
      have hn : relOf dep dir e = none := by unfold relOf; rw [if_neg ht, h1]
      exact ⟨bad _ hn, by intro x h; cases h⟩
    | some type =>
      cases h2 : dictGet py!"Target" e.attrib with
      | none =>
        have hn : relOf dep dir e = none := by unfold relOf; rw [if_neg ht, h1, h2]
        exact ⟨bad _ hn, by intro x h; cases h⟩
      | some target =>
        have hs : relOf dep dir e = some (canon dep type, resolve dir target) := by unfold relOf; rw [if_neg ht, h1, h2]
        simp only []
        generalize hq : resolve dir target = q at *
        rw [hsome _ hs, hs]
        simp only [Option.toList_some]
        by_cases hv : q ∈ st.visited
        · rw [if_pos (by simpa using hv)]
          constructor
          · intro st' h; cases h
            refine ⟨_, rfl, post_visited _ _ _ _ _ _ hv, ?_⟩
            rw [append_ok, new_ok, relResult_ok]
            simp [NewOk]
            intro _ v a b; exact absurd a b
          · intro x h; cases h
        · rw [if_neg (by simpa using hv)]
          by_cases hn : q ∈ z.namelist
          · rw [if_neg (by simpa using hn)]
            obtain ⟨c1, c2⟩ := hcall (place q).1 (place q).2 (st.visited ++ [q]) (st.followed ++ [q])
            cases hc : call (place q).1 (place q).2 (st.visited ++ [q]) (st.followed ++ [q]) with
            | error x =>
              simp only []
              refine ⟨fun _ h => (nomatch h), ?_⟩
              intro x' h hf
              cases h
              have := c2 x hc (Nat.lt_of_lt_of_le (fresh_lt z st.visited q hv hn) hf)
              exact ⟨this.1, _, _, rfl, hn, this.2⟩
            | ok r =>
              simp only []
              refine ⟨?_, by intro x h; cases h⟩
              intro st' h
              cases h
              have hr := c1 r hc
              have hp := post_call (t := canon dep type) hv hn hr.clean hr.post
              refine ⟨_, rfl, hp, ?_⟩
              have hnew : NewOk z st.visited r.visited ↔ DocOk z (place q) ∧ NewOk z (st.visited ++ [q]) r.visited := by
                unfold NewOk
                constructor
                · intro h
                  exact ⟨(h q (hr.post.grow q (by simp)) hv).2, fun v a b => h v a fun c => b (by simp [c])⟩
                · rintro ⟨a, b⟩ v hv1 hv2
                  by_cases e : v = q
                  · subst e; exact ⟨hn, a⟩
                  · exact b v hv1 (by simp [hv2, e])
              cases hx : r.result with
              | none =>
                simp only []
                rw [relResult_ok, hnew]
                have hd : DocOk z (place q) := by
                  intro tag els h; rw [hr.absent.mp hx] at h; cases h
                have hno : NewOk z (st.visited ++ [q]) r.visited := by
                  rw [hr.same hx]; intro v a b; exact absurd a b
                simp [hd, hno]
              | some x =>
                simp only []
                rw [append_ok, relResult_ok, hnew, hr.ok x hx]
                simp
          · rw [if_pos (by simpa using hn)]
            constructor
            · intro st' h; cases h
              refine ⟨_, rfl, post_missing _ _ _ _ _ _ hv hn, ?_⟩
              rw [append_ok, new_ok]
              constructor
              · rintro ⟨_, h | h⟩ <;> cases h
              · rintro ⟨_, _, h⟩; exact absurd (h q (by simp) hv).1 hn
            · intro x h; cases h

theorem scanRels_spec {z dep n call} (hcall : CallSpec z dep n call) (dir : Str) (els : List Elem) : ∀ st : Scan,
    (∀ st', scanRels z dep call dir st els = .ok st' → ∃ rels, st'.rels = st.rels ++ rels ∧
      Post z dep st.visited st'.visited st.followed st'.followed (els.filterMap (relOf dep dir)) rels ∧
      (st'.result.ok = true ↔ st.result.ok = true ∧ (∀ e ∈ els, (relOf [] dir e).isSome = true) ∧ NewOk z st.visited st'.visited)) ∧
    (∀ x, scanRels z dep call dir st els = .error x → fresh z st.visited ≤ n → x = .parseError ∧
      ∃ e ∈ els, ∃ t q, relOf dep dir e = some (t, q) ∧ q ∈ z.namelist ∧
        ∀ P : Str → Str → Prop, P (place q).1 (place q).2 →
          (∀ d f, P d f → ∀ p ∈ declared z dep (d, f), p.2 ∈ z.namelist → P (place p.2).1 (place p.2).2) →
          ∃ d f, P d f ∧ z.find (relsName d f) = some .broken) := by
  induction els with
  | nil =>
    intro st
    refine ⟨?_, by intro x h; cases h⟩
    intro st' h; cases h
    refine ⟨[], by simp, post_nil _ _ _ _, ?_⟩
    simp [NewOk]; intro _ v a b; exact absurd a b
  | cons e els ih =>
    intro st
    obtain ⟨s1, s2⟩ := scanRel_spec hcall dir st e
    unfold scanRels
    cases hs : scanRel z dep call dir st e with
    | error x =>
      simp only []
      refine ⟨fun _ h => (nomatch h), ?_⟩
      intro x' h hf
      cases h
      obtain ⟨hx, t, q, h1, h2, h3⟩ := s2 x hs hf
      exact ⟨hx, e, by simp, t, q, h1, h2, h3⟩
    | ok st1 =>
      simp only []
      obtain ⟨rels1, e1, p1, o1⟩ := s1 st1 hs
      obtain ⟨t1, t2⟩ := ih st1
      constructor
      · intro st' h
        obtain ⟨rels2, e2, p2, o2⟩ := t1 st' h
        refine ⟨rels1 ++ rels2, by rw [e2, e1, List.append_assoc], ?_, ?_⟩
        · have : (e :: els).filterMap (relOf dep dir) = (relOf dep dir e).toList ++ els.filterMap (relOf dep dir) := by
            rw [List.filterMap_cons]; cases relOf dep dir e <;> rfl
          rw [this]
          exact post_comp p1 p2
        · rw [o2, o1, newOk_comp p1 p2]
          simp only [List.forall_mem_cons]
          constructor
          · rintro ⟨⟨a, b, c⟩, d, f⟩; exact ⟨a, ⟨b, d⟩, c, f⟩
          · rintro ⟨a, ⟨b, d⟩, c, f⟩; exact ⟨⟨a, b, c⟩, d, f⟩
      · intro x h hf
        obtain ⟨hx, e', he', r⟩ := t2 x h (Nat.le_trans (fresh_mono z _ _ p1.grow) hf)
        exact ⟨hx, e', by simp [he'], r⟩

theorem scanF_spec (z : Zip) (dep : List (Str × Str)) (n : Nat) : CallSpec z dep n (scanF z dep n) := by
  induction n with
  | zero =>
    intro dir file V F
    refine ⟨fun _ h => (nomatch h), ?_⟩
    intro e _ hf; omega
  | succ n ih =>
    intro dir file V F
    unfold scanF
    simp only []
    cases hf : z.find (relsName dir file) with
    | none =>
      simp only []
      refine ⟨?_, by intro e h; cases h⟩
      intro r h
      cases h
      have hd : declared z dep (dir, file) = [] := by unfold declared; simp only []; rw [hf]
      exact {
        post := by rw [hd]; exact post_nil _ _ _ _
        clean := by simp [hf]
        absent := by simp [hf]
        ok := by intro x h; cases h
        same := fun _ => rfl }
    | some p =>
      cases p with
      | broken =>
        simp only []
        refine ⟨fun _ h => (nomatch h), ?_⟩
        intro e h _
        cases h
        exact ⟨rfl, fun P hP _ => ⟨dir, file, hP, hf⟩⟩
      | xml tag els =>
        simp only []
        rw [tags_eq]
        by_cases ht : tag ≠ relationshipsTag
        · rw [if_pos ht]
          refine ⟨?_, by intro e h; cases h⟩
          intro r h
          cases h
          have hd : declared z dep (dir, file) = [] := by unfold declared; simp only []; rw [hf]; simp only []; rw [if_pos ht]
          exact {
            post := by rw [hd]; exact post_nil _ _ _ _
            clean := by simp [hf]
            absent := by simp [hf]
            ok := by
              intro x h; cases h
              rw [new_ok]
              constructor
              · rintro (h | h) <;> cases h
              · rintro ⟨h, _⟩; exact absurd (h tag els hf).1 ht
            same := fun h => by cases h }
        · rw [if_neg ht]
          have ht : tag = relationshipsTag := Classical.not_not.mp ht
          have hd : declared z dep (dir, file) = els.filterMap (relOf dep dir) := by
            unfold declared; simp only []; rw [hf]; simp only []; rw [if_neg (fun h => h ht)]
          generalize hr : (if dir.isEmpty then Res.new py!"Checking root relationship"
            else Res.new (py!"Checking relationships of " ++ dir ++ file) : Res Str) = r0
          have hr0 : r0.ok = true := by rw [← hr]; split <;> rfl
          obtain ⟨s1, s2⟩ := scanRels_spec ih dir els ⟨r0, [], V, F⟩
          cases hs : scanRels z dep (scanF z dep n) dir ⟨r0, [], V, F⟩ els with
          | error x =>
            simp only []
            refine ⟨fun _ h => (nomatch h), ?_⟩
            intro e h hlt
            cases h
            obtain ⟨hx, e', he', t, q, h1, h2, h3⟩ := s2 x hs (by simp only []; omega)
            refine ⟨hx, fun P hP hcl => h3 P ?_ hcl⟩
            exact hcl dir file hP (t, q) (by rw [hd]; exact List.mem_filterMap.mpr ⟨e', he', h1⟩) h2
          | ok st =>
            simp only []
            refine ⟨?_, by intro e h; cases h⟩
            intro r h
            cases h
            obtain ⟨rels, e1, p1, o1⟩ := s1 st hs
            simp only [List.nil_append] at e1 p1 o1
            exact {
              post := by rw [hd, e1]; exact p1
              clean := by simp [hf]
              absent := by simp [hf]
              ok := by
                intro x h; cases h
                rw [o1]
                simp only [hr0, true_and]
                constructor
                · rintro ⟨a, b⟩
                  refine ⟨?_, b⟩
                  intro tag' els' h'
                  simp only [hf] at h'
                  cases h'
                  exact ⟨ht, a⟩
                · rintro ⟨a, b⟩; exact ⟨(a tag els hf).2, b⟩
              same := fun h => by cases h }

end Verif.Opc
