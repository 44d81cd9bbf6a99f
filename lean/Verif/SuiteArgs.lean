import Verif.SuiteFacts5

/-!
# Lemmas about the arguments of a request
-/

namespace Verif
namespace Api.Suites
open Verif.Parse Verif.Aas Verif.Spec Verif.Spec.Parse Verif.Spec.Api Verif.Spec.Suites Verif.Spec.Routes Verif.Spec.Generate Verif.Generate Verif.Http Verif.Props

theorem bind_given {ps : List Arg} {kw : Kwargs} {args : Str → ArgVal} (h : bindArgs ps kw = .ok args) (n : Str) : args n = given kw n := by
  unfold bindArgs at h
  split at h
  · cases h
    unfold given
    dsimp only
    cases kw.find? fun a => a.1 == n <;> rfl
  · cases h

theorem writable_enc {t : Str} (h : Writable t) : NoSurrogates t := fun c hc => (h c hc).2
theorem writable_points {t : Str} (h : Writable t) : CodePoints t := fun c hc => (h c hc).1

theorem suitable_enc {p : Arg} {v : ArgVal} (h : Suitable p v) : Encodable v := by
  unfold Suitable at h
  split at h
  · exact enc_none
  · exact ⟨⟨_, rfl, writable_enc h.2.1⟩, fun t ht => by cases ht; exact writable_enc h.2.2⟩
  · exact ⟨⟨_, rfl, writable_enc h.2⟩, fun t ht => by cases ht; exact writable_enc h.2⟩
  · rename_i h1 h2 h3
    obtain ⟨-, t, ht, hw⟩ := h
    refine ⟨⟨t, ht, writable_enc hw⟩, fun u hu => ?_⟩
    cases v with
    | none => exact absurd rfl h1
    | member a b => exact absurd rfl (h2 a b)
    | dummy a => exact absurd rfl (h3 a)
    | _ => cases hu

/-- what is sent for a query parameter -/
theorem param_wire {p : Arg} {v : ArgVal} (h : Suitable p v) {args : Str → ArgVal} {x : Param} (hv : args x.name = v)
    (hx : (match (generalizing := false) x with | .plain _ => !isEnum p.ty | .unpacked _ => isEnum p.ty) = true) :
    paramOf args x = .ok (carried v) ∧ ∀ t, carried v = some t → Writable t := by
  unfold Suitable at h
  cases x with
  | plain n =>
    have hv : args n = v := hv
    dsimp only at hx
    rw [paramOf, hv]
    split at h
    · exact ⟨rfl, fun t ht => by cases ht⟩
    · rw [h.1] at hx; cases hx
    · rw [h.1] at hx; cases hx
    · rename_i h1 h2 h3
      obtain ⟨-, t, ht, hw⟩ := h
      cases v with
      | none => exact absurd rfl h1
      | member a b => exact absurd rfl (h2 a b)
      | dummy a => exact absurd rfl (h3 a)
      | _ =>
        refine ⟨?_, fun u hu => ?_⟩
        · simp only [carried, ht]; rfl
        · simp only [carried, ht, Except.toOption] at hu
          cases hu
          exact hw
  | unpacked n =>
    have hv : args n = v := hv
    dsimp only at hx
    rw [paramOf, hv]
    split at h
    · exact ⟨rfl, fun t ht => by cases ht⟩
    · exact ⟨rfl, fun t ht => by cases ht; exact h.2.2⟩
    · exact ⟨rfl, fun t ht => by cases ht; exact h.2⟩
    · rw [h.1] at hx; cases hx

theorem query_wire {args : Str → ArgVal} : ∀ {query : List (Str × Param)},
    (∀ x ∈ query, paramOf args x.2 = .ok (carried (args x.2.name)) ∧ ∀ t, carried (args x.2.name) = some t → Writable t) →
    ∃ q, queryOf args query = .ok q ∧
      present q = (query.map fun x => (x.2.name, x.1)).filterMap (fun x => (carried (args x.1)).map fun t => (x.2, t))
  | [], _ => ⟨[], rfl, rfl⟩
  | (k, p) :: rest, h => by
    obtain ⟨q, hq, hp⟩ := query_wire fun x hx => h x (List.mem_cons_of_mem _ hx)
    have h1 := (h (k, p) List.mem_cons_self).1
    refine ⟨_, by rw [queryOf, h1, hq]; rfl, ?_⟩
    dsimp only at h1 ⊢
    cases hw : carried (args p.name) with
    | none => simpa [present, hw] using hp
    | some t => simpa [present, hw] using hp

theorem given_mem {kw : Kwargs} {n : Str} : given kw n = .none ∨ ∃ a ∈ kw, a.1 = n ∧ given kw n = a.2 := by
  unfold given
  cases h : kw.find? fun a => a.1 == n with
  | none => exact .inl rfl
  | some a => exact .inr ⟨a, List.mem_of_find?_eq_some h, by simpa using List.find?_some h, rfl⟩

/-- the request of a call carries its arguments -/
theorem with_arguments {c : Call} {ps : Parameters} (hps : sendsParams c ps = true) (hroot : rooted c = true)
    {client : Client} {pre : Str} {base' template : List Seg} (hb : Fills base' pre) (hfix : fixed base' = true)
    (hroute : norm (base' ++ segs c.route.path) = norm template) {kw : Kwargs} {args : Str → ArgVal} (ha : bindArgs c.params kw = .ok args)
    (hv : ∀ a ∈ kw, ∀ p ∈ c.params, p.name = a.1 → Suitable p a.2) (hk : ∀ a ∈ kw, ∃ p ∈ c.params, p.name = a.1)
    (hreq : ∀ p ∈ c.params, p.required = true → ∃ a ∈ kw, a.1 = p.name)
    {q : Sent} (hq : SendsWith (client.descend pre) c kw q) :
    WithArguments client template ps kw q := by
  unfold sendsParams at hps
  simp only [Bool.and_eq_true, decide_eq_true_eq, List.all_eq_true] at hps
  obtain ⟨⟨⟨⟨⟨hq1, hp1⟩, -⟩, hty⟩, hpth⟩, hall⟩ := hps
  have hg := fun n => bind_given ha n
  have hpar : ∀ x ∈ c.route.query, paramOf args x.2 = .ok (carried (args x.2.name)) ∧ ∀ t, carried (args x.2.name) = some t → Writable t := by
    intro x hx
    rcases given_mem (kw := kw) (n := x.2.name) with h0 | ⟨a, ha1, ha2, ha3⟩
    · rw [← hg] at h0
      rw [h0]
      refine ⟨?_, fun t ht => by cases ht⟩
      cases hx2 : x.2 with
      | plain n => rw [hx2] at h0; have h0 : args n = _ := h0; rw [paramOf, h0]; rfl
      | unpacked n => rw [hx2] at h0; have h0 : args n = _ := h0; rw [paramOf, h0]; rfl
    · obtain ⟨p, hp, hpn⟩ := hk a ha1
      have := hty x hx p hp
      rw [hpn, ha2] at this
      simp only [bne_self_eq_false, Bool.false_or] at this
      rw [← hg] at ha3
      rw [ha3]
      exact param_wire (hv a ha1 p hp hpn) ha3 this
  obtain ⟨qs, hqs, hpres⟩ := query_wire hpar
  unfold rooted at hroot
  rw [Bool.and_eq_true, List.all_eq_true] at hroot
  have hcp : ∀ p ∈ present qs, CodePoints p.1 ∧ CodePoints p.2 := by
    intro p hp
    rw [hpres] at hp
    obtain ⟨y, hy, hy2⟩ := List.mem_filterMap.mp hp
    obtain ⟨x, hx, rfl⟩ := List.mem_map.mp hy
    cases hw : carried (args x.2.name) with
    | none => dsimp only at hy2; rw [hw] at hy2; cases hy2
    | some t =>
      dsimp only at hy2
      rw [hw] at hy2
      cases hy2
      refine ⟨ascii_codePoints fun ch hch => ?_, writable_points ((hpar x hx).2 t hw)⟩
      simpa using (List.all_eq_true.mp (hroot.2 x hx)) ch hch
  have hpres' : present qs = ps.query.filterMap fun x => (carried (given kw x.1)).map fun t => (x.2, t) := by
    rw [hpres, hq1]
    congr 1
    funext x
    rw [hg]
  unfold WithArguments
  dsimp only
  cases hpp : ps.path with
  | none =>
    dsimp only
    rw [← hpres']
    refine At.congr (fun p hp => ?_) (sends_at hb hq ha hqs hcp (template := segs c.route.path) fun p hp => pathOf_fills hp)
    rw [← fills_norm, hroute, fills_norm] at hp
    exact hp
  | some n =>
    dsimp only
    rw [hpp] at hpth hp1
    have hn := hpth n (by simp)
    obtain ⟨hn1, hn2⟩ := hn
    obtain ⟨p, hp, hpn⟩ := List.any_eq_true.mp hn1
    rw [beq_iff_eq] at hpn
    have h3 := hn2 p hp
    rw [hpn] at h3
    simp only [bne_self_eq_false, Bool.false_or, Bool.and_eq_true, Bool.not_eq_true'] at h3
    have hex : ∃ t, carried (given kw n) = some t ∧ (given kw n).pyStr = .ok t := by
      obtain ⟨a0, ha0, hn0⟩ := hreq p hp h3.1
      rcases given_mem (kw := kw) (n := n) with h0 | ⟨a, ha1, ha2, ha3⟩
      · exfalso
        unfold given at h0
        cases hf : kw.find? fun a => a.1 == n with
        | none => exact (List.find?_eq_none.mp hf a0 ha0) (by rw [hn0, hpn]; exact beq_self_eq_true n)
        | some b =>
          rw [hf] at h0
          have h0 : b.2 = .none := h0
          have hbn : b.1 = n := by simpa using List.find?_some hf
          have := hv b (List.mem_of_find?_eq_some hf) p hp (hpn.trans hbn.symm)
          rw [h0] at this
          unfold Suitable at this
          dsimp only at this
          rw [h3.1] at this
          cases this
      · have := hv a ha1 p hp (hpn.trans ha2.symm)
        rw [ha3]
        unfold Suitable at this
        split at this
        · rw [h3.1] at this; cases this
        · rw [h3.2] at this; cases this.1
        · rw [h3.2] at this; cases this.1
        · rename_i v h1 h2 h4
          obtain ⟨-, t, ht, -⟩ := this
          refine ⟨t, ?_, ht⟩
          generalize a.2 = v at *
          cases v with
          | none => exact absurd rfl h1
          | member a b => exact absurd rfl (h2 a b)
          | dummy a => exact absurd rfl (h4 a)
          | _ => simp only [carried, ht]; rfl
    obtain ⟨t, ht1, ht2⟩ := hex
    refine ⟨t, ht1, ?_⟩
    rw [← hpres']
    have := sends_at hb hq ha hqs hcp (template := replaced t (segs c.route.path)) fun p hp => pathOf_replaced hp fun m hm => by
      have : m ∈ c.route.path.filterMap Piece.name? := List.mem_filterMap.mpr ⟨_, hm, rfl⟩
      rw [hp1] at this
      simp only [Option.toList, List.mem_singleton] at this
      rw [this, hg]
      exact ht2
    refine At.congr (fun p hp => ?_) this
    rw [← replaced_fixed t base' hfix, ← replaced_append, ← fills_replaced, hroute, fills_replaced] at hp
    exact hp

end Api.Suites
end Verif
