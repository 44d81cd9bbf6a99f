import Verif.JsonTextLemmas

/-! # Lemmas about `json.loads`: values -/

namespace Verif.JsonText
open Verif Verif.Spec.JsonText

/-! ## white space -/

theorem isWs_iff (c : Nat) : isWs c = true ↔ c = 32 ∨ c = 9 ∨ c = 10 ∨ c = 13 := by
  unfold isWs
  simp only [Bool.or_eq_true, beq_iff_eq]
  omega

theorem ws_iff (w : Str) : Ws w ↔ ∀ c ∈ w, isWs c = true := by
  unfold Ws
  simp only [isWs_iff]

theorem skipWs_sound (s : Str) : ∃ w, Ws w ∧ s = w ++ skipWs s :=
  ⟨s.takeWhile isWs, (ws_iff _).mpr fun _ h => takeWhile_mem h, (List.takeWhile_append_dropWhile).symm⟩

theorem skipWs_append {w r : Str} (hw : Ws w) (hr : NoHead isWs r) : skipWs (w ++ r) = r := (span_append ((ws_iff _).mp hw) hr).2

theorem _root_.Verif.Spec.JsonText.Ws.append {v w : Str} (hv : Ws v) (hw : Ws w) : Ws (v ++ w) := by
  intro c hc
  rcases List.mem_append.mp hc with h | h
  · exact hv c h
  · exact hw c h

theorem ws_nil : Ws [] := fun _ h => by cases h

theorem noHead_cons {f : Nat → Bool} {c : Nat} (h : f c = false) (s : Str) : NoHead f (c :: s) := by
  intro c' r hh
  cases hh
  exact h

theorem delim_ws {w r : Str} (hw : Ws w) (hr : Delim r) : Delim (w ++ r) := by
  cases w with
  | nil => exact hr
  | cons c w =>
    intro c' r' hh
    simp only [List.cons_append, List.cons.injEq] at hh
    obtain ⟨rfl, -⟩ := hh
    exact .inl ((ws_iff _).mp hw c (by simp))

theorem delim_cons {c : Nat} (h : c = pc! ',' ∨ c = pc! ']' ∨ c = pc! '}') (r : Str) : Delim (c :: r) := by
  intro c' r' hh
  cases hh
  exact .inr h

/-! ## objects -/

theorem snoc_ind {α : Type} {P : List α → Prop} (h0 : P []) (hs : ∀ l a, P l → P (l ++ [a])) (l : List α) : P l := by
  suffices ∀ l : List α, P l.reverse by simpa using this l.reverse
  intro l
  induction l with
  | nil => exact h0
  | cons a l ih => rw [List.reverse_cons]; exact hs _ _ ih

theorem mem_firsts {k : Str} : ∀ {ks : List Str}, k ∈ firsts ks ↔ k ∈ ks
  | [] => Iff.rfl
  | a :: ks => by
    simp only [firsts, List.mem_cons, List.mem_filter, decide_eq_true_eq, mem_firsts (ks := ks)]
    by_cases h : k = a <;> simp [h]

theorem firsts_nodup : ∀ ks : List Str, (firsts ks).Nodup
  | [] => List.nodup_nil
  | a :: ks => by
    refine List.nodup_cons.mpr ⟨?_, (firsts_nodup ks).filter _⟩
    simp

theorem firsts_snoc (k : Str) : ∀ ks : List Str, firsts (ks ++ [k]) = if k ∈ ks then firsts ks else firsts ks ++ [k]
  | [] => rfl
  | a :: ks => by
    simp only [List.cons_append, firsts, firsts_snoc k ks, List.mem_cons]
    by_cases h : k ∈ ks
    · simp [h]
    · by_cases ha : k = a
      · subst ha
        simp only [h, if_false, List.filter_append, true_or, if_true]
        simp
      · simp only [h, ha, if_false, List.filter_append, or_self]
        simp [ha]

theorem dictSet_keys (k : Str) (v : Json) : ∀ d : List (Str × Json),
    (dictSet k v d).map (·.1) = if k ∈ d.map (·.1) then d.map (·.1) else d.map (·.1) ++ [k]
  | [] => rfl
  | e :: d => by
    unfold dictSet
    by_cases h : e.1 = k
    · rw [if_pos h]
      simp [h]
    · rw [if_neg h]
      simp only [List.map_cons, dictSet_keys k v d, List.mem_cons, Ne.symm h, false_or]
      split <;> simp

theorem dictSet_mem (k : Str) (v : Json) : ∀ {d : List (Str × Json)}, (d.map (·.1)).Nodup → ∀ k' v',
    ((k', v') ∈ dictSet k v d ↔ (k' = k ∧ v' = v) ∨ (k' ≠ k ∧ (k', v') ∈ d))
  | [], _, k', v' => by simp [dictSet]
  | e :: d, hn, k', v' => by
    obtain ⟨a, b⟩ := e
    simp only [List.map_cons, List.nodup_cons] at hn
    unfold dictSet
    by_cases h : a = k
    · rw [if_pos h]
      subst h
      simp only [List.mem_cons, Prod.mk.injEq]
      constructor
      · rintro (h | h)
        · exact .inl h
        · by_cases hk : k' = a
          · subst hk
            exact absurd (List.mem_map_of_mem (f := (·.1)) h) hn.1
          · exact .inr ⟨hk, .inr h⟩
      · rintro (h | ⟨h1, h2 | h2⟩)
        · exact .inl h
        · exact absurd h2.1 h1
        · exact .inr h2
    · rw [if_neg h]
      simp only [List.mem_cons, Prod.mk.injEq, dictSet_mem k v hn.2]
      constructor
      · rintro (⟨rfl, rfl⟩ | h' | h')
        · exact .inr ⟨h, .inl ⟨rfl, rfl⟩⟩
        · exact .inl h'
        · exact .inr ⟨h'.1, .inr h'.2⟩
      · rintro (h' | ⟨h1, h2 | h2⟩)
        · exact .inr (.inl h')
        · exact .inl h2
        · exact .inr (.inr ⟨h1, h2⟩)

theorem dictOf_snoc (ms : List (Str × Json)) (e : Str × Json) : dictOf (ms ++ [e]) = dictSet e.1 e.2 (dictOf ms) := by
  unfold dictOf
  rw [List.foldl_append]
  rfl

theorem dictOf_collapsed (ms : List (Str × Json)) : Collapsed ms (dictOf ms) := by
  induction ms using snoc_ind with
  | h0 => exact ⟨rfl, fun k v => by simp [dictOf]⟩
  | hs ms e ih =>
    obtain ⟨k, v⟩ := e
    rw [dictOf_snoc]
    refine ⟨?_, fun k' v' => ?_⟩
    · rw [dictSet_keys, ih.1]
      simp only [List.map_append, List.map_cons, List.map_nil, firsts_snoc, mem_firsts]
    · rw [dictSet_mem k v (by rw [ih.1]; exact firsts_nodup _), ih.2]
      constructor
      · rintro (⟨rfl, rfl⟩ | ⟨hk, a, b, rfl, hb⟩)
        · exact ⟨ms, [], rfl, by simp⟩
        · exact ⟨a, b ++ [(k, v)], by simp, by simpa [hk] using hb⟩
      · rintro ⟨a, b, hab, hb⟩
        rcases List.eq_nil_or_concat b with rfl | ⟨b, x, rfl⟩
        · have := List.append_inj_right' hab rfl
          cases this
          exact .inl ⟨rfl, rfl⟩
        · rw [List.concat_eq_append, ← List.cons_append, ← List.append_assoc] at hab
          have h1 := List.append_inj_left' hab rfl
          have h2 := List.append_inj_right' hab rfl
          cases h2
          simp only [List.concat_eq_append, List.map_append, List.map_cons, List.map_nil, List.mem_append, List.mem_cons, List.not_mem_nil, or_false, not_or] at hb
          exact .inr ⟨hb.2, a, b, h1, hb.1⟩

theorem assoc_ext : ∀ {d e : List (Str × Json)}, d.map (·.1) = e.map (·.1) → (d.map (·.1)).Nodup → (∀ k v, (k, v) ∈ d ↔ (k, v) ∈ e) → d = e
  | [], [], _, _, _ => rfl
  | [], _ :: _, h, _, _ => by cases h
  | _ :: _, [], h, _, _ => by cases h
  | (k, v) :: d, (k', v') :: e, h, hn, hm => by
    simp only [List.map_cons, List.cons.injEq] at h
    obtain ⟨rfl, h⟩ := h
    simp only [List.map_cons, List.nodup_cons] at hn
    have hne : k ∉ e.map (·.1) := by rw [← h]; exact hn.1
    have hv : v = v' := by
      have := (hm k v).mp (by simp)
      simp only [List.mem_cons, Prod.mk.injEq, true_and] at this
      rcases this with h' | h'
      · exact h'
      · exact absurd (List.mem_map_of_mem (f := (·.1)) h') hne
    subst hv
    congr 1
    refine assoc_ext h hn.2 fun k2 v2 => ⟨fun hh => ?_, fun hh => ?_⟩
    · have := (hm k2 v2).mp (by simp [hh])
      simp only [List.mem_cons, Prod.mk.injEq] at this
      rcases this with ⟨rfl, -⟩ | h'
      · exact absurd (List.mem_map_of_mem (f := (·.1)) hh) hn.1
      · exact h'
    · have := (hm k2 v2).mpr (by simp [hh])
      simp only [List.mem_cons, Prod.mk.injEq] at this
      rcases this with ⟨rfl, -⟩ | h'
      · exact absurd (List.mem_map_of_mem (f := (·.1)) hh) hne
      · exact h'

theorem collapsed_unique {ms kvs : List (Str × Json)} (h : Collapsed ms kvs) : kvs = dictOf ms := by
  have h' := dictOf_collapsed ms
  refine assoc_ext (by rw [h.1, h'.1]) (by rw [h.1]; exact firsts_nodup _) fun k v => ?_
  rw [h.2, h'.2]

/-! ## soundness -/

theorem elements_ws {p : Nums} {w t : Str} {l : List Json} (hw : Ws w) (h : Elements p t l) : Elements p (w ++ t) l := by
  cases h with
  | one h1 h2 h3 => rw [← List.append_assoc]; exact .one (hw.append h1) h2 h3
  | more h1 h2 h3 h4 => rw [← List.append_assoc]; exact .more (hw.append h1) h2 h3 h4

theorem members_ws {p : Nums} {w t : Str} {l : List (Str × Json)} (hw : Ws w) (h : Members p t l) : Members p (w ++ t) l := by
  cases h with
  | one h1 h2 h3 h4 h5 h6 => rw [← List.append_assoc]; exact .one (hw.append h1) h2 h3 h4 h5 h6
  | more h1 h2 h3 h4 h5 h6 h7 => rw [← List.append_assoc]; exact .more (hw.append h1) h2 h3 h4 h5 h6 h7

theorem constant_value {p : Nums} {k : Str × Json} (h : k ∈ constants p) : Value p k.1 k.2 := by
  simp only [constants, List.mem_cons, List.not_mem_nil, or_false] at h
  rcases h with rfl | rfl | rfl | rfl | rfl | rfl
  · exact .null
  · exact .true
  · exact .false
  · dsimp only; rw [ofReal_eq]; exact .nan
  · dsimp only; rw [ofReal_eq]; exact .inf
  · dsimp only; rw [ofReal_eq]; exact .negInf

theorem starts {s : Str} {c : Nat} (h : Py.startsWith s [c] = true) : s = c :: s.drop 1 := by
  obtain ⟨r, rfl⟩ := (startsWith_iff _ _).mp h
  rfl

theorem scan_sound (p : Nums) : ∀ n,
    (∀ s j r, scanValue p n s = .ok (j, r) → ∃ t, s = t ++ r ∧ Value p t j) ∧
    (∀ s ms r, scanMembers p n s = .ok (ms, r) → ∃ t, s = t ++ pc! '}' :: r ∧ Members p t ms) ∧
    (∀ s l r, scanElements p n s = .ok (l, r) → ∃ t, s = t ++ pc! ']' :: r ∧ Elements p t l)
  | 0 => ⟨fun _ _ _ h => by simp [scanValue, err] at h, fun _ _ _ h => by simp [scanMembers, err] at h, fun _ _ _ h => by simp [scanElements, err] at h⟩
  | n + 1 => by
    obtain ⟨ihV, ihM, ihE⟩ := scan_sound p n
    refine ⟨fun s j r h => ?_, fun s ms r h => ?_, fun s l r h => ?_⟩
    · cases s with
      | nil => simp [scanValue, err] at h
      | cons c s =>
        unfold scanValue at h
        split at h
        · rename_i hc
          subst hc
          obtain ⟨⟨t, r'⟩, h1, h2⟩ := bind_ok.mp h
          cases h2
          obtain ⟨u, rfl, hu⟩ := scanString_sound h1
          exact ⟨34 :: u ++ [34], by simp, .string hu⟩
        split at h
        · rename_i hc
          subst hc
          obtain ⟨w, hw, he⟩ := skipWs_sound s
          dsimp only at h
          split at h
          · rename_i hb
            cases h
            rw [starts hb] at he
            exact ⟨pc! '{' :: w ++ [pc! '}'], by (conv => lhs; rw [he]); simp, .emptyObj hw⟩
          · obtain ⟨⟨kvs, r'⟩, h1, h2⟩ := bind_ok.mp h
            cases h2
            obtain ⟨t, ht, hm⟩ := ihM _ _ _ h1
            rw [ht] at he
            exact ⟨pc! '{' :: (w ++ t) ++ [pc! '}'], by rw [he]; simp, .obj (members_ws hw hm) (dictOf_collapsed _)⟩
        split at h
        · rename_i hc
          subst hc
          obtain ⟨w, hw, he⟩ := skipWs_sound s
          dsimp only at h
          split at h
          · rename_i hb
            cases h
            rw [starts hb] at he
            exact ⟨pc! '[' :: w ++ [pc! ']'], by (conv => lhs; rw [he]); simp, .emptyArr hw⟩
          · obtain ⟨⟨l, r'⟩, h1, h2⟩ := bind_ok.mp h
            cases h2
            obtain ⟨t, ht, hm⟩ := ihE _ _ _ h1
            rw [ht] at he
            exact ⟨pc! '[' :: (w ++ t) ++ [pc! ']'], by rw [he]; simp, .arr (elements_ws hw hm)⟩
        split at h
        · rename_i k hk
          cases h
          obtain ⟨r, hr⟩ := (startsWith_iff (c :: s) k.1).mp (List.find?_some (p := fun k : Str × Json => Py.startsWith (c :: s) k.1) hk)
          refine ⟨k.1, ?_, constant_value (List.mem_of_find?_eq_some hk)⟩
          rw [hr, List.drop_left]
        · obtain ⟨t, ht, hn⟩ := scanNumber_sound h
          exact ⟨t, ht, .number hn⟩
    · cases s with
      | nil => simp [scanMembers, err] at h
      | cons c s =>
        unfold scanMembers at h
        split at h
        · cases h
        · rename_i hc
          simp only [ne_eq, Decidable.not_not] at hc
          subst hc
          obtain ⟨⟨k, r1⟩, h1, h'⟩ := bind_ok.mp h
          obtain ⟨u, rfl, hu⟩ := scanString_sound h1
          dsimp only at h'
          obtain ⟨b, hb, hbe⟩ := skipWs_sound r1
          split at h'
          · cases h'
          · rename_i hcolon
            simp only [Bool.not_eq_true', Bool.not_eq_false] at hcolon
            rw [starts hcolon] at hbe
            obtain ⟨⟨v, r2⟩, h2, h'⟩ := bind_ok.mp h'
            obtain ⟨x, hx, hxe⟩ := skipWs_sound ((skipWs r1).drop 1)
            obtain ⟨t, ht, hv⟩ := ihV _ _ _ h2
            rw [ht] at hxe
            rw [hxe] at hbe
            dsimp only at h'
            obtain ⟨d, hd, hde⟩ := skipWs_sound r2
            split at h'
            · rename_i hb2
              cases h'
              rw [starts hb2] at hde
              generalize (skipWs r2).drop 1 = q at hde ⊢
              refine ⟨_, ?_, Members.one (a := []) ws_nil hu hb hx hv hd⟩
              rw [hbe, hde]
              simp
            · split at h'
              · cases h'
              · rename_i hcomma
                simp only [Bool.not_eq_true', Bool.not_eq_false] at hcomma
                rw [starts hcomma] at hde
                obtain ⟨⟨kvs, r3⟩, h3, h'⟩ := bind_ok.mp h'
                cases h'
                obtain ⟨w, hw, hwe⟩ := skipWs_sound ((skipWs r2).drop 1)
                obtain ⟨t2, ht2, hm⟩ := ihM _ _ _ h3
                rw [ht2] at hwe
                rw [hwe] at hde
                refine ⟨_, ?_, Members.more (a := []) ws_nil hu hb hx hv hd (members_ws hw hm)⟩
                rw [hbe, hde]
                simp
    · unfold scanElements at h
      obtain ⟨⟨v, r1⟩, h1, h'⟩ := bind_ok.mp h
      obtain ⟨t, rfl, hv⟩ := ihV _ _ _ h1
      dsimp only at h'
      obtain ⟨d, hd, hde⟩ := skipWs_sound r1
      split at h'
      · rename_i hb2
        cases h'
        rw [starts hb2] at hde
        generalize (skipWs r1).drop 1 = q at hde ⊢
        refine ⟨_, ?_, Elements.one (a := []) ws_nil hv hd⟩
        rw [hde]
        simp
      · split at h'
        · cases h'
        · rename_i hcomma
          simp only [Bool.not_eq_true', Bool.not_eq_false] at hcomma
          rw [starts hcomma] at hde
          obtain ⟨⟨l, r3⟩, h3, h'⟩ := bind_ok.mp h'
          cases h'
          obtain ⟨w, hw, hwe⟩ := skipWs_sound ((skipWs r1).drop 1)
          obtain ⟨t2, ht2, hm⟩ := ihE _ _ _ h3
          rw [ht2] at hwe
          rw [hwe] at hde
          refine ⟨_, ?_, Elements.more (a := []) ws_nil hv hd (elements_ws hw hm)⟩
          rw [hde]
          simp

end Verif.JsonText
