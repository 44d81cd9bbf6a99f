import Verif.JsonTextLemmas2

/-! # Lemmas about `json.loads`: every JSON text is read, and why texts are rejected -/

namespace Verif.JsonText
open Verif Verif.Spec Verif.Spec.Parse Verif.Spec.JsonText

/-! ## completeness -/

/-- no constant begins like a number -/
theorem no_constant (p : Nums) {c : Nat} {s : Str} (h : Digit c ∨ (c = pc! '-' ∧ ∃ d r, s = d :: r ∧ Digit d)) :
    (constants p).find? (fun k => Py.startsWith (c :: s) k.1) = none := by
  rw [List.find?_eq_none]
  intro k hk hs
  obtain ⟨r, hr⟩ := (startsWith_iff _ _).mp hs
  simp only [constants, List.mem_cons, List.not_mem_nil, or_false] at hk
  unfold Digit at h
  rcases hk with rfl | rfl | rfl | rfl | rfl | rfl <;>
    (simp only [List.cons_append, List.nil_append, List.cons.injEq] at hr
     obtain ⟨rfl, hr⟩ := hr
     rcases h with h | ⟨h, d, r', rfl, h2⟩
     · omega
     · simp only [List.cons.injEq] at hr
       omega)

theorem number_head {p : Nums} {t : Str} {j : Json} (h : Number p t j) :
    ∃ c r, t = c :: r ∧ (Digit c ∨ (c = pc! '-' ∧ ∃ d r', r = d :: r' ∧ Digit d)) := by
  cases h with
  | int h1 => obtain ⟨d, r, rfl, hd⟩ := h1.head; exact ⟨d, r, rfl, .inl hd⟩
  | neg h1 => obtain ⟨d, r, rfl, hd⟩ := h1.head; exact ⟨_, _, rfl, .inr ⟨rfl, d, r, rfl, hd⟩⟩
  | real hs h1 =>
    obtain ⟨d, r, rfl, hd⟩ := h1.head
    rcases hs with rfl | rfl
    · exact ⟨d, _, rfl, .inl hd⟩
    · exact ⟨_, _, rfl, .inr ⟨rfl, d, _, rfl, hd⟩⟩

/-- the first character of a value -/
theorem value_head {p : Nums} {t : Str} {j : Json} (h : Value p t j) :
    ∃ c r, t = c :: r ∧ isWs c = false ∧ c ≠ pc! ']' ∧ c ≠ pc! '}' ∧ c ≠ pc! ',' ∧ c < 128 ∧ c ≠ 0 := by
  cases h with
  | number h =>
    obtain ⟨c, r, rfl, hd⟩ := number_head h
    refine ⟨c, r, rfl, ?_⟩
    unfold Digit at hd
    refine ⟨?_, by omega, by omega, by omega, by omega, by omega⟩
    rw [← Bool.not_eq_true, isWs_iff]
    omega
  | _ => exact ⟨_, _, rfl, by decide⟩

theorem value_noHead {p : Nums} {t : Str} {j : Json} (h : Value p t j) (r : Str) : NoHead isWs (t ++ r) := by
  obtain ⟨c, r', rfl, hc, -⟩ := value_head h
  exact noHead_cons hc _

theorem not_starts {c d : Nat} (h : c ≠ d) (s : Str) : Py.startsWith (c :: s) [d] = false := by
  rw [startsWith_cons]
  simpa using Ne.symm h

theorem starts_self (c : Nat) (s : Str) : Py.startsWith (c :: s) [c] = true := by
  rw [startsWith_cons]
  simp

mutual
theorem value_complete {p : Nums} : ∀ {t : Str} {j : Json}, Value p t j → ∀ {rest : Str}, Delim rest → ∀ n, 2 * t.length + 1 ≤ n →
    scanValue p n (t ++ rest) = .ok (j, rest)
  | _, _, .null, rest, _, n, hn => by obtain ⟨n, rfl⟩ : ∃ k, n = k + 1 := ⟨n - 1, by omega⟩; rfl
  | _, _, .true, rest, _, n, hn => by obtain ⟨n, rfl⟩ : ∃ k, n = k + 1 := ⟨n - 1, by omega⟩; rfl
  | _, _, .false, rest, _, n, hn => by obtain ⟨n, rfl⟩ : ∃ k, n = k + 1 := ⟨n - 1, by omega⟩; rfl
  | _, _, .nan, rest, _, n, hn => by obtain ⟨n, rfl⟩ : ∃ k, n = k + 1 := ⟨n - 1, by omega⟩; rw [← ofReal_eq]; rfl
  | _, _, .inf, rest, _, n, hn => by obtain ⟨n, rfl⟩ : ∃ k, n = k + 1 := ⟨n - 1, by omega⟩; rw [← ofReal_eq]; rfl
  | _, _, .negInf, rest, _, n, hn => by obtain ⟨n, rfl⟩ : ∃ k, n = k + 1 := ⟨n - 1, by omega⟩; rw [← ofReal_eq]; rfl
  | _, _, .number h, rest, hr, n, hn => by
    obtain ⟨n, rfl⟩ : ∃ k, n = k + 1 := ⟨n - 1, by omega⟩
    have hs := scanNumber_complete h hr
    obtain ⟨c, r, rfl, hc⟩ := number_head h
    have hc' : Digit c ∨ (c = pc! '-' ∧ ∃ d r', r ++ rest = d :: r' ∧ Digit d) := by
      rcases hc with hc | ⟨hc, d, r', rfl, hd⟩
      · exact .inl hc
      · exact .inr ⟨hc, d, r' ++ rest, rfl, hd⟩
    simp only [List.cons_append, scanValue] at hs ⊢
    have : c ≠ 34 ∧ c ≠ 123 ∧ c ≠ 91 := by unfold Digit at hc; omega
    rw [if_neg this.1, if_neg this.2.1, if_neg this.2.2, no_constant p hc']
    exact hs
  | _, _, .string (t := t) h, rest, hr, n, hn => by
    obtain ⟨n, rfl⟩ : ∃ k, n = k + 1 := ⟨n - 1, by omega⟩
    simp only [List.cons_append, scanValue, List.append_assoc, List.nil_append]
    rw [if_pos trivial, scanString_complete h rest _ (by simp)]
    rfl
  | _, _, .emptyArr (w := w) h, rest, hr, n, hn => by
    obtain ⟨n, rfl⟩ : ∃ k, n = k + 1 := ⟨n - 1, by omega⟩
    simp only [List.cons_append, scanValue, List.append_assoc, List.nil_append]
    rw [if_neg (by decide), if_neg (by decide), if_pos trivial, skipWs_append h (noHead_cons (by decide) _), if_pos (starts_self _ _)]
    rfl
  | _, _, .arr (t := t) h, rest, hr, n, hn => by
    obtain ⟨n, rfl⟩ : ∃ k, n = k + 1 := ⟨n - 1, by omega⟩
    simp only [List.cons_append, List.length_cons, List.length_append, List.length_nil] at hn
    obtain ⟨h1, h2⟩ := elements_complete h (rest := rest) n (by omega)
    simp only [List.cons_append, scanValue, List.append_assoc, List.nil_append]
    rw [if_neg (by decide), if_neg (by decide), if_pos trivial, h1, h2]
    rfl
  | _, _, .emptyObj (w := w) h, rest, hr, n, hn => by
    obtain ⟨n, rfl⟩ : ∃ k, n = k + 1 := ⟨n - 1, by omega⟩
    simp only [List.cons_append, scanValue, List.append_assoc, List.nil_append]
    rw [if_neg (by decide), if_pos trivial, skipWs_append h (noHead_cons (by decide) _), if_pos (starts_self _ _)]
    rfl
  | _, _, .obj (t := t) h hc, rest, hr, n, hn => by
    obtain ⟨n, rfl⟩ : ∃ k, n = k + 1 := ⟨n - 1, by omega⟩
    simp only [List.cons_append, List.length_cons, List.length_append, List.length_nil] at hn
    obtain ⟨h1, h2⟩ := members_complete h (rest := rest) n (by omega)
    simp only [List.cons_append, scanValue, List.append_assoc, List.nil_append]
    rw [if_neg (by decide), if_pos trivial, h1, h2, collapsed_unique hc]
    rfl

theorem elements_complete {p : Nums} : ∀ {t : Str} {l : List Json}, Elements p t l → ∀ {rest : Str} n, 2 * t.length + 2 ≤ n →
    Py.startsWith (skipWs (t ++ pc! ']' :: rest)) [pc! ']'] = false ∧
    scanElements p n (skipWs (t ++ pc! ']' :: rest)) = .ok (l, rest)
  | _, _, .one (a := a) (t := t) (b := b) ha h hb, rest, n, hn => by
    obtain ⟨n, rfl⟩ : ∃ k, n = k + 1 := ⟨n - 1, by omega⟩
    simp only [List.length_append] at hn
    simp only [List.append_assoc]
    rw [skipWs_append ha (value_noHead h _)]
    refine ⟨?_, ?_⟩
    · obtain ⟨c, r, rfl, -, h1, -⟩ := value_head h
      exact not_starts h1 _
    · simp only [scanElements]
      rw [value_complete h (delim_ws hb (delim_cons (.inr (.inl rfl)) _)) n (by omega)]
      simp only [bind, Except.bind]
      rw [skipWs_append hb (noHead_cons (by decide) _), if_pos (starts_self _ _)]
      rfl
  | _, _, .more (a := a) (t := t) (b := b) (u := u) ha h hb hu, rest, n, hn => by
    obtain ⟨n, rfl⟩ : ∃ k, n = k + 1 := ⟨n - 1, by omega⟩
    simp only [List.length_append, List.length_cons] at hn
    simp only [List.append_assoc, List.cons_append]
    rw [skipWs_append ha (value_noHead h _)]
    refine ⟨?_, ?_⟩
    · obtain ⟨c, r, rfl, -, h1, -⟩ := value_head h
      exact not_starts h1 _
    · simp only [scanElements]
      rw [value_complete h (delim_ws hb (delim_cons (.inl rfl) _)) n (by omega)]
      simp only [bind, Except.bind]
      rw [skipWs_append hb (noHead_cons (by decide) _), not_starts (by decide), starts_self]
      simp only [Bool.false_eq_true, if_false, Bool.not_true, List.drop_succ_cons, List.drop_zero]
      rw [(elements_complete hu n (by omega)).2]

theorem members_complete {p : Nums} : ∀ {t : Str} {l : List (Str × Json)}, Members p t l → ∀ {rest : Str} n, 2 * t.length + 2 ≤ n →
    Py.startsWith (skipWs (t ++ pc! '}' :: rest)) [pc! '}'] = false ∧
    scanMembers p n (skipWs (t ++ pc! '}' :: rest)) = .ok (l, rest)
  | _, _, .one (a := a) (k := k) (b := b) (c := c) (t := t) (d := d) ha hk hb hc h hd, rest, n, hn => by
    obtain ⟨n, rfl⟩ : ∃ k, n = k + 1 := ⟨n - 1, by omega⟩
    simp only [List.length_append, List.length_cons] at hn
    simp only [List.append_assoc, List.cons_append]
    rw [skipWs_append ha (noHead_cons (by decide) _)]
    refine ⟨not_starts (by decide) _, ?_⟩
    simp only [scanMembers]
    rw [if_neg (by simp), scanString_complete hk _ _ (by simp)]
    simp only [bind, Except.bind]
    rw [skipWs_append hb (noHead_cons (by decide) _), starts_self]
    simp only [Bool.not_true, Bool.false_eq_true, if_false, List.drop_succ_cons, List.drop_zero]
    rw [skipWs_append hc (value_noHead h _), value_complete h (delim_ws hd (delim_cons (.inr (.inr rfl)) _)) n (by omega)]
    dsimp only
    rw [skipWs_append hd (noHead_cons (by decide) _), if_pos (starts_self _ _)]
    rfl
  | _, _, .more (a := a) (k := k) (b := b) (c := c) (t := t) (d := d) (u := u) ha hk hb hc h hd hu, rest, n, hn => by
    obtain ⟨n, rfl⟩ : ∃ k, n = k + 1 := ⟨n - 1, by omega⟩
    simp only [List.length_append, List.length_cons] at hn
    simp only [List.append_assoc, List.cons_append]
    rw [skipWs_append ha (noHead_cons (by decide) _)]
    refine ⟨not_starts (by decide) _, ?_⟩
    simp only [scanMembers]
    rw [if_neg (by simp), scanString_complete hk _ _ (by simp)]
    simp only [bind, Except.bind]
    rw [skipWs_append hb (noHead_cons (by decide) _), starts_self]
    simp only [Bool.not_true, Bool.false_eq_true, if_false, List.drop_succ_cons, List.drop_zero]
    rw [skipWs_append hc (value_noHead h _), value_complete h (delim_ws hd (delim_cons (.inl rfl) _)) n (by omega)]
    dsimp only
    rw [skipWs_append hd (noHead_cons (by decide) _), not_starts (by decide), starts_self]
    simp only [Bool.false_eq_true, if_false, Bool.not_true, List.drop_succ_cons, List.drop_zero]
    rw [(members_complete hu n (by omega)).2]
end

theorem decode_iff (p : Nums) (s : Str) (j : Json) : decode p s = .ok j ↔ Denotes p s j := by
  unfold decode
  constructor
  · intro h
    obtain ⟨⟨v, r⟩, h1, h⟩ := bind_ok.mp h
    obtain ⟨a, ha, hae⟩ := skipWs_sound s
    obtain ⟨t, ht, hv⟩ := (scan_sound p _).1 _ _ _ h1
    obtain ⟨b, hb, hbe⟩ := skipWs_sound r
    dsimp only at h
    split at h
    · rename_i he
      cases h
      rw [List.isEmpty_iff] at he
      rw [he, List.append_nil] at hbe
      exact ⟨a, t, r, by rw [← ht]; exact hae, ha, by rw [hbe]; exact hb, hv⟩
    · cases h
  · rintro ⟨a, t, b, rfl, ha, hb, hv⟩
    rw [skipWs_append ha (value_noHead hv _), value_complete hv (by simpa using delim_ws hb (r := []) (fun _ _ h => by cases h)) _ (by simp; omega)]
    simp only [bind, Except.bind]
    have : skipWs b = [] := by simpa using skipWs_append hb (r := []) (fun _ _ h => by cases h)
    rw [this]
    rfl

/-! ## rejected texts -/

/-- the first outcome is the second one, or a `ValueError` because of a run of digits in the text -/
def Like {α : Type} (p : Nums) (s : Str) (x y : Except Fail α) : Prop :=
  x = y ∨ (x = .error (.raised .valueError) ∧ ∃ l a ds b, p.lim = some l ∧ s = a ++ (ds ++ b) ∧ (∀ c ∈ ds, Digit c) ∧ l < ds.length)

theorem Like.weaken {α : Type} {p : Nums} {s u : Str} {x y : Except Fail α} (h : Like p s x y) (hs : s <:+ u) : Like p u x y := by
  rcases h with h | ⟨h, l, a, ds, b, h1, rfl, h2, h3⟩
  · exact .inl h
  · obtain ⟨t, rfl⟩ := hs
    exact .inr ⟨h, l, t ++ a, ds, b, h1, by simp, h2, h3⟩

theorem Like.bind {α β : Type} {p : Nums} {s : Str} {x y : Except Fail α} {f g : α → Except Fail β} (h : Like p s x y)
    (hf : ∀ a, y = .ok a → Like p s (f a) (g a)) : Like p s (x >>= f) (y >>= g) := by
  rcases h with rfl | ⟨rfl, h⟩
  · cases x with
    | error e => exact .inl rfl
    | ok a => exact hf a rfl
  · exact .inr ⟨rfl, h⟩

theorem Like.refl {α : Type} {p : Nums} {s : Str} (x : Except Fail α) : Like p s x x := .inl rfl

theorem Like.ite {α : Type} {p : Nums} {s : Str} {c : Bool} {x x' y y' : Except Fail α} (h1 : Like p s x x') (h2 : Like p s y y') :
    Like p s (if c = true then x else y) (if c = true then x' else y') := by
  cases c
  · exact h2
  · exact h1

theorem scanNumber_like (p : Nums) (s : Str) : Like p s (scanNumber p s) (scanNumber (Nums.unlimited p) s) := by
  unfold scanNumber
  obtain ⟨sign, u, hsu, hse⟩ : ∃ sign u, (if Py.startsWith s [pc! '-'] = true then ([pc! '-'], s.drop 1) else ([], s)) = (sign, u) ∧ s = sign ++ u := by
    split
    · rename_i hh
      obtain ⟨u, rfl⟩ := (startsWith_iff _ _).mp hh
      exact ⟨_, _, rfl, rfl⟩
    · exact ⟨_, _, rfl, rfl⟩
  rw [hsu]
  dsimp only
  split
  · exact .inl rfl
  · rename_i ds r hd
    obtain ⟨rfl, hi⟩ := scanDigits_sound hd
    generalize scanFrac r = f
    obtain ⟨f, r2⟩ := f
    dsimp only
    generalize scanExp r2 = e
    obtain ⟨e, r3⟩ := e
    dsimp only
    split
    · cases hl : p.lim with
      | none => exact .inl (by simp [Nums.unlimited])
      | some l =>
        by_cases hlt : l < ds.length
        · refine .inr ⟨by simp [hlt], l, sign, ds, r, hl, hse, hi.digits, hlt⟩
        · exact .inl (by simp [Nums.unlimited, hlt])
    · exact .inl rfl

theorem skipWs_suffix (s : Str) : skipWs s <:+ s := List.dropWhile_suffix _

theorem suffix_of_append {s t r : Str} (h : s = t ++ r) : r <:+ s := ⟨t, h.symm⟩

theorem scan_like (p : Nums) : ∀ n,
    (∀ s, Like p s (scanValue p n s) (scanValue (Nums.unlimited p) n s)) ∧
    (∀ s, Like p s (scanMembers p n s) (scanMembers (Nums.unlimited p) n s)) ∧
    (∀ s, Like p s (scanElements p n s) (scanElements (Nums.unlimited p) n s))
  | 0 => ⟨fun _ => by unfold scanValue; exact .inl rfl, fun _ => by unfold scanMembers; exact .inl rfl, fun _ => by unfold scanElements; exact .inl rfl⟩
  | n + 1 => by
    obtain ⟨ihV, ihM, ihE⟩ := scan_like p n
    obtain ⟨sV, sM, sE⟩ := scan_sound (Nums.unlimited p) n
    refine ⟨fun s => ?_, fun s => ?_, fun s => ?_⟩
    · cases s with
      | nil => unfold scanValue; exact .inl rfl
      | cons c s =>
        unfold scanValue
        have hsk : skipWs s <:+ c :: s := (skipWs_suffix s).trans (List.suffix_cons c s)
        split
        · exact .inl rfl
        split
        · exact Like.ite (.refl _) (((ihM _).weaken hsk).bind fun _ _ => .refl _)
        split
        · exact Like.ite (.refl _) (((ihE _).weaken hsk).bind fun _ _ => .refl _)
        · show Like p _ (match (constants p).find? (fun k => Py.startsWith (c :: s) k.1) with | some k => _ | none => _)
            (match (constants p).find? (fun k => Py.startsWith (c :: s) k.1) with | some k => _ | none => _)
          split
          · exact .inl rfl
          · exact scanNumber_like p _
    · cases s with
      | nil => unfold scanMembers; exact .inl rfl
      | cons c s =>
        unfold scanMembers
        split
        · exact .inl rfl
        · refine (Like.refl _).bind fun kr hk => ?_
          obtain ⟨k, r⟩ := kr
          obtain ⟨t, rfl, -⟩ := scanString_sound hk
          dsimp only
          refine Like.ite (.refl _) ?_
          have h1 : skipWs ((skipWs r).drop 1) <:+ c :: (t ++ 34 :: r) := by
            refine (skipWs_suffix _).trans ((List.drop_suffix _ _).trans ((skipWs_suffix r).trans ?_))
            exact ⟨c :: (t ++ [34]), by simp⟩
          refine ((ihV _).weaken h1).bind fun vr hv => ?_
          obtain ⟨v, r2⟩ := vr
          obtain ⟨t2, h2, -⟩ := sV _ _ _ hv
          have h3 : r2 <:+ c :: (t ++ 34 :: r) := (suffix_of_append h2).trans h1
          dsimp only
          refine Like.ite (.refl _) (Like.ite (.refl _) ?_)
          refine ((ihM _).weaken ?_).bind fun _ _ => .refl _
          exact (skipWs_suffix _).trans ((List.drop_suffix _ _).trans ((skipWs_suffix r2).trans h3))
    · unfold scanElements
      refine (ihV s).bind fun vr hv => ?_
      obtain ⟨v, r⟩ := vr
      obtain ⟨t, h2, -⟩ := sV _ _ _ hv
      dsimp only
      refine Like.ite (.refl _) (Like.ite (.refl _) ?_)
      refine ((ihE _).weaken ?_).bind fun _ _ => .refl _
      exact (skipWs_suffix _).trans ((List.drop_suffix _ _).trans ((skipWs_suffix r).trans (suffix_of_append h2)))

theorem decode_like (p : Nums) (s : Str) : Like p s (decode p s) (decode (Nums.unlimited p) s) := by
  unfold decode
  exact (((scan_like p _).1 _).weaken (skipWs_suffix s)).bind fun _ _ => .refl _

/-! ## without a limit only `JSONDecodeError` is raised -/

/-- an outcome without any other exception -/
def Calm {α : Type} (x : Except Fail α) : Prop := ∀ e, x ≠ .error (.raised e)

theorem Calm.bind {α β : Type} {x : Except Fail α} {f : α → Except Fail β} (h : Calm x) (hf : ∀ a, Calm (f a)) : Calm (x >>= f) := by
  cases x with
  | error e =>
    intro e' he
    have he : (Except.error e : Except Fail β) = _ := he
    injection he with he
    exact h e' (by rw [he])
  | ok a => exact hf a

theorem calm_ok {α : Type} (a : α) : Calm (.ok a) := fun _ h => by cases h
theorem calm_err {α : Type} (m s : Str) : Calm (err m s : Except Fail α) := fun _ h => by cases h

theorem Calm.ite {α : Type} {c : Prop} [Decidable c] {x y : Except Fail α} (hx : Calm x) (hy : Calm y) : Calm (if c then x else y) := by
  split
  · exact hx
  · exact hy

theorem scanUnicode_calm (s : Str) : Calm (scanUnicode s) := by
  unfold scanUnicode
  split
  · exact calm_err _ _
  · refine Calm.ite ?_ (calm_ok _)
    split
    · exact calm_err _ _
    · exact Calm.ite (calm_ok _) (calm_ok _)

theorem scanString_calm (start : Str) : ∀ n s, Calm (scanString start n s)
  | 0, _ => by unfold scanString; exact calm_err _ _
  | n + 1, [] => by unfold scanString; exact calm_err _ _
  | n + 1, c :: s => by
    unfold scanString
    refine Calm.ite (calm_ok _) (Calm.ite ?_ (Calm.ite (calm_err _ _) ((scanString_calm start n s).bind fun _ => calm_ok _)))
    split
    · exact calm_err _ _
    · refine Calm.ite ((scanUnicode_calm _).bind fun _ => (scanString_calm start n _).bind fun _ => calm_ok _) ?_
      split
      · exact calm_err _ _
      · exact (scanString_calm start n _).bind fun _ => calm_ok _

theorem scanNumber_calm {p : Nums} (hp : p.lim = none) (s : Str) : Calm (scanNumber p s) := by
  unfold scanNumber
  dsimp only
  split
  · exact calm_err _ _
  · refine Calm.ite ?_ (calm_ok _)
    rw [hp]
    exact calm_ok _

theorem scan_calm {p : Nums} (hp : p.lim = none) : ∀ n,
    (∀ s, Calm (scanValue p n s)) ∧ (∀ s, Calm (scanMembers p n s)) ∧ (∀ s, Calm (scanElements p n s))
  | 0 => ⟨fun _ => by unfold scanValue; exact calm_err _ _, fun _ => by unfold scanMembers; exact calm_err _ _, fun _ => by unfold scanElements; exact calm_err _ _⟩
  | n + 1 => by
    obtain ⟨ihV, ihM, ihE⟩ := scan_calm hp n
    refine ⟨fun s => ?_, fun s => ?_, fun s => ?_⟩
    · cases s with
      | nil => unfold scanValue; exact calm_err _ _
      | cons c s =>
        unfold scanValue
        refine Calm.ite ((scanString_calm _ _ _).bind fun _ => calm_ok _) (Calm.ite (Calm.ite (calm_ok _) ((ihM _).bind fun _ => calm_ok _))
          (Calm.ite (Calm.ite (calm_ok _) ((ihE _).bind fun _ => calm_ok _)) ?_))
        split
        · exact calm_ok _
        · exact scanNumber_calm hp _
    · cases s with
      | nil => unfold scanMembers; exact calm_err _ _
      | cons c s =>
        unfold scanMembers
        exact Calm.ite (calm_err _ _) ((scanString_calm _ _ _).bind fun _ => Calm.ite (calm_err _ _) ((ihV _).bind fun _ =>
          Calm.ite (calm_ok _) (Calm.ite (calm_err _ _) ((ihM _).bind fun _ => calm_ok _))))
    · unfold scanElements
      exact (ihV _).bind fun _ => Calm.ite (calm_ok _) (Calm.ite (calm_err _ _) ((ihE _).bind fun _ => calm_ok _))

theorem decode_calm {p : Nums} (hp : p.lim = none) (s : Str) : Calm (decode p s) := by
  unfold decode
  exact ((scan_calm hp _).1 _).bind fun _ => Calm.ite (calm_ok _) (calm_err _ _)

/-! ## names of members are unique -/

theorem realJson_wf (p : Nums) (t : Str) : WF (realJson p t) := by
  unfold realJson
  cases p.real t with
  | inl i => exact .num i
  | inr n => exact .float n

theorem number_wf {p : Nums} {t : Str} {j : Json} (h : Number p t j) : WF j := by
  cases h with
  | int => exact .num _
  | neg => exact .num _
  | real => exact realJson_wf _ _

mutual
theorem value_wf {p : Nums} : ∀ {t : Str} {j : Json}, Value p t j → WF j
  | _, _, .null => .null
  | _, _, .true => .bool _
  | _, _, .false => .bool _
  | _, _, .nan => realJson_wf _ _
  | _, _, .inf => realJson_wf _ _
  | _, _, .negInf => realJson_wf _ _
  | _, _, .number h => number_wf h
  | _, _, .string _ => .str _
  | _, _, .emptyArr _ => .arr (by simp)
  | _, _, .arr h => .arr (elements_wf h)
  | _, _, .emptyObj _ => .obj (by simp) (by simp)
  | _, _, .obj (kvs := kvs) h hc => .obj (by rw [hc.1]; exact firsts_nodup _) fun e he => by
      obtain ⟨a, b, hab, -⟩ := (hc.2 e.1 e.2).mp he
      exact members_wf h e (by rw [hab]; simp)

theorem elements_wf {p : Nums} : ∀ {t : Str} {l : List Json}, Elements p t l → ∀ j ∈ l, WF j
  | _, _, .one _ h _, j, hj => by
    simp only [List.mem_cons, List.not_mem_nil, or_false] at hj
    rw [hj]
    exact value_wf h
  | _, _, .more _ h _ hu, j, hj => by
    rcases List.mem_cons.mp hj with hj | hj
    · rw [hj]; exact value_wf h
    · exact elements_wf hu j hj

theorem members_wf {p : Nums} : ∀ {t : Str} {l : List (Str × Json)}, Members p t l → ∀ e ∈ l, WF e.2
  | _, _, .one _ _ _ _ h _, e, he => by
    simp only [List.mem_cons, List.not_mem_nil, or_false] at he
    rw [he]
    exact value_wf h
  | _, _, .more _ _ _ _ h _ hu, e, he => by
    rcases List.mem_cons.mp he with he | he
    · rw [he]; exact value_wf h
    · exact members_wf hu e he
end

end Verif.JsonText
