import Verif.MessageLemmas5
import Verif.PathLemmas3

/-! # Reports with and without texts; texts that are not true -/

namespace Verif.Aas
open Verif Verif.Parse Verif.Spec.Parse Verif.Spec.Model Verif.DataTypes Verif.Spec Verif.Props

variable {lim : Option Nat} {c : Cls} {v : AVal} {t : Str} {l : Level} {Number : Str → Prop}

/-! ## reports -/

/-- the same lines except for their texts -/
def Alike (r r' : Res Note) : Prop :=
  r.level = r'.level ∧ r.msg = r'.msg ∧ r.subs.map (fun s => (s.msg.path, s.level)) = r'.subs.map (fun s => (s.msg.path, s.level))

/-- the same outcome except for the texts -/
def AlikeE : Except PyExc (Res Note) → Except PyExc (Res Note) → Prop
  | .ok r, .ok r' => Alike r r'
  | .error e, .error e' => e = e'
  | _, _ => False

theorem Alike.rfl' (r : Res Note) : Alike r r := ⟨rfl, rfl, rfl⟩

theorem Alike.append {r r' : Res Note} (h : Alike r r') (a b : Str) (p : List PTok) (l : Level) :
    Alike (r.append (Res.new ⟨.constraint a, p⟩ l)) (r'.append (Res.new ⟨.constraint b, p⟩ l)) := by
  obtain ⟨h1, h2, h3⟩ := h
  refine ⟨?_, h2, ?_⟩
  · show (r.level.or l) = (r'.level.or l); rw [h1]
  · show (r.subs ++ [_]).map _ = (r'.subs ++ [_]).map _
    rw [List.map_append, List.map_append, h3]; rfl

theorem runChecks_alike (v : AVal) (p : List PTok) : ∀ (ms : List Method) (r r' : Res Note), Alike r r' →
    AlikeE (runChecks v p (ms.map (tellMethod lim)) r) (runChecks v p (ms.map (runMethod lim)) r')
  | [], _, _, h => h
  | m :: ms, r, r', h => by
    have hs := tell_same lim m v
    rw [List.map_cons, List.map_cons, runChecks, runChecks]
    cases ha : tellMethod lim m v with
    | ok u =>
      cases hb : runMethod lim m v with
      | ok u' => exact runChecks_alike v p ms r r' h
      | error e => rw [ha, hb] at hs; cases hs
    | error e =>
      cases hb : runMethod lim m v with
      | ok u' => rw [ha, hb] at hs; cases hs
      | error e' =>
        rw [ha, hb] at hs
        have hs : mute e = mute e' := by injection hs
        cases e with
        | violated a la =>
          cases e' with
          | violated b lb => simp only [mute, Fail.violated.injEq, true_and] at hs; subst hs; exact runChecks_alike v p ms _ _ (h.append a b p la)
          | py e' => simp [mute] at hs
        | py e =>
          cases e' with
          | violated b lb => simp [mute] at hs
          | py e' => simp only [mute, Fail.py.injEq] at hs; exact hs

theorem AlikeE.seq {x y : Except PyExc (Res Note)} {f g : Res Note → Except PyExc (Res Note)} (h : AlikeE x y)
    (hf : ∀ r r', Alike r r' → AlikeE (f r) (g r')) :
    AlikeE (match (generalizing := false) x with | .error e => .error e | .ok r => f r) (match (generalizing := false) y with | .error e => .error e | .ok r => g r) := by
  cases x <;> cases y
  · exact h
  · cases h
  · cases h
  · exact hf _ _ h

mutual
theorem constraints_alike : ∀ (v : AVal) (p : List PTok) (r r' : Res Note), Alike r r' →
    AlikeE (checkConstraints Fld.pyName (tells lim) v p r) (checkConstraints Fld.pyName (checks lim) v p r')
  | .obj c attrs, p, r, r', h => by
    simp only [checkConstraints]
    exact AlikeE.seq (runChecks_alike _ p (checkTable c) r r' h) (fun a b hab => attrs_alike attrs p a b hab)
  | .none, _, _, _, h => by simp only [checkConstraints]; exact h
  | .invalid, _, _, _, h => by simp only [checkConstraints]; exact h
  | .foreign, _, _, _, h => by simp only [checkConstraints]; exact h
  | .str _, _, _, _, h => by simp only [checkConstraints]; exact h
  | .bool _, _, _, _, h => by simp only [checkConstraints]; exact h
  | .enum _ _, _, _, _, h => by simp only [checkConstraints]; exact h
  | .sfv _ _, _, _, _, h => by simp only [checkConstraints]; exact h
  | .list _, _, _, _, h => by simp only [checkConstraints]; exact h
  | .path _ _ _, _, _, _, h => by simp only [checkConstraints]; exact h
theorem attrs_alike : ∀ (attrs : List (Fld × AVal)) (p : List PTok) (r r' : Res Note), Alike r r' →
    AlikeE (checkAttrs Fld.pyName (tells lim) attrs p r) (checkAttrs Fld.pyName (checks lim) attrs p r')
  | [], _, _, _, h => by simp only [checkAttrs]; exact h
  | (f, v) :: rest, p, r, r', h => by
    have hv := constraints_alike v (p ++ [.key f.pyName]) r r' h
    have hrest := attrs_alike rest p
    cases v with
    | list l => simp only [checkAttrs]; exact AlikeE.seq (items_alike l _ 0 r r' h) hrest
    | _ => simp only [checkAttrs]; exact AlikeE.seq hv hrest
theorem items_alike : ∀ (xs : List AVal) (p : List PTok) (i : Nat) (r r' : Res Note), Alike r r' →
    AlikeE (checkItems Fld.pyName (tells lim) xs p i r) (checkItems Fld.pyName (checks lim) xs p i r')
  | [], _, _, _, _, h => by simp only [checkItems]; exact h
  | v :: vs, p, i, r, r', h => by
    simp only [checkItems]
    exact AlikeE.seq (constraints_alike v _ r r' h) (fun a b hab => items_alike vs p (i + 1) a b hab)
end

/-! ## texts that are not true -/

/-- the first failure of a loop -/
theorem forI_first {α : Type} {f : Nat → α → Chk Unit} : ∀ {xs : List α} {i : Nat}, forI f i xs = .error (.violated t l) →
    ∃ j x, xs[j]? = some x ∧ f (i + j) x = .error (.violated t l) ∧ ∀ k y, k < j → xs[k]? = some y → f (i + k) y = .ok ()
  | [], _, h => by simp [forI] at h
  | x :: xs, i, h => by
    rw [forI] at h
    rcases bind_fails h with h | ⟨u, hu, h⟩
    · exact ⟨0, x, rfl, h, fun k y hk => absurd hk (Nat.not_lt_zero k)⟩
    · obtain ⟨j, y, h1, h2, h3⟩ := forI_first h
      refine ⟨j + 1, y, by simpa using h1, by rw [show i + (j + 1) = i + 1 + j by omega]; exact h2, ?_⟩
      intro k z hk hz
      cases k with
      | zero => cases hz; exact hu
      | succ k => rw [show i + (k + 1) = i + 1 + k by omega]; exact h3 k z (by omega) (by simpa using hz)

/-- AASd-125 tells the first key that is wrong -/
theorem first_125 (h : Obj lim .reference v) (ht : tellMethod lim .reference_aasd_125 v = .error (.violated t l)) :
    ∃ i s, ModelRef v ∧ KeyAt v (i + 1) s ∧ s ∉ submodelElementTypes ∧ s ≠ py!"FragmentReference" ∧ l = .error ∧
      t = py!"Constraint AASd-125 violated: key " ++ Py.natStr i ++ py!" must be a FragmentKey" ∧
      ∀ j u, j < i → KeyAt v (j + 1) u → u ∈ submodelElementTypes ∨ u = py!"FragmentReference" := by
  obtain ⟨-, -, -, h4⟩ := ref_facts h
  obtain ⟨hm, ht⟩ := model_guard (x := fun l => forI _ 0 l.tail) h ht
  obtain ⟨i, k, hk, hb, hf⟩ := forI_first ht
  rw [List.getElem?_tail] at hk
  rw [(key_facts (h4 k (List.mem_of_getElem? hk))).1, ok_bind] at hb
  invert hb
  obtain ⟨hn, rfl, rfl⟩ := hb
  have hn : txt k .type_ ∉ fragmentKeys := by simpa [enumIn] using hn
  rw [fragment_iff, not_or] at hn
  refine ⟨i, _, hm, ⟨k, hk, rfl⟩, hn.1, hn.2, rfl, by rw [Nat.zero_add], ?_⟩
  rintro j u hj ⟨k', hk', rfl⟩
  have := hf j k' hj (by rw [List.getElem?_tail]; exact hk')
  rw [(key_facts (h4 k' (List.mem_of_getElem? hk'))).1, ok_bind] at this
  rw [← fragment_iff]
  split at this
  · rename_i he; simpa [enumIn] using he
  · cases this

theorem means_iff_005 : Means lim Number v py!"Constraint AASd-005 violated: version is given but no revision" .error ↔
    Set v .version ∧ ¬ Set v .revision := by
  refine ⟨fun h => ?_, fun h => .aasd005 h.1 h.2⟩
  generalize ht : py!"Constraint AASd-005 violated: version is given but no revision" = s at h
  generalize hl : Level.error = k at h
  cases h
  case aasd005 h1 h2 => exact ⟨h1, h2⟩
  case dataType h _ _ _ => cases h <;> simp at ht
  all_goals first | (simp at ht; done) | cases hl

theorem means_iff_119 : Means lim Number v
      py!"Constraint AASd-129 violated: kind must be Template as at least one qualifier is a TemplateQualifier" .error ↔ ¬ AASd129Top v := by
  refine ⟨fun h => ?_, .aasd129⟩
  generalize ht : py!"Constraint AASd-129 violated: kind must be Template as at least one qualifier is a TemplateQualifier" = s at h
  generalize hl : Level.error = k at h
  cases h
  case aasd129 h1 => exact h1
  case dataType h _ _ _ => cases h <;> simp at ht
  all_goals first | (simp at ht; done) | cases hl

theorem means_iff_observed : Means lim Number v (py!"Constraint violated: Property 'observed' must be a model reference @ " ++ place v) .error ↔
    ¬ ModelRef (get v .observed) := by
  refine ⟨fun h => ?_, .observed⟩
  generalize ht : py!"Constraint violated: Property 'observed' must be a model reference @ " ++ place v = s at h
  generalize hl : Level.error = k at h
  cases h
  case observed h1 => exact h1
  case dataType h _ _ _ => cases h <;> simp at ht
  all_goals first | (simp at ht; done) | cases hl

theorem means_iff_125 (i : Nat) : Means lim Number v (py!"Constraint AASd-125 violated: key " ++ Py.natStr i ++ py!" must be a FragmentKey") .error ↔
    ModelRef v ∧ 1 ≤ i ∧ ∃ s, KeyAt v i s ∧ s ∉ submodelElementTypes ∧ s ≠ py!"FragmentReference" := by
  refine ⟨fun h => ?_, fun ⟨h1, h2, s, h3, h4, h5⟩ => .aasd125 i s h1 h2 h3 h4 h5⟩
  generalize ht : py!"Constraint AASd-125 violated: key " ++ Py.natStr i ++ py!" must be a FragmentKey" = u at h
  generalize hl : Level.error = k at h
  cases h
  case aasd125 j s h1 h2 h3 h4 h5 =>
    have : i = j := by
      have := List.append_cancel_right ht
      exact natStr_inj (List.append_cancel_left this)
    subst this
    exact ⟨h1, h2, s, h3, h4, h5⟩
  case dataType h _ _ _ => cases h <;> simp at ht
  all_goals first | (simp at ht; done) | cases hl

theorem means_iff_108 (i : Nat) : Means lim Number v (py!"Constraint AASd-108 violated: Element " ++ Py.natStr i ++ py!" must be " ++
      txt v .typeValueListElement ++ py!" @ " ++ place v) .error ↔
    ∃ x, (elems v .value)[i]? = some x ∧ className x ≠ txt v .typeValueListElement ∧
      className x ∉ specializations (txt v .typeValueListElement) := by
  refine ⟨fun h => ?_, fun ⟨x, h1, h2, h3⟩ => .aasd108 i x h1 h2 h3⟩
  generalize ht : py!"Constraint AASd-108 violated: Element " ++ Py.natStr i ++ py!" must be " ++ txt v .typeValueListElement ++ py!" @ " ++
    place v = u at h
  generalize hl : Level.error = k at h
  cases h
  case aasd108 j x h1 h2 h3 =>
    have : i = j := natStr_inj (List.append_cancel_left (List.append_cancel_right (List.append_cancel_right (List.append_cancel_right
      (List.append_cancel_right ht)))))
    subst this
    exact ⟨x, h1, h2, h3⟩
  case dataType h _ _ _ => cases h <;> simp at ht
  all_goals first | (simp at ht; done) | cases hl

theorem types_functional {name : Str} {cs cs' ts ts' : List Str} (h : TypesFor name cs ts) (h' : TypesFor name cs' ts') :
    cs = cs' ∧ ts = ts' := by
  generalize hn : name = n at h'
  cases h <;> cases h' <;> first | exact ⟨rfl, rfl⟩ | (simp at hn; done)

theorem means_iff_dataType {name : Str} {cs ts : List Str} (hc : TypesFor name cs ts) {x : AVal} (hx : ContentAt v 0 x)
    (hm : txt v .category ∈ cs) :
    Means lim Number v (py!"Constraint " ++ name ++ py!" violated: embeddedDataSpecifications[0].dataType is invalid") .error ↔
      txt x .dataType ∉ ts := by
  constructor
  · intro h
    generalize ht : py!"Constraint " ++ name ++ py!" violated: embeddedDataSpecifications[0].dataType is invalid" = u at h
    generalize hl : Level.error = k at h
    cases h
    case dataType name' cs' ts' i y h1 h2 h3 h4 =>
      have hn : name = name' ∧ i = 0 := by
        have h0 : Py.natStr 0 = [48] := by decide
        have hlen : name.length = name'.length := by cases hc <;> cases h1 <;> rfl
        simp only [List.append_assoc] at ht
        have := List.append_cancel_left ht
        have h' := List.append_inj this hlen
        refine ⟨h'.1, ?_⟩
        have h2 : Py.natStr i ++ py!"].dataType is invalid" = Py.natStr 0 ++ py!"].dataType is invalid" := by
          have := h'.2
          rw [h0]
          simp at this ⊢
          exact this.symm
        exact natStr_inj (List.append_cancel_right h2)
      obtain ⟨rfl, rfl⟩ := hn
      obtain ⟨-, rfl⟩ := types_functional hc h1
      obtain ⟨ds, a1, a2, -⟩ := hx
      obtain ⟨ds', b1, b2, -⟩ := h3
      rw [a1] at b1; cases b1
      rw [← a2, b2]; exact h4
    all_goals first | (cases hc <;> simp at ht; done) | cases hl
  · intro h
    have := Means.dataType (lim := lim) (Number := Number) (v := v) name cs ts 0 x hc hm hx h
    simpa [show Py.natStr 0 = [48] from by decide] using this

end Verif.Aas
