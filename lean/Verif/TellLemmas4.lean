import Verif.TellLemmas3
import Verif.TellLemmas5
import Verif.Report
import Verif.RepairLemmas2

/-! # The kind of mistake can be read from the text; reports with texts -/

namespace Verif.Parse
open Verif Verif.Spec.Parse Verif.Spec Verif.Aas

section
variable {C E S F : Type} {W : Words} {sc : Schema C E S F} {lim : Option Nat} {en : E → Str}

theorem repr_head (s : Str) : py!"'" <+: W.repr s ∨ py!"\"" <+: W.repr s := by
  unfold Words.repr
  dsimp only
  split
  · exact .inr ⟨_, rfl⟩
  · exact .inl ⟨_, rfl⟩

theorem kind_format {c : SfvCls} {s t : Str} (h : FormatText lim c s t) : kindOf t = .format := by
  cases h <;> simp [kindOf, limitWords]

theorem kind_quote {s t : Str} : kindOf (W.repr s ++ t) = .notInEnum := by
  unfold Words.repr
  dsimp only
  split <;> simp [kindOf]

theorem kind_says {ty : Ty C E SfvCls} {sc : Schema C E SfvCls F} {j : Json} {k : Kind} {t : Str} (h : Says W sc (FormatText lim) en ty j k t) :
    kindOf t = k := by
  cases h with
  | format h => exact kind_format h
  | notInEnum => rw [List.append_assoc]; exact kind_quote
  | _ => simp [kindOf, ← List.reverse_prefix]

theorem kind_xsays {ty : Ty C E SfvCls} {x : Xml} {k : Kind} {t : Str} (h : XSays W (FormatText lim) en ty x k t) : kindOf t = k := by
  cases h with
  | format h => exact kind_format h
  | notInEnum => rw [List.append_assoc]; exact kind_quote
  | _ => simp [kindOf]

end

theorem note_line (n : Note) : n.line.note = n := by
  obtain ⟨k, p⟩ := n
  cases k <;> rfl

mutual
theorem quiet_line : ∀ (r : Res Note), quiet (r.mapMsg Note.line) = r
  | .mk m l ss => by
    have := quiet_lines ss
    simp only [quiet, Res.mapMsg, note_line] at this ⊢
    rw [this]
theorem quiet_lines : ∀ (rs : List (Res Note)), Res.mapMsgL Line.note (Res.mapMsgL Note.line rs) = rs
  | [] => rfl
  | r :: rs => by
    have h1 := quiet_line r
    have h2 := quiet_lines rs
    simp only [quiet] at h1
    simp only [Res.mapMsgL, h1, h2]
end

/-- the report with texts is the report without them, with texts added -/
theorem tellAndCheck_quiet {A C E S F : Type} {W : Words} {tops : TOps A} {ops : Ops A} {sc : Schema C E S F} {tx : Texts E S} (hs : Same tops ops)
    (ht : SameTexts tx sc) (name : F → Str) (checks : C → List (Val C E S F → Chk Unit)) (n : Nat) (ty : Ty C E S) (a : A) :
    (tellAndCheck W tops sc tx name checks n ty a).map (fun p => (quiet p.1, p.2)) = parseAndCheck ops sc name checks n ty a := by
  unfold tellAndCheck parseAndCheck
  have h := tellF_tells (W := W) hs ht n ty a (Res.new (heading py!"Check meta model"))
  have hq : quiet (Res.new (heading py!"Check meta model")) = Res.new ⟨.title py!"Check meta model", []⟩ := rfl
  have hq' : quiet (Res.new (heading py!"Check")) = Res.new ⟨.title py!"Check", []⟩ := rfl
  rw [hq] at h
  obtain ⟨e, h1, h2⟩ | ⟨v, ls, h1, h2, -⟩ := h
  · rw [h1, h2]; rfl
  · rw [h1, h2]
    dsimp only
    rw [← hq', ← quiet_append, quiet_ok]
    split
    · cases checkConstraints name checks v [] (Res.new ⟨.title py!"Check constraints", []⟩) with
      | error e => rfl
      | ok rc => simp only [Except.map, quiet_append, quiet_line]
    · simp only [Except.map, quiet_append]
      rfl

section
variable {C E S F : Type} {sc : Schema C E S F}

theorem due_unique (hs : Sane sc) (hd : DistinctKeys sc) {ty u : Ty C E S} {j : Json} {segs : List Str} (h : Due sc ty j segs u) :
    WF j → ∀ u', Due sc ty j segs u' → u = u' := by
  induction h with
  | here => intro _ u' h'; cases h'; rfl
  | member h1 h2 h3 h4 ih =>
    intro hw u' h'
    cases hw with
    | obj hnd hws =>
      cases h' with
      | member g1 g2 g3 g4 =>
        cases readAs_one hs hnd h1 g1
        cases attr_one (hd _) h2 g2
        have := (dictGet_of_mem hnd h3).symm.trans (dictGet_of_mem hnd g3)
        cases this
        exact ih (hws _ h3) _ g4
  | item hi h ih =>
    intro hw u' h'
    generalize hk : Py.natStr _ :: _ = segs at h'
    cases h' with
    | here => cases hk
    | item hi' h' =>
      injection hk with hk1 hk2
      subst hk2
      cases Aas.natStr_inj hk1
      rw [hi] at hi'
      cases hi'
      cases hw with
      | arr hws => exact ih (hws _ (List.mem_of_getElem? hi)) _ h'

theorem xdue_unique (hs : Sane sc) (hx : XmlNames sc) (hd : DistinctKeys sc) {ty u : Ty C E S} {x : Xml} {segs : List Str} (h : XDue sc ty x segs u) :
    ∀ u', XDue sc ty x segs u' → u = u' := by
  induction h with
  | here => intro u' h'; cases h'; rfl
  | member h1 h2 h3 h4 h5 h6 h7 h8 ih =>
    intro u' h'
    cases h' with
    | member g1 g2 g3 g4 g5 g6 g7 g8 =>
      cases content_one h1.2.2.1 g1.2.2.1
      cases xreadAs_one hs hx h2 g2
      cases attr_one (hd _) h3 g3
      have := last_tag_unique (P := fun y => y.tag = xmlns ++ _) h5 g5 h6 g6 (h4.symm.trans g4)
      cases this
      cases inside_one h7 g7
      exact ih _ g8
  | item hi h ih =>
    intro u' h'
    generalize hk : Py.natStr _ :: _ = segs at h'
    cases h' with
    | here => cases hk
    | item hi' h' =>
      injection hk with hk1 hk2
      subst hk2
      cases Aas.natStr_inj hk1
      rw [hi] at hi'
      cases hi'
      exact ih _ h'

end

end Verif.Parse
