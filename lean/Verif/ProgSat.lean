import Verif.ProgLemmas
import Verif.ApiLemmas

/-!
# A program logic

`Sat env P ret ab ra p`: however `p` is started inside a block, all requests it sends satisfy `P`, the value it returns satisfies `ret`, the
result it is aborted with satisfies `ab`, and the exception it raises satisfies `ra`.
-/

namespace Verif
open Spec

/-- how a program ends -/
def Out.Sat {α : Type} (ret : α → Prop) (ab : Res Str → Prop) (ra : Exc → Prop) : Out α → Prop
  | .val a => ret a
  | .aborted r => ab r
  | .raised e => ra e

variable {Q A : Type} (env : List Q → Q → A)

def Sat {α : Type} (P : Q → Prop) (ret : α → Prop) (ab : Res Str → Prop) (ra : Exc → Prop) (p : Prog Q A α) : Prop :=
  ∀ h, (∃ qs, (meaning env p true h).hist = h ++ qs ∧ ∀ q ∈ qs, P q) ∧ (meaning env p true h).out.Sat ret ab ra

variable {env} {P : Q → Prop} {ab : Res Str → Prop} {ra : Exc → Prop} {α β : Type} {ret : α → Prop}

theorem Sat.pure {a : α} (h : ret a) : Sat env P ret ab ra (.pure a) := fun hs => ⟨⟨[], by simp [meaning], by simp⟩, h⟩
theorem Sat.abort {r : Res Str} (h : ab r) : Sat env P ret ab ra (.abort r) := fun hs => ⟨⟨[], by simp [meaning], by simp⟩, h⟩
theorem Sat.abortMsg {m : Str} (h : ab (Res.new m .error)) : Sat env P ret ab ra (.abortMsg m) := Sat.abort h
theorem Sat.raise {e : Exc} (h : ra e) : Sat env P ret ab ra (.raise e) := fun hs => ⟨⟨[], by simp [meaning], by simp⟩, h⟩

theorem Sat.write {r : Res Str} {k : Prog Q A α} (h : Sat env P ret ab ra k) : Sat env P ret ab ra (.write r k) := by
  intro hs
  obtain ⟨⟨qs, h1, h2⟩, h3⟩ := h hs
  exact ⟨⟨qs, by simpa [meaning, Meaning.after] using h1, h2⟩, by simpa [meaning, Meaning.after] using h3⟩

theorem Sat.writeMsg {m : Str} {k : Prog Q A α} (h : Sat env P ret ab ra k) : Sat env P ret ab ra (.writeMsg m k) := Sat.write h

theorem Sat.query {q : Q} {k : A → Prog Q A α} (hq : P q) (h : ∀ hs, Sat env P ret ab ra (k (env hs q))) : Sat env P ret ab ra (.query q k) := by
  intro hs
  obtain ⟨⟨qs, h1, h2⟩, h3⟩ := h hs (hs ++ [q])
  refine ⟨⟨q :: qs, by simp [meaning, h1], fun x hx => ?_⟩, by simpa [meaning] using h3⟩
  rcases List.mem_cons.mp hx with rfl | hx
  · exact hq
  · exact h2 x hx

theorem Sat.bind {ret' : β → Prop} {p : Prog Q A α} {f : α → Prog Q A β} (hp : Sat env P ret ab ra p)
    (hf : ∀ a, ret a → Sat env P ret' ab ra (f a)) : Sat env P ret' ab ra (p.bind f) := by
  intro hs
  obtain ⟨⟨qs, h1, h2⟩, h3⟩ := hp hs
  rw [meaning_bind]
  unfold Meaning.andThen
  cases ho : (meaning env p true hs).out with
  | val a =>
    rw [ho] at h3
    obtain ⟨⟨qs', h1', h2'⟩, h3'⟩ := hf a h3 (meaning env p true hs).hist
    refine ⟨⟨qs ++ qs', h1'.trans (by rw [h1, List.append_assoc]), fun x hx => ?_⟩, by simpa [Meaning.after] using h3'⟩
    rcases List.mem_append.mp hx with hx | hx
    · exact h2 x hx
    · exact h2' x hx
  | aborted r => rw [ho] at h3; exact ⟨⟨qs, h1, h2⟩, h3⟩
  | raised e => rw [ho] at h3; exact ⟨⟨qs, h1, h2⟩, h3⟩

theorem Sat.conseq {ret' : α → Prop} {ab' : Res Str → Prop} {ra' : Exc → Prop} {P' : Q → Prop} {p : Prog Q A α} (h : Sat env P ret ab ra p)
    (hP : ∀ q, P q → P' q) (hr : ∀ a, ret a → ret' a) (ha : ∀ r, ab r → ab' r) (he : ∀ e, ra e → ra' e) : Sat env P' ret' ab' ra' p := by
  intro hs
  obtain ⟨⟨qs, h1, h2⟩, h3⟩ := h hs
  refine ⟨⟨qs, h1, fun q hq => hP q (h2 q hq)⟩, ?_⟩
  cases ho : (meaning env p true hs).out with
  | val a => rw [ho] at h3; exact hr a h3
  | aborted r => rw [ho] at h3; exact ha r h3
  | raised e => rw [ho] at h3; exact he e h3

/-- A block that does not catch foreign exceptions. The code behind it sees the value of its body, if it was not aborted. -/
theorem Sat.block {ret' : β → Prop} {ab' : Res Str → Prop} {r : Res Str} {body : Prog Q A β} {k : Res Str → Option β → Prog Q A α}
    (hb : Sat env P ret' ab' ra body)
    (hk : ∀ x v, (∀ b, v = some b → ret' b) → Sat env P ret ab ra (k x v)) : Sat env P ret ab ra (.block r false body k) := by
  intro hs
  obtain ⟨⟨qs, h1, h2⟩, h3⟩ := hb hs
  simp only [meaning]
  cases ho : (meaning env body true hs).out with
  | val b =>
    rw [ho] at h3
    obtain ⟨⟨qs', h1', h2'⟩, h3'⟩ := hk (Ent.blk r (meaning env body true hs).ents).toRes (some b) (fun _ h => by cases h; exact h3)
      (meaning env body true hs).hist
    refine ⟨⟨qs ++ qs', h1'.trans (by rw [h1, List.append_assoc]), fun x hx => ?_⟩, by simpa [Meaning.after] using h3'⟩
    rcases List.mem_append.mp hx with hx | hx
    · exact h2 x hx
    · exact h2' x hx
  | aborted x =>
    obtain ⟨⟨qs', h1', h2'⟩, h3'⟩ := hk (Ent.blk r ((meaning env body true hs).ents ++ [.leaf x])).toRes none (fun _ h => by cases h)
      (meaning env body true hs).hist
    refine ⟨⟨qs ++ qs', h1'.trans (by rw [h1, List.append_assoc]), fun x hx => ?_⟩, by simpa [Meaning.after] using h3'⟩
    rcases List.mem_append.mp hx with hx | hx
    · exact h2 x hx
    · exact h2' x hx
  | raised e => rw [ho] at h3; exact ⟨⟨qs, h1, h2⟩, h3⟩

/-- the rule for `try ... except`: exceptions are changed -/
theorem Sat.mapExc {f : Exc → Exc} {ra' : Exc → Prop} {p : Prog Q A α} (h : Sat env P ret ab ra p) (hf : ∀ e, ra e → ra' (f e)) :
    Sat env P ret ab ra' (Generate.mapExc f p) := by
  intro hs
  obtain ⟨-, h2, h3⟩ := Api.mapExc_meaning env f p hs
  obtain ⟨hq, ho⟩ := h hs
  rw [h2, h3]
  refine ⟨hq, ?_⟩
  cases hm : (meaning env p true hs).out with
  | val a => rw [hm] at ho; exact ho
  | aborted r => rw [hm] at ho; exact ho
  | raised e => rw [hm] at ho; exact hf e ho

end Verif
