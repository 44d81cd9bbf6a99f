import Verif.Wording
import Verif.Spec.Places
import Verif.PathLemmas3
import Verif.HtmlLemmas

/-! # Texts of paths can be read back, and lead to the part of the document -/

namespace Verif.Parse
open Verif Verif.Spec.Parse

theorem cut_unique {c : Nat} : ∀ {a b x y : Str}, c ∉ a → c ∉ b → a ++ c :: x = b ++ c :: y → a = b ∧ x = y
  | [], [], x, y, _, _, h => by simpa using h
  | [], d :: b, x, y, _, hb, h => by
    simp only [List.nil_append, List.cons_append, List.cons.injEq] at h
    exact absurd (h.1 ▸ List.mem_cons_self) hb
  | d :: a, [], x, y, ha, _, h => by
    simp only [List.nil_append, List.cons_append, List.cons.injEq] at h
    exact absurd (h.1 ▸ List.mem_cons_self) ha
  | d :: a, e :: b, x, y, ha, hb, h => by
    simp only [List.cons_append, List.cons.injEq] at h
    obtain ⟨rfl, rfl⟩ := cut_unique (fun hm => ha (.tail _ hm)) (fun hm => hb (.tail _ hm)) h.2
    exact ⟨by rw [h.1], rfl⟩

theorem cut_last {c : Nat} {a b x y : Str} (hx : c ∉ x) (hy : c ∉ y) (h : a ++ c :: x = b ++ c :: y) : a = b ∧ x = y := by
  have := congrArg List.reverse h
  simp only [List.reverse_append, List.reverse_cons, List.append_assoc, List.singleton_append] at this
  obtain ⟨h1, h2⟩ := cut_unique (by simpa using hx) (by simpa using hy) this
  exact ⟨List.reverse_inj.mp h2, List.reverse_inj.mp h1⟩

theorem join_inj : ∀ {l l' : List Str}, (∀ s ∈ l, s ≠ [] ∧ pc! '/' ∉ s) → (∀ s ∈ l', s ≠ [] ∧ pc! '/' ∉ s) →
    Py.join py!"/" l = Py.join py!"/" l' → l = l'
  | [], [], _, _, _ => rfl
  | [], [s], _, h', h => absurd h.symm (h' s (.head _)).1
  | [s], [], h, _, he => absurd he (h s (.head _)).1
  | [], s :: t :: r, _, h', h => by simp [Py.join] at h
  | s :: t :: r, [], _, _, h => by simp [Py.join] at h
  | [s], [t], _, _, h => by simpa [Py.join] using h
  | [s], s' :: t :: r, h, _, he => by
    simp only [Py.join] at he
    exact absurd (by rw [he]; simp) (h s (.head _)).2
  | s' :: t :: r, [s], _, h, he => by
    simp only [Py.join] at he
    exact absurd (by rw [← he]; simp) (h s (.head _)).2
  | s :: t :: r, s' :: t' :: r', h, h', he => by
    simp only [Py.join, List.append_assoc, List.cons_append, List.nil_append] at he
    obtain ⟨rfl, hr⟩ := cut_unique (h s (.head _)).2 (h' s' (.head _)).2 he
    rw [join_inj (fun s hs => h s (.tail _ hs)) (fun s hs => h' s (.tail _ hs)) hr]

theorem names_unique {t : Str} {l l' : List Str} (h : Spec.Parse.Names t l) (h' : Spec.Parse.Names t l') : l = l' :=
  join_inj h.2 h'.2 (List.append_cancel_left (h.1.symm.trans h'.1))

theorem place_unique {line : Str} {l l' : List Str} (h : Place line l) (h' : Place line l') : l = l' := by
  obtain ⟨f, t, he, hs, hn⟩ := h
  obtain ⟨f', t', he', hs', hn'⟩ := h'
  have e : (f ++ py!" @") ++ (pc! ' ') :: t = (f' ++ py!" @") ++ (pc! ' ') :: t' := by
    have := he.symm.trans he'
    simpa using this
  obtain ⟨-, rfl⟩ := cut_last hs hs' e
  exact names_unique hn hn'

theorem leads_unique {segs : List Str} {j u : Json} (h : Leads segs j u) : WF j → ∀ u', Leads segs j u' → u = u' := by
  induction h with
  | here => intro _ u' h'; cases h'; rfl
  | member hm _ ih =>
    intro hw u' h'
    cases hw with
    | obj hnd hws =>
      cases h' with
      | member hm' h' =>
        have := (dictGet_of_mem hnd hm).symm.trans (dictGet_of_mem hnd hm')
        cases this
        exact ih (hws _ hm) _ h'
  | item hi _ ih =>
    intro hw u' h'
    generalize hk : Py.natStr _ :: _ = segs at h'
    generalize hj : Json.arr _ = j at h'
    cases h' with
    | here => cases hk
    | member => cases hj
    | item hi' h' =>
      cases hj
      injection hk with hk1 hk2
      subst hk2
      have := Aas.natStr_inj hk1
      subst this
      rw [hi] at hi'
      cases hi'
      cases hw with
      | arr hws => exact ih (hws _ (List.mem_of_getElem? hi)) _ h'

theorem last_tag_unique {P : Xml → Prop} : ∀ {pre pre' : List Xml} {y y' : Xml} {post post' : List Xml}, P y → P y' →
    (∀ u ∈ post, ¬ P u) → (∀ u ∈ post', ¬ P u) → pre ++ y :: post = pre' ++ y' :: post' → y = y'
  | [], [], y, y', post, post', _, _, _, _, h => by simp only [List.nil_append, List.cons.injEq] at h; exact h.1
  | [], u :: pre', y, y', post, post', _, hy', hp, _, h => by
    simp only [List.nil_append, List.cons_append, List.cons.injEq] at h
    exact absurd hy' (hp y' (by rw [h.2]; simp))
  | u :: pre, [], y, y', post, post', hy, _, _, hp', h => by
    simp only [List.nil_append, List.cons_append, List.cons.injEq] at h
    exact absurd hy (hp' y (by rw [← h.2]; simp))
  | u :: pre, u' :: pre', y, y', post, post', hy, hy', hp, hp', h => by
    simp only [List.cons_append, List.cons.injEq] at h
    exact last_tag_unique hy hy' hp hp' h.2

theorem content_one {x d d' : Xml} (h : Spec.Parse.Content x d) (h' : Spec.Parse.Content x d') : d = d' := by
  rcases h with ⟨ht, h⟩ | ⟨ht, rfl⟩ <;> rcases h' with ⟨ht', h'⟩ | ⟨ht', rfl⟩
  · rw [h] at h'; cases h'; rfl
  · exact absurd ht ht'
  · exact absurd ht' ht
  · rfl

theorem inside_one {d y z z' : Xml} (h : Inside d y z) (h' : Inside d y z') : z = z' := by
  rcases h with ⟨ht, h⟩ | ⟨ht, rfl⟩ <;> rcases h' with ⟨ht', h'⟩ | ⟨ht', rfl⟩
  · rw [h] at h'; cases h'; rfl
  · exact absurd ht ht'
  · exact absurd ht' ht
  · rfl

theorem xleads_unique {segs : List Str} {x u : Xml} (h : XLeads segs x u) : ∀ u', XLeads segs x u' → u = u' := by
  induction h with
  | here => intro u' h'; cases h'; rfl
  | member hk hc hch ht hl hi _ ih =>
    intro u' h'
    cases h' with
    | item => exact absurd rfl (hk _)
    | member hk' hc' hch' ht' hl' hi' h' =>
      cases content_one hc hc'
      have := last_tag_unique (P := fun y => y.tag = xmlns ++ _) ht ht' hl hl' (hch.symm.trans hch')
      cases this
      cases inside_one hi hi'
      exact ih _ h'
  | item hi _ ih =>
    intro u' h'
    generalize hk : Py.natStr _ :: _ = segs at h'
    cases h' with
    | here => cases hk
    | member hk' =>
      injection hk with hk1 hk2
      exact absurd hk1.symm (hk' _)
    | item hi' h' =>
      injection hk with hk1 hk2
      subst hk2
      cases Aas.natStr_inj hk1
      rw [hi] at hi'
      cases hi'
      exact ih _ h'

section
variable {C E S F : Type}

/-- the names of attributes can be told from numbers, and have no slashes and spaces -/
def Legible (sc : Schema C E S F) : Prop := ∀ c, ∀ key ∈ allKeys (sc.fields c), key ≠ [] ∧ pc! '/' ∉ key ∧ pc! ' ' ∉ key ∧ ∀ i, key ≠ Py.natStr i

/-- such an element of a path -/
def PTok.Plain (t : PTok) : Prop := t.text ≠ [] ∧ pc! '/' ∉ t.text ∧ pc! ' ' ∉ t.text ∧ ∀ k i, t = .key k → k ≠ Py.natStr i

theorem idx_plain (i : Nat) : (PTok.idx i).Plain := by
  have h := Res.natStr_digits i
  refine ⟨Aas.natStr_ne_nil i, fun hm => ?_, fun hm => ?_, by intro k i h; cases h⟩
  · have := h _ hm; revert this; decide
  · have := h _ hm; revert this; decide

theorem join_space : ∀ {l : List Str}, (∀ s ∈ l, pc! ' ' ∉ s) → pc! ' ' ∉ Py.join py!"/" l
  | [], _ => by simp [Py.join]
  | [s], h => h s (.head _)
  | s :: t :: r, h => by
    have := join_space (l := t :: r) fun s hs => h s (.tail _ hs)
    simp only [Py.join, List.mem_append, not_or]
    exact ⟨⟨h s (.head _), by decide⟩, this⟩

theorem path_names {p : List PTok} (h : ∀ t ∈ p, t.Plain) : Spec.Parse.Names (pathText p) (p.map PTok.text) :=
  ⟨rfl, fun s hs => by obtain ⟨t, ht, rfl⟩ := List.mem_map.mp hs; exact ⟨(h t ht).1, (h t ht).2.1⟩⟩

theorem path_space {p : List PTok} (h : ∀ t ∈ p, t.Plain) : pc! ' ' ∉ pathText p := by
  rw [pathText, List.mem_append, not_or]
  refine ⟨by decide, join_space fun s hs => ?_⟩
  obtain ⟨t, ht, rfl⟩ := List.mem_map.mp hs
  exact (h t ht).2.2.1

theorem text_inj {t t' : PTok} (h : t.Plain) (h' : t'.Plain) (he : t.text = t'.text) : t = t' := by
  cases t with
  | key k =>
    cases t' with
    | key k' => exact congrArg _ he
    | idx i => exact absurd he (h.2.2.2 k i rfl)
  | idx i =>
    cases t' with
    | key k' => exact absurd he.symm (h'.2.2.2 k' i rfl)
    | idx i' => exact congrArg _ (Aas.natStr_inj he)

theorem texts_inj : ∀ {p p' : List PTok}, (∀ t ∈ p, t.Plain) → (∀ t ∈ p', t.Plain) → p.map PTok.text = p'.map PTok.text → p = p'
  | [], [], _, _, _ => rfl
  | [], _ :: _, _, _, h => by cases h
  | _ :: _, [], _, _, h => by cases h
  | t :: p, t' :: p', h, h', he => by
    simp only [List.map_cons, List.cons.injEq] at he
    rw [text_inj (h t (.head _)) (h' t' (.head _)) he.1,
      texts_inj (fun s hs => h s (.tail _ hs)) (fun s hs => h' s (.tail _ hs)) he.2]

theorem line_place (say : Kind → Str) {n : Note} (h : ∀ t ∈ n.path, t.Plain) : Place (lineText say n) (n.path.map PTok.text) :=
  ⟨say n.kind, pathText n.path, rfl, path_space h, path_names h⟩

/-- different lines have different texts -/
theorem line_inj {say : Kind → Str} (hsay : ∀ k k', say k = say k' → k = k') {n n' : Note} (h : ∀ t ∈ n.path, t.Plain) (h' : ∀ t ∈ n'.path, t.Plain)
    (he : lineText say n = lineText say n') : n = n' := by
  have e : (say n.kind ++ py!" @") ++ (pc! ' ') :: pathText n.path = (say n'.kind ++ py!" @") ++ (pc! ' ') :: pathText n'.path := by
    simpa [lineText] using he
  obtain ⟨h1, h2⟩ := cut_last (path_space h) (path_space h') e
  have hk := hsay _ _ (List.append_cancel_right h1)
  have hp : n.path = n'.path := texts_inj h h' (names_unique (path_names h) (h2 ▸ path_names h'))
  cases n; cases n'; simp_all

/-- mistakes are found along their paths -/
theorem Fault.leads {sc : Schema C E S F} (hl : Legible sc) {ty : Ty C E S} {j : Json} {p : List PTok} {m : Note} (h : Fault sc ty j p m) :
    ∃ q part ty', m.path = p ++ q ∧ (∀ t ∈ q, t.Plain) ∧ Leads (q.map PTok.text) j part ∧ Due sc ty j (q.map PTok.text) ty' ∧ Fault sc ty' part [] ⟨m.kind, []⟩ := by
  have base : ∀ {ty : Ty C E S} {j : Json} {p : List PTok} {k : Kind}, Fault sc ty j [] ⟨k, []⟩ →
      ∃ q part ty', (Note.mk k p).path = p ++ q ∧ (∀ t ∈ q, t.Plain) ∧ Leads (q.map PTok.text) j part ∧ Due sc ty j (q.map PTok.text) ty' ∧ Fault sc ty' part [] ⟨k, []⟩ := by
    intro ty j p k h
    exact ⟨[], j, ty, by simp, by simp, .here _, .here _ _, h⟩
  induction h with
  | notString h1 h2 => exact base (.notString h1 h2)
  | notInEnum h1 => exact base (.notInEnum h1)
  | format h1 => exact base (.format h1)
  | notBool h1 => exact base (.notBool h1)
  | @notList it ae _ _ h1 => exact base (ty := .list it ae) (.notList h1)
  | @emptyList it _ => exact base (ty := .list it false) .emptyList
  | item hi _ ih =>
    obtain ⟨q, part, ty', h1, h2, h3, h5, h4⟩ := ih
    exact ⟨.idx _ :: q, part, ty', by rw [h1]; simp, List.forall_mem_cons.mpr ⟨idx_plain _, h2⟩, .item hi h3, .item hi h5, h4⟩
  | notObject h1 => exact base (.notObject h1)
  | noModelType h1 h2 => exact base (.noModelType h1 h2)
  | invalidModelType h1 h2 h3 => exact base (.invalidModelType h1 h2 h3)
  | missingModelType h1 h2 h3 => exact base (.missingModelType h1 h2 h3)
  | wrongModelType h1 h2 h3 h4 => exact base (.wrongModelType h1 h2 h3 h4)
  | missing h1 h2 h3 => exact base (.missing h1 h2 h3)
  | unknown h1 h2 h3 h4 => exact base (.unknown h1 h2 h3 h4)
  | value h1 h2 h3 _ ih =>
    obtain ⟨q, part, ty', g1, g2, g3, g5, g4⟩ := ih
    obtain ⟨k1, k2, k3, k4⟩ := hl _ _ (mem_allKeys.mpr ⟨_, _, _, h2⟩)
    exact ⟨.key _ :: q, part, ty', by rw [g1]; simp, List.forall_mem_cons.mpr ⟨⟨k1, k2, k3, by rintro _ i ⟨⟩; exact k4 i⟩, g2⟩, .member h3 g3, .member h1 h2 h3 g5, g4⟩

/-- the same for XML -/
theorem XFault.leads {sc : Schema C E S F} (hl : Legible sc) {ty : Ty C E S} {x : Xml} {p : List PTok} {m : Note} (h : XFault sc ty x p m) :
    ∃ q part ty', m.path = p ++ q ∧ (∀ t ∈ q, t.Plain) ∧ XLeads (q.map PTok.text) x part ∧ XDue sc ty x (q.map PTok.text) ty' ∧ XFault sc ty' part [] ⟨m.kind, []⟩ := by
  have base : ∀ {ty : Ty C E S} {x : Xml} {p : List PTok} {k : Kind}, XFault sc ty x [] ⟨k, []⟩ →
      ∃ q part ty', (Note.mk k p).path = p ++ q ∧ (∀ t ∈ q, t.Plain) ∧ XLeads (q.map PTok.text) x part ∧ XDue sc ty x (q.map PTok.text) ty' ∧ XFault sc ty' part [] ⟨k, []⟩ := by
    intro ty x p k h
    exact ⟨[], x, ty, by simp, by simp, .here _, .here _ _, h⟩
  induction h with
  | children h1 h2 => exact base (.children h1 h2)
  | notInEnum h1 h2 => exact base (.notInEnum h1 h2)
  | format h1 h2 => exact base (.format h1 h2)
  | @emptyList it _ _ h1 => exact base (ty := .list it false) (.emptyList h1)
  | item hi _ ih =>
    obtain ⟨q, part, ty', h1, h2, h3, h5, h4⟩ := ih
    exact ⟨.idx _ :: q, part, ty', by rw [h1]; simp, List.forall_mem_cons.mpr ⟨idx_plain _, h2⟩, .item hi h3, .item hi h5, h4⟩
  | noContent h1 h2 => exact base (.noContent h1 h2)
  | invalidModelType h1 h2 h3 h4 => exact base (.invalidModelType h1 h2 h3 h4)
  | bad h1 h2 => exact base (.bad h1 h2)
  | wrongModelType h1 h2 h3 h4 h5 => exact base (.wrongModelType h1 h2 h3 h4 h5)
  | missing h1 h2 h3 h4 => exact base (.missing h1 h2 h3 h4)
  | unknown h1 h2 h3 h4 h5 => exact base (.unknown h1 h2 h3 h4 h5)
  | value h1 h2 h3 h4 h5 h6 h7 _ ih =>
    obtain ⟨q, part, ty', g1, g2, g3, g5, g4⟩ := ih
    obtain ⟨k1, k2, k3, k4⟩ := hl _ _ (mem_allKeys.mpr ⟨_, _, _, h3⟩)
    exact ⟨.key _ :: q, part, ty', by rw [g1]; simp, List.forall_mem_cons.mpr ⟨⟨k1, k2, k3, by rintro _ i ⟨⟩; exact k4 i⟩, g2⟩, .member k4 h1.2.2.1 h4 h5 h6 h7 g3,
      .member h1 h2 h3 h4 h5 h6 h7 g5, g4⟩

/-- a mistake is told the same wherever the value is -/
theorem Fault.shift {sc : Schema C E S F} {ty : Ty C E S} {j : Json} {p : List PTok} {m : Note} (h : Fault sc ty j p m) :
    ∃ q, m.path = p ++ q ∧ ∀ p', Fault sc ty j p' ⟨m.kind, p' ++ q⟩ := by
  have base : ∀ {ty : Ty C E S} {j : Json} {p : List PTok} {k : Kind}, (∀ p', Fault sc ty j p' ⟨k, p'⟩) →
      ∃ q, (Note.mk k p).path = p ++ q ∧ ∀ p', Fault sc ty j p' ⟨(Note.mk k p).kind, p' ++ q⟩ :=
    fun h => ⟨[], by simp, fun p' => by simpa using h p'⟩
  induction h with
  | notString h1 h2 => exact base fun _ => .notString h1 h2
  | notInEnum h1 => exact base fun _ => .notInEnum h1
  | format h1 => exact base fun _ => .format h1
  | notBool h1 => exact base fun _ => .notBool h1
  | notList h1 => exact base fun _ => .notList h1
  | emptyList => exact base fun _ => .emptyList
  | @item it ae l i j p n hi _ ih =>
    obtain ⟨q, h1, h2⟩ := ih
    exact ⟨.idx i :: q, by rw [h1]; simp, fun p' => .item hi (by have := h2 (p' ++ [.idx i]); simpa using this)⟩
  | notObject h1 => exact base fun _ => .notObject h1
  | noModelType h1 h2 => exact base fun _ => .noModelType h1 h2
  | invalidModelType h1 h2 h3 => exact base fun _ => .invalidModelType h1 h2 h3
  | missingModelType h1 h2 h3 => exact base fun _ => .missingModelType h1 h2 h3
  | wrongModelType h1 h2 h3 h4 => exact base fun _ => .wrongModelType h1 h2 h3 h4
  | missing h1 h2 h3 => exact base fun _ => .missing h1 h2 h3
  | unknown h1 h2 h3 h4 => exact base fun _ => .unknown h1 h2 h3 h4
  | @value c c' kvs p f key ty req j n h1 h2 h3 _ ih =>
    obtain ⟨q, g1, g2⟩ := ih
    exact ⟨.key key :: q, by rw [g1]; simp, fun p' => .value h1 h2 h3 (by have := g2 (p' ++ [.key key]); simpa using this)⟩

theorem XFault.shift {sc : Schema C E S F} {ty : Ty C E S} {x : Xml} {p : List PTok} {m : Note} (h : XFault sc ty x p m) :
    ∃ q, m.path = p ++ q ∧ ∀ p', XFault sc ty x p' ⟨m.kind, p' ++ q⟩ := by
  have base : ∀ {ty : Ty C E S} {x : Xml} {p : List PTok} {k : Kind}, (∀ p', XFault sc ty x p' ⟨k, p'⟩) →
      ∃ q, (Note.mk k p).path = p ++ q ∧ ∀ p', XFault sc ty x p' ⟨(Note.mk k p).kind, p' ++ q⟩ :=
    fun h => ⟨[], by simp, fun p' => by simpa using h p'⟩
  induction h with
  | children h1 h2 => exact base fun _ => .children h1 h2
  | notInEnum h1 h2 => exact base fun _ => .notInEnum h1 h2
  | format h1 h2 => exact base fun _ => .format h1 h2
  | emptyList h1 => exact base fun _ => .emptyList h1
  | @item it ae x i y p n hi _ ih =>
    obtain ⟨q, h1, h2⟩ := ih
    exact ⟨.idx i :: q, by rw [h1]; simp, fun p' => .item hi (by have := h2 (p' ++ [.idx i]); simpa using this)⟩
  | noContent h1 h2 => exact base fun _ => .noContent h1 h2
  | invalidModelType h1 h2 h3 h4 => exact base fun _ => .invalidModelType h1 h2 h3 h4
  | bad h1 h2 => exact base fun _ => .bad h1 h2
  | wrongModelType h1 h2 h3 h4 h5 => exact base fun _ => .wrongModelType h1 h2 h3 h4 h5
  | missing h1 h2 h3 h4 => exact base fun _ => .missing h1 h2 h3 h4
  | unknown h1 h2 h3 h4 h5 => exact base fun _ => .unknown h1 h2 h3 h4 h5
  | @value c c' x d p f key ty req pre y post z n h1 h2 h3 h4 h5 h6 h7 _ ih =>
    obtain ⟨q, g1, g2⟩ := ih
    exact ⟨.key key :: q, by rw [g1]; simp, fun p' => .value h1 h2 h3 h4 h5 h6 h7 (by have := g2 (p' ++ [.key key]); simpa using this)⟩

/-- what is wrong with a part is wrong with the document, at this place -/
theorem Due.fault {sc : Schema C E S F} (hl : Legible sc) {ty ty' : Ty C E S} {j : Json} {segs : List Str} (h : Due sc ty j segs ty') :
    WF j → ∀ part k, Leads segs j part → Fault sc ty' part [] ⟨k, []⟩ → ∀ p, ∃ q, (∀ t ∈ q, t.Plain) ∧ q.map PTok.text = segs ∧ Fault sc ty j p ⟨k, p ++ q⟩ := by
  induction h with
  | here ty j =>
    intro _ part k hp hf p
    cases hp
    obtain ⟨q, h1, h2⟩ := Fault.shift hf
    simp only [List.nil_append, List.nil_eq] at h1
    subst h1
    exact ⟨[], by simp, rfl, h2 p⟩
  | @member c c' kvs f k req r v ty u hr hf hm _ ih =>
    intro hw part kd hp hft p
    cases hw with
    | obj hnd hws =>
      cases hp with
      | member hm' hp =>
        have := (dictGet_of_mem hnd hm).symm.trans (dictGet_of_mem hnd hm')
        cases this
        obtain ⟨q, h1, h2, h3⟩ := ih (hws _ hm) _ _ hp hft (p ++ [.key k])
        obtain ⟨k1, k2, k3, k4⟩ := hl _ _ (mem_allKeys.mpr ⟨_, _, _, hf⟩)
        exact ⟨.key k :: q, List.forall_mem_cons.mpr ⟨⟨k1, k2, k3, by rintro _ i ⟨⟩; exact k4 i⟩, h1⟩, by simp [h2, PTok.text], .value hr hf hm (by simpa using h3)⟩
  | @item it ae i r l v u hi _ ih =>
    intro hw part kd hp hft p
    generalize hk : Py.natStr i :: r = segs at hp
    generalize hj : Json.arr l = j at hp
    cases hp with
    | here => cases hk
    | member => cases hj
    | item hi' hp =>
      cases hj
      injection hk with hk1 hk2
      subst hk2
      cases Aas.natStr_inj hk1
      rw [hi] at hi'
      cases hi'
      cases hw with
      | arr hws =>
        obtain ⟨q, h1, h2, h3⟩ := ih (hws _ (List.mem_of_getElem? hi)) _ _ hp hft (p ++ [.idx i])
        exact ⟨.idx i :: q, List.forall_mem_cons.mpr ⟨idx_plain _, h1⟩, by simp [h2, PTok.text], .item hi (by simpa using h3)⟩

theorem XDue.fault {sc : Schema C E S F} (hl : Legible sc) {ty ty' : Ty C E S} {x : Xml} {segs : List Str} (h : XDue sc ty x segs ty') :
    ∀ part k, XLeads segs x part → XFault sc ty' part [] ⟨k, []⟩ →
      ∀ p, ∃ q, (∀ t ∈ q, t.Plain) ∧ q.map PTok.text = segs ∧ XFault sc ty x p ⟨k, p ++ q⟩ := by
  induction h with
  | here ty j =>
    intro part k hp hf p
    cases hp
    obtain ⟨q, h1, h2⟩ := XFault.shift hf
    simp only [List.nil_append, List.nil_eq] at h1
    subst h1
    exact ⟨[], by simp, rfl, h2 p⟩
  | @member c c' f k req r x d pre y post z ty u ho hr hf hc ht hlast hi _ ih =>
    intro part kd hp hft p
    obtain ⟨k1, k2, k3, k4⟩ := hl _ _ (mem_allKeys.mpr ⟨_, _, _, hf⟩)
    cases hp with
    | item => exact absurd rfl (k4 _)
    | member _ hc' hch' ht' hl' hi' hp =>
      cases content_one ho.2.2.1 hc'
      have := last_tag_unique (P := fun y => y.tag = xmlns ++ _) ht ht' hlast hl' (hc.symm.trans hch')
      cases this
      cases inside_one hi hi'
      obtain ⟨q, h1, h2, h3⟩ := ih _ _ hp hft (p ++ [.key k])
      exact ⟨.key k :: q, List.forall_mem_cons.mpr ⟨⟨k1, k2, k3, by rintro _ i ⟨⟩; exact k4 i⟩, h1⟩, by simp [h2, PTok.text],
        .value ho hr hf hc ht hlast hi (by simpa using h3)⟩
  | @item it ae i r x y u hi _ ih =>
    intro part kd hp hft p
    generalize hk : Py.natStr i :: r = segs at hp
    cases hp with
    | here => cases hk
    | member hk' =>
      injection hk with hk1 hk2
      exact absurd hk1.symm (hk' _)
    | item hi' hp =>
      injection hk with hk1 hk2
      subst hk2
      cases Aas.natStr_inj hk1
      rw [hi] at hi'
      cases hi'
      obtain ⟨q, h1, h2, h3⟩ := ih _ _ hp hft (p ++ [.idx i])
      exact ⟨.idx i :: q, List.forall_mem_cons.mpr ⟨idx_plain _, h1⟩, by simp [h2, PTok.text], .item hi (by simpa using h3)⟩

end
end Verif.Parse
