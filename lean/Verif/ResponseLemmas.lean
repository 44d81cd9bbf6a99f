import Verif.Responses
import Verif.DocumentLemmas

/-! # Values of the meta-model in responses -/

namespace Verif.Api
open Verif Verif.Parse Verif.Aas Verif.Spec.Parse

mutual
theorem proj_emb : ∀ v : AVal, projVal (embVal v) = some v
  | .none => rfl
  | .invalid => rfl
  | .foreign => rfl
  | .str _ => rfl
  | .bool _ => rfl
  | .enum _ _ => rfl
  | .sfv _ _ => rfl
  | .path _ _ _ => rfl
  | .list l => by simp [embVal, projVal, proj_embs l]
  | .obj c attrs => by simp [embVal, projVal, proj_embAttrs attrs]
theorem proj_embs : ∀ vs : List AVal, projVals (embVals vs) = some vs
  | [] => rfl
  | v :: vs => by simp [embVals, projVals, proj_emb v, proj_embs vs]
theorem proj_embAttrs : ∀ attrs : List (Fld × AVal), projAttrs (embAttrs attrs) = some attrs
  | [] => rfl
  | (f, v) :: rest => by simp [embAttrs, projAttrs, proj_emb v, proj_embAttrs rest]
end

theorem emb_inj {v w : AVal} (h : embVal v = embVal w) : v = w := by
  have := congrArg projVal h
  rw [proj_emb, proj_emb] at this
  exact Option.some.inj this

theorem embVals_map (l : List AVal) : embVals l = l.map embVal := by
  induction l with
  | nil => rfl
  | cons v l ih => rw [embVals, ih]; rfl

theorem embAttrs_map (l : List (Fld × AVal)) : embAttrs l = l.map fun a => (RFld.model a.1, embVal a.2) := by
  induction l with
  | nil => rfl
  | cons v l ih => obtain ⟨f, v⟩ := v; rw [embAttrs, ih]; rfl

/-! ## parsing -/

/-- the same outcome, seen as a response -/
def embOut {α β : Type} (f : α → β) : Except PyExc (α × Res Note) → Except PyExc (β × Res Note)
  | .error e => .error e
  | .ok (v, r) => .ok (f v, r)

section
variable {A : Type} (ops : Ops A) (lim : Option Nat)

theorem parseItems_emb (rec : A → P AVal) (rec' : A → P RVal) (h : ∀ a res, rec' a res = embOut embVal (rec a res)) :
    ∀ as res, parseItems rec' as res = embOut embVals (parseItems rec as res)
  | [], res => rfl
  | a :: as, res => by
    simp only [parseItems, h a res]
    cases rec a res with
    | error e => rfl
    | ok q =>
      obtain ⟨v, r⟩ := q
      simp only [embOut, parseItems_emb rec rec' h as r]
      cases parseItems rec as r with
      | error e => rfl
      | ok q => obtain ⟨vs, r⟩ := q; simp [embVals]

theorem parseList_emb (rec : A → P AVal) (rec' : A → P RVal) (h : ∀ a res, rec' a res = embOut embVal (rec a res)) (a : A) (ae : Bool)
    (res : Res Note) : parseList ops rec' a ae res = embOut embVal (parseList ops rec a ae res) := by
  unfold parseList
  cases ops.asList a ae with
  | error e => cases e <;> rfl
  | ok items =>
    simp only [parseItems_emb rec rec' h]
    cases parseItems rec items res with
    | error e => rfl
    | ok q => obtain ⟨vs, r⟩ := q; simp [embOut, embVal]

theorem parseFields_emb (rec : ATy → A → P AVal) (rec' : RTy → A → P RVal)
    (h : ∀ ty a res, rec' (embTy ty) a res = embOut embVal (rec ty a res)) (obj : List (Str × A)) (p : List PTok) :
    ∀ fs res, parseFields rec' obj p (fs.map embField) res = embOut embAttrs (parseFields rec obj p fs res)
  | [], res => rfl
  | ⟨nm, .excluded⟩ :: fs, res => by
    simp only [List.map_cons, embField, embSlot, parseFields]
    have := parseFields_emb rec rec' h obj p fs res
    rw [this]
    cases parseFields rec obj p fs res with
    | error e => rfl
    | ok q => obtain ⟨vs, r⟩ := q; simp [embOut, embAttrs, embVal]
  | ⟨nm, .attr key ty req⟩ :: fs, res => by
    simp only [List.map_cons, embField, embSlot, parseFields]
    have hf : parseField rec' obj p key (embTy ty) req res = embOut embVal (parseField rec obj p key ty req res) := by
      unfold parseField
      cases dictGet key obj with
      | none => dsimp only; split <;> rfl
      | some a => exact h ty a res
    rw [hf]
    cases parseField rec obj p key ty req res with
    | error e => rfl
    | ok q =>
      obtain ⟨v, r⟩ := q
      have := parseFields_emb rec rec' h obj p fs r
      simp only [embOut, this]
      cases parseFields rec obj p fs r with
      | error e => rfl
      | ok q => obtain ⟨vs, r⟩ := q; simp [embAttrs]

theorem allKeys_emb (fs : List AField) : allKeys (fs.map embField) = allKeys fs := by
  unfold allKeys
  rw [List.filterMap_map]
  congr 1
  funext f
  obtain ⟨n, s⟩ := f
  cases s <;> rfl

theorem checkModelType_emb (c : Cls) (a : A) (res : Res Note) :
    checkModelType ops (respSchema lim) (.model c) a res = checkModelType ops (schema lim) c a res := rfl

theorem parseConcrete_emb (rec : ATy → A → P AVal) (rec' : RTy → A → P RVal)
    (h : ∀ ty a res, rec' (embTy ty) a res = embOut embVal (rec ty a res)) (c : Cls) (a : A) (res : Res Note) :
    parseConcrete ops (respSchema lim) rec' (.model c) a res = embOut embVal (parseConcrete ops (schema lim) rec c a res) := by
  unfold parseConcrete
  cases ops.asObject a with
  | error e => cases e <;> rfl
  | ok obj =>
    simp only [checkModelType_emb]
    cases checkModelType ops (schema lim) c a res with
    | error e => rfl
    | ok res =>
      have hf : (respSchema lim).fields (.model c) = ((schema lim).fields c).map embField := rfl
      simp only [hf, parseFields_emb rec rec' h, allKeys_emb]
      cases parseFields rec obj (ops.path a) ((schema lim).fields c) res with
      | error e => rfl
      | ok q => obtain ⟨vs, r⟩ := q; simp [embOut, embVal]

theorem parseAbstract_emb (rec : ATy → A → P AVal) (rec' : RTy → A → P RVal)
    (h : ∀ ty a res, rec' (embTy ty) a res = embOut embVal (rec ty a res)) (c : Cls) (a : A) (res : Res Note) :
    parseAbstract ops (respSchema lim) rec' (.model c) a res = embOut embVal (parseAbstract ops (schema lim) rec c a res) := by
  unfold parseAbstract
  cases ops.modelType a with
  | error e => cases e <;> rfl
  | ok d =>
    have hf : ((respSchema lim).subclasses (.model c)).find? (fun s => decide (d = some ((respSchema lim).className s))) =
        (((schema lim).subclasses c).find? (fun s => decide (d = some ((schema lim).className s)))).map .model := by
      show ((subclassesOf c).map RCls.model).find? _ = _
      rw [List.find?_map]
      rfl
    simp only [hf]
    cases ((schema lim).subclasses c).find? (fun s => decide (d = some ((schema lim).className s))) with
    | none => rfl
    | some s => exact parseConcrete_emb ops lim rec rec' h s a res

theorem runPostParse_emb (v : AVal) (res : Res Note) :
    runPostParse (respSchema lim) (embVal v) res = embOut embVal (runPostParse (schema lim) v res) := by
  cases v with
  | obj c attrs =>
    simp only [embVal, runPostParse]
    have hp : (respSchema lim).postParse (.model c) = ((schema lim).postParse c).map liftPost := rfl
    rw [hp]
    cases (schema lim).postParse c with
    | none => simp [embOut, embVal]
    | some f =>
      simp only [Option.map_some]
      split
      · have : projVal (.obj (.model c) (embAttrs attrs)) = some (.obj c attrs) := proj_emb (.obj c attrs)
        simp only [liftPost, this]
        cases f (.obj c attrs) with
        | error e => rfl
        | ok v => simp [Except.map, embOut]
      · simp [embOut, embVal]
  | _ => simp [embVal, runPostParse, embOut]

/-- Responses with types of the meta-model are parsed as documents of the meta-model are. -/
theorem parseF_emb : ∀ (n : Nat) (ty : ATy) (a : A) (res : Res Note),
    parseF ops (respSchema lim) n (embTy ty) a res = embOut embVal (parseF ops (schema lim) n ty a res)
  | 0, ty, a, res => rfl
  | n + 1, ty, a, res => by
    have ih := parseF_emb n
    cases ty with
    | list it ae => exact parseList_emb ops _ _ (ih it) a ae res
    | cls c =>
      simp only [embTy, parseF]
      have ha : (respSchema lim).abstract (.model c) = (schema lim).abstract c := rfl
      rw [ha]
      split
      · exact parseAbstract_emb ops lim _ _ ih c a res
      · rw [parseConcrete_emb ops lim _ _ ih c a res]
        cases parseConcrete ops (schema lim) (parseF ops (schema lim) n) c a res with
        | error e => rfl
        | ok q => obtain ⟨v, r⟩ := q; exact runPostParse_emb lim v r
    | bool => simp only [embTy, parseF, parseBool]; cases ops.asBool a with
      | error e => cases e <;> rfl
      | ok b => rfl
    | str => simp only [embTy, parseF, parseString]; cases ops.asString a with
      | error e => cases e <;> rfl
      | ok b => rfl
    | any => rfl
    | none => rfl
    | number => rfl
    | bytes => rfl
    | enum e =>
      simp only [embTy, parseF, parseEnum]
      cases ops.asString a with
      | error e => cases e <;> rfl
      | ok b =>
        have hv : (respSchema lim).enumValues (.model e) = (schema lim).enumValues e := rfl
        simp only [hv]
        split <;> rfl
    | sfv s =>
      simp only [embTy, parseF, parseSfv]
      cases ops.asString a with
      | error e => cases e with
        | adapter k => rfl
        | py e => cases e <;> rfl
      | ok b =>
        have hv : (respSchema lim).construct s b = (schema lim).construct s b := rfl
        simp only [hv]
        cases (schema lim).construct s b with
        | ok u => rfl
        | error e => cases e <;> rfl

end

/-! ## typed values -/

theorem isA_emb (lim : Option Nat) {c : Cls} {c' : RCls} (h : IsA (respSchema lim) (.model c) c') : ∃ d, c' = .model d ∧ IsA (schema lim) c d := by
  rcases h with ⟨ha, rfl⟩ | ⟨ha, hm⟩
  · exact ⟨c, rfl, .inl ⟨ha, rfl⟩⟩
  · obtain ⟨d, hd, rfl⟩ := List.mem_map.mp hm
    exact ⟨d, rfl, .inr ⟨ha, hd⟩⟩


variable {lim : Option Nat}

theorem fieldOk_emb {f : AField} {a : Fld × AVal}
    (ih : ∀ ty, HasType (schema lim) ty a.2 → HasType (respSchema lim) (embTy ty) (embVal a.2)) (h : FieldOk (schema lim) f a) :
    FieldOk (respSchema lim) (embField f) (.model a.1, embVal a.2) := by
  obtain ⟨g, slot⟩ := f
  obtain ⟨h1, h2⟩ := h
  refine ⟨by rw [h1]; rfl, ?_⟩
  cases slot with
  | excluded =>
    rcases h2 with h2 | ⟨x, y, t, h2⟩
    · exact .inl (by simp [h2, embVal])
    · exact .inr ⟨x, y, t, by simp [h2, embVal]⟩
  | attr key ty req =>
    rcases h2 with ⟨h2, h3⟩ | h2
    · exact .inl ⟨by simp [h2, embVal], h3⟩
    · exact .inr (ih ty h2)

mutual
/-- values of the meta-model are typed as responses -/
theorem emb_typed : ∀ (a : AVal) (ty : ATy), HasType (schema lim) ty a → HasType (respSchema lim) (embTy ty) (embVal a)
  | .str s, ty, h => by cases h; exact .str s
  | .bool s, ty, h => by cases h; exact .bool s
  | .foreign, ty, h => by cases h; exact .any
  | .none, ty, h => by cases h
  | .invalid, ty, h => by cases h
  | .path _ _ _, ty, h => by cases h
  | .enum e s, ty, h => by cases h with | enum h => exact .enum h
  | .sfv c s, ty, h => by cases h with | sfv h => exact .sfv h
  | .list l, ty, h => by
    cases h with
    | list h1 h2 =>
      refine .list ?_ (emb_typeds l _ h2)
      rcases h1 with h1 | h1
      · left
        cases l with
        | nil => exact absurd rfl h1
        | cons v l => simp [embVals]
      · exact .inr h1
  | .obj c' attrs, ty, h => by
    cases ty with
    | cls c =>
      obtain ⟨hi, hf⟩ := hasType_obj.mp h
      refine hasType_obj.mpr ⟨?_, emb_typedA attrs _ hf⟩
      rcases hi with ⟨h1, rfl⟩ | ⟨h1, h2⟩
      · exact .inl ⟨h1, rfl⟩
      · exact .inr ⟨h1, List.mem_map.mpr ⟨_, h2, rfl⟩⟩
    | _ => cases h
theorem emb_typeds : ∀ (l : List AVal) (ty : ATy), (∀ a ∈ l, HasType (schema lim) ty a) → ∀ v ∈ embVals l, HasType (respSchema lim) (embTy ty) v
  | [], _, _, _, hv => by cases hv
  | a :: l, ty, h, v, hv => by
    rcases List.mem_cons.mp hv with rfl | hv
    · exact emb_typed a ty (h a List.mem_cons_self)
    · exact emb_typeds l ty (fun b hb => h b (List.mem_cons_of_mem _ hb)) v hv
theorem emb_typedA : ∀ (attrs : List (Fld × AVal)) (fs : List AField), FieldsOk (schema lim) fs attrs →
    FieldsOk (respSchema lim) (fs.map embField) (embAttrs attrs)
  | [], fs, h => by cases h; exact .nil
  | (f, v) :: rest, fs, h => by
    cases h with
    | cons h1 h2 => exact .cons (fieldOk_emb (a := (f, v)) (emb_typed v) h1) (emb_typedA rest _ h2)
end

theorem fieldOk_proj {f : AField} {a : RFld × RVal}
    (ih : ∀ ty, HasType (respSchema lim) (embTy ty) a.2 → ∃ w, a.2 = embVal w ∧ HasType (schema lim) ty w)
    (h : FieldOk (respSchema lim) (embField f) a) : ∃ w, a = (.model f.name, embVal w) ∧ FieldOk (schema lim) f (f.name, w) := by
  obtain ⟨g, slot⟩ := f
  obtain ⟨h1, h2⟩ := h
  obtain ⟨k, v⟩ := a
  simp only [embField] at h1
  subst h1
  cases slot with
  | excluded =>
    rcases h2 with h2 | ⟨x, y, t, h2⟩
    · exact ⟨.none, by simp [embVal, ← h2], rfl, .inl rfl⟩
    · exact ⟨.path x y t, by simp [embVal, ← h2], rfl, .inr ⟨x, y, t, rfl⟩⟩
  | attr key ty req =>
    rcases h2 with ⟨h2, h3⟩ | h2
    · exact ⟨.none, by simp [embVal, ← h2], rfl, .inl ⟨rfl, h3⟩⟩
    · obtain ⟨w, hw, ht⟩ := ih ty h2
      exact ⟨w, by rw [← hw], rfl, .inr ht⟩

mutual
/-- a response of a type of the meta-model is a value of the meta-model -/
theorem typed_proj : ∀ (v : RVal) (ty : ATy), HasType (respSchema lim) (embTy ty) v → ∃ a, v = embVal a ∧ HasType (schema lim) ty a
  | .str s, ty, h => by cases ty <;> simp only [embTy] at h <;> cases h; exact ⟨.str s, rfl, .str s⟩
  | .bool s, ty, h => by cases ty <;> simp only [embTy] at h <;> cases h; exact ⟨.bool s, rfl, .bool s⟩
  | .foreign, ty, h => by cases ty <;> simp only [embTy] at h <;> cases h; exact ⟨.foreign, rfl, .any⟩
  | .none, ty, h => by cases ty <;> simp only [embTy] at h <;> cases h
  | .invalid, ty, h => by cases ty <;> simp only [embTy] at h <;> cases h
  | .path _ _ _, ty, h => by cases ty <;> simp only [embTy] at h <;> cases h
  | .enum e s, ty, h => by
    cases ty <;> simp only [embTy] at h <;> cases h
    exact ⟨.enum _ s, rfl, .enum (by assumption)⟩
  | .sfv c s, ty, h => by
    cases ty <;> simp only [embTy] at h <;> cases h
    exact ⟨.sfv c s, rfl, .sfv (by assumption)⟩
  | .list l, ty, h => by
    cases ty with
    | list it ae =>
      cases h with
      | list h1 h2 =>
        obtain ⟨as, rfl, has⟩ := typed_projs l it h2
        refine ⟨.list as, rfl, .list ?_ has⟩
        rcases h1 with h1 | h1
        · left; rintro rfl; exact h1 rfl
        · exact .inr h1
    | _ => simp only [embTy] at h; cases h
  | .obj c' attrs, ty, h => by
    cases ty with
    | cls c =>
      obtain ⟨hi, hf⟩ := hasType_obj.mp h
      obtain ⟨d, rfl, hd⟩ := isA_emb lim hi
      obtain ⟨as, rfl, has⟩ := typed_projA attrs (fieldsOf d) hf
      exact ⟨.obj d as, rfl, hasType_obj.mpr ⟨hd, has⟩⟩
    | _ => simp only [embTy] at h; cases h
theorem typed_projs : ∀ (l : List RVal) (ty : ATy), (∀ v ∈ l, HasType (respSchema lim) (embTy ty) v) →
    ∃ as, l = embVals as ∧ ∀ a ∈ as, HasType (schema lim) ty a
  | [], _, _ => ⟨[], rfl, fun _ h => by cases h⟩
  | v :: l, ty, h => by
    obtain ⟨a, rfl, ha⟩ := typed_proj v ty (h v List.mem_cons_self)
    obtain ⟨as, rfl, has⟩ := typed_projs l ty (fun b hb => h b (List.mem_cons_of_mem _ hb))
    refine ⟨a :: as, rfl, fun b hb => ?_⟩
    rcases List.mem_cons.mp hb with rfl | hb
    · exact ha
    · exact has b hb
theorem typed_projA : ∀ (attrs : List (RFld × RVal)) (fs : List AField), FieldsOk (respSchema lim) (fs.map embField) attrs →
    ∃ as, attrs = embAttrs as ∧ FieldsOk (schema lim) fs as
  | [], fs, h => by
    cases fs with
    | nil => exact ⟨[], rfl, .nil⟩
    | cons f fs => simp only [List.map_cons] at h; cases h
  | (f, v) :: rest, fs, h => by
    cases fs with
    | nil => cases h
    | cons g fs =>
      simp only [List.map_cons] at h
      cases h with
      | cons h1 h2 =>
        obtain ⟨w, hw, hok⟩ := fieldOk_proj (a := (f, v)) (typed_proj v) h1
        obtain ⟨as, rfl, has⟩ := typed_projA rest fs h2
        rw [Prod.mk.injEq] at hw
        obtain ⟨rfl, rfl⟩ := hw
        exact ⟨(g.name, w) :: as, rfl, .cons hok has⟩
end

mutual
theorem strip_emb : ∀ v : AVal, strip (embVal v) = embVal (strip v)
  | .none => rfl
  | .invalid => rfl
  | .foreign => rfl
  | .str _ => rfl
  | .bool _ => rfl
  | .enum _ _ => rfl
  | .sfv _ _ => rfl
  | .path _ _ _ => rfl
  | .list l => by simp [embVal, strip, strip_embs l]
  | .obj c attrs => by simp [embVal, strip, strip_embA attrs]
theorem strip_embs : ∀ l : List AVal, strip.stripL (embVals l) = embVals (strip.stripL l)
  | [] => rfl
  | v :: l => by simp [embVals, strip.stripL, strip_emb v, strip_embs l]
theorem strip_embA : ∀ l : List (Fld × AVal), strip.stripA (embAttrs l) = embAttrs (strip.stripA l)
  | [] => rfl
  | (f, v) :: l => by simp [embAttrs, strip.stripA, strip_emb v, strip_embA l]
end

/-! ## the classes of responses -/

theorem sane (lim : Option Nat) : Sane (respSchema lim) where
  keys c f ty req h := by
    cases c with
    | model c =>
      obtain ⟨⟨g, slot⟩, hg, he⟩ := List.mem_map.mp h
      cases slot with
      | excluded => simp [embField, embSlot] at he
      | attr key ty' req' =>
        simp only [embField, embSlot, Field.mk.injEq, Slot.attr.injEq] at he
        obtain ⟨-, rfl, -, -⟩ := he
        exact (Aas.sane lim).keys c g ty' req' hg
    | page p => revert h; cases p <;> simp [respSchema, respFields]
    | _ => revert h; simp [respSchema, respFields]
  names c := by
    cases c with
    | model c =>
      have := (Aas.sane lim).names c
      change (((subclassesOf c).map RCls.model).map (respSchema lim).className).Nodup
      rw [List.map_map]
      exact this
    | _ => exact List.nodup_nil
  post c f v hp hv := by
    cases c with
    | model c =>
      change ((schema lim).postParse c).map liftPost = some f at hp
      cases hq : (schema lim).postParse c with
      | none => rw [hq] at hp; cases hp
      | some g =>
        rw [hq] at hp
        cases hp
        obtain ⟨a, rfl, ha⟩ := typed_proj v (.cls c) hv
        obtain ⟨w, h1, h2, h3⟩ := (Aas.sane lim).post c g a hq ha
        refine ⟨embVal w, ?_, emb_typed w _ h2, ?_⟩
        · simp [liftPost, proj_emb, h1, Except.map]
        · rw [strip_emb, strip_emb, h3]
    | _ => cases hp

theorem supported_emb : ∀ {ty : ATy}, Parse.Supported ty → Parse.Supported (embTy ty)
  | .str, _ => trivial
  | .bool, _ => trivial
  | .any, _ => trivial
  | .enum _, _ => trivial
  | .sfv _, _ => trivial
  | .cls _, _ => trivial
  | .list it _, h => supported_emb (ty := it) h

theorem supported (lim : Option Nat) : (respSchema lim).Supported where
  types c f key ty req h := by
    cases c with
    | model c =>
      obtain ⟨⟨g, slot⟩, hg, he⟩ := List.mem_map.mp h
      cases slot with
      | excluded => simp [embField, embSlot] at he
      | attr key' ty' req' =>
        simp only [embField, embSlot, Field.mk.injEq, Slot.attr.injEq] at he
        obtain ⟨-, rfl, rfl, -⟩ := he
        exact supported_emb ((Aas.supported lim).types c g key' ty' req' hg)
    | page p =>
      have : (respSchema lim).fields (.page p) = respFields (.page p) := rfl
      rw [this] at h
      simp only [respFields, List.mem_cons, Field.mk.injEq, Slot.attr.injEq, List.not_mem_nil, or_false] at h
      rcases h with ⟨-, -, rfl, -⟩ | ⟨-, -, rfl, -⟩
      · trivial
      · cases p <;> trivial
    | message =>
      have : (respSchema lim).fields .message = respFields .message := rfl
      rw [this] at h
      simp only [respFields, List.mem_cons, Field.mk.injEq, Slot.attr.injEq, List.not_mem_nil, or_false] at h
      rcases h with ⟨-, -, rfl, -⟩ | ⟨-, -, rfl, -⟩ | ⟨-, -, rfl, -⟩ | ⟨-, -, rfl, -⟩ | ⟨-, -, rfl, -⟩ <;> trivial
    | errorResult =>
      have : (respSchema lim).fields .errorResult = respFields .errorResult := rfl
      rw [this] at h
      simp only [respFields, List.mem_cons, Field.mk.injEq, Slot.attr.injEq, List.not_mem_nil, or_false] at h
      obtain ⟨-, -, rfl, -⟩ := h; trivial
    | pagingMetadata =>
      have : (respSchema lim).fields .pagingMetadata = respFields .pagingMetadata := rfl
      rw [this] at h
      simp only [respFields, List.mem_cons, Field.mk.injEq, Slot.attr.injEq, List.not_mem_nil, or_false] at h
      obtain ⟨-, -, rfl, -⟩ := h; trivial
    | unconstrainedReference =>
      have : (respSchema lim).fields .unconstrainedReference = respFields .unconstrainedReference := rfl
      rw [this] at h
      simp only [respFields, List.mem_cons, Field.mk.injEq, Slot.attr.injEq, List.not_mem_nil, or_false] at h
      rcases h with ⟨-, -, rfl, -⟩ | ⟨-, -, rfl, -⟩ | ⟨-, -, rfl, -⟩ <;> trivial
    | serviceDescription =>
      have : (respSchema lim).fields .serviceDescription = respFields .serviceDescription := rfl
      rw [this] at h
      simp only [respFields, List.mem_cons, Field.mk.injEq, Slot.attr.injEq, List.not_mem_nil, or_false] at h
      obtain ⟨-, -, rfl, -⟩ := h; trivial
  strings := (Aas.supported lim).strings

/-! ## objects in responses -/

/-- no field of the type is of the class `LangStringSet` itself -/
def rgoodTy : RTy → Bool
  | .cls (.model c) => goodTy (.cls c)
  | .list it _ => rgoodTy it
  | _ => true

theorem rgood_emb : ∀ ty : ATy, rgoodTy (embTy ty) = goodTy ty
  | .list it _ => rgood_emb it
  | .cls _ => rfl
  | .str => rfl
  | .bool => rfl
  | .any => rfl
  | .none => rfl
  | .number => rfl
  | .bytes => rfl
  | .enum _ => rfl
  | .sfv _ => rfl

theorem rall_good (c : RCls) (f : RFld) (key : Str) (ty : RTy) (req : Bool) (h : ⟨f, .attr key ty req⟩ ∈ respFields c) : rgoodTy ty = true := by
  cases c with
  | model c =>
    obtain ⟨⟨g, slot⟩, hg, he⟩ := List.mem_map.mp h
    cases slot with
    | excluded => simp [embField, embSlot] at he
    | attr key' ty' req' =>
      simp only [embField, embSlot, Field.mk.injEq, Slot.attr.injEq] at he
      obtain ⟨-, rfl, rfl, -⟩ := he
      have := all_good c
      rw [List.all_eq_true] at this
      rw [rgood_emb]
      exact this _ hg
  | page p =>
    simp only [respFields, List.mem_cons, Field.mk.injEq, Slot.attr.injEq, List.not_mem_nil, or_false] at h
    rcases h with ⟨-, -, rfl, -⟩ | ⟨-, -, rfl, -⟩
    · rfl
    · cases p <;> decide +kernel
  | message =>
    simp only [respFields, List.mem_cons, Field.mk.injEq, Slot.attr.injEq, List.not_mem_nil, or_false] at h
    rcases h with ⟨-, -, rfl, -⟩ | ⟨-, -, rfl, -⟩ | ⟨-, -, rfl, -⟩ | ⟨-, -, rfl, -⟩ | ⟨-, -, rfl, -⟩ <;> rfl
  | errorResult =>
    simp only [respFields, List.mem_cons, Field.mk.injEq, Slot.attr.injEq, List.not_mem_nil, or_false] at h
    obtain ⟨-, -, rfl, -⟩ := h; rfl
  | pagingMetadata =>
    simp only [respFields, List.mem_cons, Field.mk.injEq, Slot.attr.injEq, List.not_mem_nil, or_false] at h
    obtain ⟨-, -, rfl, -⟩ := h; rfl
  | unconstrainedReference =>
    simp only [respFields, List.mem_cons, Field.mk.injEq, Slot.attr.injEq, List.not_mem_nil, or_false] at h
    rcases h with ⟨-, -, rfl, -⟩ | ⟨-, -, rfl, -⟩ | ⟨-, -, rfl, -⟩ <;> decide +kernel
  | serviceDescription =>
    simp only [respFields, List.mem_cons, Field.mk.injEq, Slot.attr.injEq, List.not_mem_nil, or_false] at h
    obtain ⟨-, -, rfl, -⟩ := h; rfl

theorem rfieldsOk_mem {sc : Schema RCls REnum SfvCls RFld} {fs : List RField} {attrs : List (RFld × RVal)} (h : FieldsOk sc fs attrs)
    {a : RFld × RVal} (ha : a ∈ attrs) : ∃ g ∈ fs, FieldOk sc g a := by
  induction h with
  | nil => simp at ha
  | cons hok _ ih =>
    rcases List.mem_cons.mp ha with rfl | ha
    · exact ⟨_, List.mem_cons_self, hok⟩
    · obtain ⟨g, hg, h⟩ := ih ha
      exact ⟨g, List.mem_cons_of_mem _ hg, h⟩

theorem rhasType_is_cls {ty : RTy} {c attrs} (h : HasType (respSchema lim) ty (.obj c attrs)) : ∃ c0, ty = .cls c0 := by
  cases h; exact ⟨_, rfl⟩

theorem rnot_nested {name : RFld → Str} {v x : RVal} {p : List PTok} (hv : ∀ c attrs, v ≠ .obj c attrs) : ¬ Nested name v p x := by
  intro h
  cases h <;> exact hv _ _ rfl

/-- every object of a response is a typed object of the meta-model, or has no checks -/
theorem nested_resp {name : RFld → Str} {v x : RVal} {p : List PTok} (h : Nested name v p x) :
    ∀ {ty : RTy}, rgoodTy ty = true → HasType (respSchema lim) ty v →
      (∃ a c, x = embVal a ∧ Obj lim c a ∧ good c = true) ∨ (∃ c attrs, x = .obj c attrs ∧ (∀ d, c ≠ .model d)) := by
  have attr : ∀ {c0 c : RCls} {attrs : List (RFld × RVal)} {f : RFld} {w : RVal}, HasType (respSchema lim) (.cls c0) (.obj c attrs) →
      (f, w) ∈ attrs → (∀ a b t, w ≠ .path a b t) → w ≠ .none → ∃ ty, rgoodTy ty = true ∧ HasType (respSchema lim) ty w := by
    intro c0 c attrs f w ht hm hp hn
    obtain ⟨hi, hf⟩ := hasType_obj.mp ht
    obtain ⟨⟨g, slot⟩, hg, hok⟩ := rfieldsOk_mem hf hm
    obtain ⟨-, hok⟩ := hok
    cases slot with
    | excluded =>
      rcases hok with hok | ⟨a, b, t, hok⟩
      · exact absurd hok hn
      · exact absurd hok (hp a b t)
    | attr key ty req =>
      rcases hok with ⟨hok, -⟩ | hok
      · exact absurd hok hn
      · exact ⟨ty, rall_good c g key ty req hg, hok⟩
  induction h with
  | here c attrs =>
    intro ty hg ht
    obtain ⟨c0, rfl⟩ := rhasType_is_cls ht
    cases c0 with
    | model c0 =>
      obtain ⟨a, he, ha⟩ := typed_proj _ (.cls c0) ht
      obtain ⟨c', hi, ho⟩ := obj_of_typed ha
      exact .inl ⟨a, c', he, ho, good_of_isA hg hi⟩
    | _ =>
      right
      obtain ⟨hi, -⟩ := hasType_obj.mp ht
      rcases hi with ⟨-, rfl⟩ | ⟨h, -⟩
      · exact ⟨_, _, rfl, by intro d h; cases h⟩
      · cases h
  | @attr c attrs f w p x hm hn ih =>
    intro ty hg ht
    obtain ⟨c0, rfl⟩ := rhasType_is_cls ht
    obtain ⟨ty, hg', ht'⟩ := attr ht hm (fun a b t he => rnot_nested (by simp [he]) hn) (fun he => rnot_nested (by simp [he]) hn)
    exact ih hg' ht'
  | @item c attrs f l i w p x hm hi hn ih =>
    intro ty hg ht
    obtain ⟨c0, rfl⟩ := rhasType_is_cls ht
    obtain ⟨ty, hg', ht'⟩ := attr ht hm (by simp) (by simp)
    cases ht' with
    | list _ hall => exact ih (by simpa [rgoodTy] using hg') (hall w (List.mem_of_getElem? hi))

/-- the types of responses without objects of the meta-model -/
def plainTy : RTy → Bool
  | .cls .message => true
  | .cls .errorResult => true
  | .cls .pagingMetadata => true
  | .cls .serviceDescription => true
  | .cls _ => false
  | .list it _ => plainTy it
  | _ => true

theorem plain_fields (c : RCls) (h : plainTy (.cls c) = true) (f : RFld) (key : Str) (ty : RTy) (req : Bool)
    (hf : ⟨f, .attr key ty req⟩ ∈ respFields c) : plainTy ty = true := by
  cases c with
  | message =>
    simp only [respFields, List.mem_cons, Field.mk.injEq, Slot.attr.injEq, List.not_mem_nil, or_false] at hf
    rcases hf with ⟨-, -, rfl, -⟩ | ⟨-, -, rfl, -⟩ | ⟨-, -, rfl, -⟩ | ⟨-, -, rfl, -⟩ | ⟨-, -, rfl, -⟩ <;> rfl
  | errorResult | pagingMetadata | serviceDescription =>
    simp only [respFields, List.mem_cons, Field.mk.injEq, Slot.attr.injEq, List.not_mem_nil, or_false] at hf
    obtain ⟨-, -, rfl, -⟩ := hf
    rfl
  | _ => cases h

/-- they contain no objects of the meta-model -/
theorem nested_plain {name : RFld → Str} {v x : RVal} {p : List PTok} (h : Nested name v p x) :
    ∀ {ty : RTy}, plainTy ty = true → HasType (respSchema lim) ty v → ∀ a, x ≠ embVal a := by
  have attr : ∀ {c0 c : RCls} {attrs : List (RFld × RVal)} {f : RFld} {w : RVal}, plainTy (.cls c0) = true →
      HasType (respSchema lim) (.cls c0) (.obj c attrs) →
      (f, w) ∈ attrs → (∀ a b t, w ≠ .path a b t) → w ≠ .none → ∃ ty, plainTy ty = true ∧ HasType (respSchema lim) ty w := by
    intro c0 c attrs f w hpl ht hm hp hn
    obtain ⟨hi, hf⟩ := hasType_obj.mp ht
    have hc : c = c0 := by
      rcases hi with ⟨-, rfl⟩ | ⟨h, -⟩
      · rfl
      · cases c0 <;> first | cases h | cases hpl
    subst hc
    obtain ⟨⟨g, slot⟩, hg, hok⟩ := rfieldsOk_mem hf hm
    obtain ⟨-, hok⟩ := hok
    cases slot with
    | excluded =>
      rcases hok with hok | ⟨a, b, t, hok⟩
      · exact absurd hok hn
      · exact absurd hok (hp a b t)
    | attr key ty req =>
      rcases hok with ⟨hok, -⟩ | hok
      · exact absurd hok hn
      · exact ⟨ty, plain_fields c hpl g key ty req hg, hok⟩
  induction h with
  | here c attrs =>
    intro ty hg ht a he
    obtain ⟨c0, rfl⟩ := rhasType_is_cls ht
    obtain ⟨hi, -⟩ := hasType_obj.mp ht
    cases a <;> simp only [embVal] at he <;> cases he
    rcases hi with ⟨-, h⟩ | ⟨h, -⟩
    · rw [← h] at hg; cases hg
    · cases c0 <;> first | cases h | cases hg
  | @attr c attrs f w p x hm hn ih =>
    intro ty hg ht
    obtain ⟨c0, rfl⟩ := rhasType_is_cls ht
    obtain ⟨ty, hg', ht'⟩ := attr hg ht hm (fun a b t he => rnot_nested (by simp [he]) hn) (fun he => rnot_nested (by simp [he]) hn)
    exact ih hg' ht'
  | @item c attrs f l i w p x hm hi hn ih =>
    intro ty hg ht
    obtain ⟨c0, rfl⟩ := rhasType_is_cls ht
    obtain ⟨ty, hg', ht'⟩ := attr hg ht hm (by simp) (by simp)
    cases ht' with
    | list _ hall => exact ih (by simpa [plainTy] using hg') (hall w (List.mem_of_getElem? hi))

theorem respChecks_none {c : RCls} (h : ∀ d, c ≠ .model d) : respChecks lim c = [] := by
  cases c with
  | model d => exact absurd rfl (h d)
  | _ => rfl

theorem checksOf_emb {c : Cls} {a : AVal} (h : Obj lim c a) :
    checksOf (respChecks lim) (embVal a) = (checksOf (checks lim) a).map liftCheck := by
  obtain ⟨attrs, rfl, -⟩ := h.fields
  rfl

theorem liftCheck_emb (f : AVal → Chk Unit) (a : AVal) : liftCheck f (embVal a) = f a := by
  simp [liftCheck, proj_emb]

end Verif.Api
