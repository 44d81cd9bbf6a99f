import Verif.RequestLemmas
import Verif.Spec.Requests

/-!
# The number of requests of each operation
-/

namespace Verif.Props
open Verif Verif.Spec Verif.Parse Verif.Aas Verif.Http Verif.Generate Verif.Api Verif.Api.Suites Verif.Spec.Requests

variable (cfg : Cfg)

/-- the requests of the operations are counted by the table -/
inductive Counted : List Op → List (Str × Count) → Prop
  | nil : Counted [] []
  | cons {op : Op} {ops : List Op} {o : Str × Count} {os : List (Str × Count)} : op.suite.operation = o.1 →
      Costs op o.2.lookup o.2.setup o.2.negative o.2.positive → Counted ops os → Counted (op :: ops) (o :: os)

theorem Counted.append {a b : List Op} {x y : List (Str × Count)} (h : Counted a x) (h' : Counted b y) : Counted (a ++ b) (x ++ y) := by
  induction h with
  | nil => exact h'
  | cons h1 h2 _ ih => exact .cons h1 h2 ih

/-- the operation is not filtered out -/
def chosen (conf : Conf) (o : Str × Count) : Bool :=
  match conf.filter with
  | none => true
  | some f => f.selects o.1

theorem Counted.runOps {conf : Conf} {client : Client} {ops : List Op} {os : List (Str × Count)} (h : Counted ops os) : ∀ mat : Mat,
    AtMost (Api.runOps conf client ops mat) (((os.filter (chosen conf)).map fun o => o.2.sum).sum) := by
  induction h with
  | nil => intro mat; trivial
  | @cons op ops o os h1 h2 _ ih =>
    intro mat
    unfold Api.runOps
    have hc : skipped conf op = !chosen conf o := by
      unfold skipped chosen
      rw [h1]
      cases conf.filter <;> rfl
    cases hk : chosen conf o with
    | true =>
      rw [hc, hk, List.filter_cons_of_pos hk]
      exact (h2.runOp conf client fun m => ih (mat.add m)).mono (by simp [Count.sum])
    | false =>
      rw [hc, hk, List.filter_cons_of_neg (by rw [hk]; simp)]
      exact ih mat

theorem Counted.executeOps {conf : Conf} {client : Client} {ops : List Op} {os : List (Str × Count)} (h : Counted ops os) :
    AtMost (Api.executeOps conf client ops) (1 + (((os.filter (chosen conf)).map fun o => o.2.sum).sum)) := by
  refine AtMost.block (m := 0) ?_ (fun _ _ => trivial) (Nat.le_refl _)
  refine AtMost.block (n := 1) ?_ (fun _ v => ?_) (Nat.le_refl _)
  · split
    · trivial
    · exact (most_send _ _).bind0 fun a => (by cases a <;> trivial)
  · dsimp only
    split
    · trivial
    · exact (h.runOps _).bind0 fun m => AtMost.block (n := 0) (m := 0) trivial (fun _ _ => trivial) (by omega)

/-! ## the operations of the table -/

theorem sum_const {T : Type _} (n : Nat) : ∀ l : List T, (l.map fun _ => n).sum = l.length * n
  | [] => by simp
  | _ :: l => by rw [List.map_cons, List.sum_cons, sum_const n l, List.length_cons, Nat.succ_mul]; omega

theorem costs_fetch {σ : Type} {call : Call} {name : Str} {line : Nat} {title : Str} {kw : Kwargs} (client : Client) (profile : Str) (st : σ) :
    AtMost ((fetch cfg call name line title kw).run client profile st) 1 :=
  (most_success cfg _ _ _).bind0 fun _ => trivial

theorem costs_getOne (call : Call) (client : Client) (m : Str) : AtMost (getOne cfg call client m) 1 :=
  (most_success cfg _ _ _).bind0 fun _ => (most_lift _).bind0 fun _ => (most_lift _).bind0 fun _ => most_assert _ _ _

theorem costs_pagination {σ : Type} {call : Call} {cursor : σ → RVal} : ∀ t ∈ paginationTests cfg call cursor, ∀ client profile st, AtMost (t.run client profile st) 1 := by
  intro t ht client profile st
  simp only [paginationTests, List.mem_cons, List.not_mem_nil, or_false] at ht
  rcases ht with rfl | rfl
  · exact costs_getOne cfg _ _ _
  · dsimp only
    split
    · trivial
    · exact costs_getOne cfg _ _ _

theorem costs_plain {pre : Client → ApiM Str} {n : Nat} (hp : ∀ c, AtMost (pre c) n) {operation : Str} {call : Call} {tests : List (Test Unit)}
    (ht : ∀ t ∈ tests, ∀ client profile st, AtMost (t.run client profile st) 1) :
    Costs ⟨pre, plainSuite cfg operation call tests⟩ n 0 (invalidCount call.params) tests.length where
  pre := hp
  setup _ := trivial
  error := most_error cfg call
  neg := rfl
  pos := ⟨fun _ => 1, ht, (sum_const 1 tests).trans (Nat.mul_one _)⟩

theorem costs_paged {pre : Client → ApiM Str} {n : Nat} (hp : ∀ c, AtMost (pre c) n) {operation : Str} {call first : Call} {tests : List (Test RVal)}
    (ht : ∀ t ∈ tests, ∀ client profile st, AtMost (t.run client profile st) 1) :
    Costs ⟨pre, pagedSuite cfg operation call first tests⟩ n 1 (invalidCount call.params) tests.length where
  pre := hp
  setup _ := (most_success cfg _ _ _).bind0 fun _ => most_lift _
  error := most_error cfg call
  neg := rfl
  pos := ⟨fun _ => 1, ht, (sum_const 1 tests).trans (Nat.mul_one _)⟩

theorem costs_element {pre : Client → ApiM Str} {n : Nat} (hp : ∀ c, AtMost (pre c) n) {operation : Str} {call : Call} {tests : List (Test (Paths × Str))} {m : Nat}
    (ht : ∀ t ∈ tests, ∀ client profile st, AtMost (t.run client profile st) m) :
    Costs ⟨pre, elementSuite cfg operation call tests⟩ n 1 (invalidCount call.params) (tests.length * m) where
  pre := hp
  setup _ := (most_success cfg _ _ _).bind0 fun _ => most_lift _
  error := most_error cfg call
  neg := rfl
  pos := ⟨fun _ => m, ht, sum_const m tests⟩

theorem costs_checkType (call : Call) (supported : List Cls) (kw : Kwargs) (client : Client) (paths : Paths) : ∀ cs : List Cls,
    AtMost (checkType cfg call supported kw client paths cs) cs.length
  | [] => trivial
  | c :: cs => by
    refine AtMost.block (n := 1) ?_ (fun _ _ => costs_checkType call supported kw client paths cs) (by simp only [List.length_cons]; omega)
    split
    · trivial
    · split
      · exact (most_success cfg _ _ _).bind0 fun _ => trivial
      · exact most_error cfg _ _ _

theorem costs_typeTest {call : Call} {supported : List Cls} {name : Str} {line : Nat} {kw : Kwargs} (client : Client) (profile : Str) (st : Paths × Str) :
    AtMost ((typeTest cfg call supported name line kw).run client profile st) 14 :=
  costs_checkType cfg call supported kw client st.1 allSubmodelElements

theorem costs_typeTests {call : Call} {supported : List Cls} {n : Nat} : ∀ t ∈ typeTests cfg call supported n, ∀ client profile st, AtMost (t.run client profile st) 14 := by
  intro t ht client profile st
  simp only [typeTests, List.mem_cons, List.not_mem_nil, or_false] at ht
  rcases ht with rfl | rfl | rfl | rfl | rfl | rfl | rfl | rfl | rfl <;> exact costs_typeTest cfg _ _ _

theorem costs_byId {call : Call} {arg name : Str} {line : Nat} {title : Str} {found : Option ((RVal → Except PyExc Str) × Str)} (client : Client) (profile : Str) (st : Str) :
    AtMost ((Suites.byId cfg call arg name line title found).run client profile st) 1 := by
  refine (most_lift _).bind1 fun v => (most_success cfg _ _ _).bind0 fun r => ?_
  split
  · trivial
  · exact (most_lift _).bind0 fun _ => most_assert _ _ _

theorem costs_shellById {operation : Str} {call : Call} {test : Test Str} (ht : ∀ client profile st, AtMost (test.run client profile st) 1) :
    Costs ⟨noPrefix, shellByIdSuite cfg operation call test⟩ 0 1 (invalidCount call.params) 1 where
  pre _ := trivial
  setup _ := (most_success cfg _ _ _).bind0 fun _ => most_lift _
  error := most_error cfg call
  neg := rfl
  pos := ⟨fun _ => 1, fun t h => by rw [List.mem_singleton.mp h]; exact ht, rfl⟩

theorem costs_submodelById {pre : Client → ApiM Str} {n : Nat} (hp : ∀ c, AtMost (pre c) n) {from_ : From} {operation : Str} {call : Call} {line : Nat}
    {found : Option ((RVal → Except PyExc Str) × Str)} :
    Costs ⟨pre, submodelByIdSuite cfg from_ operation call line found⟩ n 1 (invalidCount call.params) 1 where
  pre := hp
  setup client := by
    show AtMost (from_.setup cfg client) 1
    unfold From.setup
    split
    · exact (most_success cfg _ _ _).bind0 fun _ => (most_lift _).bind0 fun _ => (most_lift _).bind0 fun _ => trivial
    · exact (most_success cfg _ _ _).bind0 fun _ => (most_lift _).bind0 fun _ => (most_lift _).bind0 fun _ => trivial
  error := most_error cfg call
  neg := rfl
  pos := ⟨fun _ => 1, fun t h => by rw [List.mem_singleton.mp h]; exact costs_byId cfg, rfl⟩

theorem costs_shellTests {call : Call} : ∀ t ∈ shellTests cfg call, ∀ client profile st, AtMost (t.run client profile st) 1 := by
  intro t ht client profile st
  simp only [shellTests, List.mem_cons, List.not_mem_nil, or_false] at ht
  rcases ht with rfl | rfl | rfl
  · exact (most_success cfg _ _ _).bind0 fun _ => (most_lift _).bind0 fun _ => most_assert _ _ _
  · exact (most_success cfg _ _ _).bind0 fun _ => (most_lift _).bind0 fun _ => most_assert _ _ _
  · exact costs_fetch cfg _ _ _

theorem costs_one {σ : Type} {t : Test σ} {n : Nat} (h : ∀ client profile st, AtMost (t.run client profile st) n) :
    ∀ u ∈ [t], ∀ client profile st, AtMost (u.run client profile st) n :=
  fun u hu => by rw [List.mem_singleton.mp hu]; exact h

theorem costs_reference {pre : Client → ApiM Str} {n : Nat} (hp : ∀ c, AtMost (pre c) n) : Costs ⟨pre, getAllSubmodelElementsReferenceSuite cfg⟩ n 0 1 2 where
  pre := hp
  setup _ := trivial
  error := most_error cfg getAllSubmodelElementsReference
  neg := rfl
  pos := by
    refine ⟨fun t => if t.name = py!"test_pagination" then 0 else 1, ?_, rfl⟩
    exact List.forall_mem_append.mpr ⟨List.forall_mem_cons.mpr ⟨fun _ _ _ => costs_getOne cfg _ _ _, List.forall_mem_cons.mpr ⟨fun _ _ _ => trivial,
      fun _ h => (by cases h)⟩⟩, List.forall_mem_cons.mpr ⟨fun _ _ _ => costs_fetch cfg _ _ _, fun _ h => (by cases h)⟩⟩

theorem costs_levels {call : Call} : ∀ t ∈ levelTests cfg call, ∀ client profile st, AtMost (t.run client profile st) 1 :=
  List.forall_mem_append.mpr ⟨costs_pagination cfg, List.forall_mem_cons.mpr ⟨costs_fetch cfg, List.forall_mem_cons.mpr ⟨costs_fetch cfg,
    List.forall_mem_cons.mpr ⟨costs_fetch cfg, fun _ h => by cases h⟩⟩⟩⟩

theorem counted_elements {pre : Client → ApiM Str} {n : Nat} (hp : ∀ c, AtMost (pre c) n) : Counted (elementOps cfg pre) (elements n) := by
  have f : ∀ {σ : Type} {call : Call} {name : Str} {line : Nat} {title : Str} {kw : Kwargs} (client : Client) (profile : Str) (st : σ),
    AtMost ((fetch cfg call name line title kw).run client profile st) 1 := costs_fetch cfg
  refine .cons rfl (costs_paged cfg hp ?_) <|
    .cons rfl (costs_paged cfg hp (List.forall_mem_append.mpr ⟨costs_pagination cfg, costs_one f⟩)) <|
    .cons rfl (costs_paged cfg hp (costs_levels cfg)) <| .cons rfl (costs_reference cfg hp) <| .cons rfl (costs_paged cfg hp (costs_levels cfg)) <|
    .cons rfl (costs_element cfg hp (costs_typeTests cfg)) <| .cons rfl (costs_element cfg hp (m := 14) (costs_one (costs_typeTest cfg))) <|
    .cons rfl (costs_element cfg hp (costs_typeTests cfg)) <| .cons rfl (costs_element cfg hp (m := 14) (costs_one (costs_typeTest cfg))) <|
    .cons rfl (costs_element cfg hp (m := 14) (costs_one (costs_typeTest cfg))) <|
    .cons rfl (costs_element cfg hp (m := 1) (costs_one fun client profile st => ?_)) .nil
  · refine List.forall_mem_append.mpr ⟨List.forall_mem_append.mpr ⟨?_, costs_pagination cfg⟩, ?_⟩
    · simp only [List.forall_mem_cons]
      exact ⟨f, f, f, f, f, f, fun _ h => by cases h⟩
    · simp only [List.forall_mem_cons]
      exact ⟨f, f, f, fun _ h => by cases h⟩
  · dsimp only
    split
    · trivial
    · exact (most_success cfg _ _ _).bind0 fun _ => trivial

theorem counted_byId {pre : Client → ApiM Str} {n : Nat} (hp : ∀ c, AtMost (pre c) n) (from_ : From) : Counted (byIdOps cfg pre from_) (Requests.byId n) :=
  .cons rfl (costs_submodelById cfg hp) <| .cons rfl (costs_submodelById cfg hp) <| .cons rfl (costs_submodelById cfg hp) <|
    .cons rfl (costs_submodelById cfg hp) <| .cons rfl (costs_submodelById cfg hp) .nil

theorem counted_general {pre pre' : Client → ApiM Str} (hp : ∀ c, AtMost (pre c) 0) (hp' : ∀ c, AtMost (pre' c) 0) :
    Counted [⟨pre, generateSerializationSuite cfg⟩, ⟨pre', getDescriptionSuite cfg⟩] general := by
  refine .cons rfl ⟨hp, fun _ => (most_success cfg _ _ _).bind0 fun _ => most_lift _, most_error cfg generateSerialization, rfl, fun _ => 1, ?_, rfl⟩ <|
    .cons rfl (costs_plain cfg hp' (costs_one fun client profile st => ?_)) .nil
  · exact List.forall_mem_cons.mpr ⟨fun _ _ _ => (most_success cfg _ _ _).bind0 fun _ => trivial,
      List.forall_mem_cons.mpr ⟨fun _ _ _ => (most_success cfg _ _ _).bind0 fun _ => trivial,
      List.forall_mem_cons.mpr ⟨fun _ _ _ => (most_success cfg _ _ _).bind0 fun _ => (most_lift _).bind0 fun _ => most_assert _ _ _,
      costs_one (costs_fetch cfg)⟩⟩⟩
  · exact (most_success cfg _ _ _).bind0 fun _ => (most_lift _).bind0 fun _ => (most_lift _).bind0 fun _ => most_assert _ _ _

theorem costs_allSubmodels {operation : Str} {call : Call} {line : Nat} :
    Costs ⟨noPrefix, allSubmodelsSuite cfg operation call line⟩ 0 1 (invalidCount call.params) 3 :=
  costs_paged cfg (pre := noPrefix) (fun _ => trivial) (List.forall_mem_append.mpr ⟨costs_pagination cfg, costs_one (costs_fetch cfg)⟩)

theorem costs_references {pre : Client → ApiM Str} {n : Nat} (hp : ∀ c, AtMost (pre c) n) : Costs ⟨pre, getAllSubmodelReferencesSuite cfg⟩ n 1 1 3 :=
  costs_paged cfg hp (List.forall_mem_append.mpr ⟨costs_pagination cfg, costs_one (costs_fetch cfg)⟩)

theorem counted_shellRepo : Counted (shellRepoOps cfg) (operations (sspPrefix ++ py!"AssetAdministrationShellRepositoryServiceSpecification/SSP-002")) := by
  have hp : ∀ c, AtMost (aasRepoPrefix cfg c) 1 := fun c => (most_success cfg _ _ _).bind0 fun _ => most_lift _
  have hq : ∀ c, AtMost (aasRepoSubmodelPrefix cfg c) 1 := fun c => (most_success cfg _ _ _).bind0 fun _ => most_lift _
  refine ((Counted.append ?_ (counted_byId cfg hp .aas)).append (counted_elements cfg hq)).append (counted_general cfg (fun _ => trivial) fun _ => trivial)
  refine .cons rfl ⟨fun _ => trivial, fun _ => (most_success cfg _ _ _).bind0 fun _ => most_lift _, most_error cfg getAllShells, rfl, fun _ => 1, ?_, rfl⟩ <|
    .cons rfl ⟨fun _ => trivial, fun _ => (most_success cfg _ _ _).bind0 fun _ => most_lift _, most_error cfg getAllShellsReference, rfl, fun _ => 1, ?_, rfl⟩ <|
    .cons rfl (costs_shellById cfg (costs_byId cfg)) <| .cons rfl (costs_shellById cfg (costs_byId cfg)) <|
    .cons rfl (costs_plain cfg hp (costs_one (costs_fetch cfg))) <| .cons rfl (costs_plain cfg hp (costs_one (costs_fetch cfg))) <|
    .cons rfl (costs_references cfg hp) .nil
  · exact List.forall_mem_append.mpr ⟨List.forall_mem_append.mpr ⟨costs_shellTests cfg, costs_pagination cfg⟩, costs_one fun client profile st =>
      (most_success cfg _ _ _).bind0 fun _ => (most_lift _).bind0 fun _ => (most_assert _ _ _).bind0 fun _ => (most_lift _).bind0 fun _ => most_assert _ _ _⟩
  · exact List.forall_mem_append.mpr ⟨List.forall_mem_append.mpr ⟨costs_shellTests cfg, costs_pagination cfg⟩, costs_one fun client profile st =>
      (most_success cfg _ _ _).bind0 fun _ => (most_lift _).bind0 fun _ => most_assert _ _ _⟩

theorem counted_submodelRepo : Counted (submodelRepoOps cfg) (operations (sspPrefix ++ py!"SubmodelRepositoryServiceSpecification/SSP-002")) := by
  have hp : ∀ c, AtMost (noPrefix c) 0 := fun _ => trivial
  have hq : ∀ c, AtMost (submodelRepoSubmodelPrefix cfg c) 1 := fun c => (most_success cfg _ _ _).bind0 fun _ => most_lift _
  refine ((Counted.append ?_ (counted_byId cfg hp .submodel)).append (counted_elements cfg hq)).append (counted_general cfg (fun _ => trivial) fun _ => trivial)
  exact .cons rfl (costs_allSubmodels cfg) <| .cons rfl (costs_allSubmodels cfg) <| .cons rfl (costs_allSubmodels cfg) <|
    .cons rfl (costs_allSubmodels cfg) <| .cons rfl (costs_allSubmodels cfg) .nil

theorem counted_shell : Counted (shellOps cfg) (operations (sspPrefix ++ py!"AssetAdministrationShellServiceSpecification/SSP-002")) := by
  have hq : ∀ c, AtMost (aasSubmodelPrefix cfg c) 1 := fun c => (most_success cfg _ _ _).bind0 fun _ => most_lift _
  have hp : ∀ c, AtMost (aasPrefix c) 0 := fun _ => trivial
  refine ((Counted.append ?_ (counted_byId cfg hp .aas)).append (counted_elements cfg hq)).append (counted_general cfg hp fun _ => trivial)
  exact .cons rfl (costs_plain cfg hp (costs_one (costs_fetch cfg))) <| .cons rfl (costs_plain cfg hp (costs_one (costs_fetch cfg))) <|
    .cons rfl (costs_plain cfg hp (costs_one (costs_fetch cfg))) <| .cons rfl (costs_plain cfg hp (costs_one (costs_fetch cfg))) <|
    .cons rfl (costs_references cfg hp) .nil

theorem counted_submodel : Counted (submodelOps cfg) (operations (sspPrefix ++ py!"SubmodelServiceSpecification/SSP-002")) := by
  have hp : ∀ c, AtMost (submodelPrefix c) 0 := fun _ => trivial
  refine (Counted.append ?_ (counted_elements cfg hp)).append (counted_general cfg hp fun _ => trivial)
  exact .cons rfl (costs_plain cfg hp (costs_one (costs_fetch cfg))) <| .cons rfl (costs_plain cfg hp (costs_one (costs_fetch cfg))) <|
    .cons rfl (costs_plain cfg hp (costs_one (costs_fetch cfg))) <| .cons rfl (costs_plain cfg hp (costs_one (costs_fetch cfg))) <|
    .cons rfl (costs_plain cfg hp (costs_one (costs_fetch cfg))) .nil

theorem counted {service : Str} {ops : List Op} (h : (service, ops) ∈ availableSuites cfg) : Counted ops (operations service) := by
  simp only [availableSuites, List.mem_cons, Prod.mk.injEq, List.not_mem_nil, or_false] at h
  rcases h with ⟨rfl, rfl⟩ | ⟨rfl, rfl⟩ | ⟨rfl, rfl⟩ | ⟨rfl, rfl⟩
  · exact counted_shellRepo cfg
  · exact counted_submodelRepo cfg
  · exact counted_shell cfg
  · exact counted_submodel cfg

end Verif.Props
