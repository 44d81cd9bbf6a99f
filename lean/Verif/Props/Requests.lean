import Verif.RequestLemmas2
import Verif.Props.SuiteSamples

/-!
# C103: the number of requests is limited
-/

namespace Verif.Props
open Verif Verif.Spec Verif.Parse Verif.Aas Verif.Http Verif.Generate Verif.Api Verif.Api.Suites Verif.Spec.Requests Verif.Spec.Api

variable (env : List Sent → Sent → Answer) (cfg : Cfg)

/-- C103: whatever the server answers and however much data it has, a run sends at most as many requests as the table says for the operations
that are not filtered out, and one to see whether there is a server. -/
theorem C103_bounded (client : Client) (conf : Conf) :
    (run env (executeTests (availableSuites cfg) client conf)).2.length ≤ 1 + (((operations conf.suite).filter (chosen conf)).map fun o => o.2.sum).sum := by
  rcases run_cases env cfg client conf with ⟨text, -, h⟩ | ⟨ops, hm, h⟩
  · rw [h]; exact Nat.zero_le _
  · rw [h, run_eq]
    have := (counted cfg hm).executeOps (conf := conf) (client := client) |>.hist env false []
    simpa using this

theorem sum_filter_le {T : Type} (p : T → Bool) (w : T → Nat) : ∀ l : List T, ((l.filter p).map w).sum ≤ (l.map w).sum
  | [] => Nat.le_refl _
  | a :: l => by
    have := sum_filter_le p w l
    rw [List.filter_cons]
    split
    · simp only [List.map_cons, List.sum_cons]; omega
    · simp only [List.map_cons, List.sum_cons]; omega

/-- … so there is a number for each service that holds for all servers and filters. -/
theorem C103_total (client : Client) (conf : Conf) : (run env (executeTests (availableSuites cfg) client conf)).2.length ≤ most conf.suite :=
  Nat.le_trans (C103_bounded env cfg client conf) (Nat.add_le_add_left (sum_filter_le _ _ _) 1)

/-- C103, for all services: no run sends more than 425 requests. -/
theorem C103_number (client : Client) (conf : Conf) : (run env (executeTests (availableSuites cfg) client conf)).2.length ≤ 425 := by
  refine Nat.le_trans (C103_total env cfg client conf) ?_
  unfold most operations
  cases h : services.find? fun s => s.1 == conf.suite with
  | none => decide
  | some s =>
    have : ∀ s ∈ services, 1 + (s.2.map fun o => o.2.sum).sum ≤ 425 := by decide +kernel
    exact this s (List.mem_of_find?_eq_some h)

example : (List.range 4).map (fun i => most (service i)) = [425, 411, 395, 360] := by decide +kernel
/-- with a filter -/
example : (1 + (((operations (service 0)).filter (chosen { suite := service 0, filter := some ⟨[py!"GetDescription"], []⟩ })).map fun o => o.2.sum).sum) = 2 := by
  decide +kernel

end Verif.Props
