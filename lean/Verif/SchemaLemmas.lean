import Verif.Schema

/-! # The explicit tables of `Schema.lean` are what inheritance yields -/

namespace Verif.Aas
open Verif Verif.Parse

theorem mem_allCls (c : Cls) : c ∈ allCls := by cases c <;> decide

theorem fieldsOf_eq : ∀ c, (dataclassFields c).map toField = (fieldsOf c).map some := by
  intro c; cases c <;> decide +kernel

theorem subclassesOf_eq : ∀ c, collectSubclasses c = subclassesOf c := by
  intro c; cases c <;> decide +kernel

theorem needsModelTypeOf_eq : ∀ c, (mro c).any requiresModelType = needsModelTypeOf c := by
  intro c; cases c <;> decide +kernel

theorem checkTable_eq : ∀ c, collectChecks c = checkTable c := by
  intro c; cases c <;> decide +kernel

/-- the fuel of `mro` suffices: one more changes nothing -/
theorem mro_fuel : ∀ c, mroF 7 c = mroF 6 c := by intro c; cases c <;> decide +kernel
theorem dataclassFields_fuel : ∀ c, dataclassFieldsF 7 c = dataclassFieldsF 6 c := by intro c; cases c <;> decide +kernel
theorem collectSubclasses_fuel : ∀ c, collectSubclassesF 7 c = collectSubclassesF 6 c := by intro c; cases c <;> decide +kernel

end Verif.Aas
