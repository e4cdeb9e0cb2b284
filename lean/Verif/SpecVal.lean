import Verif.Py

/-! # What is a missing value -/

namespace Calk

/-- No value: `None` or NaN. -/
def Spec.Null (v : Val) : Prop := v = .none ∨ v = .num .nan

theorem isNull_iff {v : Val} : v.isNull = true ↔ Spec.Null v := by
  cases v with
  | num x => cases x <;> simp [Val.isNull, Spec.Null, Flt.isNaN]
  | _ => simp [Val.isNull, Spec.Null]

theorem isNull_false {v : Val} : v.isNull = false ↔ ¬ Spec.Null v := by
  rw [← isNull_iff, Bool.not_eq_true]

instance : DecidablePred Spec.Null := fun _ => decidable_of_iff _ isNull_iff

theorem not_isNull (v : Val) : (!v.isNull) = decide (¬ Spec.Null v) := by
  cases h : v.isNull
  · rw [Bool.not_false]; exact (decide_eq_true (isNull_false.mp h)).symm
  · rw [Bool.not_true]; exact (decide_eq_false (not_not.mpr (isNull_iff.mp h))).symm

end Calk
