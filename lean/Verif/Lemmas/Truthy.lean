import Verif.Model.Registration
/-! The first truthy value of a list of look-ups. -/

namespace Verif.Registration
open Verif

theorem firstTruthy_nil : firstTruthy [] = none := rfl

theorem firstTruthy_cons (o : Option Val) (l : List (Option Val)) :
    firstTruthy (o :: l) = if Util.truthyO o then o else firstTruthy l := by
  unfold firstTruthy
  cases h : Util.truthyO o
  · simp [List.find?, h]
  · simp [List.find?, h]

theorem truthyO_some (v : Val) : Util.truthyO (some v) = v.truthy := rfl
theorem truthyO_none : Util.truthyO none = false := rfl

theorem firstTruthy_one (o : Option Val) (v : Val) :
    firstTruthy [o] = some v ↔ o = some v ∧ v.truthy = true := by
  rw [firstTruthy_cons, firstTruthy_nil]
  cases o with
  | none => simp
  | some w =>
    rw [truthyO_some]
    by_cases h : w.truthy = true
    · rw [if_pos h]; constructor
      · intro e; injection e with e; subst e; exact ⟨rfl, h⟩
      · exact fun e => e.1
    · rw [if_neg h]; constructor
      · intro e; cases e
      · rintro ⟨e, h'⟩; injection e with e; subst e; exact absurd h' h

theorem firstTruthy_one_none (o : Option Val) :
    firstTruthy [o] = none ↔ ∀ v, o = some v → v.truthy = false := by
  rw [firstTruthy_cons, firstTruthy_nil]
  cases o with
  | none => simp
  | some w => rw [truthyO_some]; cases h : w.truthy <;> simp [h]

end Verif.Registration
