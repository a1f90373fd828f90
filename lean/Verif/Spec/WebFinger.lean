/-!
# Specification vocabulary for WebFinger identifiers
-/

namespace Verif.Spec.WebFinger

/-- Letters, digits, `.` and `-`: the characters of host names and simple user names. -/
def nameChar (c : Char) : Bool :=
  (65 ≤ c.toNat && c.toNat ≤ 90) || (97 ≤ c.toNat && c.toNat ≤ 122) ||
  (48 ≤ c.toNat && c.toNat ≤ 57) || c = '.' || c = '-'

/-- A non-empty name. -/
def Name (s : List Char) : Prop := s ≠ [] ∧ s.all nameChar = true

end Verif.Spec.WebFinger
