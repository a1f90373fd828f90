import Verif.Py.Dict
import Verif.Py.Str
/-!
# Specification vocabulary for discovery and negotiation
-/

namespace Verif.Spec.Discovery

/-- Two issuer identifiers are the same, or differ by exactly one trailing slash that the other one
does not have. -/
def SameIssuer (a b : String) : Prop :=
  a = b ∨ (a = b ++ "/" ∧ ¬ ∃ t, b = t ++ "/") ∨ (b = a ++ "/" ∧ ¬ ∃ t, a = t ++ "/")

/-- `v` is the most preferred of `prefs` among the `supported` ones. -/
def MostPreferred (prefs supported : List Val) (v : Val) : Prop :=
  ∃ before after, prefs = before ++ v :: after ∧ v ∈ supported ∧ ∀ x ∈ before, x ∉ supported

end Verif.Spec.Discovery
