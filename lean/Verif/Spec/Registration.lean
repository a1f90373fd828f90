import Verif.Py.Str
import Verif.Py.Dict
/-!
# Specification vocabulary for registration
-/

namespace Verif.Spec.Registration

/-- The words of a response type. -/
def words (rt : String) : List String := Verif.Str.split rt ' '

/-- The response types the library has a rule for, as sets of words (OpenID Connect registration:
every combination of code, id_token and token, except token alone). -/
def known : List (List String) :=
  [["code"], ["id_token"], ["id_token", "token"], ["code", "id_token"], ["code", "token"],
   ["code", "id_token", "token"]]

/-- The grant type `g` is needed for a response type with these words: `authorization_code` for
code, `implicit` for id_token and token. -/
def Needed (g : String) (ws : List String) : Prop :=
  (g = "authorization_code" ∧ "code" ∈ ws) ∨ (g = "implicit" ∧ ("id_token" ∈ ws ∨ "token" ∈ ws))

/-- The URL is the value, or one of the values of the list. -/
def Holds : Val → String → Prop
  | .str s, url => url = s
  | .list l, url => Val.str url ∈ l
  | _, _ => False

end Verif.Spec.Registration
