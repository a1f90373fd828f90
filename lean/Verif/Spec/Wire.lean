import Verif.Model.Response
/-!
# What a sent HTTP request carries
-/

namespace Verif.Spec.Wire
open Verif

/-- The HTTP request `s` carries the parameters `req` to `url`: in the query of a GET or DELETE request, in
the body of a POST request (URL encoded, unless the service is configured to send JSON or JOSE).  What the
two encodings are is the subject of C41. -/
def Carries (x : Ext) (s : Sent) (url : String) (req : Obj) : Prop :=
  s.url = Util.getHttpUrl (x.ser s.srv) url req s.method ∧
  (s.method = "POST" → ∃ ct b, Dict.get? s.headers "Content-Type" = some ct ∧
    ct ∈ ["application/x-www-form-urlencoded", "application/json", "application/jose"] ∧
    Util.getHttpBody (x.ser s.srv) req ct = .ok b ∧ s.body = some b) ∧
  (s.method ≠ "POST" → s.body = none)

/-- The first value that is not empty. -/
def FirstNonEmpty (l : List (Option Val)) (v : Val) : Prop :=
  ∃ before after, l = before ++ some v :: after ∧ v.truthy = true ∧
    ∀ o ∈ before, ∀ w, o = some w → w.truthy = false

/-- There is no value that is not empty. -/
def AllEmpty (l : List (Option Val)) : Prop := ∀ o ∈ l, ∀ w, o = some w → w.truthy = false

end Verif.Spec.Wire
