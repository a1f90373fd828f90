import Verif.Model.Handler
/-!
# What can be seen of a handler

The session store of each of its clients and the HTTP requests each client has sent.
-/

namespace Verif.Spec.HandlerView
open Verif

/-- Store and sent requests of the client kept for an issuer. -/
def view (h : Handler) (issuer : String) : Option (DB × List Sent) :=
  (Dict.get? h.issuer2rp issuer).map (fun c => (c.db, c.log))

/-- No session changed and no HTTP request was sent, for any provider. -/
def Untouched (h h' : Handler) : Prop := ∀ i, view h' i = view h i

end Verif.Spec.HandlerView
