import Verif.Model.Context
import Verif.Model.Registration
/-!
# `generate_request_uris`
-/

namespace Verif.RequestUris
open Verif

/-- The issuer hashed (service_context.py:228-231): that of the metadata, else that of the context.  A value that is not a text
is a `TypeError` of the hash. -/
def hashedIssuer (ctx : Ctx) : Except Exc String :=
  match Dict.get? ctx.providerInfo "issuer" with
  | some v => asStr v
  | none => .ok ctx.issuer

/-- The URL for a path (service_context.py:234-237). -/
def urlFor (base path hex : String) : String :=
  if Str.startsWith path "/" then base ++ path ++ "/" ++ hex else base ++ "/" ++ path ++ "/" ++ hex

/-- `generate_request_uris` (service_context.py:219-240).  `hash` is the hexadecimal SHA-256 of a text's bytes. -/
def generate (hash : String → String) (path : String) : Py Ctx (List String) := fun ctx =>
  match hashedIssuer ctx with
  | .error e => (.error e, ctx)
  | .ok iss =>
    let redirs := [urlFor ctx.baseUrl path (hash (iss ++ ctx.baseUrl))]
    (.ok redirs, { ctx with redirectUris := redirs })

end Verif.RequestUris
