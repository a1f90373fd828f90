import Verif.Model.Handler
/-!
# Model of saving and loading a service context

`ServiceContext` is an oidcmsg `ImpExp` (service_context.py:80): `dump` gives the attributes that the class's
`parameter` table names, `load` sets them on another object.  `ImpExp` itself is external; it is taken to leave
out of a dump attributes that are `None`, and to leave alone on loading attributes that the dump does not have.
A dump is taken as a snapshot: that `dump` hands out the very dictionaries of the context, so that two clients of
one process share them after a load, is left out.
-/

namespace Verif
namespace Persist

/-- The value of an attribute in a dump.  (service_context.py:87-114) -/
inductive Attr where
  | str (s : String)
  | int (i : Int)
  | obj (o : Obj)
  | strs (l : List String)
  | names (d : Dict String)
  | keys (l : List KeyLoad)
  | state (db : DB)
  /-- the add-ons; the DPoP key is kept among them (dpop.py:101-120) -/
  | addOn (o : Obj) (dpopKey : Option (String × String))

/-- `ServiceContext.parameter` (service_context.py:87-114).  The first entry is that of the superclass
(oidcmsg's `OidcContext`, external). -/
def PARAMETER : List String :=
  ["keyjar", "add_on", "allow", "args", "base_url", "behaviour", "callback", "client_id", "client_preferences",
   "client_secret", "client_secret_expires_at", "clock_skew", "config", "hash_seed", "hash2issuer", "httpc_params",
   "issuer", "kid", "post_logout_redirect_uris", "provider_info", "redirect_uris", "requests_dir", "register_args",
   "registration_response", "state", "verify_args"]

/-- `getattr(context, name, None)` (service_context.py:116-192).  Simplification: attributes that the model does
not have (`args`, `httpc_params`, `kid`, `requests_dir`, `verify_args`) are `None`. -/
def getAttr (c : Client) (name : String) : Option Attr :=
  if name = "keyjar" then some (.keys c.ctx.keyLoads)
  else if name = "add_on" then some (.addOn c.ctx.addOn c.dpopKey)
  else if name = "allow" then some (.obj c.ctx.allow)
  else if name = "base_url" then some (.str c.ctx.baseUrl)
  else if name = "behaviour" then some (.obj c.ctx.behaviour)
  else if name = "callback" then some (.obj c.ctx.callback)
  else if name = "client_id" then some (.str c.ctx.clientId)
  else if name = "client_preferences" then some (.obj c.ctx.clientPreferences)
  else if name = "client_secret" then some (.str c.ctx.clientSecret)
  else if name = "client_secret_expires_at" then some (.int c.ctx.clientSecretExpiresAt)
  else if name = "clock_skew" then some (.int c.ctx.clockSkew)
  else if name = "config" then some (.obj c.ctx.config)
  else if name = "hash_seed" then some (.str c.ctx.hashSeed)
  else if name = "hash2issuer" then some (.names c.ctx.hash2issuer)
  else if name = "issuer" then some (.str c.ctx.issuer)
  else if name = "post_logout_redirect_uris" then some (.strs c.ctx.postLogoutRedirectUris)
  else if name = "provider_info" then some (.obj c.ctx.providerInfo)
  else if name = "redirect_uris" then some (.strs c.ctx.redirectUris)
  else if name = "register_args" then some (.obj c.ctx.registerArgs)
  else if name = "registration_response" then some (.obj c.ctx.registrationResponse)
  else if name = "state" then some (.state c.db)
  else none

/-- `setattr(context, name, value)` (service_context.py:116-192).  Simplification: a value of a type the attribute
does not have is not set. -/
def setAttr (c : Client) : String → Attr → Client
  | "keyjar", .keys l => { c with ctx := { c.ctx with keyLoads := l } }
  | "add_on", .addOn o k => { c with ctx := { c.ctx with addOn := o }, dpopKey := k }
  | "allow", .obj o => { c with ctx := { c.ctx with allow := o } }
  | "base_url", .str s => { c with ctx := { c.ctx with baseUrl := s } }
  | "behaviour", .obj o => { c with ctx := { c.ctx with behaviour := o } }
  | "callback", .obj o => { c with ctx := { c.ctx with callback := o } }
  | "client_id", .str s => { c with ctx := { c.ctx with clientId := s } }
  | "client_preferences", .obj o => { c with ctx := { c.ctx with clientPreferences := o } }
  | "client_secret", .str s => { c with ctx := { c.ctx with clientSecret := s } }
  | "client_secret_expires_at", .int i => { c with ctx := { c.ctx with clientSecretExpiresAt := i } }
  | "clock_skew", .int i => { c with ctx := { c.ctx with clockSkew := i } }
  | "config", .obj o => { c with ctx := { c.ctx with config := o } }
  | "hash_seed", .str s => { c with ctx := { c.ctx with hashSeed := s } }
  | "hash2issuer", .names d => { c with ctx := { c.ctx with hash2issuer := d } }
  | "issuer", .str s => { c with ctx := { c.ctx with issuer := s } }
  | "post_logout_redirect_uris", .strs l => { c with ctx := { c.ctx with postLogoutRedirectUris := l } }
  | "provider_info", .obj o => { c with ctx := { c.ctx with providerInfo := o } }
  | "redirect_uris", .strs l => { c with ctx := { c.ctx with redirectUris := l } }
  | "register_args", .obj o => { c with ctx := { c.ctx with registerArgs := o } }
  | "registration_response", .obj o => { c with ctx := { c.ctx with registrationResponse := o } }
  | "state", .state db => { c with db := db }
  | _, _ => c

/-- `context.dump(exclude_attributes=…)` (oidcmsg's `ImpExp.dump` with the table of service_context.py:87-114). -/
def dump (exclude : List String) (c : Client) : Dict Attr :=
  PARAMETER.filterMap (fun n => if n ∈ exclude then none else (getAttr c n).map (fun a => (n, a)))

/-- One attribute of `load` (oidcmsg's `ImpExp.load`, service_context.py:87-114). -/
def loadAttr (item : Dict Attr) (c : Client) (n : String) : Client :=
  match Dict.get? item n with
  | some a => setAttr c n a
  | none => c

/-- `context.load(item)` (oidcmsg's `ImpExp.load` with the table of service_context.py:87-114). -/
def load (item : Dict Attr) (c : Client) : Client :=
  PARAMETER.foldl (loadAttr item) c

end Persist
end Verif
