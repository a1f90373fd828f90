import Verif.Model.StateInterface
import Verif.Model.Util
/-!
# Model of the service context (src/oidcrp/service_context.py)

The attributes of `ServiceContext` that the modelled code reads or writes.  The session store
(`context.state`) is kept apart, as a `DB`.  Looking up keys is external (see `KeyEnv`); of the key jar the
calls that put keys in it are kept.
-/

namespace Verif

/-- Keys put in a key jar: the owner they are filed under, how they were given (`jwks_uri`, `jwks`, `url`,
`file`, `rsa`, `secret`, `copy`) and what was given: a URL, keys, a file name, a secret.
(oauth2/provider_info_discovery.py:122-125, oidc/registration.py:277-286, service_context.py:153, 242-265,
rp_handler.py:229-242) -/
abbrev KeyLoad := String × String × Val

/-- `ServiceContext` (service_context.py:77-190). -/
structure Ctx where
  issuer : String := ""
  clientId : String := ""
  clientSecret : String := ""
  clientSecretExpiresAt : Int := 0
  redirectUris : List String := []
  postLogoutRedirectUris : List String := []
  providerInfo : Obj := []
  behaviour : Obj := []
  callback : Obj := []
  registerArgs : Obj := []
  registrationResponse : Obj := []
  registrationAccessToken : Option Val := none
  clientPreferences : Obj := []
  allow : Obj := []
  jwksUri : String := ""
  baseUrl : String := ""
  config : Obj := []
  /-- `_service[...]`'s `endpoint` attributes set by discovery, by service name -/
  endpoints : Dict Val := []
  clockSkew : Int := 15
  hashSeed : String := ""
  hash2issuer : Dict String := []
  /-- `context.add_on`: the add-ons that are configured ('pkce', 'pushed_authorization', 'dpop') -/
  addOn : Obj := []
  /-- what was put in the key jar -/
  keyLoads : List KeyLoad := []
  deriving Inhabited

/-- The value `getattr(context, 'state')` gives: an object, not a state value
(service_context.py:122). -/
def stateObject : Val := .obj [("__object__", .str "StateInterface")]

/-- `ServiceContext.get` (service_context.py:317-318), for the attribute names that can coincide with
request parameter names. -/
def Ctx.get (c : Ctx) (key : String) : Option Val :=
  if key = "client_id" then some (.str c.clientId)
  else if key = "client_secret" then some (.str c.clientSecret)
  else if key = "client_secret_expires_at" then some (.int c.clientSecretExpiresAt)
  else if key = "issuer" then some (.str c.issuer)
  else if key = "redirect_uris" then some (.list (c.redirectUris.map .str))
  else if key = "post_logout_redirect_uris" then some (.list (c.postLogoutRedirectUris.map .str))
  else if key = "provider_info" then some (.obj c.providerInfo)
  else if key = "behaviour" then some (.obj c.behaviour)
  else if key = "callback" then some (.obj c.callback)
  else if key = "register_args" then some (.obj c.registerArgs)
  else if key = "registration_response" then some (.obj c.registrationResponse)
  else if key = "registration_access_token" then c.registrationAccessToken
  else if key = "client_preferences" then some (.obj c.clientPreferences)
  else if key = "allow" then some (.obj c.allow)
  else if key = "jwks_uri" then some (.str c.jwksUri)
  else if key = "base_url" then some (.str c.baseUrl)
  else if key = "config" then some (.obj c.config)
  else if key = "state" then some stateObject
  else none

/-- What the model needs of an oidcmsg message class: the parameters of `c_param` in order, which of
them are required, which are space separated lists, and whether it is an
`oidcmsg.oauth2.AccessTokenRequest`. (oidcmsg, external; used in service.py:111, 212, 223) -/
structure MsgType where
  name : String
  params : List String
  required : List String := []
  isAccessTokenRequest : Bool := false
  /-- the parameters that are space separated lists -/
  spaced : List String := []
  /-- `c_default` -/
  defaults : Obj := []
  deriving DecidableEq, Inhabited, Repr

/-- `c_param[p][VREQUIRED]`; `none` is the `KeyError`. (used through service.py:223) -/
def MsgType.requires (t : MsgType) (p : String) : Option Bool :=
  if p ∈ t.params then some (decide (p ∈ t.required)) else none

/-- A space separated list given as one string is split (oidcmsg `_add_value` with
`sp_sep_list_deserializer`, external). (used through service.py:223) -/
def MsgType.coerce (t : MsgType) (p : String × Val) : String × Val :=
  match p.2 with
  | .str s => if p.1 ∈ t.spaced then (p.1, .list ((Str.split s ' ').map .str)) else p
  | _ => p

/-- `msg_type(**args)`: the class defaults, overridden by the given parameters without the empty
ones (oidcmsg, external; type errors of the constructor are not modelled). (used in service.py:223) -/
def MsgType.make (t : MsgType) (args : Obj) : Obj :=
  Dict.update t.defaults ((Msg.ofDict args).map t.coerce)

/-- A value where Python code needs a `str`. (not in the code: where Python would raise later) -/
def asStr : Val → Except Exc String
  | .str s => .ok s
  | _ => .error .typeError

end Verif
