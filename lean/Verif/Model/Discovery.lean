import Verif.Model.Context
/-!
# Model of provider info discovery

src/oidcrp/oauth2/provider_info_discovery.py and src/oidcrp/oidc/provider_info_discovery.py
-/

namespace Verif

/-- The service classes: those of src/oidcrp/oidc, then the OAuth2 ones a client without configured services gets
(entity.py:12-25), those of the client credentials flow (oauth2/client_credentials) and of session management
(oidc/check_id.py, check_session.py). -/
inductive Srv where
  | authorization | accesstoken | refreshToken | userinfo | endSession | providerInfo
  | registration | webfinger | registrationRead
  | oauth2Authorization | oauth2AccessToken | oauth2RefreshToken | oauth2ProviderInfo
  | ccAccessToken | ccRefreshToken | checkId | checkSession
  deriving DecidableEq, Inhabited, Repr

namespace Srv

/-- `service_name` (oauth2/authorization.py:24, access_token.py:21, refresh_access_token.py:21,
oidc/userinfo.py:38, end_session.py:21, oauth2/provider_info_discovery.py:21, registration.py:225,
webfinger.py:33, read_registration.py:17, client_credentials/cc_access_token.py:14,
cc_refresh_access_token.py:14, check_id.py:19, check_session.py:19). -/
def name : Srv → String
  | .authorization => "authorization"
  | .accesstoken => "accesstoken"
  | .refreshToken => "refresh_token"
  | .userinfo => "userinfo"
  | .endSession => "end_session"
  | .providerInfo => "provider_info"
  | .registration => "registration"
  | .webfinger => "webfinger"
  | .registrationRead => "registration_read"
  | .oauth2Authorization => "authorization"
  | .oauth2AccessToken => "accesstoken"
  | .oauth2RefreshToken => "refresh_token"
  | .oauth2ProviderInfo => "provider_info"
  | .ccAccessToken => "accesstoken"
  | .ccRefreshToken => "refresh_token"
  | .checkId => "check_id"
  | .checkSession => "check_session"

/-- `endpoint_name` (the class attributes; `''` if a class does not set it). (service.py:42,
oauth2/authorization.py:22, oauth2/access_token.py:19, oauth2/refresh_access_token.py:19, oidc/userinfo.py:36, oidc/registration.py:223, oidc/end_session.py:19 and the others) -/
def endpointName : Srv → String
  | .authorization => "authorization_endpoint"
  | .accesstoken => "token_endpoint"
  | .refreshToken => "token_endpoint"
  | .userinfo => "userinfo_endpoint"
  | .endSession => "end_session_endpoint"
  | .registration => "registration_endpoint"
  | .providerInfo => ""
  | .webfinger => ""
  | .registrationRead => ""
  | .oauth2Authorization => "authorization_endpoint"
  | .oauth2AccessToken => "token_endpoint"
  | .oauth2RefreshToken => "token_endpoint"
  | .oauth2ProviderInfo => ""
  | .ccAccessToken => "token_endpoint"
  | .ccRefreshToken => "token_endpoint"
  | .checkId => ""
  | .checkSession => ""

end Srv

namespace Discovery
open Verif

/-- `s[:-1]` (oauth2/provider_info_discovery.py:40, 63) -/
def chop (s : String) : String := String.ofList s.toList.dropLast

/-- `ProviderInfoDiscovery.get_endpoint` (oauth2/provider_info_discovery.py:28-42); `OIDCONF_PATTERN`
(defaults.py). -/
def getEndpoint (ctx : Ctx) : String :=
  (if Str.endsWith ctx.issuer "/" then chop ctx.issuer else ctx.issuer) ++
    "/.well-known/openid-configuration"

/-- The issuer in the slash style of the received one (oauth2/provider_info_discovery.py:55-65). -/
def adaptIssuer (received issuer : String) : String :=
  if Str.endsWith received "/" then
    if Str.endsWith issuer "/" then issuer else issuer ++ "/"
  else
    if Str.endsWith issuer "/" then chop issuer else issuer

/-- `_verify_issuer` (oauth2/provider_info_discovery.py:54-76). -/
def verifyIssuer (ctx : Ctx) (received : String) : Except Exc String :=
  if Dict.has ctx.allow "issuer_mismatch" then .ok (adaptIssuer received ctx.issuer)
  else if adaptIssuer received ctx.issuer ≠ received then .error .oidcServiceError
  else .ok (adaptIssuer received ctx.issuer)

/-- `get_service_by_endpoint_name` (entity.py:69-74): the first one. -/
def serviceByEndpoint (services : List Srv) (ename : String) : Option Srv :=
  services.find? (fun s => s.endpointName = ename)

/-- The loop body of `_set_endpoints` (oauth2/provider_info_discovery.py:82-89). -/
def setEndpoint (services : List Srv) (e : Dict Val) (key : String) (val : Val) : Dict Val :=
  if Str.endsWith key "_endpoint" then
    match serviceByEndpoint services key with
    | some s => Dict.set e s.name val
    | none => e
  else e

/-- `_set_endpoints` (oauth2/provider_info_discovery.py:78-89). -/
def setEndpoints (services : List Srv) : Obj → Dict Val → Dict Val
  | [], e => e
  | (key, val) :: resp, e => setEndpoints services resp (setEndpoint services e key val)

/-- `keyjar.load_keys` calls (oauth2/provider_info_discovery.py:112-125). -/
def loadKeys (issuer : String) (resp : Obj) (loads : List KeyLoad) : List KeyLoad :=
  match Dict.get? resp "jwks_uri" with
  | some v => loads ++ [(issuer, "jwks_uri", v)]
  | none => match Dict.get? resp "jwks" with
    | some v => loads ++ [(issuer, "jwks", v)]
    | none => loads

/-- The issuer part of `_update_service_context` (oauth2/provider_info_discovery.py:100-106). -/
def acceptedIssuer (ctx : Ctx) (resp : Obj) : Except Exc String :=
  match Dict.get? resp "issuer" with
  | some (.str s) => verifyIssuer ctx s
  | some _ => .error .attributeError
  | none => .ok ctx.issuer

/-- `_update_service_context` (oauth2/provider_info_discovery.py:91-127). -/
def updateBase (services : List Srv) (resp : Obj) : Py Ctx Unit := fun ctx =>
  match acceptedIssuer ctx resp with
  | .error e => (.error e, ctx)
  | .ok iss =>
    (.ok (), { ctx with
      issuer := iss
      providerInfo := resp
      endpoints := setEndpoints services resp ctx.endpoints
      keyLoads := loadKeys iss resp ctx.keyLoads })

/-- `PREFERENCE2PROVIDER` (oidc/provider_info_discovery.py:13-38). -/
def PREFERENCE2PROVIDER : List (String × String) :=
  [("request_object_signing_alg", "request_object_signing_alg_values_supported"),
   ("request_object_encryption_alg", "request_object_encryption_alg_values_supported"),
   ("request_object_encryption_enc", "request_object_encryption_enc_values_supported"),
   ("userinfo_signed_response_alg", "userinfo_signing_alg_values_supported"),
   ("userinfo_encrypted_response_alg", "userinfo_encryption_alg_values_supported"),
   ("userinfo_encrypted_response_enc", "userinfo_encryption_enc_values_supported"),
   ("id_token_signed_response_alg", "id_token_signing_alg_values_supported"),
   ("id_token_encrypted_response_alg", "id_token_encryption_alg_values_supported"),
   ("id_token_encrypted_response_enc", "id_token_encryption_enc_values_supported"),
   ("default_acr_values", "acr_values_supported"),
   ("subject_type", "subject_types_supported"),
   ("token_endpoint_auth_method", "token_endpoint_auth_methods_supported"),
   ("token_endpoint_auth_signing_alg", "token_endpoint_auth_signing_alg_values_supported"),
   ("response_types", "response_types_supported"),
   ("grant_types", "grant_types_supported"),
   ("scope", "scopes_supported")]

/-- `PROVIDER_DEFAULT` (oidc/provider_info_discovery.py:42-45). -/
def PROVIDER_DEFAULT : Obj :=
  [("token_endpoint_auth_method", .str "client_secret_basic"),
   ("id_token_signed_response_alg", .str "RS256")]

/-- Python `v in container`. (used in oidc/provider_info_discovery.py:133-153) -/
def inVal (v container : Val) : Except Exc Bool :=
  match container with
  | .list l => .ok (decide (v ∈ l))
  | .str s => match v with
    | .str p => .ok (Str.contains s p)
    | _ => .error .typeError
  | .obj o => match v with
    | .str k => .ok (Dict.has o k)
    | .list _ => .error .typeError
    | .obj _ => .error .typeError
    | _ => .ok false
  | _ => .error .typeError

/-- `for val in vals`: the elements, `TypeError` if not iterable. (oidc/provider_info_discovery.py:147, 152) -/
def iterVal : Val → Except Exc (List Val)
  | .list l => .ok l
  | .obj o => .ok (o.map (fun p => .str p.1))
  | .str s => .ok (s.toList.map (fun c => .str (String.ofList [c])))
  | _ => .error .typeError

/-- `[v for v in vals if v in pvals]`. (oidc/provider_info_discovery.py:141, 146-150) -/
def supportedOnly (pvals : Val) : List Val → Except Exc (List Val)
  | [] => .ok []
  | v :: vs =>
    match inVal v pvals with
    | .error e => .error e
    | .ok b => match supportedOnly pvals vs with
      | .error e => .error e
      | .ok r => .ok (if b then v :: r else r)

/-- The first of `vals` that is in `pvals`
(oidc/provider_info_discovery.py:152-156). -/
def firstSupported (pvals : Val) : List Val → Except Exc (Option Val)
  | [] => .ok none
  | v :: vs =>
    match inVal v pvals with
    | .error e => .error e
    | .ok true => .ok (some v)
    | .ok false => firstSupported pvals vs

/-- What the provider is taken to support (oidc/provider_info_discovery.py:119-131). -/
def providerVals (pcr : Obj) (pref prov : String) (vals : Val) : Val :=
  match Dict.get? pcr prov with
  | some p => p
  | none => (Dict.get? PROVIDER_DEFAULT pref).getD vals

/-- One preference (oidc/provider_info_discovery.py:133-157): the value `_behaviour[_pref]` is set
to, `none` if it is not set.  `kind` is the type of the parameter in
`oidcmsg.oidc.RegistrationRequest.c_param`: `some true` a list, `some false` a single value, `none`
not a registration parameter.  Simplification: if an exception is raised in the middle of a list, the
partial list Python has stored by then is not kept. -/
def matchOne (kind : Option Bool) (vals pvals : Val) : Except Exc (Option Val) :=
  match vals with
  | .str _ => (inVal vals pvals).map (fun b => if b then some vals else none)
  | _ =>
    match kind with
    | none =>
      match vals with
      | .list l => (supportedOnly pvals l).map (fun r => some (.list r))
      | _ => (inVal vals pvals).map (fun b => if b then some vals else none)
    | some true => match iterVal vals with
      | .error e => .error e
      | .ok l => (supportedOnly pvals l).map (fun r => some (.list r))
    | some false => match iterVal vals with
      | .error e => .error e
      | .ok l => firstSupported pvals l

/-- `b[k] = v` if there is a value (oidc/provider_info_discovery.py:133-157). -/
def setOpt (b : Obj) (k : String) : Option Val → Obj
  | some v => Dict.set b k v
  | none => b

/-- First loop of `match_preferences` (oidc/provider_info_discovery.py:113-160). -/
def matchLoop (kind : String → Option Bool) (prefs pcr : Obj) :
    List (String × String) → Py Obj Unit
  | [], b => (.ok (), b)
  | (pref, prov) :: l, b =>
    match Dict.get? prefs pref with
    | none => matchLoop kind prefs pcr l b
    | some vals =>
      match matchOne (kind pref) vals (providerVals pcr pref prov vals) with
      | .error e => (.error e, b)
      | .ok r =>
        if Dict.has (setOpt b pref r) pref then matchLoop kind prefs pcr l (setOpt b pref r)
        else (.error .configurationError, setOpt b pref r)

/-- The value a preference that is not negotiated gets
(oidc/provider_info_discovery.py:166-172). -/
def plainValue (kind : Option Bool) (val : Val) : Except Exc Val :=
  match kind, val with
  | some false, .list (v :: _) => .ok v
  | some false, .list [] => .error .indexError
  | _, v => .ok v

/-- Second loop of `match_preferences` (oidc/provider_info_discovery.py:162-174). -/
def restLoop (kind : String → Option Bool) : Obj → Py Obj Unit
  | [], b => (.ok (), b)
  | (key, val) :: l, b =>
    if Dict.has b key then restLoop kind l b
    else match plainValue (kind key) val with
      | .error e => (.error e, b)
      | .ok v =>
        restLoop kind l (if key ∈ PREFERENCE2PROVIDER.map Prod.fst then b else Dict.set b key v)

/-- `match_preferences` (oidc/provider_info_discovery.py:92-176), on the behaviour dictionary.  An
empty `pcr` means the stored provider info. -/
def matchPreferences (kind : String → Option Bool) (pcr : Obj) : Py Ctx Unit := fun ctx =>
  let p := if pcr.isEmpty then ctx.providerInfo else pcr
  match matchLoop kind ctx.clientPreferences p PREFERENCE2PROVIDER ctx.behaviour with
  | (.error e, b) => (.error e, { ctx with behaviour := b })
  | (.ok _, b) =>
    match restLoop kind ctx.clientPreferences b with
    | (.error e, b') => (.error e, { ctx with behaviour := b' })
    | (.ok _, b') => (.ok (), { ctx with behaviour := b' })

/-- `update_service_context` (oidc/provider_info_discovery.py:82-90; the key preloading only logs). -/
def update (kind : String → Option Bool) (services : List Srv) (resp : Obj) : Py Ctx Unit := fun ctx =>
  match updateBase services resp ctx with
  | (.error e, c) => (.error e, c)
  | (.ok _, c) => matchPreferences kind resp c

/-- `Service.get_endpoint` (service.py:270-279). -/
def serviceEndpoint (ctx : Ctx) (s : Srv) : Except Exc Val :=
  match Dict.get? ctx.endpoints s.name with
  | some v => if v.truthy then .ok v else Dict.getItem ctx.providerInfo s.endpointName
  | none => Dict.getItem ctx.providerInfo s.endpointName

end Discovery
end Verif
