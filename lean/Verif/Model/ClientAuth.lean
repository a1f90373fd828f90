import Verif.Model.Context
/-!
# Model of src/oidcrp/client_auth.py

A request is a message object; the authentication methods change it in place, here they return the
changed request and the changed HTTP headers.
-/

namespace Verif.ClientAuth
open Verif

/-- defaults.py: `JWT_BEARER`. (defaults.py:70) -/
def JWT_BEARER : String := "urn:ietf:params:oauth:client-assertion-type:jwt-bearer"

/-- A key of the client's key jar (cryptojwt, external). (used in client_auth.py:399-449) -/
structure Key where
  kid : String
  kty : String
  deriving DecidableEq, Inhabited, Repr

/-- The claims of an assertion (client_auth.py:35-51). -/
structure Assertion where
  iss : String
  sub : String
  aud : Val
  jti : String
  exp : Int
  iat : Int
  alg : String
  keys : List Key
  deriving DecidableEq, Inhabited, Repr

/-- Key jar and signing, external (cryptojwt). (used in client_auth.py:399-449, 483-503, 567-580) -/
structure KeyEnv where
  /-- `keyjar.get_issuer_keys("")` -/
  ownKeys : List Key := []
  /-- `keyjar.get_signing_key(alg2keytype(alg), alg=alg)` -/
  signingKeys : String → List Key := fun _ => []
  /-- `context.kid["sig"]` -/
  kidSig : Dict String := []
  /-- `alg in SIGNER_ALGS` -/
  signerAlg : String → Bool := fun _ => true
  /-- the JWT text -/
  sign : Assertion → Except Exc String := fun _ => .error .unsupported
  /-- `utc_time_sans_frac()` -/
  now : Int := 0
  /-- `rndstr(32)` -/
  jti : String := ""

/-- What an authentication method can see. (the arguments of `construct`, client_auth.py:61-63) -/
structure Env where
  ctx : Ctx
  db : DB := []
  msg : MsgType
  serviceName : String := ""
  keys : KeyEnv := {}

/-- HTTP headers and request after an authentication method. (client_auth.py:61-63) -/
abbrev Result := Dict String × Obj

/-- `ClientSecretBasic._get_passwd` (client_auth.py:87-96). -/
def getPasswd (env : Env) (kwargs request : Obj) : Val :=
  match Dict.get? kwargs "password" with
  | some p => p
  | none => match Dict.get? request "client_secret" with
    | some p => p
    | none => .str env.ctx.clientSecret

/-- `ClientSecretBasic._get_user` (client_auth.py:98-104). -/
def getUser (env : Env) (kwargs : Obj) : Val :=
  match Dict.get? kwargs "user" with
  | some u => u
  | none => .str env.ctx.clientId

/-- The credentials text (client_auth.py:119): `quote_plus(user):quote_plus(passwd)`. -/
def credentials (user passwd : String) : List Char :=
  Quote.quotePlus user ++ ':' :: Quote.quotePlus passwd

/-- ASCII text as bytes (client_auth.py:120, `credentials.encode("utf-8")`); the credentials are
ASCII. -/
def asciiBytes (s : List Char) : List UInt8 := s.map (fun c => UInt8.ofNat c.toNat)

/-- `_get_authentication_token` (client_auth.py:106-120). -/
def basicToken (user passwd : String) : String :=
  String.ofList (Base64.encode true (asciiBytes (credentials user passwd)))

/-- `_with_or_without_client_id` (client_auth.py:122-152). -/
def withOrWithoutClientId (env : Env) (request : Obj) : Except Exc Obj :=
  let drop : Obj :=
    if (env.msg.requires "client_id").getD false then request else Dict.del request "client_id"
  if env.msg.isAccessTokenRequest then
    match Dict.get? request "grant_type" with
    | none => .error .keyError
    | some g =>
      if g = .str "authorization_code" then
        if Dict.has request "client_id" then .ok request
        else .ok (Dict.set request "client_id" (.str env.ctx.clientId))
      else .ok drop
  else .ok drop

/-- `ClientSecretBasic.modify_request` (client_auth.py:154-168). -/
def basicModify (env : Env) (request : Obj) : Except Exc Obj :=
  withOrWithoutClientId env (Dict.del request "client_secret")

/-- `ClientSecretBasic.construct` (client_auth.py:170-191). -/
def clientSecretBasic (env : Env) (kwargs : Obj) (headers : Dict String) (request : Obj) :
    Except Exc Result :=
  match asStr (getUser env kwargs), asStr (getPasswd env kwargs request) with
  | .ok user, .ok passwd =>
    match basicModify env request with
    | .ok request' =>
      .ok (Dict.set headers "Authorization" ("Basic " ++ basicToken user passwd), request')
    | .error e => .error e
  | .error e, _ => .error e
  | _, .error e => .error e

/-- `ClientSecretPost.modify_request` (client_auth.py:204-225). -/
def postModify (env : Env) (kwargs request : Obj) : Except Exc Obj :=
  let withSecret : Except Exc Obj :=
    if Dict.has request "client_secret" then .ok request
    else match Dict.get? kwargs "client_secret" with
      | some s => .ok (Dict.set request "client_secret" s)
      | none =>
        if env.ctx.clientSecret ≠ "" then
          .ok (Dict.set request "client_secret" (.str env.ctx.clientSecret))
        else .error .authnFailure
  withSecret.map (fun r => Dict.set r "client_id" (.str env.ctx.clientId))

/-- `ClientSecretPost.construct` (client_auth.py:227-237). -/
def clientSecretPost (env : Env) (kwargs : Obj) (headers : Dict String) (request : Obj) :
    Except Exc Result :=
  (postModify env kwargs request).map (fun r => (headers, r))

/-- The last part of `find_token`: the latest token stored for the session
(client_auth.py:268-274). -/
def storedToken (env : Env) (kwargs : Obj) : Except Exc Val :=
  match Dict.get? kwargs "key" with
  | none => .error .keyError
  | some k =>
    match asStr k with
    | .error e => .error e
    | .ok key =>
      match StateInterface.multipleExtendRequestArgs env.db [] key ["access_token"]
          ["auth_response", "token_response", "refresh_token_response"] with
      | .error e => .error e
      | .ok args => Dict.getItem args "access_token"

/-- `find_token` (client_auth.py:240-274): the token and the request without it. -/
def findToken (env : Env) (kwargs request : Obj) (tokenType : String) : Except Exc (Val × Obj) :=
  match Dict.get? request tokenType with
  | some t => .ok (t, Dict.del request tokenType)
  | none =>
    match Dict.get? kwargs "access_token" with
    | some t => .ok (t, request)
    | none => (storedToken env kwargs).map (fun t => (t, request))

/-- `"Bearer {}".format(token)`: text of a string token; other values are printed in a way the model
does not describe. (client_auth.py:303) -/
def bearer : Val → String
  | .str s => "Bearer " ++ s
  | _ => "Bearer <object>"

/-- `BearerHeader.construct` (client_auth.py:280-315). -/
def bearerHeader (env : Env) (kwargs : Obj) (headers : Dict String) (request : Obj) :
    Except Exc Result :=
  let typ := if env.serviceName = "refresh_token" then "refresh_token" else "access_token"
  match findToken env kwargs request typ with
  | .error e => .error e
  | .ok (t, request') =>
    if t.truthy then .ok (Dict.set headers "Authorization" (bearer t), request')
    else .error .keyError

/-- `BearerBody.modify_request` (client_auth.py:321-339). -/
def bearerBodyModify (env : Env) (kwargs request : Obj) : Except Exc Obj :=
  match findToken env kwargs request "access_token" with
  | .error e => .error e
  | .ok (t, r) =>
    if t.truthy then .ok (Dict.set r "access_token" t)
    else
      match findToken env kwargs r "refresh_token" with
      | .error e => .error e
      | .ok (t, r) => if t.truthy then .ok (Dict.set r "access_token" t) else .error .keyError

/-- `BearerBody.construct` (client_auth.py:341-353). -/
def bearerBody (env : Env) (kwargs : Obj) (headers : Dict String) (request : Obj) :
    Except Exc Result :=
  (bearerBodyModify env kwargs request).map (fun r => (headers, r))

/-- `bearer_auth` (client_auth.py:356-371): what a receiver picks out. -/
def bearerAuth (request : Obj) (authn : String) : Except Exc Val :=
  match Dict.get? request "access_token" with
  | some t => .ok t
  | none =>
    if Str.startsWith authn "Bearer " then .ok (.str (String.ofList (authn.toList.drop 7)))
    else .error .valueError

/-- The two JWT methods (client_auth.py:555-580). -/
inductive JwtMethod where
  | clientSecretJwt
  | privateKeyJwt
  deriving DecidableEq, Inhabited, Repr

/-- `DEF_SIGN_ALG[context]` (defaults.py) for the two contexts. (defaults.py:62-68, client_auth.py:393) -/
def JwtMethod.defaultAlg : JwtMethod → String
  | .clientSecretJwt => "HS256"
  | .privateKeyJwt => "RS256"

/-- `choose_algorithm` (client_auth.py:380-396, 564-565, 576-577). -/
def chooseAlgorithm (m : JwtMethod) (kwargs : Obj) : Except Exc String :=
  match Dict.get? kwargs "algorithm" with
  | none => .ok m.defaultAlg
  | some a => if a.truthy then asStr a else .error .authnFailure

/-- The first supported algorithm with a key (client_auth.py:469-473). -/
def firstUsable (keys : KeyEnv) : List Val → Option String
  | [] => none
  | .str a :: l =>
    if keys.signerAlg a && !(keys.signingKeys a).isEmpty then some a else firstUsable keys l
  | _ :: l => firstUsable keys l

/-- The values a Python `for` iterates over (a list). (client_auth.py:469) -/
def listOf : Val → List Val
  | .list l => l
  | _ => []

/-- The algorithm known for the token endpoint (client_auth.py:457-473); `none`: nothing found. -/
def tokenEndpointAlg (env : Env) : Except Exc (Option String) :=
  if !env.ctx.registrationResponse.isEmpty then
    match Dict.get? env.ctx.registrationResponse "token_endpoint_auth_signing_alg" with
    | none => .error .keyError
    | some a => if a.truthy then (asStr a).map some else .ok none
  else
    match Dict.get? env.ctx.clientPreferences "token_endpoint_auth_signing_alg" with
    | some .null => fromProvider
    | some a => if a.truthy then (asStr a).map some else .ok none
    | none => fromProvider
where
  fromProvider : Except Exc (Option String) :=
    match Dict.get? env.ctx.providerInfo "token_endpoint_auth_signing_alg_values_supported" with
    | none => .ok (some "RS256")
    | some algs => .ok (firstUsable env.keys (listOf algs))

/-- `_get_audience_and_algorithm` (client_auth.py:451-482). -/
def audienceAndAlgorithm (env : Env) (m : JwtMethod) (kwargs : Obj) : Except Exc (Val × String) :=
  if Dict.get? kwargs "authn_endpoint" = some (.str "token_endpoint") then
    match tokenEndpointAlg env with
    | .error e => .error e
    | .ok alg =>
      match Dict.getItem env.ctx.providerInfo "token_endpoint" with
      | .error e => .error e
      | .ok aud =>
        match alg with
        | some a => .ok (aud, a)
        | none => (chooseAlgorithm m kwargs).map (fun a => (aud, a))
  else
    match Dict.getItem env.ctx.providerInfo "issuer" with
    | .error e => .error e
    | .ok aud => (chooseAlgorithm m kwargs).map (fun a => (aud, a))

/-- `cryptojwt.jws.utils.alg2keytype` (external); `none` for an unknown algorithm. (used in client_auth.py:424,
568, 580) -/
def alg2keytype (alg : String) : Option String :=
  if alg = "" ∨ Str.lower alg = "none" then some "none"
  else if Str.startsWith alg "RS" || Str.startsWith alg "PS" then some "RSA"
  else if Str.startsWith alg "HS" || Str.startsWith alg "A" then some "OCT"
  else if Str.startsWith alg "ES" || Str.startsWith alg "ECDH-ES" then some "EC"
  else none

/-- `_get_key_by_kid` (client_auth.py:411-430); `MissingKey` is external. -/
def keyByKid (keys : KeyEnv) (kid alg : String) : Except Exc Key :=
  match keys.ownKeys.find? (fun k => k.kid == kid) with
  | none => .error (.external "MissingKey")
  | some k => if some k.kty = alg2keytype alg then .ok k else .error (.external "MissingKey")

/-- `_get_signing_key` (client_auth.py:432-449). -/
def getSigningKey (keys : KeyEnv) (alg : String) (kid : Option String) : Except Exc (List Key) :=
  match kid with
  | some k =>
    if k ≠ "" then (keyByKid keys k alg).map (fun x => [x]) else byType
  | none => byType
where
  byType : Except Exc (List Key) :=
    match alg2keytype alg with
    | none => .ok (keys.signingKeys alg)
    | some kt =>
      match Dict.get? keys.kidSig kt with
      | some kid => (keyByKid keys kid alg).map (fun x => [x])
      | none => .ok (keys.signingKeys alg)

/-- `_construct_client_assertion` with `assertion_jwt` (client_auth.py:35-51, 484-506). -/
def constructAssertion (env : Env) (m : JwtMethod) (kwargs : Obj) : Except Exc String :=
  match audienceAndAlgorithm env m kwargs with
  | .error e => .error e
  | .ok (aud, alg) =>
    let kid := (Dict.get? kwargs "kid").bind Val.str?
    match getSigningKey env.keys alg kid with
    | .error e => .error e
    | .ok ks =>
      if ks.isEmpty then .error .unsupported
      else
        let lifetime := ((Dict.get? kwargs "lifetime").bind Val.int?).getD 600
        env.keys.sign { iss := env.ctx.clientId, sub := env.ctx.clientId, aud := aud,
                        jti := env.keys.jti, exp := env.keys.now + lifetime, iat := env.keys.now,
                        alg := alg, keys := ks }

/-- The assertion part of `JWSAuthnMethod.modify_request` (client_auth.py:516-529). -/
def withAssertion (env : Env) (m : JwtMethod) (kwargs request : Obj) : Except Exc Obj :=
  match Dict.get? kwargs "client_assertion" with
  | some a =>
    let r := Dict.set request "client_assertion" a
    match Dict.get? kwargs "client_assertion_type" with
    | some t => .ok (Dict.set r "client_assertion_type" t)
    | none => .ok (Dict.set r "client_assertion_type" (.str JWT_BEARER))
  | none =>
    if Dict.has request "client_assertion" then
      if Dict.has request "client_assertion_type" then .ok request
      else .ok (Dict.set request "client_assertion_type" (.str JWT_BEARER))
    else
      (constructAssertion env m kwargs).map (fun a =>
        Dict.set (Dict.set request "client_assertion" (.str a))
          "client_assertion_type" (.str JWT_BEARER))

/-- `JWSAuthnMethod.modify_request` (client_auth.py:508-541). -/
def jwtModify (env : Env) (m : JwtMethod) (kwargs request : Obj) : Except Exc Obj :=
  match withAssertion env m kwargs request with
  | .error e => .error e
  | .ok r =>
    let r := Dict.del r "client_secret"
    match env.msg.requires "client_id" with
    | none => .error .keyError
    | some true => .ok r
    | some false => .ok (Dict.del r "client_id")

/-- `JWSAuthnMethod.construct` (client_auth.py:543-556): the HTTP arguments are always empty. -/
def jwtAuthn (env : Env) (m : JwtMethod) (kwargs request : Obj) : Except Exc Result :=
  (jwtModify env m kwargs request).map (fun r => ([], r))

/-- `factory(auth_method).construct(...)` (client_auth.py:583-593, 612-621). -/
def construct (env : Env) (method : String) (kwargs : Obj) (headers : Dict String) (request : Obj) :
    Except Exc Result :=
  if method = "client_secret_basic" then clientSecretBasic env kwargs headers request
  else if method = "client_secret_post" then clientSecretPost env kwargs headers request
  else if method = "bearer_header" then bearerHeader env kwargs headers request
  else if method = "bearer_body" then bearerBody env kwargs headers request
  else if method = "client_secret_jwt" then jwtAuthn env .clientSecretJwt kwargs request
  else if method = "private_key_jwt" then jwtAuthn env .privateKeyJwt kwargs request
  else .error .valueError

/-- `valid_service_context` (client_auth.py:596-609); `when = 0` means now. -/
def validServiceContext (ctx : Ctx) (when now : Int) : Bool :=
  let t := if when ≠ 0 then when else now
  if ctx.clientSecretExpiresAt ≠ 0 ∧ ctx.clientSecretExpiresAt < t then false else true

end Verif.ClientAuth
