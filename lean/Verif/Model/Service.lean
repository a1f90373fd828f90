import Verif.Model.ClientAuth
import Verif.Model.Registration
import Verif.Model.WebFinger
/-!
# Model of a client and its services: building and sending requests

src/oidcrp/service.py, src/oidcrp/oauth2/*.py, src/oidcrp/oidc/*.py (the OIDC services) and the
add-ons src/oidcrp/oauth2/add_on/{pkce,pushed_authorization,dpop}.py.

A client is its service context, its session store, the HTTP requests it has sent so far, the services
it has and their configuration.  Everything outside the repository (HTTP, clock, random values, message
classes of oidcmsg, cryptography of cryptojwt) is an argument `Ext` of the functions.
-/

namespace Verif

/-- A HTTP request that was sent. (oauth2/__init__.py:122) -/
structure Sent where
  srv : Srv
  url : String
  method : String := "GET"
  headers : Dict String := []
  body : Option Util.Body := none
  deriving DecidableEq, Inhabited, Repr

/-- A client (oauth2/__init__.py:49-78, entity.py:29-49).  `conf` holds `service.conf` by service name;
`dpopKey` is the key and algorithm kept by the DPoP add-on (`add_on['dpop']['key' | 'alg']`). -/
structure Client where
  ctx : Ctx := {}
  db : DB := []
  log : List Sent := []
  services : List Srv := []
  conf : Dict Obj := []
  dpopKey : Option (String × String) := none
  /-- under which name the handler keeps the configuration the client was made of -/
  cfg : String := ""
  deriving Inhabited

/-- What a response parser is given. (service.py:505) -/
inductive Info where
  | text (s : String)
  | dict (o : Obj)
  deriving DecidableEq, Inhabited, Repr

/-- The world outside the repository. (oidcmsg, cryptojwt, requests, the clock and random as used in the cited
functions) -/
structure Ext where
  /-- `utc_time_sans_frac()` / `time_sans_frac()` -/
  now : Int
  /-- random values (`rndstr`, `unreserved`), by place of use -/
  rnd : String → String
  /-- the HTTP library: what was sent before, the request -/
  http : List Sent → Sent → Except Exc HttpResp
  /-- the request message classes (oidcmsg) -/
  msg : Srv → MsgType
  /-- `json.dumps` -/
  dumps : Val → String
  /-- `json.loads` of an object -/
  loads : String → Except Exc Obj
  /-- key jar and signing of client assertions -/
  keys : ClientAuth.KeyEnv
  /-- `response_cls().deserialize(info, sformat, iss=…)` -/
  deser : Ctx → Srv → String → Info → Except Exc Obj
  /-- `JWT(key_jar, allowed_…).unpack(text)` -/
  unjwt : Ctx → Obj → String → Except Exc Obj
  /-- `resp.verify(**vargs)`: the message after verification -/
  verify : Ctx → Srv → Obj → Obj → Except Exc Obj
  /-- `b64e(CC_METHOD[method](verifier).digest())` -/
  challenge : String → String → String
  /-- `Message().from_jwt(jwt, keyjar)` of aggregated claims -/
  aggregated : Ctx → Val → Except Exc Obj
  /-- the value of the parameter `request` or `request_uri` made of a request -/
  requestParam : Ctx → String → Obj → Obj → Except Exc Val
  /-- the signed request of PAR -/
  parJws : Ctx → Obj → Except Exc String
  /-- `key_by_alg(alg)`, a handle -/
  mintKey : String → String
  /-- a DPoP proof made with a key -/
  dpopSign : String → Obj → Except Exc String
  /-- hexadecimal SHA-256 -/
  hash : String → String
  /-- the kinds of the registration parameters (see `Discovery.matchOne`) -/
  regKind : String → Option Bool
  /-- `OpenIDSchema.c_param` -/
  openidParams : List String
  /-- `IDToken.c_param` -/
  idTokenParams : List String
  /-- `BackChannelLogoutRequest().from_urlencoded(…)` / `BackChannelLogoutRequest(**…)` -/
  logoutReq : Info → Except Exc Obj
  /-- `req.verify(**kwargs)` of a logout request: the message after verification -/
  logoutVerify : Ctx → Obj → Obj → Except Exc Obj

/-- How the request of a service is serialised (oidcmsg, external). (used in util.py:101-145) -/
def Ext.ser (x : Ext) (srv : Srv) : Util.Ser where
  spaced := fun k => decide (k ∈ (x.msg srv).spaced)
  json := x.dumps

namespace Service
open Verif

/-- Run a store operation on the client's store. (not in the code) -/
def onDB {α : Type} (m : Py DB α) : Py Client α := fun c => ((m c.db).1, { c with db := (m c.db).2 })

/-- Run an operation on the client's service context. (not in the code) -/
def onCtx {α : Type} (m : Py Ctx α) : Py Client α := fun c => ((m c.ctx).1, { c with ctx := (m c.ctx).2 })

/-- Read something off the client, or raise. (not in the code) -/
def ask {α : Type} (f : Client → Except Exc α) : Py Client α := fun c => (f c, c)

/-- A session key.  A key that is not a string is unknown (`KeyError`). (used with state_interface.py:88-99) -/
def dbKey : Val → Except Exc String
  | .str s => .ok s
  | _ => .error .keyError

/-- `service.conf` (service.py:72-79). -/
def confOf (c : Client) (srv : Srv) : Obj := (Dict.get? c.conf srv.name).getD []

/-- A service attribute that the configuration may override (service.py:74-78). -/
def attr (c : Client) (srv : Srv) (name default : String) : String :=
  match Dict.get? (confOf c srv) name with
  | some (.str s) => s
  | _ => default

/-- `http_method` (service.py:47, access_token.py:26, refresh_access_token.py:23, registration.py:227,
cc_access_token.py:16, cc_refresh_access_token.py:16). -/
def httpMethod : Srv → String
  | .accesstoken => "POST"
  | .refreshToken => "POST"
  | .oauth2AccessToken => "POST"
  | .oauth2RefreshToken => "POST"
  | .ccAccessToken => "POST"
  | .ccRefreshToken => "POST"
  | .registration => "POST"
  | _ => "GET"

/-- `request_body_type` (service.py:48, registration.py:226). -/
def requestBodyType : Srv → String
  | .registration => "json"
  | _ => "urlencoded"

/-- `response_body_type` (service.py:49, oauth2/authorization.py:25, end_session.py:22). -/
def responseBodyType : Srv → String
  | .authorization => "urlencoded"
  | .oauth2Authorization => "urlencoded"
  | .endSession => "html"
  | _ => "json"

/-- `default_authn_method` (service.py:46, access_token.py:25, refresh_access_token.py:22,
userinfo.py:38, read_registration.py:18, cc_access_token.py:15, cc_refresh_access_token.py:15). -/
def defaultAuthn : Srv → String
  | .accesstoken => "client_secret_basic"
  | .refreshToken => "bearer_header"
  | .oauth2AccessToken => "client_secret_basic"
  | .oauth2RefreshToken => "bearer_header"
  | .ccAccessToken => "client_secret_basic"
  | .ccRefreshToken => "bearer_header"
  | .userinfo => "bearer_header"
  | .registrationRead => "client_secret_basic"
  | _ => ""

/-- `get_state_parameter` (oauth2/utils.py:14-24). -/
def getStateParameter (args kwargs : Obj) : Except Exc Val :=
  match Dict.get? kwargs "state" with
  | some v => .ok v
  | none => match Dict.get? args "state" with
    | some v => .ok v
    | none => .error .missingParameter

/-- `default_request_args` (service.py:71, oidc/authorization.py:33). -/
def defaultRequestArgs : Srv → Obj
  | .authorization => [("scope", .list [.str "openid"])]
  | _ => []

/-- `self.conf['request_args']` (service.py:115-116). -/
def confRequestArgs (c : Client) (srv : Srv) : Obj :=
  match Dict.get? (confOf c srv) "request_args" with
  | some (.obj o) => o
  | _ => []

/-- The value a parameter gets that the caller did not give (service.py:112-126). -/
def fallback (c : Client) (srv : Srv) (p : String) : Option Val :=
  Registration.firstTruthy
    [c.ctx.get p, Dict.get? (confRequestArgs c srv) p, Dict.get? c.ctx.registerArgs p,
     Dict.get? (defaultRequestArgs srv) p, Dict.get? c.ctx.behaviour p]

/-- The loop of `gather_request_args` (service.py:108-127). -/
def gatherLoop (c : Client) (srv : Srv) : List String → Obj → Obj
  | [], args => args
  | p :: ps, args =>
    if Dict.has args p then gatherLoop c srv ps args
    else match fallback c srv p with
      | some v => gatherLoop c srv ps (Dict.set args p v)
      | none => gatherLoop c srv ps args

/-- `gather_request_args` (service.py:93-129, oauth2/authorization.py:49-58).  `redirect_uris[0]` of an
empty list is an `IndexError`. -/
def gatherRequestArgs (x : Ext) (c : Client) (srv : Srv) (args : Obj) : Except Exc Obj :=
  let r := gatherLoop c srv (x.msg srv).params args
  if (srv = .authorization ∨ srv = .oauth2Authorization) ∧ ¬ Dict.has r "redirect_uri" then
    match c.ctx.redirectUris with
    | u :: _ => .ok (Dict.set r "redirect_uri" (.str u))
    | [] => .error .indexError
  else .ok r

/-- `method_args` (service.py:131-145). -/
def methodArgs (conf : Obj) (context : String) (kwargs : Obj) : Obj :=
  match Dict.get? conf context with
  | some (.obj o) => Dict.update o kwargs
  | _ => kwargs

/-! ## pre_construct -/

/-- The state `set_state` starts from; a falsy one means that a new one is made
(oidc/authorization.py:40-46). -/
def givenState (args kwargs : Obj) : Except Exc String :=
  match (Dict.get? kwargs "state").or (Dict.get? args "state") with
  | none => .ok ""
  | some v => if v.truthy then asStr v else .ok ""

/-- `set_state` (oidc/authorization.py:39-50). -/
def setState (x : Ext) (args kwargs : Obj) : Py Client Obj := do
  let s ← Py.lift (givenState args kwargs)
  let c ← Py.read
  let k ← onDB (StateInterface.createState c.ctx.issuer s (x.rnd "state"))
  return Dict.set args "state" (.str k)

/-- `pre_construct_pick_redirect_uri` (oauth2/utils.py:64-69). -/
def pickRedirect (args : Obj) : Py Client Obj := do
  let v ← ask (fun c => Registration.pickRedirectUri c.ctx args)
  return Dict.set args "redirect_uri" v

/-- The response type part of `oidc_pre_construct` (oidc/authorization.py:86-93): the request
arguments and `_response_types`.  A client without response types makes `"code" in None` fail later
(`TypeError`); negotiated response types that are not a list are treated in the same way. -/
def preResponseType (behaviour args : Obj) : Except Exc (Obj × List Val) :=
  match Dict.get? args "response_type" with
  | some v => .ok (args, [v])
  | none => match Dict.get? behaviour "response_types" with
    | some (.list (v :: vs)) => .ok (Dict.set args "response_type" v, v :: vs)
    | some (.list []) => .ok (Dict.set args "response_type" (.str "code"), [])
    | _ => .error .typeError

/-- The scope part (oidc/authorization.py:96-99). -/
def preScope (behaviour args : Obj) : Except Exc Obj :=
  match Dict.get? args "scope" with
  | none => .ok (Dict.set args "scope" ((Dict.get? behaviour "scope").getD (.list [.str "openid"])))
  | some sc =>
    match Discovery.inVal (.str "openid") sc with
    | .error e => .error e
    | .ok true => .ok args
    | .ok false => match sc with
      | .list l => .ok (Dict.set args "scope" (.list (l ++ [.str "openid"])))
      | _ => .error .attributeError

/-- The nonce part (oidc/authorization.py:103-105). -/
def preNonce (nonce : String) (rts : List Val) (args : Obj) : Obj :=
  if (.str "code" ∈ rts ∨ .str "id_token" ∈ rts) ∧ ¬ Dict.has args "nonce" then
    Dict.set args "nonce" (.str nonce)
  else args

/-- Copy a keyword argument (oidc/authorization.py:110-116). -/
def carry (kwargs post : Obj) (k : String) : Obj :=
  match Dict.get? kwargs k with
  | some v => Dict.set post k v
  | none => post

/-- The post_args part (oidc/authorization.py:107-123). -/
def prePostArgs (kwargs : Obj) : Obj :=
  let post := ["request_object_signing_alg", "algorithm", "sig_kid"].foldl (carry kwargs) []
  match Dict.get? kwargs "request_method" with
  | some v => Dict.set post "request_param"
      (if v = .str "reference" then .str "request_uri" else .str "request")
  | none => post

/-- `oidc_pre_construct` of the authorization service (oidc/authorization.py:81-125). -/
def authorizationPre (nonce : String) (behaviour args kwargs : Obj) : Except Exc (Obj × Obj) :=
  match preResponseType behaviour args with
  | .error e => .error e
  | .ok (a, rts) => match preScope behaviour a with
    | .error e => .error e
    | .ok b => .ok (preNonce nonce rts b, prePostArgs kwargs)

/-- The configuration of an add-on (`add_on[name]`). (oauth2/add_on/pkce.py:26,
oauth2/add_on/pushed_authorization.py:19, oauth2/add_on/dpop.py:102) -/
def addOnConf (ctx : Ctx) (name : String) : Obj :=
  match Dict.get? ctx.addOn name with
  | some (.obj o) => o
  | _ => []

/-- The PKCE method (add_on/pkce.py:37-40). -/
def pkceMethod (ctx : Ctx) : String :=
  match Dict.get? (addOnConf ctx "pkce") "code_challenge_method" with
  | some (.str m) => m
  | _ => "S256"

/-- The keys of `CC_METHOD` (defaults.py:58-62). -/
def CC_METHODS : List String := ["S256", "S384", "S512"]

/-- `add_code_challenge` (add_on/pkce.py:14-61). -/
def addCodeChallenge (x : Ext) (args : Obj) : Py Client Obj := do
  let c ← Py.read
  let m := pkceMethod c.ctx
  if m ∉ CC_METHODS then Py.raise .unsupported else
  let st ← Py.lift (Dict.getItem args "state")
  let k ← Py.lift (dbKey st)
  let v := x.rnd "code_verifier"
  onDB (StateInterface.storeItem [("code_verifier", .str v), ("code_challenge_method", .str m)] "pkce" k)
  return Dict.set (Dict.set args "code_challenge" (.str (x.challenge m v)))
    "code_challenge_method" (.str m)

/-- `oauth_pre_construct` of the token service (oauth2/access_token.py:36-63). -/
def tokenPre (params : List String) (args kwargs : Obj) (c : Client) : Except Exc Obj :=
  match getStateParameter args kwargs with
  | .error e => .error e
  | .ok st => match dbKey st with
    | .error _ => .ok (Dict.update [("grant_type", .str "authorization_code")] args)
    | .ok k => match StateInterface.extendRequestArgs c.db [] "auth_request" k params with
      | .error e => .error e
      | .ok a => match StateInterface.extendRequestArgs c.db a "auth_response" k params with
        | .error e => .error e
        | .ok b => .ok (Dict.update
            (if Dict.has b "grant_type" then b
             else Dict.set b "grant_type" (.str "authorization_code")) args)

/-- `oauth_pre_construct` of the refresh service (oauth2/refresh_access_token.py:35-56). -/
def refreshPre (params : List String) (args kwargs : Obj) (c : Client) : Except Exc Obj :=
  match getStateParameter args kwargs with
  | .error e => .error e
  | .ok st => match dbKey st with
    | .error _ => .ok args
    | .ok k => match StateInterface.extendRequestArgs c.db [] "token_response" k params with
      | .error e => .error e
      | .ok a => match StateInterface.extendRequestArgs c.db a "refresh_token_response" k params with
        | .error e => .error e
        | .ok b => .ok (Dict.update b args)

/-- The responses an ID Token or access token may be in, the latest last (userinfo.py:56-58,
end_session.py:43). -/
abbrev RESPONSES : List String := ["auth_response", "token_response", "refresh_token_response"]

/-- `kwargs['state']` as session key. (e.g. oidc/userinfo.py:55) -/
def stateArg (kwargs : Obj) : Except Exc String :=
  match Dict.getItem kwargs "state" with
  | .error e => .error e
  | .ok v => dbKey v

/-- `oidc_pre_construct` of the userinfo service (userinfo.py:48-60). -/
def userinfoToken (args kwargs : Obj) (c : Client) : Except Exc Obj :=
  if Dict.has args "access_token" then .ok args
  else match stateArg kwargs with
    | .error e => .error e
    | .ok k => StateInterface.multipleExtendRequestArgs c.db args k ["access_token"] RESPONSES

/-- `oidc_pre_construct` and `carry_state` of the userinfo service (userinfo.py:20-28, 48-60). -/
def userinfoPre (args kwargs : Obj) (c : Client) : Except Exc Obj :=
  match userinfoToken args kwargs c with
  | .error e => .error e
  | .ok a => match getStateParameter a kwargs with
    | .error e => .error e
    | .ok _ => .ok a

/-- `get_id_token_hint` (end_session.py:32-53). -/
def idTokenHint (args kwargs : Obj) (c : Client) : Except Exc Obj :=
  match stateArg kwargs with
  | .error e => .error e
  | .ok k => match StateInterface.multipleExtendRequestArgs c.db args k ["id_token"] RESPONSES true with
    | .error e => .error e
    | .ok a => match Dict.get? a "id_token" with
      | some t => .ok (Dict.del (Dict.set a "id_token_hint" t) "id_token")
      | none => .ok a

/-- One or the first of several URIs (end_session.py:60-63). -/
def oneUri : Val → Except Exc Val
  | .list (u :: _) => .ok u
  | .list [] => .error .indexError
  | v => .ok v

/-- `add_post_logout_redirect_uri` (end_session.py:55-69).  The callback value is always indexed; a
callback that is one string would give its first letter, here the whole string. -/
def postLogoutUri (args : Obj) (c : Client) : Except Exc Obj :=
  if Dict.has args "post_logout_redirect_uri" then .ok args
  else match Registration.firstTruthy [Dict.get? c.ctx.registerArgs "post_logout_redirect_uris",
      Dict.get? c.ctx.callback "post_logout_redirect_uris"] with
    | some u => (oneUri u).map (fun v => Dict.set args "post_logout_redirect_uri" v)
    | none => .ok args

/-- `add_state` (end_session.py:71-79). -/
def addState (x : Ext) (args kwargs : Obj) : Py Client Obj := do
  let a := if Dict.has args "state" then args else Dict.set args "state" (.str (x.rnd "logout_state"))
  let v ← Py.lift (Dict.getItem a "state")
  let s ← Py.lift (asStr v)
  let k ← Py.lift (stateArg kwargs)
  onDB (StateInterface.storeX2State s k .logoutState)
  return a

/-- `put_state_in_post_args` (add_on/pkce.py:82-84): its result is not used. -/
def putState (args kwargs : Obj) : Except Exc Obj := (getStateParameter args kwargs).map (fun _ => args)

/-- `set_state_parameter` (oauth2/utils.py:79-82); the arguments it returns for later are dropped
(service.py:160-163). -/
def setStateParameter (args kwargs : Obj) : Except Exc Obj :=
  (getStateParameter args kwargs).map (fun v => Dict.set args "state" v)

/-- `kwargs.get("state", "cc")` (cc_refresh_access_token.py:25). -/
def ccState (kwargs : Obj) : Except Exc String :=
  match Dict.get? kwargs "state" with
  | some v => dbKey v
  | none => .ok "cc"

/-- `cc_pre_construct` (cc_refresh_access_token.py:24-42). -/
def ccRefreshPre (args kwargs : Obj) (c : Client) : Except Exc Obj :=
  match ccState kwargs with
  | .error e => .error e
  | .ok key => match StateInterface.extendRequestArgs c.db [] "token_response" key ["refresh_token"] with
    | .error e => .error e
    | .ok a => match StateInterface.extendRequestArgs c.db a "refresh_token_response" key ["refresh_token"] with
      | .error e => .error e
      | .ok b => .ok (Dict.update b args)

/-- `oidc_pre_construct` of the session management services (check_id.py:26-30, check_session.py:26-30). -/
def checkPre (args kwargs : Obj) (c : Client) : Except Exc Obj :=
  match stateArg kwargs with
  | .error e => .error e
  | .ok key => StateInterface.multipleExtendRequestArgs c.db args key ["id_token"] RESPONSES

/-- The PKCE add-on's part of `pre_construct` of the token service (pkce.py:82-84, 104-105). -/
def pkcePre (a kwargs : Obj) (c : Client) : Except Exc Obj :=
  if Dict.has c.ctx.addOn "pkce" then putState a kwargs else .ok a

/-- `do_pre_construct` (service.py:147-165): the request arguments and `post_args`. -/
def preConstruct (x : Ext) (srv : Srv) (args kwargs : Obj) : Py Client (Obj × Obj) :=
  match srv with
  | .authorization => do
    let a ← setState x args kwargs
    let b ← pickRedirect a
    let c ← Py.read
    let r ← Py.lift (authorizationPre (x.rnd "pre_nonce") c.ctx.behaviour b kwargs)
    if Dict.has c.ctx.addOn "pkce" then
      let d ← addCodeChallenge x r.1
      return (d, r.2)
    else return r
  | .accesstoken => do
    let a ← ask (tokenPre (x.msg srv).params args kwargs)
    let c ← Py.read
    let b ← Py.lift (if Dict.has c.ctx.addOn "pkce" then putState a kwargs else .ok a)
    return (b, [])
  | .oauth2AccessToken => do
    let a ← ask (tokenPre (x.msg srv).params args kwargs)
    let b ← ask (pkcePre a kwargs)
    return (b, [])
  | .ccAccessToken => do
    let b ← ask (pkcePre args kwargs)
    return (b, [])
  | .oauth2Authorization => do
    let a ← pickRedirect args
    let b ← Py.lift (setStateParameter a kwargs)
    let c ← Py.read
    if Dict.has c.ctx.addOn "pkce" then
      let d ← addCodeChallenge x b
      return (d, [])
    else return (b, [])
  | .oauth2RefreshToken => do
    let a ← ask (refreshPre (x.msg srv).params args kwargs)
    return (a, [])
  | .ccRefreshToken => do
    let a ← ask (ccRefreshPre args kwargs)
    return (a, [])
  | .checkId => do
    let a ← ask (checkPre args kwargs)
    return (a, [])
  | .checkSession => do
    let a ← ask (checkPre args kwargs)
    return (a, [])
  | .refreshToken => do
    let a ← ask (refreshPre (x.msg srv).params args kwargs)
    return (a, [])
  | .userinfo => do
    let a ← ask (userinfoPre args kwargs)
    return (a, [])
  | .endSession => do
    let a ← ask (idTokenHint args kwargs)
    let b ← ask (postLogoutUri a)
    let d ← addState x b kwargs
    return (d, [])
  | .registration => do
    let c ← Py.read
    let a := Registration.addPreferences c.ctx (x.msg srv).params args
    let b ← onCtx (Registration.addCallbackUris x.hash a)
    let c' ← Py.read
    return (Registration.addJwks c'.ctx b, [])
  | _ => return (args, [])

/-! ## post_construct -/

/-- Whether the nonce is bound to the state (oidc/authorization.py:216-219). -/
def bindsNonce (req : Obj) : Except Exc Bool :=
  match Dict.get? req "scope" with
  | none => .error .keyError
  | some sc => match Discovery.inVal (.str "openid") sc with
    | .error e => .error e
    | .ok false => .ok false
    | .ok true => match Dict.get? req "response_type" with
      | none => .error .keyError
      | some (.list (.str w :: _)) => .ok (Str.contains w "id_token" || Str.contains w "code")
      | some (.list []) => .error .indexError
      | some (.str w) => .ok (match w.toList with
          | [] => false
          | c :: _ => Str.contains (String.ofList [c]) "id_token" || Str.contains (String.ofList [c]) "code")
      | some _ => .error .typeError

/-- The nonce binding (oidc/authorization.py:216-219). -/
def bindNonce (req : Obj) : Py Client Unit := do
  let b ← Py.lift (bindsNonce req)
  if b then
    let nv ← Py.lift (Dict.getItem req "nonce")
    let n ← Py.lift (asStr nv)
    let sv ← Py.lift (Dict.getItem req "state")
    let s ← Py.lift (dbKey sv)
    onDB (StateInterface.storeX2State n s .nonce)
  else return ()

/-- The prompt for offline access (oidc/authorization.py:221-223). -/
def offlinePrompt (t : MsgType) (req : Obj) : Except Exc Obj :=
  match Dict.get? req "scope" with
  | none => .error .keyError
  | some sc => match Discovery.inVal (.str "offline_access") sc with
    | .error e => .error e
    | .ok b => .ok (if b ∧ ¬ Dict.has req "prompt" then
        Dict.set req "prompt" (t.coerce ("prompt", .str "consent")).2 else req)

/-- What is left of a request that is sent as request object (oidc/authorization.py:235-240). -/
def leaveRequired (t : MsgType) (req : Obj) : Obj :=
  req.filter (fun p => decide (p.1 ∈ ["request", "request_uri"] ∨ p.1 ∈ t.required))

/-- The request object part (oidc/authorization.py:227-240).  `construct_request_parameter` and the
file it writes for a `request_uri` are external. -/
def requestObject (x : Ext) (ctx : Ctx) (req kwargs : Obj) : Except Exc Obj :=
  match Dict.get? kwargs "request_param" with
  | none => .ok req
  | some p =>
    if p.truthy then
      let name := if p = .str "request" then "request" else "request_uri"
      match x.requestParam ctx name req kwargs with
      | .error e => .error e
      | .ok v => .ok (leaveRequired (x.msg .authorization) (Dict.set req name v))
    else .ok req

/-- `oidc_post_construct` (oidc/authorization.py:207-242). -/
def authorizationPost (x : Ext) (req kwargs : Obj) : Py Client Obj := do
  bindNonce req
  let r ← Py.lift (offlinePrompt (x.msg .authorization) req)
  let sv ← Py.lift (Dict.getItem r "state")
  let s ← Py.lift (dbKey sv)
  onDB (StateInterface.storeItem r "auth_request" s)
  ask (fun c => requestObject x c.ctx r kwargs)

/-- Send a HTTP request. (oauth2/__init__.py:122) -/
def send (x : Ext) (s : Sent) : Py Client HttpResp := fun c =>
  (x.http c.log s, { c with log := c.log ++ [s] })

/-- Copy the required parameters of a request (pushed_authorization.py:31-33, 44-46); a missing one
becomes `None`. -/
def requiredOf (t : MsgType) (req msg : Obj) : Obj :=
  t.required.foldl (fun m p => Dict.set m p ((Dict.get? req p).getD .null)) msg

/-- Whether the merge rule of PAR is 'lax' (pushed_authorization.py:31, 44). -/
def parLax (ctx : Ctx) : Bool :=
  decide (Dict.get? (addOnConf ctx "pushed_authorization") "merge_rule" = some (.str "lax"))

/-- The body that is pushed (pushed_authorization.py:22-35). -/
def parBody (x : Ext) (ctx : Ctx) (req : Obj) : Except Exc String :=
  if Dict.get? (addOnConf ctx "pushed_authorization") "body_format" = some (.str "urlencoded") then
    .ok (Util.toUrlencoded (x.ser .authorization) req)
  else
    (x.parJws ctx req).map (fun j => Util.toUrlencoded (x.ser .authorization)
      (if parLax ctx then requiredOf (x.msg .authorization) req [("request", .str j)]
       else [("request", .str j)]))

/-- The front-channel request after a successful push (pushed_authorization.py:42-47). -/
def parRequest (x : Ext) (ctx : Ctx) (req : Obj) (uri : Val) : Obj :=
  if parLax ctx then requiredOf (x.msg .authorization) req (Msg.ofDict [("request_uri", uri)])
  else Msg.ofDict [("request_uri", uri)]

/-- What follows from the answer of the PAR endpoint (pushed_authorization.py:41-49). -/
def parAnswer (x : Ext) (ctx : Ctx) (req : Obj) (resp : HttpResp) : Except Exc Obj :=
  if resp.status = 200 then
    match x.loads resp.text with
    | .error e => .error e
    | .ok m => match Dict.getItem (Msg.ofDict m) "request_uri" with
      | .error e => .error e
      | .ok u => .ok (parRequest x ctx req u)
  else .ok req

/-- `push_authorization` (add_on/pushed_authorization.py:11-49); the HTTP method is GET. -/
def pushAuthorization (x : Ext) (req : Obj) : Py Client Obj := do
  let c ← Py.read
  let b ← Py.lift (parBody x c.ctx req)
  let uv ← Py.lift (Dict.getItem c.ctx.providerInfo "pushed_authorization_request_endpoint")
  let u ← Py.lift (asStr uv)
  let r ← send x { srv := .authorization, url := u, method := "GET", body := some (.text b) }
  Py.lift (parAnswer x c.ctx req r)

/-- `add_code_verifier` (add_on/pkce.py:64-79). -/
def addCodeVerifier (req kwargs : Obj) (c : Client) : Except Exc Obj :=
  match (Dict.get? req "state").or (Dict.get? kwargs "state") with
  | none => .error .keyError
  | some sv => match dbKey sv with
    | .error e => .error e
    | .ok s => match StateInterface.getItem c.db "pkce" s with
      | .error e => .error e
      | .ok item => match Dict.getItem item "code_verifier" with
        | .error e => .error e
        | .ok v => .ok (Dict.set req "code_verifier" v)

/-- `store_auth_request` (oauth2/authorization.py:43-47). -/
def storeAuthRequest (req kwargs : Obj) : Py Client Obj := do
  let v ← Py.lift (getStateParameter req kwargs)
  let key ← Py.lift (dbKey v)
  onDB (StateInterface.storeItem req "auth_request" key)
  return req

/-- `cc_post_construct` (cc_refresh_access_token.py:44-51). -/
def ccPost (req : Obj) : Obj := Dict.del (Dict.del req "client_id") "client_secret"

/-- `do_post_construct` (service.py:167-180). -/
def postConstruct (x : Ext) (srv : Srv) (req post : Obj) : Py Client Obj := do
  let c ← Py.read
  let kwargs := methodArgs (confOf c srv) "post_construct" post
  match srv with
  | .authorization => do
    let r ← authorizationPost x req kwargs
    if Dict.has c.ctx.addOn "pushed_authorization" then pushAuthorization x r else return r
  | .accesstoken =>
    if Dict.has c.ctx.addOn "pkce" then ask (addCodeVerifier req kwargs) else return req
  | .oauth2AccessToken =>
    if Dict.has c.ctx.addOn "pkce" then ask (addCodeVerifier req kwargs) else return req
  | .ccAccessToken =>
    if Dict.has c.ctx.addOn "pkce" then ask (addCodeVerifier req kwargs) else return req
  | .oauth2Authorization => do
    let r ← storeAuthRequest req kwargs
    if Dict.has c.ctx.addOn "pushed_authorization" then pushAuthorization x r else return r
  | .ccRefreshToken => return ccPost req
  | .registration => return Registration.postConstruct req
  | _ => return req

/-! ## construct and send -/

/-- `'state'` from the keyword arguments (service.py:211-215). -/
def stateFromKwargs (t : MsgType) (args kwargs : Obj) : Obj :=
  if "state" ∈ t.params ∧ ¬ Dict.has args "state" then
    match Dict.get? kwargs "state" with
    | some v => Dict.set args "state" v
    | none => args
  else args

/-- `post_args.update(behaviour_args)` (service.py:225-227). -/
def withBehaviour (kwargs post : Obj) : Obj :=
  match Dict.get? kwargs "behaviour_args" with
  | some (.obj o) => Dict.update post o
  | _ => post

/-- `construct` (service.py:192-229). -/
def construct (x : Ext) (srv : Srv) (args kwargs : Obj) : Py Client Obj := do
  let c ← Py.read
  let r ← preConstruct x srv args (methodArgs (confOf c srv) "pre_construct" kwargs)
  let g ← ask (fun c => gatherRequestArgs x c srv (stateFromKwargs (x.msg srv) r.1 kwargs))
  postConstruct x srv ((x.msg srv).make g) (withBehaviour kwargs r.2)

/-- `get_authn_method` (service.py:306-313, oidc/access_token.py:91-95, oidc/refresh_access_token.py:10-14). -/
def getAuthnMethod (c : Client) (srv : Srv) : Except Exc String :=
  if srv = .accesstoken ∨ srv = .refreshToken then
    match Dict.get? c.ctx.behaviour "token_endpoint_auth_method" with
    | some v => asStr v
    | none => .ok (attr c srv "default_authn_method" (defaultAuthn srv))
  else .ok (attr c srv "default_authn_method" (defaultAuthn srv))

/-- What a client authentication method sees. (service.py:231-252) -/
def authEnv (x : Ext) (c : Client) (srv : Srv) : ClientAuth.Env :=
  { ctx := c.ctx, db := c.db, msg := x.msg srv, serviceName := srv.name, keys := x.keys }

/-- `get_authn_header` (service.py:281-304, read_registration.py:27-46): headers and request. -/
def authnHeader (x : Ext) (srv : Srv) (request : Obj) (method : String) (kwargs : Obj) (c : Client) :
    Except Exc (Dict String × Obj) :=
  if srv = .registrationRead then (Registration.readHeader c.ctx method).map (fun h => (h, request))
  else if method = "" then .ok ([], request)
  else ClientAuth.construct (authEnv x c srv) method kwargs [] request

/-- The DPoP signing algorithm that is chosen (dpop.py:104-117); `none`: no proof is made. -/
def dpopAlg (ctx : Ctx) : Except Exc (Option String) :=
  match Dict.getItem ctx.providerInfo "dpop_signing_alg_values_supported" with
  | .error e => .error e
  | .ok sup =>
    if sup.truthy then
      match Dict.get? (addOnConf ctx "dpop") "sign_algs" with
      | some (.list l) => match Discovery.firstSupported sup l with
        | .error e => .error e
        | .ok (some (.str a)) => .ok (if a = "" then none else some a)
        | .ok _ => .ok none
      | _ => .error .keyError
    else .ok none

/-- The key and algorithm used (dpop.py:99-121): kept, or made once. -/
def dpopKeyFor (x : Ext) (c : Client) : Except Exc (Option (String × String)) :=
  match c.dpopKey with
  | some k => .ok (some k)
  | none => (dpopAlg c.ctx).map (fun o => o.map (fun a => (x.mintKey a, a)))

/-- The claims of the proof (dpop.py:123-131). -/
def dpopClaims (x : Ext) (key alg method : String) (htu : Val) : Obj :=
  [("typ", .str "dpop+jwt"), ("alg", .str alg), ("jwk", .str key), ("jti", .str (x.rnd "dpop_jti")),
   ("htm", .str method), ("htu", htu), ("iat", .int x.now)]

/-- `dpop_header` (dpop.py:80-142). -/
def dpopHeader (x : Ext) (srv : Srv) (method : String) (headers : Dict String) :
    Py Client (Dict String) := do
  let ko ← ask (dpopKeyFor x)
  match ko with
  | none => return headers
  | some (key, alg) => do
    Py.modify (fun c => { c with dpopKey := some (key, alg) })
    let htu ← ask (fun c => Dict.getItem c.ctx.providerInfo srv.endpointName)
    let jws ← Py.lift (x.dpopSign key (dpopClaims x key alg method htu))
    return Dict.set headers "dpop" jws

/-- Whether a service got the DPoP header method (dpop.py:145-164). -/
def usesDpop (ctx : Ctx) (srv : Srv) : Bool :=
  Dict.has ctx.addOn "dpop" && decide (srv.name = "accesstoken" ∨ srv.name = "userinfo")

/-- `get_headers` (service.py:315-344): headers and (possibly changed) request. -/
def getHeaders (x : Ext) (srv : Srv) (request : Obj) (httpMethod authnMethod : String) (kwargs : Obj) :
    Py Client (Dict String × Obj) := do
  let m ← ask (fun c => if authnMethod = "" then getAuthnMethod c srv else .ok authnMethod)
  let r ← ask (authnHeader x srv request m
    (Dict.set kwargs "authn_endpoint" (.str srv.endpointName)))
  let c ← Py.read
  if usesDpop c.ctx srv then
    let h ← dpopHeader x srv httpMethod r.1
    return (h, r.2)
  else return r

/-- What `get_request_parameters` returns. (service.py:346-414) -/
structure ReqInfo where
  url : String
  method : String := "GET"
  headers : Dict String := []
  body : Option Util.Body := none
  request : Obj := []
  deriving DecidableEq, Inhabited, Repr

/-- The content type of the body (service.py:399-405). -/
def contentType (requestBodyType : String) : String :=
  if requestBodyType = "urlencoded" then Util.URL_ENCODED
  else if requestBodyType = "jws" ∨ requestBodyType = "jwe" ∨ requestBodyType = "jose" then
    Util.JOSE_ENCODED
  else Util.JSON_ENCODED

/-- `get_endpoint` of a service (service.py:270-279, read_registration.py:21-25). -/
def endpointOf (c : Client) (srv : Srv) : Except Exc Val :=
  if srv = .registrationRead then .ok (Registration.readEndpoint c.ctx)
  else Discovery.serviceEndpoint c.ctx srv

/-- The URL to send to (service.py:387-391). -/
def targetOf (srv : Srv) (kwargs : Obj) (c : Client) : Except Exc String :=
  match Dict.get? kwargs "endpoint" with
  | some v => asStr v
  | none => match endpointOf c srv with
    | .error e => .error e
    | .ok v => asStr v

/-- The parameters of a call that are not keyword arguments of the services. (service.py:346-349,
oauth2/__init__.py:80-99) -/
structure CallOpts where
  /-- `method` -/
  method : String := ""
  /-- `request_body_type` -/
  requestBodyType : String := ""
  /-- `authn_method` -/
  authnMethod : String := ""
  /-- `response_body_type` -/
  responseBodyType : String := ""
  deriving DecidableEq, Inhabited, Repr

/-- The first of two texts that is not empty. (e.g. service.py:529) -/
def orElse (s t : String) : String := if s = "" then t else s

/-- Assemble URL, body and headers (service.py:387-414). -/
def assemble (x : Ext) (srv : Srv) (request : Obj) (method bodyType : String) (headers : Dict String)
    (kwargs : Obj) (c : Client) : Except Exc ReqInfo :=
  match targetOf srv kwargs c with
  | .error e => .error e
  | .ok url =>
    let u := Util.getHttpUrl (x.ser srv) url request method
    if method = "POST" then
      match Util.getHttpBody (x.ser srv) request (contentType bodyType) with
      | .error e => .error e
      | .ok b => .ok { url := u, method := method, body := some b, request := request,
                       headers := Dict.set headers "Content-Type" (contentType bodyType) }
    else .ok { url := u, method := method, headers := headers, request := request }

/-- `_args['iss']` (service.py:378-381). -/
def withIss (c : Client) (kwargs : Obj) : Obj :=
  if c.ctx.issuer = "" then kwargs else Dict.set kwargs "iss" (.str c.ctx.issuer)

/-- The general `get_request_parameters` (service.py:346-414). -/
def buildRequest (x : Ext) (srv : Srv) (args : Obj) (o : CallOpts) (kwargs : Obj) :
    Py Client ReqInfo := do
  let c ← Py.read
  let method := orElse o.method (attr c srv "http_method" (httpMethod srv))
  let am ← ask (fun c => if o.authnMethod = "" then getAuthnMethod c srv else .ok o.authnMethod)
  let request ← construct x srv args kwargs
  let h ← getHeaders x srv request method am (withIss c kwargs)
  ask (assemble x srv h.2 method
    (orElse o.requestBodyType (attr c srv "request_body_type" (requestBodyType srv))) h.1 kwargs)

/-- The URL WebFinger asks (webfinger.py:151-167). -/
def webfingerUrl (args kwargs : Obj) (c : Client) : Except Exc String :=
  match WebFinger.resourceOf c.ctx args kwargs with
  | .error e => .error e
  | .ok v => match asStr v with
    | .error e => .error e
    | .ok s => WebFinger.query s

/-- `get_request_parameters` of each service (service.py:346-414,
oauth2/provider_info_discovery.py:44-52, webfinger.py:151-167). -/
def getRequestParameters (x : Ext) (srv : Srv) (args : Obj) (o : CallOpts) (kwargs : Obj) :
    Py Client ReqInfo :=
  match srv with
  | .providerInfo => ask (fun c =>
      .ok { url := Discovery.getEndpoint c.ctx, method := orElse o.method "GET" })
  | .oauth2ProviderInfo => ask (fun c =>
      .ok { url := Discovery.getEndpoint c.ctx, method := orElse o.method "GET" })
  | .webfinger => ask (fun c => (webfingerUrl args kwargs c).map (fun u => { url := u, method := "GET" }))
  | srv => buildRequest x srv args o kwargs

end Service
end Verif
