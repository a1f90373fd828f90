import Verif.Model.Response
/-!
# Model of the relying party handler (src/oidcrp/rp_handler.py)

Every API call is given the outside world (`Ext`) it meets.  A client object is kept under exactly one
issuer, so that it can be identified by that issuer.
-/

namespace Verif

/-- One of the client configurations.  The parts that have an effect of their own are kept apart:
the services with their configuration, and what the add-ons put in `context.add_on`. (rp_handler.py:60-70, 123-131) -/
structure ClientConf where
  config : Obj := []
  services : List Srv := []
  srvConf : Dict Obj := []
  addOn : Obj := []
  deriving Inhabited

/-- `RPHandler` (rp_handler.py:39-102). -/
structure Handler where
  issuer2rp : Dict Client := []
  hash2issuer : Dict String := []
  configs : Dict ClientConf := []
  baseUrl : String := ""
  jwksUri : String := ""
  /-- the key jar the handler was given (rp_handler.py:54-61); it is not changed later -/
  keyLoads : List KeyLoad := []
  deriving Inhabited

namespace Handler
open Verif Service

/-! ## Clients -/

/-- A client made of the configuration `cfg` sees the changed `behaviour`. (service_context.py:148-151) -/
def sharedClient (cfg : String) (b : Obj) (c : Client) : Client :=
  if c.cfg = cfg then { c with ctx := { c.ctx with behaviour := b } } else c

/-- The dictionary `behaviour` of a configuration is the `behaviour` of every client made of it
(service_context.py:148-151 does not copy it): a change by one client is seen by the others and by
clients made later. -/
def share (cfg : String) (b : Obj) (h : Handler) : Handler :=
  match Dict.get? h.configs cfg with
  | none => h
  | some cc =>
    if Dict.has cc.config "behaviour" then
      { h with
        configs := Dict.set h.configs cfg { cc with config := Dict.set cc.config "behaviour" (.obj b) }
        issuer2rp := h.issuer2rp.map (fun p => (p.1, sharedClient cfg b p.2)) }
    else h

/-- Do something with the client kept for an issuer, `self.issuer2rp[issuer]`. (rp_handler.py:457-459 and others) -/
def onClient {α : Type} (issuer : String) (m : Py Client α) : Py Handler α := fun h =>
  match Dict.get? h.issuer2rp issuer with
  | none => (.error .keyError, h)
  | some c => ((m c).1, share (m c).2.cfg (m c).2.ctx.behaviour
      { h with issuer2rp := Dict.set h.issuer2rp issuer (m c).2 })

/-- Do something with a client the handler does not keep (yet). (rp_handler.py:325-353) -/
def onNew {α : Type} (c : Client) (m : Py Client α) : Py Handler (α × Client) := fun h =>
  ((m c).1.map (fun a => (a, (m c).2)), share (m c).2.cfg (m c).2.ctx.behaviour h)

/-- The loop of `state2issuer` (rp_handler.py:113-120). -/
def findIssuer (state : String) : Dict Client → Except Exc (Option Val)
  | [] => .ok none
  | (_, c) :: l => match StateInterface.getIss c.db state with
    | .error .keyError => findIssuer state l
    | .error e => .error e
    | .ok v => if v.truthy then .ok (some v) else findIssuer state l

/-- `state2issuer` (rp_handler.py:104-121). -/
def state2issuer (h : Handler) (state : String) : Except Exc (Option Val) := findIssuer state h.issuer2rp

/-- The issuer under which the client of a session is kept; `issuer2rp[…]` of something unknown is a
`KeyError` (rp_handler.py:457-458). -/
def sessionIssuer (h : Handler) (state : String) : Except Exc String :=
  match state2issuer h state with
  | .error e => .error e
  | .ok (some (.str i)) => if Dict.has h.issuer2rp i then .ok i else .error .keyError
  | .ok _ => .error .keyError

/-- `get_client_from_session_key` (rp_handler.py:457-458). -/
def getClientFromSessionKey (h : Handler) (state : String) : Except Exc Client :=
  match sessionIssuer h state with
  | .error e => .error e
  | .ok i => Dict.getItem h.issuer2rp i

/-- Do something with the client of a session. (rp_handler.py:457-459) -/
def onSession {α : Type} (state : String) (m : Py Client α) : Py Handler α := fun h =>
  match sessionIssuer h state with
  | .error e => (.error e, h)
  | .ok i => onClient i m h

/-- `get_session_information` (rp_handler.py:133-145). -/
def sessionInformation (h : Handler) (state : String) : Except Exc Obj :=
  match getClientFromSessionKey h state with
  | .error e => .error e
  | .ok c => StateInterface.getState c.db state

/-! ## Setting up a client -/

/-- A text of the configuration. (service_context.py:148-171) -/
def confStr (config : Obj) (k : String) : String :=
  match Dict.get? config k with
  | some (.str s) => s
  | _ => ""

/-- A dictionary of the configuration. (service_context.py:148-171) -/
def confObj (config : Obj) (k : String) : Obj :=
  match Dict.get? config k with
  | some (.obj o) => o
  | _ => []

/-- A list of texts of the configuration. (service_context.py:148-171) -/
def confStrs (config : Obj) (k : String) : List String :=
  match Dict.get? config k with
  | some v => Registration.strs v
  | none => []

/-- `self.issuer` (service_context.py:146-157). -/
def confIssuer (config : Obj) : String :=
  orElse (confStr config "issuer") (confStr (confObj config "provider_info") "issuer")

/-- `self.register_args` (service_context.py:178-182). -/
def confRegister (params : List String) (config : Obj) : Obj :=
  params.filterMap (fun p => (Dict.get? config p).map (fun v => (p, v)))

/-- The callbacks that are configured (oidc/__init__.py:113-120). -/
def confCallback (config : Obj) : List String → Obj → Obj
  | [], cb => cb
  | k :: ks, cb => match Dict.get? config k with
    | some v => confCallback config ks (if v.truthy then Dict.set cb k v else cb)
    | none => confCallback config ks cb

/-- `clock_skew` (service_context.py:159-162). -/
def confSkew (config : Obj) : Int :=
  match Dict.get? config "clock_skew" with
  | some (.int i) => i
  | _ => 15

/-- The configured secret is filed as a key (service_context.py:152-153). -/
def confSecretKey (config : Obj) : List KeyLoad :=
  if confStr config "client_secret" = "" then [] else [("", "secret", .str (confStr config "client_secret"))]

/-- Every entry of a dictionary, as a key of its owner; something that is no dictionary has none
(service_context.py:261-264, rp_handler.py:232-234). -/
def urlKeys : Val → List KeyLoad
  | .obj o => o.map (fun p => (p.1, "url", p.2))
  | _ => []

/-- The client's own key files (service_context.py:252-260). -/
def ownKeyFiles : Val → List KeyLoad
  | .obj o => o.flatMap (fun p => match p.1, p.2 with
    | "rsa", .list l => l.map (fun f => ("", "rsa", f))
    | _, _ => [])
  | _ => []

/-- `import_keys` (service_context.py:242-265). -/
def importKeys (keyspec : Obj) : List KeyLoad :=
  keyspec.flatMap (fun p => if p.1 = "file" then ownKeyFiles p.2 else if p.1 = "url" then urlKeys p.2 else [])

/-- `config.get('keys', config.get('key_conf'))` (service_context.py:191-193). -/
def confKeys (config : Obj) : Obj :=
  if Dict.has config "keys" then confObj config "keys" else confObj config "key_conf"

/-- What the key jar of a new client holds (service_context.py:120, 152-153, 191-193, rp_handler.py:181): the
configured secret, the configured keys, and a copy of the handler's keys.  Simplifications: keys
that oidcmsg's `OidcContext` makes of the configuration are the client's own and are left out, and
`KeyJar.load` (cryptojwt, external) is taken to add to what is there. -/
def newKeys (h : Handler) (config : Obj) : List KeyLoad :=
  confSecretKey config ++ importKeys (confKeys config) ++ h.keyLoads

/-- `ServiceContext(config=…)` and what `init_client` adds (service_context.py:116-190,
oidc/__init__.py:105-120, rp_handler.py:180-186).  Values of the wrong type are treated as absent. -/
def newContext (x : Ext) (h : Handler) (cc : ClientConf) : Ctx where
  issuer := confIssuer cc.config
  clientId := confStr cc.config "client_id"
  clientSecret := confStr cc.config "client_secret"
  redirectUris := confStrs cc.config "redirect_uris"
  providerInfo := confObj cc.config "provider_info"
  behaviour := confObj cc.config "behaviour"
  callback := confCallback cc.config Registration.CALLBACK_URIS (confObj cc.config "callback")
  registerArgs := confRegister (x.msg .registration).params cc.config
  clientPreferences := confObj cc.config "client_preferences"
  allow := confObj cc.config "allow"
  jwksUri := h.jwksUri
  baseUrl := h.baseUrl
  config := cc.config
  clockSkew := confSkew cc.config
  hashSeed := orElse (confStr cc.config "hash_seed") (x.rnd "hash_seed")
  addOn := cc.addOn
  keyLoads := newKeys h cc.config

/-- The new client object. (rp_handler.py:147-187, oauth2/__init__.py:49-78) -/
def newClient (x : Ext) (h : Handler) (cfg : String) (cc : ClientConf) : Client :=
  { ctx := newContext x h cc, services := cc.services, conf := cc.srvConf, cfg := cfg }

/-- `init_client` (rp_handler.py:147-187).  For an issuer without configuration of its own the issuer is
written into the shared configuration `''`. -/
def initClient (x : Ext) (issuer : String) : Py Handler Client := fun h =>
  match Dict.get? h.configs issuer with
  | some cc => (.ok (newClient x h issuer cc), h)
  | none => match Dict.get? h.configs "" with
    | none => (.error .keyError, h)
    | some cc =>
      let cc' := { cc with config := Dict.set cc.config "issuer" (.str issuer) }
      (.ok (newClient x h "" cc'), { h with configs := Dict.set h.configs "" cc' })

/-- Raise if a response is an error message: `OidcServiceError(response['error'])`
(e.g. rp_handler.py:531-533); a text has no items. -/
def refuseError (r : Resp) : Except Exc Unit :=
  if r.isError then
    match r with
    | .text _ => .error .typeError
    | _ => .error .oidcServiceError
  else .ok ()

/-- The configured discovery URL (oauth2/__init__.py:285-288). -/
def discoveryUrl (ctx : Ctx) : Ctx :=
  match Dict.get? ctx.config "srv_discovery_url" with
  | some (.str s) => { ctx with issuer := s }
  | _ => ctx

/-- `dynamic_provider_info_discovery` (oauth2/__init__.py:272-293).  A discovery URL that is not a text
is ignored. -/
def dynamicDiscovery (x : Ext) : Py Client Unit := do
  onCtx (Py.modify discoveryUrl)
  let r ← doRequest x .providerInfo [] {} []
  Py.lift (refuseError r)

/-- All services get the endpoint of their name (rp_handler.py:217-227). -/
def setAllEndpoints (services : List Srv) : Obj → Dict Val → Dict Val
  | [], e => e
  | (key, val) :: pi, e =>
    setAllEndpoints services pi
      (if Str.endsWith key "_endpoint" then
        services.foldl (fun e s => if s.endpointName = key then Dict.set e s.name val else e) e
       else e)

/-- The provider's key files that are configured (rp_handler.py:235-241). -/
def fileKeys (issuer : String) : Val → List KeyLoad
  | .obj o => o.flatMap (fun p =>
    if p.1 = "jwks" then [(issuer, "file", p.2)] else if p.1 = "rsa" then [(issuer, "rsa", p.2)] else [])
  | _ => []

/-- The configured keys of the provider, up to the first of an unknown kind (rp_handler.py:229-243). -/
def configuredKeys (issuer : String) (pi : Obj) : List KeyLoad :=
  ((confObj pi "keys").takeWhile (fun p => p.1 == "url" || p.1 == "file")).flatMap
    (fun p => if p.1 = "url" then urlKeys p.2 else fileKeys issuer p.2)

/-- The configured keys of the provider (rp_handler.py:229-243): their kinds have to be known; what they
consist of is taken to be well formed. -/
def knownKeys (pi : Obj) : Except Exc Unit :=
  match Dict.get? pi "keys" with
  | none => .ok ()
  | some (.obj o) => if o.all (fun p => p.1 == "url" || p.1 == "file") then .ok () else .error .valueError
  | some _ => .error .attributeError

/-- The issuer of configured provider info (rp_handler.py:244-247). -/
def staticIssuer (ctx : Ctx) : Except Exc String :=
  match Dict.get? ctx.providerInfo "issuer" with
  | some v => asStr v
  | none => .ok ctx.issuer

/-- `do_provider_info` (rp_handler.py:189-247): the issuer. -/
def doProviderInfo (x : Ext) : Py Client String := do
  let c ← Py.read
  if c.ctx.providerInfo.isEmpty then do
    dynamicDiscovery x
    let v ← ask (fun c => Dict.getItem c.ctx.providerInfo "issuer")
    Py.lift (asStr v)
  else do
    onCtx (Py.modify (fun ctx =>
      { ctx with
        endpoints := setAllEndpoints c.services ctx.providerInfo ctx.endpoints
        keyLoads := ctx.keyLoads ++ configuredKeys ctx.issuer ctx.providerInfo }))
    Py.lift (knownKeys c.ctx.providerInfo)
    Py.lift (staticIssuer c.ctx)

/-- `load_registration_response` (util.py:538-556). -/
def loadRegistration (x : Ext) (args : Obj) : Py Client Unit := do
  let r ← Py.try_ (doRequest x .registration args {} [])
    (fun e => if e = .keyError then some (Py.raise .configurationError) else none)
  Py.lift (refuseError r)

/-- The client part of `do_client_registration` (rp_handler.py:277-288). -/
def register (x : Ext) (behaviourArgs : Obj) : Py Client Unit := do
  let c ← Py.read
  if c.ctx.clientId = "" then
    loadRegistration x (behaviourArgs.filter (fun p => decide (p.1 ∈ (x.msg .registration).params)))
  else return ()

/-- `do_webfinger` (rp_handler.py:290-303). -/
def doWebfinger (x : Ext) (user : String) : Py Handler Client := do
  let c ← initClient x ""
  let r ← onNew c (doRequest x .webfinger [] {} [("resource", .str user)])
  return r.2

/-- What `client_setup` does with a new client (rp_handler.py:345-353); the issuer under which it is
kept. -/
def adopt (x : Ext) (c : Client) (issId : String) (behaviourArgs : Obj) : Py Handler String := do
  let r ← onNew c (doProviderInfo x)
  Py.modify (fun h => { h with hash2issuer := Dict.set h.hash2issuer issId r.2.ctx.issuer })
  let s ← onNew r.2 (register x behaviourArgs)
  Py.modify (fun h => { h with issuer2rp := Dict.set h.issuer2rp r.1 s.2 })
  return r.1

/-- `client_setup` (rp_handler.py:305-354): the issuer under which the client is kept. -/
def clientSetup (x : Ext) (issId user : String) (behaviourArgs : Obj) : Py Handler String := do
  if issId = "" ∧ user = "" then Py.raise .valueError
  else if issId = "" then do
    let c ← doWebfinger x user
    let h ← Py.read
    if Dict.has h.issuer2rp issId then return issId else adopt x c issId behaviourArgs
  else do
    let h ← Py.read
    if Dict.has h.issuer2rp issId then return issId
    else do
      let c ← initClient x issId
      adopt x c issId behaviourArgs

/-! ## Starting a session -/

/-- `behaviour['response_types'][0]` (rp_handler.py:358-360) -/
def firstResponseType (behaviour : Obj) : Except Exc Val :=
  match Dict.get? behaviour "response_types" with
  | none => .error .keyError
  | some (.list (v :: _)) => .ok v
  | some (.list []) => .error .indexError
  | some (.str s) => match s.toList with
    | c :: _ => .ok (.str (String.ofList [c]))
    | [] => .error .indexError
  | some _ => .error .typeError

/-- `_get_response_type` (rp_handler.py:356-360): the default is looked up in any case. -/
def getResponseType (behaviour req : Obj) : Except Exc Val :=
  match firstResponseType behaviour with
  | .error e => .error e
  | .ok v => .ok ((Dict.get? req "response_type").getD v)

/-- The request arguments before `state` is added (rp_handler.py:388-408). -/
def initArgs (x : Ext) (ctx : Ctx) (req : Obj) : Except Exc Obj :=
  match getResponseType ctx.behaviour req with
  | .error e => .error e
  | .ok rt => match Registration.pickRedirectUri ctx req (some rt) with
    | .error e => .error e
    | .ok ru => match Dict.getItem ctx.behaviour "scope" with
      | .error e => .error e
      | .ok sc => .ok (Dict.update (Dict.update
          [("redirect_uri", ru), ("scope", sc), ("response_type", rt), ("nonce", .str (x.rnd "init_nonce"))]
          (confObj ctx.config "request_args")) req)

/-- The scope list of the request is that of `behaviour`, unless the configuration or the caller gave
one: adding `openid` to the request (oidc/authorization.py:98-99) adds it to `behaviour`. -/
def aliasScope (req : Obj) (ctx : Ctx) : Ctx :=
  if Dict.has (confObj ctx.config "request_args") "scope" || Dict.has req "scope" then ctx
  else match Dict.get? ctx.behaviour "scope" with
    | some (.list l) =>
      if .str "openid" ∈ l then ctx
      else { ctx with behaviour := Dict.set ctx.behaviour "scope" (.list (l ++ [.str "openid"])) }
    | _ => ctx

/-- `init_authorization` (rp_handler.py:362-423): URL and state. -/
def initAuthorization (x : Ext) (req behaviourArgs : Obj) : Py Client (String × String) := do
  let args ← ask (fun c => initArgs x c.ctx req)
  let c ← Py.read
  let k ← onDB (StateInterface.createState c.ctx.issuer "" (x.rnd "init_state"))
  onDB (StateInterface.storeX2State (x.rnd "init_nonce") k .nonce)
  if .authorization ∉ c.services then Py.raise .attributeError else
  onCtx (Py.modify (aliasScope req))
  let info ← getRequestParameters x .authorization (Dict.set args "state" (.str k)) {}
    [("behaviour_args", .obj behaviourArgs)]
  return (info.url, k)

/-- `begin` (rp_handler.py:425-453): URL and state.  The client was set up for `issuer_id` or found by
`user_id`. -/
def begin_ (x : Ext) (issuer user : String) (req behaviourArgs : Obj) : Py Handler (String × String) := do
  let k ← clientSetup x issuer user behaviourArgs
  onClient k (initAuthorization x req behaviourArgs)

/-! ## Finalizing -/

/-- Whether a response message is unusable here. (rp_handler.py:642-650) -/
def asMsg : Resp → Except Exc Obj
  | .msg o => .ok o
  | _ => .error .attributeError

/-- The issuer check of `finalize_auth` (rp_handler.py:649-658). -/
def checkIssuer (db : DB) (issuer : String) (resp : Obj) : Except Exc String :=
  match Dict.getItem resp "state" with
  | .error e => .error e
  | .ok v => match dbKey v with
    | .error e => .error e
    | .ok k => match StateInterface.getIss db k with
      | .error e => .error e
      | .ok i => if i = .str issuer then .ok k else .error .valueError

/-- `finalize_auth` (rp_handler.py:620-664). -/
def finalizeAuth (x : Ext) (issuer : String) (response : Obj) : Py Client Obj := do
  let c ← Py.read
  if .authorization ∉ c.services then Py.raise .attributeError else
  let r ← parseResponse x .authorization (.dict response) "dict" ""
  let resp ← Py.lift (asMsg r)
  if Msg.isError resp then return resp else
  let k ← ask (fun c => checkIssuer c.db issuer resp)
  let resp' ← updateMsg x .authorization resp k
  onDB (StateInterface.storeItem resp' "auth_response" k)
  return resp'

/-- `get_client_authn_method(client, 'token_endpoint')` (rp_handler.py:471-490). -/
def clientAuthnMethod (behaviour : Obj) : Except Exc String :=
  match Dict.get? behaviour "token_endpoint_auth_method" with
  | none => .ok ""
  | some (.str s) => .ok s
  | some (.list (.str s :: _)) => .ok s
  | some (.list []) => .error .indexError
  | some _ => .error .typeError

/-- The arguments of the token request (rp_handler.py:509-522). -/
def tokenArgs (state : String) (c : Client) : Except Exc Obj :=
  match StateInterface.getItem c.db "auth_response" state with
  | .error e => .error e
  | .ok resp => match StateInterface.getItem c.db "auth_request" state with
    | .error e => .error e
    | .ok req => match Dict.getItem resp "code" with
      | .error e => .error e
      | .ok code => match Dict.getItem req "redirect_uri" with
        | .error e => .error e
        | .ok ru => .ok [("code", code), ("state", .str state), ("redirect_uri", ru),
            ("grant_type", .str "authorization_code"), ("client_id", .str c.ctx.clientId),
            ("client_secret", .str c.ctx.clientSecret)]

/-- `get_tokens` (rp_handler.py:492-535). -/
def getTokens (x : Ext) (state : String) : Py Client Resp := do
  let args ← ask (tokenArgs state)
  let am ← ask (fun c => clientAuthnMethod c.ctx.behaviour)
  let r ← doRequest x .accesstoken args { authnMethod := am } [("state", .str state)]
  Py.lift (refuseError r)
  return r

/-- `refresh_access_token` (rp_handler.py:537-573). -/
def refreshAccessToken (x : Ext) (state scope : String) : Py Client Resp := do
  let am ← ask (fun c => clientAuthnMethod c.ctx.behaviour)
  let r ← doRequest x .refreshToken (if scope = "" then [] else [("scope", .str scope)])
    { authnMethod := am } [("state", .str state)]
  Py.lift (refuseError r)
  return r

/-- The look-up of `get_user_info` whose result is not used (rp_handler.py:593-596). -/
def lookedUp (state : String) (accessToken : Val) (c : Client) : Except Exc Unit :=
  if accessToken.truthy then .ok ()
  else (StateInterface.multipleExtendRequestArgs c.db [] state ["access_token"] RESPONSES).map (fun _ => ())

/-- `get_user_info` (rp_handler.py:575-605); without access token the stored ones are looked up, but
what is found is not used. -/
def getUserInfo (x : Ext) (state : String) (accessToken : Val) : Py Client Resp := do
  ask (lookedUp state accessToken)
  let r ← doRequest x .userinfo [("access_token", accessToken)] {} [("state", .str state)]
  Py.lift (refuseError r)
  return r

/-- `userinfo_in_id_token` (rp_handler.py:607-618). -/
def userinfoInIdToken (x : Ext) (idt : Obj) : Obj :=
  Dict.update (x.openidParams.filterMap (fun p => (Dict.get? idt p).map (fun v => (p, v))))
    (idt.filter (fun p => decide (p.1 ∉ x.idTokenParams)))

/-- The words of a response type (oidcmsg keeps it as a list). (rp_handler.py:703) -/
def wordsOf : Val → List String
  | .str s => Str.split s ' '
  | .list l => l.filterMap Val.str?
  | _ => []

/-- `set(a) == {…}` (rp_handler.py:703-733) -/
def sameSet (a b : List String) : Bool := a.all (fun w => decide (w ∈ b)) && b.all (fun w => decide (w ∈ a))

/-- The response types whose ID Token comes with the authorization response (rp_handler.py:703-705). -/
def idTokenInFront (rt : List String) : Bool :=
  sameSet rt ["id_token"] || sameSet rt ["id_token", "token"] || sameSet rt ["code", "id_token", "token"]

/-- The response types whose access token comes with the authorization response
(rp_handler.py:707-708). -/
def accessTokenInFront (rt : List String) : Bool :=
  sameSet rt ["token"] || sameSet rt ["id_token", "token"] || sameSet rt ["code", "token"] ||
    sameSet rt ["code", "id_token", "token"]

/-- The response types whose tokens come from the token endpoint (rp_handler.py:722). -/
def tokensFromEndpoint (rt : List String) : Bool := sameSet rt ["code"] || sameSet rt ["code", "id_token"]

/-- The tokens of the token endpoint (rp_handler.py:712-720, 724-731): access token and ID Token, `None`
is `null`. -/
def endpointTokens (x : Ext) (state : String) : Py Client (Val × Val) := do
  let r ← getTokens x state
  let at_ ← Py.lift (r.item "access_token")
  let idt ← Py.lift (r.find (Msg.verifiedName "id_token"))
  return (at_, idt.getD .null)

/-- The stored response type (rp_handler.py:697-698). -/
def storedResponseType (state : String) (c : Client) : Except Exc (List String) :=
  match StateInterface.getItem c.db "auth_request" state with
  | .error e => .error e
  | .ok req => (Dict.getItem req "response_type").map wordsOf

/-- Whether the caller wants the tokens of the token endpoint, too (rp_handler.py:710-711). -/
def collects (behaviourArgs : Obj) : Bool := Util.truthyO (Dict.get? behaviourArgs "collect_tokens")

/-- `get_access_and_id_token` (rp_handler.py:666-735), with authorization response and state given: access
token and ID Token, `None` is `null`. -/
def getAccessAndIdToken (x : Ext) (resp : Obj) (state : String) (behaviourArgs : Obj) :
    Py Client (Val × Val) := do
  let rt ← ask (storedResponseType state)
  let idt ← Py.lift (if idTokenInFront rt then Dict.getItem resp (Msg.verifiedName "id_token") else .ok .null)
  if accessTokenInFront rt then do
    let tok ← Py.lift (Dict.getItem resp "access_token")
    if collects behaviourArgs then endpointTokens x state else return (tok, idt)
  else if tokensFromEndpoint rt then endpointTokens x state
  else return (.null, idt)

/-- What `finalize` returns (rp_handler.py:763-766, 815-821). -/
inductive Final where
  | error (state error : Val)
  | done (userinfo state token idToken sessionState : Val)
  deriving DecidableEq, Inhabited, Repr

/-- `v[key]` (rp_handler.py:774-821) -/
def valItem (v : Val) (key : String) : Except Exc Val :=
  match v with
  | .obj o => Dict.getItem o key
  | _ => .error .typeError

/-- The user information of a finalized session (rp_handler.py:774-791). -/
def collectUserInfo (x : Ext) (state : String) (tok idt : Val) : Py Client Val := do
  let c ← Py.read
  if .userinfo ∈ c.services ∧ tok.truthy then do
    let r ← getUserInfo x state tok
    return r.toVal
  else if idt.truthy then
    match idt with
    | .obj o => return .obj (userinfoInIdToken x o)
    | _ => Py.raise .typeError
  else return .obj []

/-- Whether the provider says that sessions have an id (rp_handler.py:794-802). -/
def sidSupport (pi : Obj) : Bool :=
  match Dict.get? pi "backchannel_logout_session_supported" with
  | some v => v.truthy
  | none => Util.truthyO (Dict.get? pi "frontchannel_logout_session_supported")

/-- Bind the session id (rp_handler.py:804-810). -/
def bindSid (state : String) (idt : Val) : Py Client Unit := do
  let c ← Py.read
  if sidSupport c.ctx.providerInfo && idt.truthy then
    match valItem idt "sid" with
    | .error .keyError => return ()
    | .error e => Py.raise e
    | .ok v => do
      let s ← Py.lift (asStr v)
      onDB (StateInterface.storeX2State s state .sessionId)
  else return ()

/-- Bind the subject (rp_handler.py:812-815). -/
def bindSub (state : String) (idt info : Val) : Py Client Unit := do
  let v ← Py.lift (if idt.truthy then valItem idt "sub" else valItem info "sub")
  let s ← Py.lift (asStr v)
  onDB (StateInterface.storeX2State s state .subjectId)

/-- What `finalize` does after the authorization response was accepted (rp_handler.py:768-821). -/
def finalizeTokens (x : Ext) (resp : Obj) (state : String) (behaviourArgs : Obj) : Py Client Final := do
  let t ← getAccessAndIdToken x resp state behaviourArgs
  let info ← collectUserInfo x state t.1 t.2
  bindSid state t.2
  bindSub state t.2 info
  return .done info (.str state) t.1 t.2 ((Dict.get? resp "session_state").getD (.str ""))

/-- `finalize` (rp_handler.py:738-821) at the client of the issuer. -/
def finalizeClient (x : Ext) (issuer : String) (response behaviourArgs : Obj) : Py Client Final := do
  let resp ← finalizeAuth x issuer response
  let sv ← Py.lift (Dict.getItem resp "state")
  if Msg.isError resp then do
    let e ← Py.lift (Dict.getItem resp "error")
    return .error sv e
  else do
    let k ← Py.lift (dbKey sv)
    finalizeTokens x resp k behaviourArgs

/-- `finalize` (rp_handler.py:738-821). -/
def finalize (x : Ext) (issuer : String) (response behaviourArgs : Obj) : Py Handler Final :=
  onClient issuer (finalizeClient x issuer response behaviourArgs)

/-! ## Using and ending a session -/

/-- `has_active_authentication` (rp_handler.py:823-843). -/
def hasActive (x : Ext) (state : String) (c : Client) : Except Exc Bool :=
  match StateInterface.multipleExtendRequestArgs c.db [] state [Msg.verifiedName "id_token"] RESPONSES with
  | .error e => .error e
  | .ok args =>
    if args.isEmpty then .ok false
    else match Dict.getItem args (Msg.verifiedName "id_token") with
      | .error e => .error e
      | .ok t => match valItem t "exp" with
        | .error e => .error e
        | .ok (.int i) => .ok (decide (x.now < i))
        | .ok _ => .error .typeError

/-- The items looked at for an access token (rp_handler.py:863-865). -/
abbrev TOKEN_ITEMS : List String := ["refresh_token_response", "token_response", "auth_response"]

/-- The tokens found so far: those that live for ever, and the best of the others
(rp_handler.py:855-857). -/
structure Found where
  indefinite : List (Val × Int) := []
  best : Option (Val × Int) := none
  exp : Int := 0
  deriving DecidableEq, Inhabited, Repr

/-- One stored response (rp_handler.py:870-881). -/
def foundIn (now : Int) (resp : Obj) (f : Found) : Except Exc Found :=
  match Dict.get? resp "access_token" with
  | none => .ok f
  | some t => match Dict.get? resp "__expires_at" with
    | none => .ok { f with indefinite := f.indefinite ++ [(t, 0)] }
    | some (.int e) =>
      .ok (if e > now ∧ e > f.exp then { f with best := some (t, e), exp := e } else f)
    | some _ => .error .typeError

/-- The loop of `get_valid_access_token` (rp_handler.py:863-881). -/
def findTokens (now : Int) (db : DB) (state : String) : List String → Found → Except Exc Found
  | [], f => .ok f
  | t :: ts, f => match StateInterface.getItem db t state with
    | .error .keyError => findTokens now db state ts f
    | .error e => .error e
    | .ok resp => match foundIn now resp f with
      | .error e => .error e
      | .ok f' => findTokens now db state ts f'

/-- `get_valid_access_token` (rp_handler.py:845-886): token and expiry time, 0 for ever. -/
def validAccessToken (x : Ext) (state : String) (c : Client) : Except Exc (Val × Int) :=
  match findTokens x.now c.db state TOKEN_ITEMS {} with
  | .error e => .error e
  | .ok f => match f.indefinite with
    | t :: _ => .ok t
    | [] => match f.best with
      | some t => .ok t
      | none => .error .oidcServiceError

/-- `logout` (rp_handler.py:888-923); a client without the service has `None` there. -/
def logout (x : Ext) (state uri : String) : Py Client ReqInfo := do
  let c ← Py.read
  if .endSession ∉ c.services then Py.raise .attributeError else
  getRequestParameters x .endSession
    (if uri = "" then [] else [("post_logout_redirect_uri", .str uri)]) {} [("state", .str state)]

/-- `close` (rp_handler.py:925-937). -/
def close (x : Ext) (state issuer uri : String) : Py Handler ReqInfo :=
  if issuer ≠ "" then onClient issuer (logout x state uri) else onSession state (logout x state uri)

/-- `clear_session` (rp_handler.py:939-941). -/
def clearSession (state : String) : Py Handler Unit :=
  onSession state (onDB (StateInterface.removeState state))

/-- The arguments of the verification of a logout request (rp_handler.py:960-966). -/
def logoutArgs (ctx : Ctx) : Obj :=
  [("aud", .str ctx.clientId), ("iss", .str ctx.issuer),
   ("allowed_sign_alg", (Dict.get? ctx.registrationResponse "id_token_signed_response_alg").getD (.str "RS256"))]

/-- The exceptions that make a logout request bogus (rp_handler.py:971). -/
def bogus (e : Exc) : Bool :=
  decide (e ∈ [Exc.messageError, .missingRequiredAttribute, .valueError, .jsonDecodeError,
    .external "NotForMe"])

/-- The session of a verified logout token (rp_handler.py:976-989). -/
def logoutSession (db : DB) (tok : Obj) : Except Exc DbVal :=
  match Registration.firstTruthy [Dict.get? tok "sub"] with
  | some (.str s) => StateInterface.getStateByX db s .subjectId
  | some _ => .error .keyError
  | none => match Registration.firstTruthy [Dict.get? tok "sid"] with
    | some (.str s) => StateInterface.getStateByX db s .sessionId
    | some _ => .error .keyError
    | none => .error .messageError

/-- The verified logout token (rp_handler.py:966-977). -/
def logoutToken (x : Ext) (ctx : Ctx) (req : Obj) : Except Exc Obj :=
  match x.logoutVerify ctx req (logoutArgs ctx) with
  | .error e => .error (if bogus e then .messageError else e)
  | .ok m => match Dict.getItem m (Msg.verifiedName "logout_token") with
    | .error e => .error e
    | .ok v => match v with
      | .obj t => .ok t
      | _ => .error .attributeError

/-- `backchannel_logout` (rp_handler.py:944-989): the session.  `info` is the urlencoded request or the
request arguments; an empty one is no request. -/
def backchannelLogout (x : Ext) (info : Info) (c : Client) : Except Exc DbVal :=
  if info = .text "" ∨ info = .dict [] then .error .missingRequiredAttribute
  else match x.logoutReq info with
    | .error e => .error e
    | .ok req => match logoutToken x c.ctx req with
      | .error e => .error e
      | .ok t => logoutSession c.db t

/-! ## Histories of API calls -/

/-- A call of the handler's interface. (rp_handler.py:290-990) -/
inductive Call where
  | begin (issuer user : String) (req behaviourArgs : Obj)
  | finalize (issuer : String) (response behaviourArgs : Obj)
  | getTokens (state : String)
  | refresh (state scope : String)
  | userInfo (state : String) (accessToken : Val)
  | hasActive (state : String)
  | validToken (state : String)
  | logout (state uri : String)
  | close (state issuer uri : String)
  | clear (state : String)
  | backchannel (issuer : String) (info : Info)
  deriving Inhabited

/-- What a call returns. (rp_handler.py:290-990) -/
inductive Ret where
  | started (url state : String)
  | final (f : Final)
  | resp (r : Resp)
  | bool (b : Bool)
  | token (t : Val) (exp : Int)
  | req (r : ReqInfo)
  | ptr (p : DbVal)
  | unit
  deriving Inhabited

/-- Map the result. (not in the code) -/
def ret {α : Type} (f : α → Ret) (m : Py Handler α) : Py Handler Ret := fun h =>
  ((m h).1.map f, (m h).2)

/-- Execute a call (dispatch only; see the cited functions). (rp_handler.py:290-990) -/
def exec (x : Ext) : Call → Py Handler Ret
  | .begin i u r b => ret (fun p => .started p.1 p.2) (begin_ x i u r b)
  | .finalize i r b => ret .final (finalize x i r b)
  | .getTokens s => ret .resp (onSession s (getTokens x s))
  | .refresh s sc => ret .resp (onSession s (refreshAccessToken x s sc))
  | .userInfo s t => ret .resp (onSession s (getUserInfo x s t))
  | .hasActive s => ret .bool (onSession s (ask (hasActive x s)))
  | .validToken s => ret (fun p => .token p.1 p.2) (onSession s (ask (validAccessToken x s)))
  | .logout s u => ret .req (onSession s (logout x s u))
  | .close s i u => ret .req (close x s i u)
  | .clear s => ret (fun _ => .unit) (clearSession s)
  | .backchannel i info => ret .ptr (onClient i (ask (backchannelLogout x info)))

/-- The handler after a history of calls, each in its own circumstances; an exception does not end the
history. (not in the code: the calls of an application) -/
def run : List (Ext × Call) → Handler → Handler
  | [], h => h
  | (x, c) :: l, h => run l (exec x c h).2

end Handler
end Verif
