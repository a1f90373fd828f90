import Verif.Model.Service
/-!
# Model of a client and its services: parsing responses and storing what they bring

src/oidcrp/service.py (parse_response and what it uses), src/oidcrp/oauth2/__init__.py (do_request,
get_response, service_request, parse_request_response) and the methods `post_parse_response`,
`gather_verify_arguments` and `update_service_context` of the OIDC services.
-/

namespace Verif

/-- What `service_request` returns. (oauth2/__init__.py:104-188) -/
inductive Resp where
  /-- a response message -/
  | msg (o : Obj)
  /-- the text of the HTTP response -/
  | text (s : String)
  /-- `{'http_response': resp}` (oauth2/__init__.py:127-128) -/
  | http (r : HttpResp)
  deriving DecidableEq, Inhabited, Repr

namespace Resp

/-- The dictionary around a HTTP response; the response itself is an object without JSON form.
(oauth2/__init__.py:128) -/
def httpObj : Obj := [("http_response", .obj [("__object__", .str "Response")])]

/-- The response as value. (not in the code: what the caller of oauth2/__init__.py:145-188 gets) -/
def toVal : Resp → Val
  | .msg o => .obj o
  | .text s => .str s
  | .http _ => .obj httpObj

/-- `'error' in response` (oauth2/__init__.py:178; oidcmsg `is_error_message`). -/
def isError : Resp → Bool
  | .msg o => Msg.isError o
  | .text s => Str.contains s "error"
  | .http _ => false

/-- `response[key]` (e.g. rp_handler.py:650) -/
def item (r : Resp) (key : String) : Except Exc Val :=
  match r with
  | .msg o => Dict.getItem o key
  | .text _ => .error .typeError
  | .http _ => Dict.getItem httpObj key

/-- `response.get(key)` of a message or dictionary. (used in rp_handler.py:723, 733, 771) -/
def find (r : Resp) (key : String) : Except Exc (Option Val) :=
  match r with
  | .msg o => .ok (Dict.get? o key)
  | .text _ => .error .attributeError
  | .http _ => .ok (Dict.get? httpObj key)

end Resp

namespace Service
open Verif

/-! ## Arguments of the verification -/

/-- `IDT2REG` (oidc/__init__.py:50-54): verification argument and registration parameter. -/
def IDT2REG : List (String × String) :=
  [("sigalg", "id_token_signed_response_alg"), ("encalg", "id_token_encrypted_response_alg"),
   ("encenc", "id_token_encrypted_response_enc")]

/-- `UI2REG` (oidc/userinfo.py:14-18). -/
def UI2REG : List (String × String) :=
  [("sigalg", "userinfo_signed_response_alg"), ("encalg", "userinfo_encrypted_response_alg"),
   ("encenc", "userinfo_encrypted_response_enc")]

/-- The registered algorithms (oidc/authorization.py:262-268, oidc/access_token.py:51-57,
oidc/userinfo.py:132-138). -/
def registered (reg : Obj) : List (String × String) → Obj → Obj
  | [], kw => kw
  | (a, p) :: l, kw => registered reg l (match Dict.get? reg p with
      | some v => Dict.set kw a v
      | none => kw)

/-- `allow['missing_kid']` (oidc/authorization.py:270-273). -/
def missingKid (ctx : Ctx) (kw : Obj) : Obj :=
  match Dict.get? ctx.allow "missing_kid" with
  | some v => Dict.set kw "allow_missing_kid" v
  | none => kw

/-- `behaviour['verify_args']` (oidc/authorization.py:275-277). -/
def verifyArgs (ctx : Ctx) (kw : Obj) : Obj :=
  match Dict.get? ctx.behaviour "verify_args" with
  | some (.obj o) => Dict.update kw o
  | _ => kw

/-- The arguments every service passes (service.py:458-467); the key jar is part of the context the
verification is given. -/
def baseVerify (ctx : Ctx) : Obj :=
  [("iss", .str ctx.issuer), ("verify", .bool true), ("client_id", .str ctx.clientId)]

/-- `gather_verify_arguments` (service.py:447-470, oidc/authorization.py:244-280,
oidc/access_token.py:31-68, oidc/userinfo.py:117-146). -/
def gatherVerify (ctx : Ctx) : Srv → Obj
  | .authorization =>
    let kw : Obj := [("iss", .str ctx.issuer), ("verify", .bool true), ("skew", .int ctx.clockSkew)]
    let kw := if ctx.clientId = "" then kw else Dict.set kw "client_id" (.str ctx.clientId)
    verifyArgs ctx (missingKid ctx (registered ctx.registrationResponse IDT2REG kw))
  | .accesstoken =>
    verifyArgs ctx (missingKid ctx (registered ctx.registrationResponse IDT2REG
      (Dict.set (baseVerify ctx) "skew" (.int ctx.clockSkew))))
  | .userinfo =>
    missingKid ctx (registered ctx.registrationResponse UI2REG
      (Dict.set (baseVerify ctx) "skew" (.int ctx.clockSkew)))
  | .providerInfo =>
    if Str.startsWith ctx.issuer "http://" then Dict.set (baseVerify ctx) "allow_http" (.bool true)
    else baseVerify ctx
  | .oauth2ProviderInfo =>
    if Str.startsWith ctx.issuer "http://" then Dict.set (baseVerify ctx) "allow_http" (.bool true)
    else baseVerify ctx
  | _ => baseVerify ctx

/-! ## Parsing -/

/-- `CLI_REG_MAP[typ][attr]` (service_context.py:18-34) for the service names that occur in it. -/
def cliRegMap (typ attr : String) : Option String :=
  if typ = "userinfo" then
    Dict.get? [("sign", "userinfo_signed_response_alg"), ("alg", "userinfo_encrypted_response_alg"),
      ("enc", "userinfo_encrypted_response_enc")] attr
  else none

/-- `PROVIDER_INFO_MAP[typ][attr]` (service_context.py:36-55). -/
def providerInfoMap (typ attr : String) : Option String :=
  if typ = "userinfo" then
    Dict.get? [("sign", "userinfo_signing_alg_values_supported"),
      ("alg", "userinfo_encryption_alg_values_supported"),
      ("enc", "userinfo_encryption_enc_values_supported")] attr
  else none

/-- `get_sign_alg` / `get_enc_alg_enc` (service_context.py:266-300). -/
def agreedAlg (ctx : Ctx) (typ attr : String) : Val :=
  (((cliRegMap typ attr).bind (Dict.get? ctx.behaviour)).or
    ((providerInfoMap typ attr).bind (Dict.get? ctx.providerInfo))).getD .null

/-- The arguments `_do_jwt` gives to the JWT class (service.py:472-479). -/
def jwtArgs (ctx : Ctx) (srv : Srv) : Obj :=
  [("allowed_sign_algs", agreedAlg ctx srv.name "sign"),
   ("allowed_enc_algs", agreedAlg ctx srv.name "alg"),
   ("allowed_enc_encs", agreedAlg ctx srv.name "enc"), ("iss", .str ctx.clientId)]

/-- `get_urlinfo` (service.py:419-434). -/
def getUrlinfo (info : String) : String :=
  if Str.contains info "?" || Str.contains info "#" then
    let p := Util.urlsplit info
    if p.2.1 ≠ [] then String.ofList p.2.1 else String.ofList p.2.2
  else info

/-- `_do_response` (service.py:482-503). -/
def doResponse (x : Ext) (ctx : Ctx) (srv : Srv) (info : Info) (sformat : String) : Except Exc Obj :=
  match x.deser ctx srv sformat info with
  | .ok o => .ok o
  | .error e =>
    if sformat = "json" then
      match x.deser ctx srv "jwt" info with
      | .ok o => .ok o
      | .error _ => .error e
    else .error e

/-- Deserialisation (service.py:541-557).  A dictionary where a text is needed is a `TypeError`. -/
def parseInfo (x : Ext) (ctx : Ctx) (srv : Srv) (info : Info) (sformat : String) : Except Exc Obj :=
  if sformat = "urlencoded" then
    match info with
    | .text s => doResponse x ctx srv (.text (getUrlinfo s)) sformat
    | .dict _ => .error .typeError
  else if sformat = "jwt" then
    match info with
    | .text s => match x.unjwt ctx (jwtArgs ctx srv) s with
      | .ok o => doResponse x ctx srv (.dict o) "dict"
      | .error e => .error e
    | .dict _ => .error .typeError
  else doResponse x ctx srv info sformat

/-- The scope of the request is added to the response (oauth2/authorization.py:60-83). -/
def addScope (db : DB) (resp : Obj) (state : String) : Except Exc Obj :=
  if Dict.has resp "scope" || state == "" then .ok resp
  else match StateInterface.getItem db "auth_request" state with
    | .error e => .error e
    | .ok item => match Dict.get? item "scope" with
      | some v => .ok (Dict.set resp "scope" v)
      | none => .ok resp

/-- The nonce of a verified ID Token against that of the request
(oidc/authorization.py:71-78). -/
def sameNonce (idt : Val) (req : Obj) : Except Exc Unit :=
  match Dict.get? req "nonce" with
  | none => .ok ()
  | some n =>
    if n.truthy then
      match idt with
      | .obj t => match Dict.get? t "nonce" with
        | none => .error .missingRequiredAttribute
        | some m => if m.truthy then (if n = m then .ok () else .error .valueError)
            else .error .missingRequiredAttribute
      | _ => .error .attributeError
    else .ok ()

/-- The request a response belongs to (oidc/authorization.py:59-62). -/
def requestOf (db : DB) (resp : Obj) : Except Exc Obj :=
  match Dict.getItem resp "state" with
  | .error e => .error e
  | .ok v => match dbKey v with
    | .error e => .error e
    | .ok k => StateInterface.getItem db "auth_request" k

/-- The nonce check of `post_parse_response` (oidc/authorization.py:67-78). -/
def checkNonce (db : DB) (resp : Obj) : Except Exc Unit :=
  match Dict.get? resp (Msg.verifiedName "id_token") with
  | none => .ok ()
  | some idt =>
    if idt.truthy then
      match requestOf db resp with
      | .error e => .error e
      | .ok req => sameNonce idt req
    else .ok ()

/-- `post_parse_response` of the authorization service (oidc/authorization.py:64-79). -/
def authorizationPostParse (db : DB) (resp : Obj) (state : String) : Except Exc Obj :=
  match addScope db resp state with
  | .error e => .error e
  | .ok r => match checkNonce db r with
    | .error e => .error e
    | .ok _ => .ok r

/-- The subject comparison (oidc/userinfo.py:65-76).  An ID Token stored unverified is a text, which
cannot be indexed by `'sub'`. -/
def sameSub (args resp : Obj) : Except Exc Unit :=
  match Dict.get? args "id_token" with
  | none => .ok ()
  | some (.obj t) => match Dict.get? t "sub" with
    | none => .ok ()
    | some s => match Dict.get? resp "sub" with
      | none => .error .keyError
      | some s' => if s' = s then .ok () else .error .valueError
  | some _ => .error .typeError

/-- `response[key] = aggregated_claims[key]` for the claims of a source (oidc/userinfo.py:94-99). -/
def takeClaims (csrc : String) (claims : Obj) : Obj → Obj → Except Exc Obj
  | [], resp => .ok resp
  | (k, src) :: names, resp =>
    if src = .str csrc then
      match Dict.getItem claims k with
      | .error e => .error e
      | .ok v => takeClaims csrc claims names (Dict.set resp k v)
    else takeClaims csrc claims names resp

/-- The `items()` of a value. (used in oidc/userinfo.py:81, 95) -/
def itemsOf : Val → Except Exc Obj
  | .obj o => .ok o
  | _ => .error .attributeError

/-- The claims of one source (oidc/userinfo.py:83-99).  A key that is missing in the key jar is
logged only. -/
def aggregate (x : Ext) (ctx : Ctx) (csrc : String) (jwt : Val) (resp : Obj) : Except Exc Obj :=
  match x.aggregated ctx jwt with
  | .error (.external "MissingSigningKey") => .ok resp
  | .error e => .error e
  | .ok claims => match Dict.getItem resp "_claim_names" with
    | .error e => .error e
    | .ok v => match itemsOf v with
      | .error e => .error e
      | .ok names => takeClaims csrc claims names resp

/-- The header made for a distributed source, which is not used (oidc/userinfo.py:100-108). -/
def sourceHeader (x : Ext) (c : Client) (state : String) : Except Exc (Dict String × Obj) :=
  authnHeader x .userinfo [] (attr c .userinfo "default_authn_method" (defaultAuthn .userinfo))
    [("authn_endpoint", .str Srv.userinfo.endpointName), ("key", .str state)] c

/-- One claim source (oidc/userinfo.py:82-108).  For a distributed source an authentication header is
made (and not used).  `"JWT" in spec` is also asked of texts and lists, which have no items by name. -/
def claimSource (x : Ext) (c : Client) (state csrc : String) (spec : Val) (resp : Obj) :
    Except Exc Obj :=
  match spec with
  | .obj o =>
    match Dict.get? o "JWT" with
    | some jwt => aggregate x c.ctx csrc jwt resp
    | none => if Dict.has o "endpoint" then (sourceHeader x c state).map (fun _ => resp) else .ok resp
  | .str s =>
    if Str.contains s "JWT" then .error .typeError
    else if Str.contains s "endpoint" then (sourceHeader x c state).bind (fun _ => .error .typeError) else .ok resp
  | .list l =>
    if .str "JWT" ∈ l then .error .typeError
    else if .str "endpoint" ∈ l then (sourceHeader x c state).bind (fun _ => .error .typeError) else .ok resp
  | _ => .error .typeError

/-- The loop over the claim sources (oidc/userinfo.py:81-108). -/
def claimSources (x : Ext) (c : Client) (state : String) : Obj → Obj → Except Exc Obj
  | [], resp => .ok resp
  | (csrc, spec) :: l, resp => match claimSource x c state csrc spec resp with
    | .error e => .error e
    | .ok r => claimSources x c state l r

/-- The claim sources of a response (oidc/userinfo.py:77-108). -/
def allSources (x : Ext) (c : Client) (resp : Obj) (state : String) : Except Exc Obj :=
  match Dict.get? resp "_claim_sources" with
  | none => .ok resp
  | some v => match itemsOf v with
    | .error e => .error e
    | .ok srcs => claimSources x c state srcs resp

/-- What `post_parse_response` of the userinfo service computes before it stores the response
(oidc/userinfo.py:62-112).  The list `post_parse_process` is empty. -/
def userinfoChecked (x : Ext) (resp : Obj) (state : String) (c : Client) : Except Exc Obj :=
  match StateInterface.multipleExtendRequestArgs c.db [] state ["id_token"] RESPONSES with
  | .error e => .error e
  | .ok args => match sameSub args resp with
    | .error e => .error e
    | .ok _ => allSources x c resp state

/-- `post_parse_response` (service.py:436-445, oidc/authorization.py:64-79,
oidc/userinfo.py:62-115). -/
def postParse (x : Ext) (srv : Srv) (resp : Obj) (state : String) : Py Client Obj :=
  match srv with
  | .authorization => ask (fun c => authorizationPostParse c.db resp state)
  | .oauth2Authorization => ask (fun c => addScope c.db resp state)
  | .userinfo => do
    let r ← ask (userinfoChecked x resp state)
    onDB (StateInterface.storeItem r "user_info" state)
    return r
  | _ => return resp

/-- `post_parse_response` of the OAuth2 authorization service on a text (oauth2/authorization.py:60-83): `"scope" in`
looks for a substring, and a text takes no item. -/
def scopeOfText (db : DB) (s state : String) : Except Exc Unit :=
  if Str.contains s "scope" || state == "" then .ok ()
  else match StateInterface.getItem db "auth_request" state with
    | .error e => .error e
    | .ok item => if Dict.has item "scope" then .error .typeError else .ok ()

/-- `post_parse_response` of a text (service.py:529-536): the OIDC services that look into the response
cannot handle it. -/
def postParseText (db : DB) (srv : Srv) (s state : String) : Except Exc Resp :=
  if srv = .authorization ∨ srv = .userinfo then .error .typeError
  else if srv = .oauth2Authorization then
    match scopeOfText db s state with
    | .error e => .error e
    | .ok _ => if s = "" then .error .responseError else .ok (.text s)
  else if s = "" then .error .responseError else .ok (.text s)

/-- Verification and the checks of the service; an error message skips both (service.py:560-572). -/
def checkedResponse (x : Ext) (srv : Srv) (resp : Obj) (state : String) : Py Client Obj :=
  if Msg.isError resp then return resp
  else do
    let v ← ask (fun c => x.verify c.ctx srv resp (gatherVerify c.ctx srv))
    postParse x srv v state

/-- Verification and what follows (service.py:559-578). -/
def verified (x : Ext) (srv : Srv) (resp : Obj) (state : String) : Py Client Resp := do
  let r ← checkedResponse x srv resp state
  if r.isEmpty then Py.raise .responseError else return .msg r

/-- The format a response is taken to have (service.py:529-530). -/
def formatOf (c : Client) (srv : Srv) (sformat : String) : String :=
  orElse sformat (attr c srv "response_body_type" (responseBodyType srv))

/-- The formats whose text is returned as it is (service.py:534). -/
def isJose (f : String) : Bool := f == "jose" || f == "jws" || f == "jwe"

/-- `parse_response` (service.py:505-578). -/
def parseResponse (x : Ext) (srv : Srv) (info : Info) (sformat state : String) : Py Client Resp := do
  let c ← Py.read
  if isJose (formatOf c srv sformat) then
    match info with
    | .text s => Py.lift (postParseText c.db srv s state)
    | .dict _ => Py.raise .typeError
  else do
    let resp ← Py.lift (parseInfo x c.ctx srv info (formatOf c srv sformat))
    verified x srv resp state

/-! ## HTTP responses -/

/-- `SUCCESSFUL` (service.py:30). -/
def SUCCESSFUL : List Int := [200, 201, 202, 203, 204, 205, 206]

/-- The format a successful body is taken to have (oauth2/__init__.py:214-228). -/
def valueType (r : HttpResp) (bodyType : String) : String :=
  let d := Util.getDeserializationMethod r
  if d = "json" ∨ d = "jwt" ∨ d = "urlencoded" then d else bodyType

/-- The format an error body is taken to have (oauth2/__init__.py:245-247). -/
def errorType (r : HttpResp) : String := orElse (Util.getDeserializationMethod r) "json"

/-- What is done about an error body that could not be parsed (oauth2/__init__.py:249-262). -/
def errorFallback (x : Ext) (srv : Srv) (r : HttpResp) (bodyType : String) (e : Exc) :
    Option (Py Client Resp) :=
  if e = .formatError then
    if errorType r ≠ bodyType then
      some (Py.try_ (parseResponse x srv (.text r.text) bodyType "") (fun e' =>
        if e' = .formatError ∨ e' = .oidcServiceError then some (Py.raise .oidcServiceError) else none))
    else some (Py.raise .oidcServiceError)
  else if e = .jsonDecodeError then some (Py.ret (.msg [("error", .str r.text)]))
  else none

/-- `err_resp['status_code'] = …` (oauth2/__init__.py:264). -/
def withStatus (status : Int) : Resp → Except Exc Resp
  | .msg o => .ok (.msg (Dict.set o "status_code" (.int status)))
  | _ => .error .typeError

/-- `parse_request_response` (oauth2/__init__.py:190-269); the redirects never come here
(`getResponse`). -/
def parseRequestResponse (x : Ext) (srv : Srv) (r : HttpResp) (bodyType state : String) :
    Py Client Resp :=
  if r.status ∈ SUCCESSFUL then parseResponse x srv (.text r.text) (valueType r bodyType) state
  else if r.status = 500 then Py.raise .parseError
  else if 400 ≤ r.status ∧ r.status < 500 then do
    let e ← Py.try_ (parseResponse x srv (.text r.text) (errorType r) "") (errorFallback x srv r bodyType)
    Py.lift (withStatus r.status e)
  else Py.raise .oidcServiceError

/-- `get_response` (oauth2/__init__.py:104-143). -/
def getResponse (x : Ext) (srv : Srv) (info : ReqInfo) (bodyType state : String) : Py Client Resp := do
  let r ← send x { srv := srv, url := info.url, method := info.method, headers := info.headers,
                   body := info.body }
  let c ← Py.read
  let bt := orElse bodyType (attr c srv "response_body_type" (responseBodyType srv))
  if 300 ≤ r.status ∧ r.status < 400 then return .http r
  else if r.status < 300 ∧ bt = "html" then return .text r.text
  else parseRequestResponse x srv r (if r.status < 300 then bt else bodyType) state

/-- `int(v)` (used in oidc/authorization.py:56) -/
def toInt : Val → Except Exc Int
  | .int i => .ok i
  | .bool b => .ok (if b then 1 else 0)
  | .str s => match s.toInt? with
    | some i => .ok i
    | none => .error .valueError
  | _ => .error .typeError

/-- `resp['__expires_at'] = now + int(resp['expires_in'])` (oidc/authorization.py:55-56,
oidc/access_token.py:85-87, oauth2/refresh_access_token.py:31-32). -/
def withExpiry (x : Ext) (resp : Obj) : Except Exc Obj :=
  match Dict.get? resp "expires_in" with
  | none => .ok resp
  | some v => (toInt v).map (fun i => Dict.set resp "__expires_at" (.int (x.now + i)))

/-- The session a nonce is bound to has to be this one (oidc/access_token.py:76-82). -/
def nonceOfSession (db : DB) (idt : Obj) (key : String) : Except Exc Unit :=
  match Dict.get? idt "nonce" with
  | some (.str n) => match StateInterface.getStateByX db n .nonce with
    | .ok p => if p = .raw key then .ok () else .error .parameterError
    | .error .keyError => .error .valueError
    | .error e => .error e
  | _ => .error .valueError

/-- The ID Token part of `update_service_context` of the token service
(oidc/access_token.py:71-83). -/
def bindIdToken (resp : Obj) (key : String) : Py Client Unit := do
  match Dict.get? resp (Msg.verifiedName "id_token") with
  | none => return ()
  | some (.obj idt) => do
    ask (fun c => nonceOfSession c.db idt key)
    let sv ← Py.lift (Dict.getItem idt "sub")
    let s ← Py.lift (asStr sv)
    onDB (StateInterface.storeX2State s key .subjectId)
  | some _ => Py.raise .typeError

/-- Store a response with its expiry time. (oidc/authorization.py:54-57, oidc/access_token.py:85-89,
oauth2/refresh_access_token.py:31-33) -/
def storeResponse (x : Ext) (itemType key : String) (resp : Obj) : Py Client Obj := do
  let r ← Py.lift (withExpiry x resp)
  onDB (StateInterface.storeItem r itemType key)
  return r

/-- `update_service_context` on a message (oidc/authorization.py:52-57, oidc/access_token.py:70-89,
oauth2/refresh_access_token.py:30-33, oidc/provider_info_discovery.py:82-90, registration.py:270-295,
webfinger.py:46-67, service.py:260-268); returns the message, which may have got an expiry time. -/
def updateMsg (x : Ext) (srv : Srv) (resp : Obj) (key : String) : Py Client Obj :=
  match srv with
  | .authorization => storeResponse x "auth_response" key resp
  | .accesstoken => do
    bindIdToken resp key
    storeResponse x "token_response" key resp
  | .refreshToken => storeResponse x "token_response" key resp
  | .oauth2Authorization => storeResponse x "auth_response" key resp
  | .oauth2AccessToken => storeResponse x "token_response" key resp
  | .oauth2RefreshToken => storeResponse x "token_response" key resp
  | .ccAccessToken => storeResponse x "token_response" key resp
  | .ccRefreshToken => storeResponse x "token_response" key resp
  | .oauth2ProviderInfo => do
    let c ← Py.read
    onCtx (Discovery.updateBase c.services resp)
    return resp
  | .providerInfo => do
    let c ← Py.read
    onCtx (Discovery.update x.regKind c.services resp)
    return resp
  | .registration => do
    onCtx (Py.modify (Registration.update resp))
    return resp
  | .webfinger => do
    let c ← Py.read
    onCtx (WebFinger.update (confOf c .webfinger) WebFinger.OIC_ISSUER resp)
    return resp
  | _ => return resp

/-- `update_service_context` on whatever `get_response` returned.  A dictionary holding a HTTP response
cannot be stored in a session (it has no JSON form); a text has no items. (oauth2/__init__.py:180-186) -/
def update (x : Ext) (srv : Srv) (r : Resp) (key : String) : Py Client Resp :=
  match r with
  | .msg o => do
    let o' ← updateMsg x srv o key
    return .msg o'
  | .http h =>
    match srv with
    | .authorization => Py.raise .attributeError
    | .accesstoken => Py.raise .typeError
    | .refreshToken => Py.raise .typeError
    | .oauth2Authorization => Py.raise .attributeError
    | .oauth2AccessToken => Py.raise .typeError
    | .oauth2RefreshToken => Py.raise .typeError
    | .ccAccessToken => Py.raise .typeError
    | .ccRefreshToken => Py.raise .typeError
    | srv => do
      let _ ← updateMsg x srv Resp.httpObj key
      return .http h
  | .text s =>
    match srv with
    | .userinfo => return .text s
    | .endSession => return .text s
    | .registrationRead => return .text s
    | .checkId => return .text s
    | .checkSession => return .text s
    | _ => Py.raise .typeError

/-- `service_request` (oauth2/__init__.py:145-188). -/
def serviceRequest (x : Ext) (srv : Srv) (info : ReqInfo) (bodyType state : String) :
    Py Client Resp := do
  let r ← getResponse x srv info bodyType state
  if r.isError then return r else update x srv r state

/-- `kwargs['state']`, `''` if there is none (oauth2/__init__.py:93-96).  A state that is not a text is
treated as absent. -/
def stateOf (kwargs : Obj) : String :=
  match Dict.get? kwargs "state" with
  | some (.str s) => s
  | _ => ""

/-- `do_request` (oauth2/__init__.py:80-99). -/
def doRequest (x : Ext) (srv : Srv) (args : Obj) (o : CallOpts) (kwargs : Obj) : Py Client Resp := do
  let c ← Py.read
  if srv ∉ c.services then Py.raise .keyError else
  let info ← getRequestParameters x srv args o kwargs
  serviceRequest x srv info
    (orElse o.responseBodyType (attr c srv "response_body_type" (responseBodyType srv))) (stateOf kwargs)

end Service
end Verif
