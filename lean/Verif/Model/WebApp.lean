import Verif.Model.Handler
import Verif.Model.Registration
/-!
# Model of the example web application (example/flask_rp/views.py)

A browser has a session with the application, kept in a signed cookie (Flask, external): a dictionary only the application
writes.  What a view stores there before it raises is kept: Flask saves the session with the error page too.  A view that raises
is answered with status 500; a parameter that is missing in `request.args[...]` is answered with status 400
(views.py:176-178).  `request.args` is the query, of each parameter the first value.  Templates and log messages are not
modelled: a page is what a template is given.
-/

namespace Verif.WebApp
open Verif Verif.Handler Verif.Service

/-- The session of a browser (Flask's `session`; views.py:65, 105-114). -/
abbrev Session := Dict Val

/-- What a browser is shown. (example/flask_rp/views.py:38-274) -/
inductive Page where
  /-- `redirect(url, 303)` -/
  | redirect (url : String)
  /-- `opbyuid.html` -/
  | start (providers : List String)
  /-- `opresult.html`: "You have successfully logged in!" -/
  | result (userinfo token idToken : Val) (endpoints : Obj) (check : Option (Val × Val)) (logoutUrl : String)
  /-- `repost_fragment.html` -/
  | repost (op : String)
  /-- the session iframe -/
  | iframe (template clientId sessionState : Val) (issuer changeUrl : String)
  /-- a text with a status -/
  | text (body : Val) (status : Nat)
  deriving DecidableEq, Inhabited, Repr

/-- What a view works on: the session of the browser and the one handler of the application. (views.py:65-67) -/
structure App where
  session : Session := []
  rph : Handler := {}
  deriving Inhabited

/-- Something done with the handler. (views.py:67, 119, 247) -/
def onRph {α : Type} (m : Py Handler α) : Py App α := fun a =>
  ((m a.rph).1, { a with rph := (m a.rph).2 })

/-- `session[key] = value` (views.py:65, 105-114) -/
def setSession (key : String) (v : Val) : Py App Unit :=
  Py.modify (fun a => { a with session := Dict.set a.session key v })

/-- `session[key]` (views.py:198-247) -/
def getSession (key : String) : Py App Val := fun a => (Dict.getItem a.session key, a)

/-- The answer to a request without a parameter that is needed (views.py:176-178). -/
def badRequest : Page := .text (.str "bad request!") 400

/-- `compact` (views.py:23-30) -/
def compact (q : Dict (List String)) : Obj :=
  q.map (fun p => (p.1, match p.2 with
    | [v] => .str v
    | l => .list (l.map .str)))

/-- `urllib.parse.parse_qs` after `parse_qsl`: the values of each name in order; empty values are left out.
(used in views.py:183) -/
def parseQs (pairs : List (String × String)) : Dict (List String) :=
  pairs.foldl (fun d p => if p.2 = "" then d else Dict.set d p.1 ((Dict.get? d p.1).getD [] ++ [p.2])) []

/-- `splitquery(url)[0]`: what is before the last question mark. (used in views.py:159) -/
def splitQuery (url : String) : String :=
  if '?' ∈ url.toList then String.ofList ((url.toList.reverse.dropWhile (· ≠ '?')).drop 1).reverse else url

/-- What the application asks for at the provider (views.py:56-60). -/
def REQ_ARGS : Obj :=
  [("claims", .obj [("id_token", .obj [("acr", .obj [("value", .str "https://refeds.org/profile/mfa")])])])]

/-- The providers a login can be chosen for: `rp_config.clients.keys()` (views.py:40, 74), which the handler was made of
(application.py:26). -/
def providers (h : Handler) : List String := Dict.keys h.configs

/-- The login is begun (views.py:66-72). -/
def beginPage (x : Ext) (iss uid : String) : Py App Page := fun a =>
  match begin_ x iss uid REQ_ARGS [] a.rph with
  | (.ok r, h) => (.ok (.redirect r.1), { a with rph := h })
  | (.error _, h) => (.ok (.text (.str "Something went wrong") 400), { a with rph := h })

/-- `rp` (views.py:45-75), after the parameters have been read. -/
def startLogin (x : Ext) (iss uid : String) : Py App Page := do
  if iss = "" ∧ uid = "" then do
    let a ← Py.read
    return .start (providers a.rph)
  else do
    setSession "op_identifier" (.str iss)
    beginPage x iss uid

/-- `rp` (views.py:45-75). -/
def rp (x : Ext) (args : Dict String) : Py App Page :=
  match Dict.get? args "dyn_iss" with
  | none => return badRequest
  | some iss =>
    if iss ≠ "" then startLogin x iss ""
    else match Dict.get? args "static_iss" with
      | none => return badRequest
      | some iss =>
        if iss ≠ "" then startLogin x iss ""
        else match Dict.get? args "uid" with
          | none => return badRequest
          | some uid => startLogin x "" uid

/-- `get_rp` (views.py:78-94): under which name the handler has the client, or the answer that there is none.  `none` is
Python's `None`, which is no key. -/
def getRp (h : Handler) (op : Option String) : Except Page String :=
  match op with
  | none => .error (.text (.str "Unknown OP identifier") 400)
  | some op => match Dict.get? h.hash2issuer op with
    | some iss =>
      if Dict.has h.issuer2rp iss then .ok iss
      else .error (.text (.str "Couldn't find client for issuer") 400)
    | none =>
      if Dict.has h.issuer2rp op then .ok op
      else .error (.text (.str "Unknown OP identifier") 400)

/-- The exceptions that are subclasses of `OidcServiceError` (exception.py:5-124; views.py:120).  Those of oidcmsg are not. -/
def isServiceError (e : Exc) : Bool :=
  decide (e ∈ [Exc.oidcServiceError, .responseError, .parseError, .parameterError, .configurationError,
    .unsupported, .webFingerError, .wrongContentType, .httpError])

/-- `str.replace('_', ' ')` and `str.capitalize` (views.py:131-132). -/
def endpointTitle (k : String) : String :=
  match k.toList.map (fun c => if c = '_' then ' ' else c) with
  | [] => ""
  | c :: l => String.ofList (c.toUpper :: l.map Char.toLower)

/-- The endpoints shown (views.py:127-133). -/
def endpoints (pi : Obj) : Obj :=
  pi.foldl (fun d p => if Str.endsWith p.1 "_endpoint" then Dict.set d (endpointTitle p.1) p.2 else d) []

/-- Session status checking, if both sides have it (views.py:137-144). -/
def statusCheck (ctx : Ctx) : Except Exc (Option (Val × Val)) :=
  match Dict.get? ctx.addOn "status_check" with
  | none => .ok none
  | some info =>
    if info.truthy then
      match Dict.get? ctx.providerInfo "check_session_iframe" with
      | none => .ok none
      | some v => if v.truthy then
          match valItem info "rp_iframe_path" with
          | .error e => .error e
          | .ok p => .ok (some (v, p))
        else .ok none
    else .ok none

/-- The page after a login (views.py:125-155). -/
def resultPage (c : Client) : Final → Except Exc Page
  | .error _ e => .ok (.text e 400)
  | .done userinfo _ token idToken _ => match statusCheck c.ctx with
    | .error e => .error e
    | .ok chk => .ok (.result userinfo token idToken (endpoints c.ctx.providerInfo) chk (c.ctx.baseUrl ++ "/logout"))

/-- The login is finished and the page made (views.py:118-155): `key` is where the client of the callback is kept. -/
def finishLogin (x : Ext) (key iss : String) (args : Obj) : Py App Page := fun a =>
  match finalize x iss args [] a.rph with
  | (.error e, h) => if isServiceError e then (.ok (.text (.str "refused") 403), { a with rph := h }) else (.error e, { a with rph := h })
  | (.ok f, h) => match Dict.get? h.issuer2rp key with
    | none => (.error .keyError, { a with rph := h })
    | some c => (resultPage c f, { a with rph := h })

/-- `finalize` (views.py:97-155). -/
def finalizeView (x : Ext) (op : Option String) (args : Obj) : Py App Page := do
  let a ← Py.read
  match getRp a.rph op with
  | .error p => return p
  | .ok key => match Dict.get? a.rph.issuer2rp key with
    | none => Py.raise .keyError
    | some c => do
      setSession "client_id" (.str c.ctx.clientId)
      setSession "state" ((Dict.get? args "state").getD .null)
      if Util.truthyO (Dict.get? args "state") then do
        let k ← Py.lift (dbKey ((Dict.get? args "state").getD .null))
        let v ← Py.lift (StateInterface.getIss c.db k)
        setSession "session_state" ((Dict.get? args "session_state").getD (.str ""))
        let iss ← Py.lift (dbKey v)
        finishLogin x key iss args
      else return .text (.str "Unknown state") 400

/-- `get_op_identifier_by_cb_uri` (views.py:158-167).  The context has no attributes `frontchannel_logout_uri` and
`backchannel_logout_uri` (service_context.py:116-193): for these the default, an empty list, is looked at. -/
def opByUri (uri : String) : Dict Client → Option String
  | [] => none
  | (k, c) :: l =>
    if uri ∈ c.ctx.redirectUris ∨ uri ∈ c.ctx.postLogoutRedirectUris then some k else opByUri uri l

/-- `authz_cb` (views.py:170-173): the identifier in the path is not used. -/
def authzCb (x : Ext) (url : String) (args : Obj) : Py App Page := do
  let a ← Py.read
  finalizeView x (opByUri (splitQuery url) a.rph.issuer2rp) args

/-- `repost_fragment` (views.py:181-185).  `fragment` are the pairs `parse_qsl` gives. -/
def repostFragment (x : Ext) (fragment : Option (List (String × String))) (op : Option String) : Py App Page :=
  match fragment, op with
  | some l, some op => finalizeView x (some op) (compact (parseQs l))
  | _, _ => return badRequest

/-- The client of a name; a page in place of a client does not have its methods. (views.py:198-199, 217-220, 238-240, 267-270) -/
def clientOrFail (op : Option String) : Py App Client := fun a =>
  match getRp a.rph op with
  | .error _ => (.error .attributeError, a)
  | .ok key => match Dict.get? a.rph.issuer2rp key with
    | none => (.error .keyError, a)
    | some c => (.ok c, a)

/-- The identifier of the provider in the session; it is always a text. (views.py:198, 202, 217) -/
def sessionOp : Py App (Option String) := do
  let v ← getSession "op_identifier"
  match v with
  | .str s => return (some s)
  | _ => return none

/-- `session_iframe` (views.py:194-211). -/
def sessionIframe : Py App Page := do
  let op ← sessionOp
  let c ← clientOrFail op
  let a ← Py.read
  let iss ← Py.lift (match op with
    | some o => Dict.getItem a.rph.hash2issuer o
    | none => .error .keyError)
  let cid ← getSession "client_id"
  let st ← getSession "session_state"
  let info ← Py.lift (Dict.getItem c.ctx.addOn "status_check")
  let t ← Py.lift (valItem info "session_iframe_template_file")
  return .iframe t cid st iss (c.ctx.baseUrl ++ "/session_change")

/-- `session_change` (views.py:214-231).  Services have no method `multiple_extend_request_args` (it is one of the session store,
state_interface.py:194): the call raises. -/
def sessionChange : Py App Page := do
  let op ← sessionOp
  let _ ← clientOrFail op
  Py.raise .attributeError

/-- `session_logout` (views.py:235-240): the identifier in the path is not used. -/
def sessionLogout (url : String) : Py App Page := do
  let a ← Py.read
  let c ← clientOrFail (opByUri (splitQuery url) a.rph.issuer2rp)
  return .text (.str ("Post logout from " ++ c.ctx.issuer)) 200

/-- `logout` (views.py:244-249).  A state that is not a text is not found. -/
def logoutView (x : Ext) : Py App Page := do
  let v ← getSession "state"
  let k ← Py.lift (dbKey v)
  let info ← onRph (onSession k (logout x k ""))
  return .redirect info.url

/-- `request.data` (views.py:256): empty if the body is a form, which Flask has then parsed already (werkzeug, external). -/
def requestData (form : Bool) (body : String) : String := if form then "" else body

/-- `backchannel_logout` of the client `key` (views.py:255-262).  Clients have no attribute `session_interface`: after a verified
request the call raises. -/
def bcLogoutOf (x : Ext) (key data : String) : Py App Page := fun a =>
  match onClient key (ask (backchannelLogout x (.text data))) a.rph with
  | (.error _, h) => (.ok (.text (.str "System error!") 400), { a with rph := h })
  | (.ok _, h) => (.error .attributeError, { a with rph := h })

/-- `backchannel_logout` (views.py:252-262). -/
def bcLogout (x : Ext) (op : String) (form : Bool) (body : String) : Py App Page := do
  let a ← Py.read
  match getRp a.rph (some op) with
  | .error _ => return .text (.str "System error!") 400
  | .ok key => bcLogoutOf x key (requestData form body)

/-- `frontchannel_logout` (views.py:265-274).  See `bcLogout` for the last step. -/
def fcLogout (op : String) (args : Dict String) : Py App Page :=
  match Dict.get? args "sid", Dict.get? args "iss" with
  | some _, some iss => do
    let c ← clientOrFail (some op)
    if iss ≠ c.ctx.issuer then return .text (.str "Bad request") 400
    else Py.raise .attributeError
  | _, _ => return badRequest

/-! ## Requests -/

/-- A request of a browser, or of a provider. (views.py:33-274) -/
inductive Request where
  | index
  | rp (args : Dict String)
  | authzCb (url : String) (args : Obj)
  | repostFragment (fragment : Option (List (String × String))) (op : Option String)
  | authzImCb
  | sessionIframe
  | sessionChange
  | sessionLogout (url : String)
  | logout
  | bcLogout (op : String) (form : Bool) (body : String)
  | fcLogout (op : String) (args : Dict String)
  deriving Inhabited

/-- The view of a request. (views.py:33-274; the route of `authz_im_cb` has no identifier: it is always empty) -/
def view (x : Ext) : Request → Py App Page
  | .index => do
    let a ← Py.read
    return .start (providers a.rph)
  | .rp args => rp x args
  | .authzCb url args => authzCb x url args
  | .repostFragment f op => repostFragment x f op
  | .authzImCb => return .repost ""
  | .sessionIframe => sessionIframe
  | .sessionChange => sessionChange
  | .sessionLogout url => sessionLogout url
  | .logout => logoutView x
  | .bcLogout op form body => bcLogout x op form body
  | .fcLogout op args => fcLogout op args

/-- The application with all its browsers. (application.py:36-54; not in the code: the browsers keep the sessions) -/
structure Site where
  sessions : Nat → Session := fun _ => []
  rph : Handler := {}

/-- A browser makes a request: the page it gets, or the exception behind a status 500. (Flask, external) -/
def serve (x : Ext) (browser : Nat) (r : Request) (s : Site) : Except Exc Page × Site :=
  let out := view x r { session := s.sessions browser, rph := s.rph }
  (out.1, { sessions := fun b => if b = browser then out.2.session else s.sessions b, rph := out.2.rph })

/-- A history of requests. (not in the code) -/
def serveAll : List (Ext × Nat × Request) → Site → Site
  | [], s => s
  | (x, b, r) :: l, s => serveAll l (serve x b r s).2

end Verif.WebApp
