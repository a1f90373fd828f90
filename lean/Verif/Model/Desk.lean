import Verif.Model.Handler
/-!
# Calls made at one client at the same time

`Verif.Model.Handler` takes every call as one step.  Here a call is the sequence of its pieces, between any two of which
other threads can run.  It is cut at the HTTP requests, and wherever the client is looked at or changed: the look-up of what
goes into a request, the client authentication, the look for a DPoP key and its storing, the request itself, the treatment of
the answer, the storing.  `Verif.Lemmas.Desk` proves that the pieces of a call, one after the other, are the call of
`Verif.Model.Handler`.  Simplification: each piece is atomic (one that changes the store does so for the session of the call only;
the store underneath is interleaved operation by operation in `Verif.Model.Threads`).
-/

namespace Verif.Desk
open Verif Verif.Service Verif.Handler

/-- A call, cut into pieces. (not in the code: what a scheduler makes of oauth2/__init__.py:80-188 and rp_handler.py:362-821) -/
inductive Pieces (α : Type) : Type 1 where
  /-- nothing is left to do -/
  | done (r : Except Exc α)
  /-- a piece, and what comes after it if it does not raise -/
  | piece {β : Type} (m : Py Client β) (next : β → Pieces α)

namespace Pieces

/-- First one, then the other. (not in the code) -/
def andThen {α β : Type} : Pieces α → (α → Pieces β) → Pieces β
  | done (.ok a), f => f a
  | done (.error e), _ => done (.error e)
  | piece m next, f => piece m (fun b => (next b).andThen f)

instance : Monad Pieces where
  pure a := .done (.ok a)
  bind := andThen

/-- One piece. (not in the code) -/
def one {α : Type} (m : Py Client α) : Pieces α := piece m (fun a => done (.ok a))

/-- The pieces one after the other, undisturbed. (not in the code) -/
def whole {α : Type} : Pieces α → Py Client α
  | done r => Py.lift r
  | piece m next => m >>= fun b => whole (next b)

/-- The next piece. (not in the code) -/
def step {α : Type} : Pieces α → Client → Pieces α × Client
  | done r, c => (done r, c)
  | piece m next, c => match m c with
    | (.ok b, d) => (next b, d)
    | (.error e, d) => (done (.error e), d)

end Pieces

open Pieces

/-- The look for a DPoP key, by services that got the header method (dpop.py:99-121, 145-164): no DPoP; no key to be had; a key. -/
def lookForKey (x : Ext) (srv : Srv) (c : Client) : Except Exc (Option (Option (String × String))) :=
  if usesDpop c.ctx srv then (dpopKeyFor x c).map some else .ok none

/-- `get_headers` (service.py:315-344) and `dpop_header` (dpop.py:80-142): the client authentication, the look for a key, its
storing, the proof. -/
def headers (x : Ext) (srv : Srv) (request : Obj) (httpMethod authnMethod : String) (kwargs : Obj) :
    Pieces (Dict String × Obj) := do
  let m ← one (ask (fun c => if authnMethod = "" then getAuthnMethod c srv else .ok authnMethod))
  let r ← one (ask (authnHeader x srv request m (Dict.set kwargs "authn_endpoint" (.str srv.endpointName))))
  let look ← one (ask (lookForKey x srv))
  match look with
  | none => pure r
  | some none => pure (r.1, r.2)
  | some (some (key, alg)) => do
    one (Py.modify (fun c => { c with dpopKey := some (key, alg) }))
    let htu ← one (ask (fun c => Dict.getItem c.ctx.providerInfo srv.endpointName))
    let jws ← one (Py.lift (x.dpopSign key (dpopClaims x key alg httpMethod htu)))
    pure (Dict.set r.1 "dpop" jws, r.2)

/-- What `get_request_parameters` looks up first (service.py:358-383): method, arguments of the headers, body type. -/
def requestStyle (srv : Srv) (o : CallOpts) (kwargs : Obj) (c : Client) : String × Obj × String :=
  (orElse o.method (attr c srv "http_method" (httpMethod srv)), withIss c kwargs,
    orElse o.requestBodyType (attr c srv "request_body_type" (requestBodyType srv)))

/-- `get_request_parameters` (service.py:346-414). -/
def build (x : Ext) (srv : Srv) (args : Obj) (o : CallOpts) (kwargs : Obj) : Pieces ReqInfo := do
  let style ← one (ask (fun c => .ok (requestStyle srv o kwargs c)))
  let am ← one (ask (fun c => if o.authnMethod = "" then getAuthnMethod c srv else .ok o.authnMethod))
  let request ← one (construct x srv args kwargs)
  let h ← headers x srv request style.1 am style.2.1
  one (ask (assemble x srv h.2 style.1 style.2.2 h.1 kwargs))

/-- `update_service_context` (oauth2/__init__.py:180-186): the binding of the ID Token and the storing of the tokens
(oidc/access_token.py:70-89) are two pieces. -/
def updating (x : Ext) (srv : Srv) (r : Resp) (key : String) : Pieces Resp :=
  match r, srv with
  | .msg o, .accesstoken => do
    one (bindIdToken o key)
    let o' ← one (storeResponse x "token_response" key o)
    pure (.msg o')
  | r, srv => one (update x srv r key)

/-- `get_response` (oauth2/__init__.py:104-143): the request, and the treatment of the answer. -/
def responding (x : Ext) (srv : Srv) (info : ReqInfo) (bodyType state : String) : Pieces Resp := do
  let r ← one (send x { srv := srv, url := info.url, method := info.method, headers := info.headers, body := info.body })
  let bt ← one (ask (fun c => .ok (orElse bodyType (attr c srv "response_body_type" (responseBodyType srv)))))
  if 300 ≤ r.status ∧ r.status < 400 then pure (.http r)
  else if r.status < 300 ∧ bt = "html" then pure (.text r.text)
  else one (parseRequestResponse x srv r (if r.status < 300 then bt else bodyType) state)

/-- The service, and the body type asked for (oauth2/__init__.py:80-99). -/
def chosenService (srv : Srv) (o : CallOpts) (c : Client) : Except Exc String :=
  if srv ∉ c.services then .error .keyError
  else .ok (orElse o.responseBodyType (attr c srv "response_body_type" (responseBodyType srv)))

/-- `do_request` and `service_request` (oauth2/__init__.py:80-99, 145-188), for the services whose
`get_request_parameters` is the general one (service.py:346-414). -/
def request (x : Ext) (srv : Srv) (args : Obj) (o : CallOpts) (kwargs : Obj) : Pieces Resp := do
  let bt ← one (ask (chosenService srv o))
  let info ← build x srv args o kwargs
  let r ← responding x srv info bt (stateOf kwargs)
  if r.isError then pure r else updating x srv r (stateOf kwargs)

/-- `get_tokens` (rp_handler.py:492-535). -/
def gettingTokens (x : Ext) (state : String) : Pieces Resp := do
  let args ← one (ask (tokenArgs state))
  let am ← one (ask (fun c => clientAuthnMethod c.ctx.behaviour))
  let r ← request x .accesstoken args { authnMethod := am } [("state", .str state)]
  one (Py.lift (refuseError r))
  pure r

/-- `refresh_access_token` (rp_handler.py:537-573). -/
def refreshing (x : Ext) (state scope : String) : Pieces Resp := do
  let am ← one (ask (fun c => clientAuthnMethod c.ctx.behaviour))
  let r ← request x .refreshToken (if scope = "" then [] else [("scope", .str scope)])
    { authnMethod := am } [("state", .str state)]
  one (Py.lift (refuseError r))
  pure r

/-- `get_user_info` (rp_handler.py:575-605). -/
def gettingUserInfo (x : Ext) (state : String) (accessToken : Val) : Pieces Resp := do
  one (ask (lookedUp state accessToken))
  let r ← request x .userinfo [("access_token", accessToken)] {} [("state", .str state)]
  one (Py.lift (refuseError r))
  pure r

/-- `logout` (rp_handler.py:888-923). -/
def loggingOut (x : Ext) (state uri : String) : Pieces ReqInfo := do
  one (ask (fun c => if .endSession ∉ c.services then .error .attributeError else .ok ()))
  build x .endSession (if uri = "" then [] else [("post_logout_redirect_uri", .str uri)]) {} [("state", .str state)]

/-- The tokens of the token endpoint (rp_handler.py:712-720, 724-731). -/
def fetchingTokens (x : Ext) (state : String) : Pieces (Val × Val) := do
  let r ← gettingTokens x state
  let at_ ← one (Py.lift (r.item "access_token"))
  let idt ← one (Py.lift (r.find (Msg.verifiedName "id_token")))
  pure (at_, idt.getD .null)

/-- `get_access_and_id_token` (rp_handler.py:666-735). -/
def tokensOf (x : Ext) (resp : Obj) (state : String) (behaviourArgs : Obj) : Pieces (Val × Val) := do
  let rt ← one (ask (storedResponseType state))
  let idt ← one (Py.lift (if idTokenInFront rt then Dict.getItem resp (Msg.verifiedName "id_token") else .ok .null))
  if accessTokenInFront rt then do
    let tok ← one (Py.lift (Dict.getItem resp "access_token"))
    if collects behaviourArgs then fetchingTokens x state else pure (tok, idt)
  else if tokensFromEndpoint rt then fetchingTokens x state
  else pure (.null, idt)

/-- The user information of a finalized session (rp_handler.py:774-791). -/
def collecting (x : Ext) (state : String) (tok idt : Val) : Pieces Val := do
  let asks ← one (ask (fun c => .ok (decide (.userinfo ∈ c.services ∧ tok.truthy))))
  if asks then do
    let r ← gettingUserInfo x state tok
    pure r.toVal
  else if idt.truthy then
    match idt with
    | .obj o => pure (.obj (userinfoInIdToken x o))
    | _ => one (Py.raise .typeError)
  else pure (.obj [])

/-- What `finalize` does after the authorization response was accepted (rp_handler.py:768-821). -/
def completing (x : Ext) (resp : Obj) (state : String) (behaviourArgs : Obj) : Pieces Final := do
  let t ← tokensOf x resp state behaviourArgs
  let info ← collecting x state t.1 t.2
  one (bindSid state t.2)
  one (bindSub state t.2 info)
  pure (.done info (.str state) t.1 t.2 ((Dict.get? resp "session_state").getD (.str "")))

/-- `finalize` (rp_handler.py:738-821). -/
def finalizing (x : Ext) (issuer : String) (response behaviourArgs : Obj) : Pieces Final := do
  let resp ← one (finalizeAuth x issuer response)
  let sv ← one (Py.lift (Dict.getItem resp "state"))
  if Msg.isError resp then do
    let e ← one (Py.lift (Dict.getItem resp "error"))
    pure (.error sv e)
  else do
    let k ← one (Py.lift (dbKey sv))
    completing x resp k behaviourArgs

/-- `construct` for the authorization service (service.py:192-229): the steps of `pre_construct` (oidc/authorization.py:39-50,
oauth2/utils.py:64-69, oidc/authorization.py:81-125, pkce.py:14-61), the gathering, and those of `post_construct`
(oidc/authorization.py:207-242, pushed_authorization.py:11-49). -/
def constructing (x : Ext) (args kwargs : Obj) : Pieces Obj := do
  let kw ← one (ask (fun c => .ok (methodArgs (confOf c .authorization) "pre_construct" kwargs)))
  let a ← one (setState x args kw)
  let a ← one (pickRedirect a)
  let r ← one (ask (fun c => (authorizationPre (x.rnd "pre_nonce") c.ctx.behaviour a kw).map
    (fun r => (r, Dict.has c.ctx.addOn "pkce"))))
  let d ← if r.2 then one (addCodeChallenge x r.1.1) else pure r.1.1
  let g ← one (ask (fun c => gatherRequestArgs x c .authorization (stateFromKwargs (x.msg .authorization) d kwargs)))
  let post ← one (ask (fun c => .ok (methodArgs (confOf c .authorization) "post_construct" (withBehaviour kwargs r.1.2),
    Dict.has c.ctx.addOn "pushed_authorization")))
  one (bindNonce ((x.msg .authorization).make g))
  let q ← one (Py.lift (offlinePrompt (x.msg .authorization) ((x.msg .authorization).make g)))
  let sv ← one (Py.lift (Dict.getItem q "state"))
  let s ← one (Py.lift (dbKey sv))
  one (onDB (StateInterface.storeItem q "auth_request" s))
  let f ← one (ask (fun c => requestObject x c.ctx q post.1))
  if post.2 then one (pushAuthorization x f) else pure f

/-- `get_request_parameters` of the authorization service (service.py:346-414). -/
def authorizing (x : Ext) (args kwargs : Obj) : Pieces ReqInfo := do
  let style ← one (ask (fun c => .ok (requestStyle .authorization {} kwargs c)))
  let am ← one (ask (fun c => getAuthnMethod c .authorization))
  let request ← constructing x args kwargs
  let h ← headers x .authorization request style.1 am style.2.1
  one (ask (assemble x .authorization h.2 style.1 style.2.2 h.1 kwargs))

/-- `init_authorization` (rp_handler.py:362-423). -/
def beginning (x : Ext) (req behaviourArgs : Obj) : Pieces (String × String) := do
  let args ← one (ask (fun c => initArgs x c.ctx req))
  let iss ← one (ask (fun c => .ok c.ctx.issuer))
  let k ← one (onDB (StateInterface.createState iss "" (x.rnd "init_state")))
  one (onDB (StateInterface.storeX2State (x.rnd "init_nonce") k .nonce))
  one (ask (fun c => if .authorization ∉ c.services then .error .attributeError else .ok ()))
  one (onCtx (Py.modify (aliasScope req)))
  let info ← authorizing x (Dict.set args "state" (.str k)) [("behaviour_args", .obj behaviourArgs)]
  pure (info.url, k)

/-- A call at the client of a provider. (rp_handler.py:362-423, 492-923) -/
inductive Job where
  | begin (req behaviourArgs : Obj)
  | finalize (issuer : String) (response behaviourArgs : Obj)
  | getTokens (state : String)
  | refresh (state scope : String)
  | userInfo (state : String) (token : Val)
  | hasActive (state : String)
  | validToken (state : String)
  | logout (state uri : String)

/-- The call, as `Verif.Model.Handler` has it. (dispatch; rp_handler.py:362-423, 492-923) -/
def Job.call (x : Ext) : Job → Py Client Ret
  | .begin req b => initAuthorization x req b >>= fun p => pure (.started p.1 p.2)
  | .finalize i r b => finalizeClient x i r b >>= fun a => pure (.final a)
  | .getTokens s => Handler.getTokens x s >>= fun a => pure (.resp a)
  | .refresh s sc => refreshAccessToken x s sc >>= fun a => pure (.resp a)
  | .userInfo s t => getUserInfo x s t >>= fun a => pure (.resp a)
  | .hasActive s => ask (Handler.hasActive x s) >>= fun a => pure (.bool a)
  | .validToken s => ask (validAccessToken x s) >>= fun p => pure (.token p.1 p.2)
  | .logout s u => Handler.logout x s u >>= fun a => pure (.req a)

/-- The call in pieces. (dispatch; rp_handler.py:362-423, 492-923) -/
def Job.pieces (x : Ext) : Job → Pieces Ret
  | .begin req b => beginning x req b >>= fun p => pure (.started p.1 p.2)
  | .finalize i r b => finalizing x i r b >>= fun a => pure (.final a)
  | .getTokens s => gettingTokens x s >>= fun a => pure (.resp a)
  | .refresh s sc => refreshing x s sc >>= fun a => pure (.resp a)
  | .userInfo s t => gettingUserInfo x s t >>= fun a => pure (.resp a)
  | .hasActive s => one (ask (Handler.hasActive x s)) >>= fun a => pure (.bool a)
  | .validToken s => one (ask (validAccessToken x s)) >>= fun p => pure (.token p.1 p.2)
  | .logout s u => loggingOut x s u >>= fun a => pure (.req a)

/-- A thread: the call it is in the middle of, the calls it has still to make, what the others returned or raised, and
the requests it has sent. (not in the code: a thread of the application) -/
structure Thread : Type 1 where
  now : Option (Pieces Ret) := none
  todo : List (Ext × Job) := []
  results : List (Except Exc Ret) := []
  sent : List Sent := []

/-- The thread goes one piece further at the client. (not in the code: the scheduler) -/
def Thread.step (t : Thread) (c : Client) : Thread × Client :=
  match t.now with
  | none => match t.todo with
    | [] => (t, c)
    | (x, j) :: l => ({ t with now := some (j.pieces x), todo := l }, c)
  | some (.done r) => ({ t with now := none, results := t.results ++ [r] }, c)
  | some p => ({ t with now := some (p.step c).1, sent := t.sent ++ (p.step c).2.log.drop c.log.length }, (p.step c).2)

/-- The thread has made its calls. (not in the code) -/
def Thread.finished (t : Thread) : Prop := t.now.isNone ∧ t.todo = []

/-- Threads at one client. (not in the code: an application with several threads) -/
structure Desk (ι : Type) : Type 1 where
  client : Client
  thread : ι → Thread

variable {ι : Type} [DecidableEq ι]

/-- One thread goes a piece further. (not in the code: the scheduler) -/
def Desk.step (d : Desk ι) (u : ι) : Desk ι where
  client := ((d.thread u).step d.client).2
  thread := fun v => if v = u then ((d.thread u).step d.client).1 else d.thread v

/-- The threads run as the schedule says. (not in the code: the scheduler) -/
def Desk.run (d : Desk ι) (l : List ι) : Desk ι := l.foldl Desk.step d

/-- Each thread is given its calls. (not in the code) -/
def Desk.start (c : Client) (calls : ι → List (Ext × Job)) : Desk ι where
  client := c
  thread := fun u => { todo := calls u }

end Verif.Desk
