import Verif.Model.Handler
/-!
# Model of how a client is put together

`init_services` (src/oidcrp/service.py:612-650), the constructors of the services, `do_add_ons`
(src/oidcrp/oauth2/add_on/__init__.py:4-7, util.py:382-385) and the `add_support` functions of the add-ons
(src/oidcrp/oauth2/add_on/{pkce,pushed_authorization,dpop}.py), and the loops that run the methods put there
(src/oidcrp/service.py:147-180, 335-342).

Not modelled: `pre_functions` and `post_functions` of a service definition (functions of the user), classes of the user,
and the import of a class by name.
-/

namespace Verif.Entity
open Verif Service

/-- The methods that may be in `pre_construct`. (oidc/authorization.py:35-37, oauth2/add_on/pkce.py:105-108 and
the other constructors) -/
inductive Pre where
  | setState | pickRedirect | oidcAuthorization | setStateParameter | oauthToken | oauthRefresh | ccRefresh | session
  | userinfoToken | carryState | idTokenHint | postLogoutUri | addState | preferences | callbackUris | jwks
  | codeChallenge | putState
  deriving DecidableEq, Inhabited, Repr

/-- The methods that may be in `post_construct`. (oidc/authorization.py:37, oauth2/add_on/pkce.py:109,
oauth2/add_on/pushed_authorization.py:74 and the other constructors) -/
inductive Post where
  | oidcAuthorization | storeAuthRequest | ccPost | registration | codeVerifier | push
  deriving DecidableEq, Inhabited, Repr

/-- The methods that may be in `construct_extra_headers`. (oauth2/add_on/dpop.py:160-165) -/
inductive Hdr where
  | dpop
  deriving DecidableEq, Inhabited, Repr

/-- A service object: its class and its methods (service.py:88-91). -/
structure Inst where
  srv : Srv
  pre : List Pre := []
  post : List Post := []
  headers : List Hdr := []
  deriving DecidableEq, Inhabited, Repr

/-- The constructors: oauth2/authorization.py:32-36, access_token.py:27-30, refresh_access_token.py:25-28,
provider_info_discovery.py:24-26, client_credentials/cc_access_token.py:20-22, cc_refresh_access_token.py:18-22;
oidc/authorization.py:31-37, access_token.py:24-29, userinfo.py:42-46, end_session.py:24-30, registration.py:229-237,
check_id.py:21-25, check_session.py:21-25, webfinger.py:38-44, provider_info_discovery.py:77-80. -/
def newService : Srv → Inst
  | .authorization =>
    { srv := .authorization, pre := [.setState, .pickRedirect, .oidcAuthorization], post := [.oidcAuthorization] }
  | .oauth2Authorization =>
    { srv := .oauth2Authorization, pre := [.pickRedirect, .setStateParameter], post := [.storeAuthRequest] }
  | .accesstoken => { srv := .accesstoken, pre := [.oauthToken] }
  | .oauth2AccessToken => { srv := .oauth2AccessToken, pre := [.oauthToken] }
  | .refreshToken => { srv := .refreshToken, pre := [.oauthRefresh] }
  | .oauth2RefreshToken => { srv := .oauth2RefreshToken, pre := [.oauthRefresh] }
  | .ccRefreshToken => { srv := .ccRefreshToken, pre := [.ccRefresh], post := [.ccPost] }
  | .userinfo => { srv := .userinfo, pre := [.userinfoToken, .carryState] }
  | .endSession => { srv := .endSession, pre := [.idTokenHint, .postLogoutUri, .addState] }
  | .registration =>
    { srv := .registration, pre := [.preferences, .callbackUris, .jwks], post := [.registration] }
  | .checkId => { srv := .checkId, pre := [.session] }
  | .checkSession => { srv := .checkSession, pre := [.session] }
  | s => { srv := s }

/-- The services of a client by name. (service.py:612-650) -/
abbrev Services := Dict Inst

/-- `init_services` (service.py:612-650): of two services with one name the later one stays. -/
def initServices : List Srv → Services → Services
  | [], d => d
  | s :: l, d => initServices l (Dict.set d s.name (newService s))

/-- An entry of `add_ons`: the function and its arguments. (oauth2/add_on/__init__.py:4-7) -/
inductive AddOn where
  | pkce (length method : Val)
  | pushed (bodyFormat alg mergeRule : Val)
  | dpop (algs : Val)
  deriving DecidableEq, Inhabited, Repr

/-- `add_support` of PKCE (pkce.py:87-111): without the two services nothing but a warning. -/
def addPkce (length method : Val) (s : Services) (ao : Obj) : Services × Obj :=
  match Dict.get? s "authorization", Dict.get? s "accesstoken" with
  | some a, some t =>
    (Dict.set (Dict.set s "authorization" { a with pre := a.pre ++ [.codeChallenge] }) "accesstoken"
      { t with pre := t.pre ++ [.putState], post := t.post ++ [.codeVerifier] },
     Dict.set ao "pkce" (.obj [("code_challenge_length", length), ("code_challenge_method", method)]))
  | _, _ => (s, ao)

/-- `add_support` of pushed authorization requests (pushed_authorization.py:51-74); the HTTP client is left out. -/
def addPushed (bodyFormat alg mergeRule : Val) (s : Services) (ao : Obj) : Except Exc (Services × Obj) :=
  match Dict.get? s "authorization" with
  | none => .error .keyError
  | some a => .ok (Dict.set s "authorization" { a with post := a.post ++ [.push] },
      Dict.set ao "pushed_authorization"
        (.obj [("body_format", bodyFormat), ("signing_algorithm", alg), ("merge_rule", mergeRule)]))

/-- `add_support` of DPoP (dpop.py:145-166). -/
def addDpop (algs : Val) (s : Services) (ao : Obj) : Except Exc (Services × Obj) :=
  match Dict.get? s "accesstoken" with
  | none => .error .keyError
  | some t =>
    let s' := Dict.set s "accesstoken" { t with headers := t.headers ++ [.dpop] }
    let ao' := Dict.set ao "dpop" (.obj [("sign_algs", algs)])
    match Dict.get? s' "userinfo" with
    | none => .ok (s', ao')
    | some u => .ok (Dict.set s' "userinfo" { u with headers := u.headers ++ [.dpop] }, ao')

/-- One add-on. (oauth2/add_on/__init__.py:6-7) -/
def addSupport : AddOn → Services × Obj → Except Exc (Services × Obj)
  | .pkce n m, (s, ao) => .ok (addPkce n m s ao)
  | .pushed b a r, (s, ao) => addPushed b a r s ao
  | .dpop l, (s, ao) => addDpop l s ao

/-- `do_add_ons` (add_on/__init__.py:4-7). -/
def doAddOns : List AddOn → Services × Obj → Except Exc (Services × Obj)
  | [], r => .ok r
  | a :: l, r => match addSupport a r with
    | .error e => .error e
    | .ok r' => doAddOns l r'

/-- The services and `context.add_on` of a new client (entity.py:46-51, oauth2/__init__.py:67-74). -/
def assembled (defs : List Srv) (addOns : List AddOn) : Except Exc (Services × Obj) :=
  doAddOns addOns (initServices defs [], [])

/-- The configuration of a client, as `Handler.newClient` uses it. (rp_handler.py:147-187) -/
def clientConf (config : Obj) (srvConf : Dict Obj) (r : Services × Obj) : ClientConf :=
  { config := config, services := r.1.map (fun p => p.2.srv), srvConf := srvConf, addOn := r.2 }

/-! ## Running the methods -/

/-- One method of `pre_construct`, given the request arguments, `post_args` and the other arguments.
(service.py:156-163) -/
def Pre.run (x : Ext) (srv : Srv) (kwargs : Obj) : Pre → Obj × Obj → Py Client (Obj × Obj)
  | .setState, (a, p) => do return (← Service.setState x a kwargs, p)
  | .pickRedirect, (a, p) => do return (← Service.pickRedirect a, p)
  | .oidcAuthorization, (a, p) => do
    let c ← Py.read
    let r ← Py.lift (authorizationPre (x.rnd "pre_nonce") c.ctx.behaviour a kwargs)
    return (r.1, Dict.update p r.2)
  | .setStateParameter, (a, p) => do return (← Py.lift (Service.setStateParameter a kwargs), p)
  | .oauthToken, (a, p) => do return (← ask (tokenPre (x.msg srv).params a kwargs), p)
  | .oauthRefresh, (a, p) => do return (← ask (refreshPre (x.msg srv).params a kwargs), p)
  | .ccRefresh, (a, p) => do return (← ask (ccRefreshPre a kwargs), p)
  | .session, (a, p) => do return (← ask (checkPre a kwargs), p)
  | .userinfoToken, (a, p) => do return (← ask (Service.userinfoToken a kwargs), p)
  | .carryState, (a, p) => do return (← Py.lift (Service.putState a kwargs), p)
  | .idTokenHint, (a, p) => do return (← ask (Service.idTokenHint a kwargs), p)
  | .postLogoutUri, (a, p) => do return (← ask (Service.postLogoutUri a), p)
  | .addState, (a, p) => do return (← Service.addState x a kwargs, p)
  | .preferences, (a, p) => do
    let c ← Py.read
    return (Registration.addPreferences c.ctx (x.msg srv).params a, p)
  | .callbackUris, (a, p) => do return (← onCtx (Registration.addCallbackUris x.hash a), p)
  | .jwks, (a, p) => do
    let c ← Py.read
    return (Registration.addJwks c.ctx a, p)
  | .codeChallenge, (a, p) => do return (← addCodeChallenge x a, p)
  | .putState, (a, p) => do return (← Py.lift (Service.putState a kwargs), p)

/-- The loop of `do_pre_construct` (service.py:157-165). -/
def runPre (x : Ext) (srv : Srv) (kwargs : Obj) : List Pre → Obj × Obj → Py Client (Obj × Obj)
  | [], r => return r
  | m :: l, r => do
    let r' ← m.run x srv kwargs r
    runPre x srv kwargs l r'

/-- One method of `post_construct`. (service.py:175-180) -/
def Post.run (x : Ext) (kwargs : Obj) : Post → Obj → Py Client Obj
  | .oidcAuthorization, r => authorizationPost x r kwargs
  | .storeAuthRequest, r => Service.storeAuthRequest r kwargs
  | .ccPost, r => return Service.ccPost r
  | .registration, r => return Registration.postConstruct r
  | .codeVerifier, r => ask (addCodeVerifier r kwargs)
  | .push, r => pushAuthorization x r

/-- The loop of `do_post_construct` (service.py:175-180). -/
def runPost (x : Ext) (kwargs : Obj) : List Post → Obj → Py Client Obj
  | [], r => return r
  | m :: l, r => do
    let r' ← m.run x kwargs r
    runPost x kwargs l r'

/-- The loop of `get_headers` (service.py:335-342). -/
def runHeaders (x : Ext) (srv : Srv) (httpMethod : String) : List Hdr → Dict String → Py Client (Dict String)
  | [], h => return h
  | .dpop :: l, h => do
    let h' ← dpopHeader x srv httpMethod h
    runHeaders x srv httpMethod l h'

end Verif.Entity
