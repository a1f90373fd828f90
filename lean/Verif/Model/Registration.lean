import Verif.Model.Discovery
/-!
# Model of dynamic client registration (src/oidcrp/oidc/registration.py, read_registration.py) and of
the choice of the redirect URI (src/oidcrp/oauth2/utils.py)
-/

namespace Verif.Registration
open Verif

/-- Lexicographic order on code points, `a <= b` of Python strings. (used in registration.py:31) -/
def leL : List Char → List Char → Bool
  | [], _ => true
  | _ :: _, [] => false
  | a :: s, b :: t => if a.toNat < b.toNat then true else if b.toNat < a.toNat then false else leL s t

/-- Insert into a sorted list. (used in registration.py:31) -/
def insertW (w : List Char) : List (List Char) → List (List Char)
  | [] => [w]
  | v :: vs => if leL w v then w :: v :: vs else v :: insertW w vs

/-- `list.sort()` on words. (registration.py:31) -/
def sortW : List (List Char) → List (List Char)
  | [] => []
  | w :: ws => insertW w (sortW ws)

/-- `rt2gt` (registration.py:16-23). -/
def rt2gt : Dict (List String) :=
  [("code", ["authorization_code"]),
   ("id_token", ["implicit"]),
   ("id_token token", ["implicit"]),
   ("code id_token", ["authorization_code", "implicit"]),
   ("code token", ["authorization_code", "implicit"]),
   ("code id_token token", ["authorization_code", "implicit"])]

/-- The key looked up for a response type (registration.py:30-33). -/
def rtKey (rt : String) : String :=
  String.ofList (Str.joinL ' ' (sortW (Str.splitL ' ' rt.toList)))

/-- `_res.update(set(_gt))` (registration.py:38) -/
def union (res : List String) (gt : List String) : List String :=
  gt.foldl (fun r g => if g ∈ r then r else r ++ [g]) res

/-- The loop body of `response_types_to_grant_types` (registration.py:29-38). -/
def addGrants (r : List String) (rt : String) : List String :=
  match Dict.get? rt2gt (rtKey rt) with
  | some gt => union r gt
  | none => r

/-- `response_types_to_grant_types` (registration.py:26-40).  The order of the Python result is that
of a set; here it is the order of first occurrence. -/
def responseTypesToGrantTypes (rts : List String) : List String := rts.foldl addGrants []

/-- Flags given to `create_callbacks` (registration.py:43-51). -/
structure CallbackFlags where
  code : Bool := false
  implicit : Bool := false
  formPost : Bool := false
  requestUris : Bool := false
  backchannel : Bool := false
  frontchannel : Bool := false
  deriving DecidableEq, Inhabited, Repr

/-- `create_callbacks` (registration.py:43-92), for the hexadecimal hash `hex` of seed and issuer. -/
def createCallbacks (hex baseUrl : String) (f : CallbackFlags) : Obj :=
  [("__hex", .str hex)] ++
  (if f.code then [("code", .str (baseUrl ++ "/authz_cb/" ++ hex))] else []) ++
  (if f.implicit then [("implicit", .str (baseUrl ++ "/authz_im_cb/" ++ hex))] else []) ++
  (if f.formPost then [("form_post", .str (baseUrl ++ "/authz_fp_cb/" ++ hex))] else []) ++
  (if f.requestUris then [("request_uris", .str (baseUrl ++ "/req_uri/" ++ hex))] else []) ++
  (if f.backchannel || f.frontchannel then
    [("post_logout_redirect_uris", .list [.str (baseUrl ++ "/session_logout/" ++ hex)])] else []) ++
  (if f.backchannel then [("backchannel_logout_uri", .str (baseUrl ++ "/bc_logout/" ++ hex))] else []) ++
  (if f.frontchannel then [("frontchannel_logout_uri", .str (baseUrl ++ "/fc_logout/" ++ hex))] else [])

/-- `_cmp` (registration.py:95-103); `none` is Python `None`; `b` is never `None`. -/
def cmp (a : Option Val) (b : Val) : Bool :=
  match a with
  | some (.list l) => decide (b ∈ l) || decide (Val.list l = b)
  | some v => decide (v = b)
  | none => decide (b = .null)

/-- `_in_config_or_client_preferences` (registration.py:106-111). -/
def inConfigOrPrefs (config : Obj) (attr : String) (val : Val) : Bool :=
  let prefs := match Dict.get? config "client_preferences" with
    | some (.obj o) => o
    | _ => []
  cmp (Dict.get? prefs attr) val || cmp (Dict.get? config attr) val

/-- The response types that need the implicit callback (registration.py:129-130; 'code idtoken' is
the spelling used there). -/
def implicitTypes : List String :=
  ["id_token", "id_token token", "code id_token token", "code idtoken", "code token"]

/-- The flags computed by `add_callbacks` (registration.py:119-152). -/
def callbackFlags (ctx : Ctx) (ignore : List String) : CallbackFlags where
  code := decide ("redirect_uris" ∉ ignore) &&
    inConfigOrPrefs ctx.config "response_types" (.str "code")
  implicit := decide ("redirect_uris" ∉ ignore) &&
    implicitTypes.any (fun rt => inConfigOrPrefs ctx.config "response_types" (.str rt))
  formPost := decide ("form_post" ∉ ignore) &&
    inConfigOrPrefs ctx.config "form_post_usable" (.bool true)
  requestUris := decide ("request_uris" ∉ ignore) &&
    (Dict.has ctx.providerInfo "require_request_uri_registration" &&
      inConfigOrPrefs ctx.config "request_uri_usable" (.bool true))
  frontchannel := decide ("frontchannel_logout_uri" ∉ ignore) &&
    (Dict.has ctx.providerInfo "frontchannel_logout_supported" &&
      inConfigOrPrefs ctx.config "frontchannel_logout_usable" (.bool true))
  backchannel := decide ("backchannel_logout_uri" ∉ ignore) &&
    (Dict.has ctx.providerInfo "backchannel_logout_supported" &&
      inConfigOrPrefs ctx.config "backchannel_logout_usable" (.bool true))

/-- The redirect URIs among the callbacks (registration.py:160). -/
def redirectUrisOf (cb : Obj) : List Val :=
  (cb.filter (fun p => decide (p.1 ∈ ["code", "implicit", "form_post"]))).map Prod.snd

/-- The callbacks `add_callbacks` makes (registration.py:154-161). -/
def newCallbacks (hash : String → String) (ctx : Ctx) (ignore : List String) : Obj :=
  let cb := createCallbacks (hash (ctx.hashSeed ++ ctx.issuer)) ctx.baseUrl (callbackFlags ctx ignore)
  if "redirect_uris" ∈ ignore then cb else Dict.set cb "redirect_uris" (.list (redirectUrisOf cb))

/-- `add_callbacks` (registration.py:114-162). `hash` is the hexadecimal SHA-256 of the bytes. -/
def addCallbacks (hash : String → String) (ignore : List String) (ctx : Ctx) : Ctx :=
  { ctx with
    hash2issuer := Dict.set ctx.hash2issuer (hash (ctx.hashSeed ++ ctx.issuer)) ctx.issuer
    callback := newCallbacks hash ctx ignore }

/-- `CALLBACK_URIS` (registration.py:165-166). -/
def CALLBACK_URIS : List String :=
  ["post_logout_redirect_uris", "backchannel_logout_uri", "frontchannel_logout_uri",
   "request_uris", "redirect_uris"]

/-- First truthy value of a list of look-ups. (registration.py:184-189) -/
def firstTruthy (l : List (Option Val)) : Option Val := (l.find? Util.truthyO).join

/-- The loop of `add_callback_uris` (registration.py:182-189). -/
def fillCallbackUris (ctx : Ctx) : List String → Obj → Obj
  | [], req => req
  | k :: ks, req =>
    if Util.truthyO (Dict.get? req k) then fillCallbackUris ctx ks req
    else match firstTruthy [Dict.get? ctx.registerArgs k, Dict.get? ctx.callback k] with
      | some u => fillCallbackUris ctx ks (Dict.set req k u)
      | none => fillCallbackUris ctx ks req

/-- `add_callback_uris` (registration.py:169-191). -/
def addCallbackUris (hash : String → String) (req : Obj) : Py Ctx Obj := fun ctx =>
  let ctx' := addCallbacks hash ((Dict.keys req).filter (fun k => decide (k ∈ CALLBACK_URIS))) ctx
  (.ok (fillCallbackUris ctx' CALLBACK_URIS req), ctx')

/-- `add_jwks_uri_or_jwks` (registration.py:194-216).  `ctx.jwks_uri` is the only one of the two
attributes a `ServiceContext` has; an empty one counts as absent. -/
def addJwks (ctx : Ctx) (req : Obj) : Obj :=
  if Dict.has req "jwks_uri" then Dict.del req "jwks"
  else if Dict.has req "jwks" then req
  else if ctx.jwksUri ≠ "" then Dict.set req "jwks_uri" (.str ctx.jwksUri)
  else match Dict.get? ctx.config "jwks_uri" with
    | some v => Dict.set req "jwks_uri" v
    | none => match Dict.get? ctx.config "jwks" with
      | some v => Dict.set req "jwks" v
      | none => req

/-- `add_client_behaviour_preference` (registration.py:241-255). -/
def addPreferences (ctx : Ctx) : List String → Obj → Obj
  | [], req => req
  | p :: ps, req =>
    if Dict.has req p then addPreferences ctx ps req
    else match (Dict.get? ctx.behaviour p).or (Dict.get? ctx.clientPreferences p) with
      | some v => addPreferences ctx ps (Dict.set req p v)
      | none => addPreferences ctx ps req

/-- The response types of a request as strings. (registration.py:259) -/
def strs : Val → List String
  | .list l => l.filterMap Val.str?
  | _ => []

/-- The grant types part of `oidc_post_construct` (registration.py:258-262). -/
def setGrantTypes (req : Obj) : Obj :=
  match Dict.get? req "response_types" with
  | some v => Dict.set req "grant_types" (.list ((responseTypesToGrantTypes (strs v)).map Val.str))
  | none => req

/-- `oidc_post_construct` (registration.py:257-268). -/
def postConstruct (req : Obj) : Obj :=
  if Dict.has (setGrantTypes req) "jwks_uri" ∧ Dict.has (setGrantTypes req) "jwks" then
    Dict.del (setGrantTypes req) "jwks"
  else setGrantTypes req

/-- The client's own keys are filed under its new name, if nothing is filed there yet
(registration.py:277-281). -/
def copyOwnKeys (cid : String) (loads : List KeyLoad) : List KeyLoad :=
  if loads.any (fun ld => ld.1 == cid) then loads else loads ++ [(cid, "copy", .str "")]

/-- The new secret is filed as a key, under '' and under the client's name (registration.py:285-286). -/
def secretKeys (cid s : String) (loads : List KeyLoad) : List KeyLoad :=
  loads ++ [("", "secret", .str s), (cid, "secret", .str s)]

/-- The secret part of `update_service_context` (registration.py:282-290). -/
def applySecret (resp : Obj) (ctx : Ctx) : Ctx :=
  match Dict.get? resp "client_secret" with
  | some (.str s) =>
    if s = "" then ctx
    else { ctx with
      clientSecret := s
      keyLoads := secretKeys ctx.clientId s ctx.keyLoads
      clientSecretExpiresAt := match Dict.get? resp "client_secret_expires_at" with
        | some (.int i) => i
        | _ => ctx.clientSecretExpiresAt }
  | _ => ctx

/-- The client id part of `update_service_context` (registration.py:276-293). -/
def applyClientId (resp : Obj) (ctx : Ctx) : Ctx :=
  match Dict.get? resp "client_id" with
  | some (.str cid) => if cid = "" then ctx
    else applySecret resp { ctx with clientId := cid, keyLoads := copyOwnKeys cid ctx.keyLoads }
  | _ => ctx

/-- `update_service_context` (registration.py:270-295).  Simplification: `client_id` and
`client_secret` that are not strings are ignored (the message class makes them strings). -/
def update (resp : Obj) (ctx : Ctx) : Ctx :=
  let resp := if Dict.has resp "token_endpoint_auth_method" then resp
    else Dict.set resp "token_endpoint_auth_method" (.str "client_secret_basic")
  let ctx := applyClientId resp { ctx with registrationResponse := resp }
  match Dict.get? resp "registration_access_token" with
  | some t => { ctx with registrationAccessToken := some t }
  | none => ctx

/-- The response type `pick_redirect_uri` goes by (oauth2/utils.py:41-45). -/
def flowOf (ctx : Ctx) (req : Obj) (respType : Option Val) : Option Val :=
  if Util.truthyO respType then respType
  else if Util.truthyO (Dict.get? req "response_type") then Dict.get? req "response_type"
  else match Dict.get? ctx.behaviour "response_types" with
    | some (.list (v :: _)) => some v
    | _ => Dict.get? req "response_type"

/-- `pick_redirect_uri` (oauth2/utils.py:27-61); `respType` is the argument `response_type`. -/
def pickRedirectUri (ctx : Ctx) (req : Obj) (respType : Option Val := none) : Except Exc Val :=
  match Dict.get? req "redirect_uri" with
  | some v => .ok v
  | none =>
    match ctx.redirectUris with
    | u :: _ => .ok (.str u)
    | [] =>
      if ctx.callback.isEmpty then .error .missingRequiredAttribute
      else
        let rt := flowOf ctx req respType
        if Dict.get? req "response_mode" = some (.str "form_post") ∨
            rt = some (.list [.str "form_post"]) then Dict.getItem ctx.callback "form_post"
        else if rt = some (.str "code") ∨ rt = some (.list [.str "code"]) then
          Dict.getItem ctx.callback "code"
        else Dict.getItem ctx.callback "implicit"

/-- `RegistrationRead.get_endpoint` (read_registration.py:21-25). -/
def readEndpoint (ctx : Ctx) : Val :=
  (Dict.get? ctx.registrationResponse "registration_client_uri").getD (.str "")

/-- `RegistrationRead.get_authn_header` (read_registration.py:27-46). -/
def readHeader (ctx : Ctx) (method : String) : Except Exc (Dict String) :=
  if method = "client_secret_basic" then
    match Dict.get? ctx.registrationResponse "registration_access_token" with
    | some (.str t) => .ok [("Authorization", "Bearer " ++ t)]
    | some _ => .error .typeError
    | none => .error .keyError
  else .ok []

end Verif.Registration
