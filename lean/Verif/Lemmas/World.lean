import Verif.Model.Handler
/-!
# A small world

Concrete circumstances used to show that the hypotheses of theorems can be met and to run the model:
a provider `https://op.example` with discovery, dynamic registration, a token and a userinfo endpoint,
and a handler that knows it only through its default configuration.
-/

namespace Verif.World
open Verif

/-- The request messages of oidcmsg (only the parameters that matter here). -/
def msgs : Srv → MsgType
  | .authorization => {
      name := "AuthorizationRequest",
      params := ["response_type", "client_id", "scope", "redirect_uri", "state", "nonce", "prompt"],
      required := ["response_type", "client_id", "scope", "redirect_uri"],
      spaced := ["response_type", "scope", "prompt"] }
  | .accesstoken => {
      name := "AccessTokenRequest", isAccessTokenRequest := true,
      params := ["grant_type", "code", "redirect_uri", "client_id", "client_secret", "state"],
      required := ["grant_type", "code", "redirect_uri"] }
  | .refreshToken => {
      name := "RefreshAccessTokenRequest",
      params := ["grant_type", "refresh_token", "scope", "client_id", "client_secret"],
      required := ["grant_type", "refresh_token"], spaced := ["scope"],
      defaults := [("grant_type", .str "refresh_token")] }
  | .userinfo => { name := "Message", params := [] }
  | .endSession => {
      name := "EndSessionRequest",
      params := ["id_token_hint", "post_logout_redirect_uri", "state"] }
  | .registration => {
      name := "RegistrationRequest",
      params := ["redirect_uris", "response_types", "grant_types", "jwks_uri", "jwks",
        "token_endpoint_auth_method"], required := ["redirect_uris"] }
  | .oauth2Authorization => {
      name := "AuthorizationRequest",
      params := ["response_type", "client_id", "scope", "redirect_uri", "state"],
      required := ["response_type", "client_id"], spaced := ["response_type", "scope"] }
  | .oauth2AccessToken => {
      name := "AccessTokenRequest", isAccessTokenRequest := true,
      params := ["grant_type", "code", "redirect_uri", "client_id", "client_secret", "state"],
      required := ["grant_type", "code", "redirect_uri"],
      defaults := [("grant_type", .str "authorization_code")] }
  | .ccAccessToken => {
      name := "CCAccessTokenRequest", params := ["grant_type", "scope"],
      required := ["grant_type"], spaced := ["scope"],
      defaults := [("grant_type", .str "client_credentials")] }
  | .ccRefreshToken => {
      name := "RefreshAccessTokenRequest",
      params := ["grant_type", "refresh_token", "scope", "client_id", "client_secret"],
      required := ["grant_type", "refresh_token"], spaced := ["scope"],
      defaults := [("grant_type", .str "refresh_token")] }
  | .checkId => { name := "CheckIDRequest", params := ["access_token"], required := ["access_token"] }
  | .checkSession => { name := "CheckSessionRequest", params := ["id_token"], required := ["id_token"] }
  | _ => { name := "Message", params := [] }

/-- The metadata of the provider. -/
def metadata : Obj :=
  [("issuer", .str "https://op.example"),
   ("authorization_endpoint", .str "https://op.example/auth"),
   ("token_endpoint", .str "https://op.example/token"),
   ("userinfo_endpoint", .str "https://op.example/userinfo"),
   ("registration_endpoint", .str "https://op.example/reg"),
   ("end_session_endpoint", .str "https://op.example/logout"),
   ("backchannel_logout_session_supported", .bool true),
   ("pushed_authorization_request_endpoint", .str "https://op.example/par"),
   ("dpop_signing_alg_values_supported", .list [.str "ES256", .str "RS256"])]

/-- A body by name. -/
def bodies : Dict Obj :=
  [("metadata", metadata),
   ("registered", [("client_id", .str "client1"), ("client_secret", .str "secret1")]),
   ("tokens", [("access_token", .str "AT1"), ("token_type", .str "Bearer"), ("expires_in", .int 300),
     ("refresh_token", .str "RT1"), ("id_token", .str "header.payload.signature")]),
   ("renewed", [("access_token", .str "AT2"), ("token_type", .str "Bearer"), ("expires_in", .int 300)]),
   ("info", [("sub", .str "alice"), ("name", .str "Alice")]),
   ("links", [("links", .list [.obj [("rel", .str WebFinger.OIC_ISSUER),
     ("href", .str "https://op.example")]])]),
   ("par", [("request_uri", .str "urn:par:1")]),
   ("cc", [("access_token", .str "CC1"), ("token_type", .str "Bearer"), ("expires_in", .int 60),
     ("refresh_token", .str "CR1")]),
   ("bad", [("error", .str "invalid_grant")])]

/-- The provider's answers. -/
def answer (s : Sent) : HttpResp :=
  { status := 200, headers := [("content-type", "application/json")],
    text := match s.srv with
      | .providerInfo => "metadata"
      | .registration => "registered"
      | .accesstoken => "tokens"
      | .refreshToken => "renewed"
      | .userinfo => "info"
      | .ccAccessToken => "cc"
      | .ccRefreshToken => "renewed"
      | .oauth2AccessToken => "cc"
      | .oauth2ProviderInfo => "metadata"
      | .webfinger => "links"
      | _ => "par" }

/-- Parsing: a body by its name. -/
def parse : Info → Except Exc Obj
  | .dict o => .ok o
  | .text t => match Dict.get? bodies t with
    | some o => .ok o
    | none => .error .jsonDecodeError

/-- Verification: an ID Token is replaced by its claims, with the nonce given. -/
def check (nonce : String) (o : Obj) : Except Exc Obj :=
  if Dict.has o "id_token" then
    .ok (Dict.set o "__verified_id_token" (.obj [("sub", .str "alice"), ("nonce", .str nonce),
      ("exp", .int 2000), ("sid", .str "sid1")]))
  else .ok o

/-- The outside world when an API call is made at time `now`, with the random state `state` and nonce
`nonce`; ID Tokens issued carry the nonce `idNonce`. -/
def ext (now : Int) (state nonce idNonce : String) : Ext where
  now := now
  rnd := fun n => if n = "init_state" then state else if n = "init_nonce" then nonce
    else if n = "code_verifier" then "verifier-" ++ state else n ++ "-" ++ state
  http := fun _ s => .ok (answer s)
  msg := msgs
  dumps := fun _ => "{}"
  loads := fun t => parse (.text t)
  keys := { sign := fun _ => .ok "assertion" }
  deser := fun _ _ _ i => parse i
  unjwt := fun _ _ t => parse (.text t)
  verify := fun _ _ o _ => check idNonce o
  challenge := fun m v => m ++ ":" ++ v
  aggregated := fun _ _ => .error (.external "MissingSigningKey")
  requestParam := fun _ _ _ _ => .ok (.str "request-object")
  parJws := fun _ _ => .ok "signed-request"
  mintKey := fun a => "key-" ++ a
  dpopSign := fun k _ => .ok ("proof-" ++ k)
  hash := fun s => "h(" ++ s ++ ")"
  regKind := fun k => if k = "response_types" ∨ k = "grant_types" then some true
    else if k ∈ ["token_endpoint_auth_method", "id_token_signed_response_alg"] then some false else none
  openidParams := ["sub", "name"]
  idTokenParams := ["iss", "sub", "aud", "exp", "iat", "nonce"]
  logoutReq := fun i => parse i
  logoutVerify := fun _ o _ => .ok o

/-- All services. -/
def services : List Srv :=
  [.webfinger, .providerInfo, .registration, .authorization, .accesstoken, .refreshToken, .userinfo,
   .endSession]

/-- The default configuration. -/
def conf : ClientConf where
  config := [("client_preferences", .obj [("response_types", .list [.str "code"]),
      ("token_endpoint_auth_method", .list [.str "client_secret_basic"])]),
    ("behaviour", .obj [("scope", .list [.str "openid"]), ("response_types", .list [.str "code"])]),
    ("redirect_uris", .list [.str "https://rp.example/cb"]), ("hash_seed", .str "seed")]
  services := services

/-- A handler with that configuration. -/
def handler : Handler where
  configs := [("", conf)]
  baseUrl := "https://rp.example"
  jwksUri := "https://rp.example/jwks.json"

/-- Two session keys as `rndstr(32)` makes them. -/
def s1 : String := "abcdefghijklmnopqrstuvwxyzABCDE1"
/-- Another one. -/
def s2 : String := "abcdefghijklmnopqrstuvwxyzABCDE2"

end Verif.World
