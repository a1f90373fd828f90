import Verif.Model.Entity
/-!
# Model of the constructor of the handler, its defaults, and the handlers of one process

`RPHandler.__init__` (src/oidcrp/rp_handler.py:39-99) and src/oidcrp/defaults.py.

`DEFAULT_CLIENT_CONFIGS` is one dictionary per process: every handler made without configurations of its own uses it, and
`init_client` writes into it (rp_handler.py:158-160).  This is modelled by keeping what it holds beside the handlers.

Simplifications: the given configurations are taken as put together already (`Entity.clientConf`); the given
`client_authn_factory`, `client_cls`, `httplib` and `httpc_params` are left out, and what is made of the key
jar when no path is given (`self.jwks`), which nothing reads.  Nothing reads `self.hash_seed` and `self.state_db` either
(rp_handler.py:48-51, 71-74), so that a handler has no fields for them.
-/

namespace Verif.Defaults
open Verif Handler Entity

/-- `DEFAULT_OIDC_SERVICES` (defaults.py:7-15). -/
def DEFAULT_OIDC_SERVICES : List Srv :=
  [.webfinger, .providerInfo, .registration, .authorization, .accesstoken, .refreshToken, .userinfo]

/-- `DEFAULT_CLIENT_PREFS` (defaults.py:17-24). -/
def DEFAULT_CLIENT_PREFS : Obj :=
  [("application_type", .str "web"), ("application_name", .str "rphandler"),
   ("response_types", .list [.str "code", .str "id_token", .str "id_token token", .str "code id_token",
     .str "code id_token token", .str "code token"]),
   ("scope", .list [.str "openid"]), ("token_endpoint_auth_method", .str "client_secret_basic")]

/-- `DEFAULT_CLIENT_CONFIGS['']` as it is when the process starts (defaults.py:27-40). -/
def DEFAULT_CLIENT_CONFIG : Obj :=
  [("client_preferences", .obj DEFAULT_CLIENT_PREFS),
   ("add_ons", .obj [("pkce", .obj [("function", .str "oidcrp.oauth2.add_on.pkce.add_support"),
     ("kwargs", .obj [("code_challenge_length", .int 64), ("code_challenge_method", .str "S256")])])])]

/-- The `add_ons` of `DEFAULT_CLIENT_CONFIGS['']`. (defaults.py:30-38) -/
def DEFAULT_ADD_ONS : List AddOn := [.pkce (.int 64) (.str "S256")]

/-- `DEFAULT_RP_KEY_DEFS['public_path']` (defaults.py:47-52). -/
def PUBLIC_PATH : String := "static/jwks.json"

/-- `init_key_jar(**DEFAULT_RP_KEY_DEFS, issuer_id='')` and the copy of it for the handler itself (rp_handler.py:51-53,
defaults.py:42-52). -/
def DEFAULT_KEYS (baseUrl : String) : List KeyLoad :=
  [("", "file", .str "private/jwks.json"), (baseUrl, "file", .str "private/jwks.json")]

/-- The arguments of the constructor. (rp_handler.py:39-43) -/
structure Given where
  baseUrl : String := ""
  configs : Option (Dict ClientConf) := none
  services : Option (List Srv) := none
  keyjar : Option (List KeyLoad) := none
  jwksPath : Option String := none
  hashSeed : String := ""
  stateDb : DB := []
  deriving Inhabited

/-- What a client is made of that has the configuration `config` of `DEFAULT_CLIENT_CONFIGS['']`: the services of the handler, as the
configuration has none, and PKCE (rp_handler.py:147-187, defaults.py:27-40). -/
def defaultConf (config : Obj) (services : List Srv) : ClientConf :=
  match assembled services DEFAULT_ADD_ONS with
  | .ok r => clientConf config [] r
  | .error _ => {}

/-- `DEFAULT_CLIENT_CONFIGS`, holding `config`, as a handler with these services uses it (rp_handler.py:75-84). -/
def defaultConfigs (config : Obj) (services : List Srv) : Dict ClientConf := [("", defaultConf config services)]

/-- `DEFAULT_SERVICES` of the client (oidc/__init__.py:23-45). -/
def RP_SERVICES : List Srv :=
  [.providerInfo, .registration, .authorization, .accesstoken, .refreshToken, .userinfo, .endSession]

/-- `services or DEFAULT_SERVICES` (oidc/__init__.py:110). -/
def clientServices (services : List Srv) : List Srv := if services.isEmpty then RP_SERVICES else services

/-- The services of the clients of a handler: `self.services` (rp_handler.py:73-77), if there are any. -/
def servicesOf (g : Given) : List Srv := clientServices (g.services.getD DEFAULT_OIDC_SERVICES)

/-- `_jwks_path` (rp_handler.py:50-58). -/
def jwksPathOf (g : Given) : String :=
  match g.jwksPath, g.keyjar with
  | some p, _ => p
  | none, none => PUBLIC_PATH
  | none, some _ => ""

/-- `RPHandler.__init__` (rp_handler.py:39-99); `shared` is what `DEFAULT_CLIENT_CONFIGS['']` holds. -/
def newHandler (shared : Obj) (g : Given) : Handler where
  configs := g.configs.getD (defaultConfigs shared (servicesOf g))
  baseUrl := g.baseUrl
  jwksUri := if jwksPathOf g = "" then "" else Util.addPath g.baseUrl (jwksPathOf g)
  keyLoads := g.keyjar.getD (DEFAULT_KEYS g.baseUrl)

/-- A process: what `DEFAULT_CLIENT_CONFIGS['']` holds, and the handlers made, each with the arguments it was made with. (defaults.py:27-40,
rp_handler.py:82-85) -/
structure Process where
  shared : Obj := DEFAULT_CLIENT_CONFIG
  handlers : List (Given × Handler) := []
  deriving Inhabited

/-- A handler sees what is in the shared dictionary now, if it uses it. (rp_handler.py:82-85) -/
def sees (shared : Obj) (g : Given) (h : Handler) : Handler :=
  if g.configs.isSome then h else { h with configs := defaultConfigs shared (servicesOf g) }

/-- What is in the shared dictionary after a call of a handler. (rp_handler.py:82-85, 158-160) -/
def leaves (shared : Obj) (g : Given) (h : Handler) : Obj :=
  if g.configs.isSome then shared else ((Dict.get? h.configs "").map (·.config)).getD shared

/-- Something that happens in a process: a handler is made, or one is called. (not in the code: the application) -/
inductive Event where
  | make (g : Given)
  | call (i : Nat) (x : Ext) (c : Call)
  deriving Inhabited

/-- What a call of the `i`-th handler of the process returns. (not in the code: the application) -/
def returned (i : Nat) (x : Ext) (c : Call) (p : Process) : Option (Except Exc Ret) :=
  (p.handlers[i]?).map (fun gh => (exec x c (sees p.shared gh.1 gh.2)).1)

/-- What a process is after something happened in it. (not in the code: the application) -/
def step (p : Process) : Event → Process
  | .make g => { p with handlers := p.handlers ++ [(g, newHandler p.shared g)] }
  | .call i x c => match p.handlers[i]? with
    | none => p
    | some (g, h) =>
      let h' := (exec x c (sees p.shared g h)).2
      { shared := leaves p.shared g h', handlers := p.handlers.set i (g, h') }

/-- A process in which all this happens. (not in the code: the application) -/
def process (l : List Event) (p : Process) : Process := l.foldl step p

end Verif.Defaults
