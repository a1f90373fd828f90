import Verif.Model.Util
/-!
# Model of src/oidcrp/configure.py and of `create_context` in src/oidcrp/util.py
-/

namespace Verif.Configure
open Verif

/-- `a or b` of two entries. (configure.py:44) -/
def orEntry (a b : Option Val) : Option Val := if Util.truthyO a then a else b

/-- The attributes `RPConfiguration.__init__` sets itself (configure.py:44-54); `none` is `None`.  What the base class
(oidcmsg, external) makes of the configuration before is not modelled: `conf` is the dictionary after that. -/
structure RP where
  keyConf : Option Val
  clients : Option Val
  hashSeed : Val
  services : Option Val
  baseUrl : Option Val
  httpcParams : Option Val

/-- `hash_seed` (configure.py:47-50); `rnd` is `rnd_token(32)`. -/
def hashSeed (rnd : String) (conf : Obj) : Val :=
  match Util.lowerOrUpper conf "hash_seed" with
  | some v => if v.truthy then v else .str rnd
  | none => .str rnd

/-- `RPConfiguration.__init__` (configure.py:27-58). -/
def rpConfiguration (rnd : String) (conf : Obj) : RP where
  keyConf := orEntry (Util.lowerOrUpper conf "rp_keys") (Util.lowerOrUpper conf "oidc_keys")
  clients := Util.lowerOrUpper conf "clients"
  hashSeed := hashSeed rnd conf
  services := Util.lowerOrUpper conf "services"
  baseUrl := Util.lowerOrUpper conf "base_url"
  httpcParams := Util.lowerOrUpper conf "httpc_params" (some (.obj [("verify", .bool true)]))

/-! ## `create_context` -/

/-- `ssl.CERT_NONE`, `CERT_OPTIONAL`, `CERT_REQUIRED`. (util.py:488-499) -/
inductive VerifyMode where
  | none | optional | required
  deriving DecidableEq, Inhabited, Repr

/-- What is set of a `ssl.SSLContext` (util.py:487-506). -/
structure SslContext where
  mode : VerifyMode
  ca : Option Val
  cert : String
  key : String
  deriving DecidableEq, Inhabited, Repr

/-- What is outside: loading certificate authorities, and loading a certificate with its key. (used in
util.py:497, 502) -/
structure SslExt where
  loadCa : Val → Except Exc Unit
  loadChain : String → String → Except Exc Unit

/-- `os.path.join(dir_path, name)` for a relative name (posixpath, external). (used in util.py:472, 481) -/
def joinPath (dir name : String) : String :=
  if dir = "" ∨ Str.endsWith dir "/" = true then dir ++ name else dir ++ "/" ++ name

/-- The file meant by an entry (util.py:468-473, 477-482). -/
def fileOf (dir : String) : Val → Except Exc String
  | .str s => .ok (if Str.startsWith s "/" then s else joinPath dir s)
  | _ => .error .attributeError

/-- `sys.exit(…)`. (util.py:494, 504) -/
def exit {α : Type} : Except Exc α := .error (.external "SystemExit")

/-- The certificates demanded of the visitors (util.py:488-501). -/
def visitors (e : SslExt) (config : Obj) : Except Exc (VerifyMode × Option Val) :=
  match Util.lowerOrUpper config "verify_user" with
  | some v =>
    if v.truthy then
      match (if v = .str "optional" then some .optional else if v = .str "required" then some .required else none) with
      | none => exit
      | some mode =>
        if Util.truthyO (Util.lowerOrUpper config "ca_bundle") then
          match e.loadCa ((Util.lowerOrUpper config "ca_bundle").getD .null) with
          | .error err => .error err
          | .ok _ => .ok (mode, Util.lowerOrUpper config "ca_bundle")
        else .ok (mode, none)
    else .ok (.none, none)
  | none => .ok (.none, none)

/-- The entry of a file, unless it is empty (util.py:467-468, 476-477). -/
def fileEntry (config : Obj) (name : String) : Option Val :=
  if Util.truthyO (Util.lowerOrUpper config name) then Util.lowerOrUpper config name else none

/-- `create_context` (util.py:466-506); `none` is `None`, a server without TLS. -/
def createContext (e : SslExt) (dir : String) (config : Obj) : Except Exc (Option SslContext) :=
  match fileEntry config "server_cert" with
  | none => .ok none
  | some c => match fileOf dir c with
    | .error err => .error err
    | .ok cert => match fileEntry config "server_key" with
      | none => .ok none
      | some k => match fileOf dir k with
        | .error err => .error err
        | .ok key => match visitors e config with
          | .error err => .error err
          | .ok (mode, ca) => match e.loadChain cert key with
            | .error _ => exit
            | .ok _ => .ok (some { mode := mode, ca := ca, cert := cert, key := key })

end Verif.Configure
