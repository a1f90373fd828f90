import Verif.Model.Context
/-!
# Model of request objects (src/oidcrp/oidc/utils.py, oidc/authorization.py:127-205, service_context.py:194-214)

Signing (`make_openid_request` of oidcmsg), encryption (cryptojwt) and the key jar are external.  The file system
is a dictionary from file names to contents; directories are not modelled.
-/

namespace Verif.RequestObject
open Verif

/-- The file system. (used in oidc/utils.py:78-85, oidc/authorization.py:158-160) -/
abbrev Files := Dict String

/-- The keys used for signing. (oidc/authorization.py:170-174) -/
inductive Keys where
  | given (v : Val)
  | own
  | none
  deriving Inhabited

/-- What `make_openid_request` gets. (oidc/authorization.py:194-197) -/
structure SignArgs where
  keys : Option Keys
  issuer : Val
  alg : Val
  recv : Val
  withJti : Option Val
  lifetime : Option Val
  deriving Inhabited

/-- What is outside: signing, encryption (message, algorithm, encryption method, receiver, key id), the clock and the
random names drawn during the call. (used in oidc/authorization.py:192, 197, oidc/utils.py:44-64) -/
structure Ext where
  sign : Obj → SignArgs → Except Exc String
  encrypt : String → Val → Val → Val → Val → Except Exc String
  now : Int := 0
  draws : List String := []

/-- `filename_from_webname` (service_context.py:194-214). -/
def filenameFromWebname (baseUrl webname : String) : Except Exc String :=
  if Str.startsWith webname baseUrl then
    let name := String.ofList (webname.toList.drop baseUrl.toList.length)
    .ok (if Str.startsWith name "/" then String.ofList (name.toList.drop 1) else name)
  else .error .valueError

/-- `os.path.join(dir, name)` for a name without slash. (oidc/utils.py:82, 85) -/
def join (dir name : String) : String :=
  if dir = "" then name else if Str.endsWith dir "/" then dir ++ name else dir ++ "/" ++ name

/-- The loop (oidc/utils.py:82-86): the first of the names drawn that is not in use.  If there is none the loop goes
on. -/
def freeName (dir : String) (fs : Files) : List String → Except Exc String
  | [] => .error (.external "more random names are needed")
  | n :: ns => if Dict.has fs (join dir n) then freeName dir fs ns else .ok n

/-- The names that `construct_request_uri` tries: the first one has an extension. (oidc/utils.py:81-85) -/
def candidates : List String → List String
  | [] => []
  | n :: ns => (n ++ ".jwt") :: ns

/-- `construct_request_uri` (oidc/utils.py:67-91): the file name and the URL. -/
def constructRequestUri (draws : List String) (dir base : String) (fs : Files) : Except Exc (String × String) :=
  match freeName dir fs (candidates draws) with
  | .error e => .error e
  | .ok n => .ok (join dir n, if Str.endsWith base "/" then base ++ n else base ++ "/" ++ n)

/-- The first registered `request_uri`; `none` is the `KeyError` (oidc/authorization.py:153). -/
def registeredUri (ctx : Ctx) : Option (Except Exc String) :=
  match Dict.get? ctx.registrationResponse "request_uris" with
  | none => none
  | some (.list (v :: _)) => some (asStr v)
  | some (.list []) => some (.error .indexError)
  | some _ => some (.error .typeError)

/-- The directory and the base URL (oidc/authorization.py:231-233). -/
def localDir (ctx : Ctx) : String :=
  match Dict.get? ctx.config "local_dir" with
  | some (.str d) => d
  | _ => "./requests"

/-- oidc/authorization.py:233 -/
def basePath (ctx : Ctx) : String := ctx.baseUrl ++ "/requests"

/-- `store_request_on_file` (oidc/authorization.py:144-163): writes the file, returns the URL. -/
def storeOnFile (draws : List String) (ctx : Ctx) (req : String) : Py Files String := fun fs =>
  match registeredUri ctx with
  | some (.error e) => (.error e, fs)
  | some (.ok web) => match filenameFromWebname ctx.baseUrl web with
    | .error e => (.error e, fs)
    | .ok f => (.ok web, Dict.set fs f req)
  | none => match constructRequestUri draws (localDir ctx) (basePath ctx) fs with
    | .error e => (.error e, fs)
    | .ok (f, web) => (.ok web, Dict.set fs f req)

/-- `get_request_object_signing_alg` (oidc/authorization.py:127-142). -/
def signingAlg (behaviour kwargs : Obj) : Val :=
  let a := ((Dict.get? kwargs "request_object_signing_alg").or (Dict.get? kwargs "algorithm")).getD (.str "")
  if a.truthy then a else (Dict.get? behaviour "request_object_signing_alg").getD (.str "RS256")

/-- A keyword argument that is not `None`. (oidc/authorization.py:179-183) -/
def notNone (kwargs : Obj) (k : String) : Option Val :=
  match Dict.get? kwargs k with
  | some .null => none
  | o => o

/-- The keys (oidc/authorization.py:170-175). -/
def keysFor (alg : Val) (kwargs : Obj) : Option Keys :=
  if alg = .str "none" then some .none
  else match Dict.get? kwargs "keys" with
    | some v => some (.given v)
    | none => if alg.truthy then some .own else none

/-- The signing arguments (oidc/authorization.py:165-196). -/
def signArgs (ctx : Ctx) (kwargs : Obj) : SignArgs :=
  { keys := keysFor (signingAlg ctx.behaviour kwargs) kwargs
    issuer := (notNone kwargs "issuer").getD (.str ctx.clientId)
    alg := signingAlg ctx.behaviour kwargs
    recv := (notNone kwargs "recv").getD ((Dict.get? ctx.providerInfo "issuer").getD (.str ctx.issuer))
    withJti := Dict.get? kwargs "with_jti"
    lifetime := Dict.get? kwargs "lifetime" }

/-- `req['exp']` (oidc/authorization.py:192-193). -/
def withExp (now : Int) (req kwargs : Obj) : Except Exc Obj :=
  match Dict.get? kwargs "expires_in" with
  | none => .ok req
  | some v => if v.truthy then
      match v with
      | .int n => .ok (Dict.set req "exp" (.int (now + n)))
      | .bool true => .ok (Dict.set req "exp" (.int (now + 1)))
      | .str s => match s.toInt? with
        | some n => .ok (Dict.set req "exp" (.int (now + n)))
        | none => .error .valueError
      | _ => .error .typeError
    else .ok req

/-- A value from the keyword arguments or else the behaviour. (oidc/utils.py:19-38) -/
def option (behaviour kwargs : Obj) (k : String) : Option Val := (Dict.get? kwargs k).or (Dict.get? behaviour k)

/-- `request_object_encryption` (oidc/utils.py:10-64). -/
def encryption (x : Ext) (ctx : Ctx) (kwargs : Obj) (msg : String) : Except Exc String :=
  match option ctx.behaviour kwargs "request_object_encryption_alg" with
  | none => .ok msg
  | some alg =>
    if alg.truthy then
      match option ctx.behaviour kwargs "request_object_encryption_enc" with
      | none => .error .missingRequiredAttribute
      | some enc =>
        if enc.truthy then
          match Dict.get? kwargs "target" with
          | none => .error .missingRequiredAttribute
          | some target => x.encrypt msg alg enc target ((Dict.get? kwargs "enc_kid").getD (.str ""))
        else .error .missingRequiredAttribute
    else .ok msg

/-- The request object (oidc/authorization.py:165-200). -/
def make (x : Ext) (ctx : Ctx) (req kwargs : Obj) : Except Exc String :=
  match withExp x.now req kwargs with
  | .error e => .error e
  | .ok r => match x.sign r (signArgs ctx kwargs) with
    | .error e => .error e
    | .ok j => encryption x ctx kwargs j

/-- `construct_request_parameter` (oidc/authorization.py:165-205): the value of `request` or `request_uri`. -/
def param (x : Ext) (ctx : Ctx) (name : String) (req kwargs : Obj) : Py Files String := fun fs =>
  match make x ctx req kwargs with
  | .error e => (.error e, fs)
  | .ok j => if name = "request" then (.ok j, fs) else storeOnFile x.draws ctx j fs

end Verif.RequestObject
