import Verif.Model.Msg
import Verif.Py.Base64
/-!
# Model of src/oidcrp/util.py

Not modelled from this file: loading of YAML/JSON/Python files, `importer`, `create_context` (TLS
context), `set_cookie` (http.cookiejar objects), `rndstr`/`unreserved` (random values are arguments
of the model's operations).
-/

namespace Verif

/-- A HTTP response as the `requests` library hands it over.  `jsonOk` says whether `.json()` works
on the body. (used in util.py:257-366) -/
structure HttpResp where
  status : Int
  headers : Dict String
  text : String
  jsonOk : Bool := false
  deriving DecidableEq, Inhabited, Repr

namespace Util

/-- util.py:33 -/
abbrev URL_ENCODED : String := "application/x-www-form-urlencoded"
/-- util.py:34 -/
abbrev JSON_ENCODED : String := "application/json"
/-- util.py:35 -/
abbrev JOSE_ENCODED : String := "application/jose"

/-- `match_to_` for a string (util.py:177-180). -/
abbrev matchTo (val vlist : String) : Bool := Str.startsWith vlist val

/-- `match_to_` for a list (util.py:181-185). -/
def matchToAny (val : String) (vlist : List String) : Bool := vlist.any (fun v => Str.startsWith v val)

/-- `verify_header` (util.py:257-315). -/
def verifyHeader (resp : HttpResp) (bodyType : String) : Except Exc String :=
  match Dict.get? resp.headers "content-type" with
  | none => if bodyType = "" then .ok "txt" else .ok bodyType
  | some ctype =>
    if bodyType = "" then
      if matchTo "application/json" ctype || matchTo "application/jrd+json" ctype then .ok "json"
      else if matchTo "application/jwt" ctype then .ok "jwt"
      else if matchTo URL_ENCODED ctype then .ok "urlencoded"
      else .ok "txt"
    else if bodyType = "json" then
      if matchTo "application/json" ctype || matchTo "application/jrd+json" ctype then .ok "json"
      else if matchTo "application/jwt" ctype then .ok "jwt"
      else .error .wrongContentType
    else if bodyType = "jwt" then
      if matchTo "application/jwt" ctype then .ok "jwt" else .error .wrongContentType
    else if bodyType = "urlencoded" then
      if matchTo URL_ENCODED ctype then .ok "urlencoded"
      else if matchTo "text/plain" ctype then .ok "urlencoded"
      else .error .wrongContentType
    else if bodyType = "txt" then
      if matchTo "text/plain" ctype then .ok "txt"
      else if matchTo "text/html" ctype then .ok "txt"
      else .error .wrongContentType
    else .error .valueError

/-- `get_deserialization_method` (util.py:318-351). -/
def getDeserializationMethod (resp : HttpResp) : String :=
  match Dict.get? resp.headers "content-type" with
  | none => if resp.jsonOk then "json" else "urlencoded"
  | some ctype =>
    if ctype = "" then (if resp.jsonOk then "json" else "urlencoded")
    else if matchTo "application/json" ctype || matchTo "application/jrd+json" ctype then "json"
    else if matchTo "application/jwt" ctype then "jwt"
    else if matchTo "application/jose" ctype then "jose"
    else if matchTo URL_ENCODED ctype then "urlencoded"
    else if matchTo "text/plain" ctype || matchTo "test/html" ctype then ""
    else ""

/-- `get_value_type` (util.py:354-366). -/
def getValueType (resp : HttpResp) (bodyType : String) : Except Exc String :=
  if bodyType = "" then .ok "urlencoded" else verifyHeader resp bodyType

/-- How a message class serialises parameters that are not strings (oidcmsg, external): `spaced k`
says that a list value of parameter `k` is written as one space separated string, `json` is the text
of a nested object. (used in util.py:101-145) -/
structure Ser where
  spaced : String → Bool
  json : Val → String

/-- Text of a scalar, `str(v)` (oidcmsg `to_urlencoded`, external). (used through util.py:118, 138) -/
def scalarText (ser : Ser) : Val → String
  | .str s => s
  | .int i => toString i
  | .bool b => if b then "True" else "False"
  | .null => "None"
  | v => ser.json v

/-- `' '.join(l)` (used through util.py:118, 138) -/
def joinSpace (ser : Ser) (l : List Val) : String :=
  String.ofList (Str.joinL ' ' (l.map (fun v => (scalarText ser v).toList)))

/-- The parameter list `Message.to_urlencoded` encodes (oidcmsg, external). (used through util.py:118, 138) -/
def toParams (ser : Ser) : Obj → List (String × String)
  | [] => []
  | (_, .null) :: m => toParams ser m
  | (k, .list l) :: m =>
    (if ser.spaced k then [(k, joinSpace ser l)] else l.map (fun v => (k, scalarText ser v))) ++
      toParams ser m
  | (k, v) :: m => (k, scalarText ser v) :: toParams ser m

/-- `Message.to_urlencoded()` (oidcmsg, external). (used in util.py:118, 138) -/
def toUrlencoded (ser : Ser) (m : Obj) : String := String.ofList (Quote.urlencode (toParams ser m))

/-- `bytes.decode('utf-8', errors='replace')`; simplification: undecodable text becomes one
replacement character. (used through util.py:116) -/
def decodeUtf8 (bs : List UInt8) : String := (String.fromUTF8? ⟨bs.toArray⟩).getD "\uFFFD"

/-- `parse_qs` adds a value to the values of a name. (used through util.py:116) -/
def addField (d : Dict (List Val)) (k v : String) : Dict (List Val) :=
  match Dict.get? d k with
  | some vs => Dict.set d k (vs ++ [.str v])
  | none => Dict.set d k [.str v]

/-- `urllib.parse.parse_qs(query)`: blank values are dropped. (used in util.py:116) -/
def parseQs (q : List Char) : Dict (List Val) :=
  ((Quote.parseQsl q).filter (fun p => !p.2.isEmpty)).foldl
    (fun d p => addField d (decodeUtf8 p.1) (decodeUtf8 p.2)) []

/-- `Message.__setitem__` of a list: one element lists of a string parameter are unwrapped (oidcmsg,
external).  Simplification: `TooManyValues` for several values of a single-valued parameter is not
modelled. (used through util.py:116) -/
def unwrap : List Val → Val
  | [v] => v
  | l => .list l

/-- `urlsplit` on an absolute URL, as far as `get_http_url` needs it: everything before `?`/`#`,
query, fragment (urllib.parse; a lower-case scheme and no control characters are assumed). (used in util.py:114) -/
def urlsplit (url : String) : List Char × List Char × List Char :=
  match Str.cutL '#' url.toList with
  | (body, frag) =>
    match Str.cutL '?' body with
    | (base, query) => (base, query.getD [], frag.getD [])

/-- `urlunsplit`: empty query and fragment parts are left out (urllib.parse). (used in util.py:119) -/
def urlunsplit (base query frag : List Char) : String :=
  String.ofList (base ++ (if query = [] then [] else '?' :: query) ++
    (if frag = [] then [] else '#' :: frag))

/-- The request that is encoded: `_req.update(parse_qs(comp.query))` (util.py:113-116). -/
def mergeQuery (req : Obj) (query : List Char) : Obj :=
  if query = [] then req
  else Dict.update req ((parseQs query).map (fun p => (p.1, unwrap p.2)))

/-- `get_http_url` (util.py:101-124). -/
def getHttpUrl (ser : Ser) (url : String) (req : Obj) (method : String) : String :=
  if method = "GET" ∨ method = "DELETE" then
    if req.isEmpty then url
    else
      match urlsplit url with
      | (base, query, frag) =>
        urlunsplit base (toUrlencoded ser (mergeQuery req query)).toList frag
  else url

/-- A message body. (util.py:127-145) -/
inductive Body where
  | text (s : String)
  /-- the message is handed over as it is ("already packaged") -/
  | packaged
  deriving DecidableEq, Inhabited, Repr

/-- `get_http_body` (util.py:127-145). `ser.json` gives `req.to_json()`. -/
def getHttpBody (ser : Ser) (req : Obj) (contentType : String) : Except Exc Body :=
  if Str.contains contentType URL_ENCODED then .ok (.text (toUrlencoded ser req))
  else if Str.contains contentType JSON_ENCODED then .ok (.text (ser.json (.obj req)))
  else if Str.contains contentType JOSE_ENCODED then .ok .packaged
  else .error .unsupported

/-- `modsplit` (util.py:155-167). -/
def modsplit (name : String) : Except Exc (String × String) :=
  if ':' ∈ name.toList then
    match Str.split name ':' with
    | [a, b] => .ok (a, b)
    | _ => .error .valueError
  else
    let parts := Str.splitL '.' name.toList
    if parts.length < 2 then .error .valueError
    else .ok (String.ofList (Str.joinL '.' parts.dropLast), String.ofList (parts.getLast?.getD []))

/-- Python truthiness of an optional value. (e.g. util.py:411) -/
def truthyO (v : Option Val) : Bool := (v.map Val.truthy).getD false

/-- `lower_or_upper` (util.py:409-413); `none` is the default `None`. Case mapping is the ASCII one. -/
def lowerOrUpper (config : Obj) (param : String) (default : Option Val := none) : Option Val :=
  let res := (Dict.get? config (Str.lower param)).or default
  if truthyO res then res else (Dict.get? config (Str.upper param)).or default

/-- `str.format(**kwargs)`: `{{`, `}}` and `{name}`; format specifications and attribute access in a
field are not supported (their name is simply unknown).  The first argument is the field name read so
far. (used in util.py:416-444) -/
def format (kw : Dict String) : Option (List Char) → List Char → Except Exc (List Char)
  | none, [] => .ok []
  | some _, [] => .error .valueError
  | none, '{' :: '{' :: s => (format kw none s).map ('{' :: ·)
  | none, '}' :: '}' :: s => (format kw none s).map ('}' :: ·)
  | none, '{' :: s => format kw (some []) s
  | none, '}' :: _ => .error .valueError
  | none, c :: s => (format kw none s).map (c :: ·)
  | some name, '}' :: s =>
    match Dict.get? kw (String.ofList name) with
    | none => .error .keyError
    | some v => (format kw none s).map (v.toList ++ ·)
  | some name, c :: s => format kw (some (name ++ [c])) s

/-- `s.format(**kwargs)` (used in util.py:416-444) -/
def formatS (kw : Dict String) (s : String) : Except Exc String :=
  (format kw none s.toList).map String.ofList

/-- `"{{{}}}".format(_key) in s` (util.py:424-444) -/
def hasPlaceholder (key s : String) : Bool := Str.contains s ("{" ++ key ++ "}")

/-- The element-wise branch of `replace` (util.py:431-437).  A list element that is not a string
raises `TypeError` in Python. -/
def replaceList (key : String) (kw : Dict String) : List Val → Except Exc (List Val)
  | [] => .ok []
  | .str s :: l =>
    match (if hasPlaceholder key s then formatS kw s else .ok s), replaceList key kw l with
    | .ok s', .ok l' => .ok (.str s' :: l')
    | .error e, _ => .error e
    | _, .error e => .error e
  | _ :: _ => .error .typeError

/-- The part of `replace` after a value was found (util.py:421-444). -/
def replaceFound (config : Obj) (lc : String) (res : Val) (kw : Dict String) : Except Exc Obj :=
  match kw with
  | [] => .ok (Dict.set config lc res)
  | (key, _) :: _ =>
    match res with
    | .list l => (replaceList key kw l).map (fun l' => Dict.set config lc (.list l'))
    | .str s =>
      if hasPlaceholder key s then (formatS kw s).map (fun s' => Dict.set config lc (.str s'))
      else .ok config
    | .obj o => if Dict.has o ("{" ++ key ++ "}") then .error .attributeError else .ok config
    | _ => .error .typeError

/-- `replace` (util.py:416-444): the changed configuration. -/
def replace (config : Obj) (param : String) (kw : Dict String) : Except Exc Obj :=
  match Dict.get? config (Str.lower param) with
  | some v =>
    if v.truthy then replaceFound config (Str.lower param) v kw
    else match Dict.get? config (Str.upper param) with
      | some u => if u.truthy then replaceFound (Dict.del config (Str.upper param)) (Str.lower param) u kw
                  else .ok config
      | none => .ok config
  | none =>
    match Dict.get? config (Str.upper param) with
    | some u => if u.truthy then replaceFound (Dict.del config (Str.upper param)) (Str.lower param) u kw
                else .ok config
    | none => .ok config

/-- `set_param` (util.py:447-463) for a string value: the value the attribute is set to; `none` = the
attribute is not set. -/
def setParam (config : Obj) (param : String) (kw : Dict String) : Except Exc (Option Val) :=
  let res := (Dict.get? config (Str.lower param))
  let res := if truthyO res then res else Dict.get? config (Str.upper param)
  match res with
  | none => .ok none
  | some v =>
    if !v.truthy then .ok none
    else match kw, v with
      | [], v => .ok (some v)
      | (key, _) :: _, .str s =>
        if hasPlaceholder key s then (formatS kw s).map (fun s' => some (.str s'))
        else .ok (some (.str s))
      | (key, _) :: _, .list l =>
        if Val.str ("{" ++ key ++ "}") ∈ l then .error .attributeError else .ok (some (.list l))
      | (key, _) :: _, .obj o =>
        if Dict.has o ("{" ++ key ++ "}") then .error .attributeError else .ok (some (.obj o))
      | _ :: _, _ => .error .typeError

/-- The value of the `cert` argument built by `get_http_params` (util.py:509-522). -/
def getHttpParams (config : Obj) : Obj :=
  let ver := match Dict.get? config "verify" with
    | none => (Dict.get? config "verify_ssl").getD (.bool true)
    | some .null => (Dict.get? config "verify_ssl").getD (.bool true)
    | some v => v
  let params : Obj := [("verify", ver)]
  match Dict.get? config "client_cert" with
  | some c =>
    if c.truthy then
      match Dict.get? config "client_key" with
      | some k => if k.truthy then params ++ [("cert", .list [c, k])] else params ++ [("cert", c)]
      | none => params ++ [("cert", c)]
    else params
  | none => params

/-- `add_path` (util.py:525-535). -/
def addPath (url path : String) : String :=
  if Str.endsWith url "/" then
    if Str.startsWith path "/" then url ++ Str.drop1 path else url ++ path
  else
    if Str.startsWith path "/" then url ++ path else url ++ "/" ++ path

end Util
end Verif
