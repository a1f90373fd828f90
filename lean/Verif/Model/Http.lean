import Verif.Model.Context
/-!
# Model of src/oidcrp/http.py and of `set_cookie` in src/oidcrp/util.py

The `requests` library, the parser of `Set-Cookie` headers (`http.cookies.SimpleCookie`) and `http2time`
(http.cookiejar) are external.
-/

namespace Verif.Http
open Verif

/-- `http.cookiejar.Cookie`: the attributes that matter here. (used in util.py:188-254) -/
structure Cookie where
  name : String
  value : String
  domain : String := ""
  path : String := ""
  expires : Option Int := none
  deriving DecidableEq, Inhabited, Repr

/-- `CookieJar._cookies`: domain, path, name. (used in http.py:43-46) -/
abbrev Jar := Dict (Dict (Dict Cookie))

/-- A `http.cookies.Morsel`; an attribute that was not given is `''`. (used in util.py:201-254) -/
structure Morsel where
  name : String
  codedValue : String
  attrs : Dict String := []
  deriving DecidableEq, Inhabited, Repr

/-- An attribute of a morsel. (used in util.py:213-223) -/
def Morsel.get (m : Morsel) (a : String) : String := (Dict.get? m.attrs a).getD ""

/-- What is outside: the request library, the cookie parser, the time parser. (used in http.py:67, 98 and
util.py:217, 223) -/
structure Ext where
  request : String → String → Obj → Except Exc HttpResp
  parse : String → Except Exc (List Morsel)
  time : String → Option Int

/-- `HTTPLib` (http.py:18-33): the default arguments, the cookie jar, the request call back, and the
requests made (method, URL, arguments).  `events` is not modelled. -/
structure Lib where
  requestArgs : Obj := [("allow_redirects", .bool false)]
  jar : Jar := []
  callback : Option (String → String → Obj → Obj) := none
  sent : List (String × String × Obj) := []

/-- `HTTPLib.__init__` (http.py:19-33). -/
def Lib.new (params : Obj) : Lib := { requestArgs := Dict.update [("allow_redirects", .bool false)] params }

/-- `CookieJar.set_cookie` (http.cookiejar, external): a cookie replaces the one with the same domain, path and
name. (used in util.py:254) -/
def Jar.put (j : Jar) (c : Cookie) : Jar :=
  let d := (Dict.get? j c.domain).getD []
  let p := (Dict.get? d c.path).getD []
  Dict.set j c.domain (Dict.set d c.path (Dict.set p c.name c))

/-- The cookies of a jar, in the order of the three loops (http.py:43-45). -/
def Jar.all (j : Jar) : List Cookie := (j.map (fun d => (d.2.map (fun p => p.2.map Prod.snd)).flatten)).flatten

/-- `HTTPLib._cookies` (http.py:35-48). -/
def cookies (j : Jar) : Dict String := j.all.foldl (fun d c => Dict.set d c.name c.value) []

/-- The value of a cookie without its quotes (util.py:203-207). -/
def unquoted (v : String) : String :=
  if Str.startsWith v "\"" && Str.endsWith v "\"" then String.ofList (v.toList.drop 1).dropLast else v

/-- The cookie made of a morsel (util.py:201-252).  `max-age` comes after `expires` among the keys of a morsel, so that it
has the last word; it is parsed as a date.  The attributes that `HTTPLib` never looks at are left out, and with them the
`ValueError` for a version that is not a number. -/
def cookieOf (x : Ext) (m : Morsel) : Cookie :=
  { name := m.name
    value := unquoted m.codedValue
    domain := m.get "domain"
    path := m.get "path"
    expires := if m.get "max-age" ≠ "" then x.time (m.get "max-age")
      else if m.get "expires" ≠ "" then x.time (m.get "expires") else none }

/-- `set_cookie` (util.py:188-254).  `morsel['max-age'] == 0` (line 237) compares a `str` with an `int` and is
never true, so that nothing is ever cleared; `http2time` gives `None` instead of raising the `TimeFormatError`
of line 223. -/
def setCookie (x : Ext) (j : Jar) (ms : List Morsel) : Jar := ms.foldl (fun j m => j.put (cookieOf x m)) j

/-- `HTTPLib.set_cookie` (http.py:61-72): without the header nothing happens; a header that cannot be parsed is a
`NonFatalException`. -/
def receive (x : Ext) (r : HttpResp) : Py Lib Unit := fun l =>
  match Dict.get? r.headers "set-cookie" with
  | none => (.ok (), l)
  | some t => match x.parse t with
    | .error _ => (.error (.external "NonFatalException"), l)
    | .ok ms => (.ok (), { l with jar := setCookie x l.jar ms })

/-- `HTTPLib.add_cookies` (http.py:50-54): changes its argument. -/
def addCookies (l : Lib) (kwargs : Obj) : Obj :=
  if l.jar.all.isEmpty then kwargs else Dict.set kwargs "cookies" (.obj ((cookies l.jar).map (fun p => (p.1, .str p.2))))

/-- `HTTPLib.run_req_callback` (http.py:56-59); a call back that changes an argument (the headers, say) in place is not
modelled. -/
def runCallback (l : Lib) (url method : String) (kwargs : Obj) : Obj :=
  match l.callback with
  | some f => f method url kwargs
  | none => kwargs

/-- The arguments of the call (http.py:83-94): `_kwargs`, and `kwargs` after the changes that follow, which is not used
any more. -/
def arguments (l : Lib) (url method : String) (kwargs : Obj) : Obj × Obj :=
  (Dict.update l.requestArgs kwargs, runCallback l url method (addCookies l kwargs))

/-- `HTTPLib.__call__`, `HTTPLib.send` (http.py:74-122). -/
def call (x : Ext) (url method : String) (kwargs : Obj) : Py Lib HttpResp := fun l =>
  let args := (arguments l url method kwargs).1
  match x.request method url args with
  | .error e => (.error e, { l with sent := l.sent ++ [(method, url, args)] })
  | .ok r =>
    match receive x r { l with sent := l.sent ++ [(method, url, args)] } with
    | (.error e, l') => (.error e, l')
    | (.ok (), l') => (.ok r, l')

end Verif.Http
