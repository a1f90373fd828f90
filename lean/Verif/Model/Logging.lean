import Verif.Model.Handler
/-!
# Model of what is logged about a request, and of src/oidcrp/logging.py

A record is its level and the values that are written into its text.  (`sanitize`, of util.py:146-149, is the identity.)
-/

namespace Verif.Logging
open Verif Verif.Service

/-- Levels of log records. (python's logging) -/
inductive Level where
  | debug | info | warning | error
  deriving DecidableEq, Inhabited, Repr

/-- Their order. -/
def Level.rank : Level → Nat
  | .debug => 10
  | .info => 20
  | .warning => 30
  | .error => 40

/-- A value that is written into a record. -/
inductive Said where
  | url (s : String)
  | method (s : String)
  | headers (h : Dict String)
  | body (b : Option Util.Body)
  | request (o : Obj)
  | bodyType (s : String)
  | status (n : Int)
  | text (s : String)
  | raised (e : Exc)
  deriving DecidableEq, Inhabited

/-- A log record. -/
structure Record where
  level : Level
  said : List Said
  deriving DecidableEq, Inhabited

/-- `HTTPLib.__call__` and `get_response` around the call (http.py:96-103, oauth2/__init__.py:121-125): if there is no answer,
what was to be sent is logged; `htargs` has the headers and the body. -/
def transportLog (info : ReqInfo) : Except Exc HttpResp → List Record
  | .ok _ => []
  | .error e => [⟨.error, [.raised e, .url info.url, .headers info.headers, .body info.body, .method info.method]⟩,
                 ⟨.error, [.raised e]⟩]

/-- `get_deserialization_method` (util.py:325-326). -/
def deserLog (r : HttpResp) : List Record := [⟨.debug, [.headers r.headers]⟩, ⟨.debug, [.text r.text]⟩]

/-- What is logged if a call raised. -/
def raisedLog {α : Type} : Except Exc α → List Record
  | .ok _ => []
  | .error e => [⟨.error, [.raised e]⟩]

/-- `parse_request_response` (oauth2/__init__.py:213-268), for the client `c`. -/
def parseLog (x : Ext) (srv : Srv) (r : HttpResp) (bodyType state : String) (c : Client) : List Record :=
  if r.status ∈ SUCCESSFUL then
    [⟨.debug, [.bodyType bodyType]⟩] ++ deserLog r ++
      (if Util.getDeserializationMethod r ≠ bodyType then
        [⟨.warning, [.bodyType (Util.getDeserializationMethod r), .bodyType bodyType]⟩] else []) ++
      [⟨.debug, [.text r.text]⟩] ++ raisedLog (parseResponse x srv (.text r.text) (valueType r bodyType) state c).1
  else if r.status = 500 then [⟨.error, [.status r.status, .text r.text]⟩]
  else if 400 ≤ r.status ∧ r.status < 500 then ⟨.error, [.status r.status, .text r.text]⟩ :: deserLog r
  else [⟨.error, [.status r.status, .text r.text]⟩]

/-- `get_response` (oauth2/__init__.py:104-143), for the client `c` -/
def responseLog (x : Ext) (srv : Srv) (info : ReqInfo) (bodyType state : String) (c : Client) : List Record :=
  match send x { srv := srv, url := info.url, method := info.method, headers := info.headers, body := info.body } c with
  | (.error e, _) => transportLog info (.error e)
  | (.ok r, c1) =>
    let bt := orElse bodyType (attr c1 srv "response_body_type" (responseBodyType srv))
    if 300 ≤ r.status ∧ r.status < 400 then []
    else if r.status < 300 ∧ bt = "html" then []
    else parseLog x srv r (if r.status < 300 then bt else bodyType) state c1

/-- `service_request` (oauth2/__init__.py:169-170), without what `update_service_context` logs. -/
def serviceLog (x : Ext) (srv : Srv) (info : ReqInfo) (bodyType state : String) (c : Client) : List Record :=
  ⟨.debug, [.url info.url, .method info.method, .body info.body, .headers info.headers]⟩ ::
    responseLog x srv info bodyType state c

/-- `do_request` (oauth2/__init__.py:80-99). -/
def doRequestLog (x : Ext) (srv : Srv) (args : Obj) (o : CallOpts) (kwargs : Obj) (c : Client) : List Record :=
  if srv ∉ c.services then [] else
  match getRequestParameters x srv args o kwargs c with
  | (.error _, _) => []
  | (.ok info, c1) =>
    ⟨.debug, [.url info.url, .method info.method, .body info.body, .headers info.headers, .request info.request]⟩ ::
      serviceLog x srv info (orElse o.responseBodyType (attr c srv "response_body_type" (responseBodyType srv))) (stateOf kwargs) c1

/-- What `get_tokens` and `refresh_access_token` log around the request (rp_handler.py:520-530, 557-568); `args` is logged by the
first one only. -/
def tokenCallLog (x : Ext) (srv : Srv) (args : Obj) (o : CallOpts) (kwargs : Obj) (c : Client) : List Record :=
  (if srv = .accesstoken then [⟨.debug, [.request args]⟩] else []) ++ doRequestLog x srv args o kwargs c ++
    raisedLog (doRequest x srv args o kwargs c).1

/-- The records that a logger of a level lets through. -/
def shown (l : Level) (rs : List Record) : List Record := rs.filter (fun r => l.rank ≤ r.level.rank)

/-! ## logging.py -/

/-- A configuration for python's logging: the level of the root logger, if it has an entry for it. -/
structure Conf where
  root : Option String
  deriving DecidableEq, Inhabited, Repr

/-- What `configure_logging` works on: `LOGGING_DEFAULT`, the dictionaries of the program (which are passed by reference), and
the level the root logger has. -/
structure Logs where
  default : Conf
  given : Nat → Conf
  level : String

/-- When the module was loaded (logging.py:13-31). -/
def loaded (given : Nat → Conf) : Logs := { default := ⟨some "INFO"⟩, given := given, level := "WARNING" }

/-- Where the configuration comes from (logging.py:39-48); a file is read each time, by an external reader. -/
inductive ConfSource where
  | dictionary (n : Nat)
  | file (read : Except Exc Conf)
  | none

/-- `config_dict['root']['level'] = 'DEBUG'` (logging.py:50-51) -/
def withDebug (c : Conf) : Except Exc Conf :=
  match c.root with
  | none => .error .keyError
  | some _ => .ok ⟨some "DEBUG"⟩

/-- `dictConfig` is external: it sets the level of the root logger if there is an entry for it. (logging.py:53) -/
def apply (s : Logs) (c : Conf) : Logs := { s with level := c.root.getD s.level }

/-- `configure_logging` (logging.py:34-54).  With debug, the dictionary itself is changed. -/
def configureLogging (debug : Bool) (src : ConfSource) (s : Logs) : Except Exc Unit × Logs :=
  match src with
  | .dictionary n =>
    if debug then match withDebug (s.given n) with
      | .error e => (.error e, s)
      | .ok c => (.ok (), apply { s with given := fun i => if i = n then c else s.given i } c)
    else (.ok (), apply s (s.given n))
  | .file read => match read with
    | .error e => (.error e, s)
    | .ok c =>
      if debug then match withDebug c with
        | .error e => (.error e, s)
        | .ok c' => (.ok (), apply s c')
      else (.ok (), apply s c)
  | .none =>
    if debug then match withDebug s.default with
      | .error e => (.error e, s)
      | .ok c => (.ok (), apply { s with default := c } c)
    else (.ok (), apply s s.default)

/-- A history of calls. (not in the code) -/
def configureAll : List (Bool × ConfSource) → Logs → Logs
  | [], s => s
  | (d, src) :: l, s => configureAll l (configureLogging d src s).2

end Verif.Logging
