import Verif.Model.Http
import Verif.Model.Service
/-!
# Model of how the requests of a client get onto the network

The client model (`Model/Service`) answers a request by an arbitrary function of what was sent before; here that
function is the HTTP library (`Model/Http`) with the settings it gets in src/oidcrp/rp_handler.py,
src/oidcrp/oauth2/__init__.py and src/oidcrp/util.py, and, for pushed authorization requests, the client of the
add-on (src/oidcrp/oauth2/add_on/pushed_authorization.py).
-/

namespace Verif.Transport
open Verif

/-- `self.httpc_params` of the handler (rp_handler.py:96-99). -/
def handlerParams (verifySsl : Val) (httpcParams : Obj) : Obj :=
  if httpcParams.isEmpty then [("verify", verifySsl)] else httpcParams

/-- `self.http` of a client made by a handler (rp_handler.py:168-173, oauth2/__init__.py:71): the library given to
the handler, or one with the handler's settings. -/
def clientLib (own : Option Http.Lib) (params : Obj) : Http.Lib := own.getD (Http.Lib.new params)

/-- The `data` argument of a request. (oauth2/__init__.py:122) -/
def dataOf : Option Util.Body → Val
  | none => .null
  | some (.text s) => .str s
  | some .packaged => .obj [("__object__", .str "Message")]

/-- The `headers` argument of a request; a request without headers has `None`. (oauth2/__init__.py:122) -/
def headersOf (h : Dict String) : Val := if h.isEmpty then .null else .obj (h.map (fun p => (p.1, .str p.2)))

/-- `self.http(url, method, data=body, headers=headers)` (oauth2/__init__.py:122). -/
def kwargsOf (s : Sent) : Obj := [("data", dataOf s.body), ("headers", headersOf s.headers)]

/-- Whether a request is made by `push_authorization`: a GET request of the authorization service with a body
(pushed_authorization.py:37-39); `get_request_parameters` gives no body to GET requests. -/
def isPush (s : Sent) : Bool := decide (s.srv = .authorization) && decide (s.method = "GET") && s.body.isSome

/-- The network as seen by a client: its HTTP library, and the requests made past it. (http.py:18-33) -/
structure Net where
  lib : Http.Lib
  direct : List (String × String × Obj) := []

/-- A request.  A push is `requests.get(endpoint, data=_body)` (pushed_authorization.py:37-39, 63-64; another
`http_client` given to the add-on is not modelled), any other goes through the library. -/
def step (e : Http.Ext) (s : Sent) : Py Net HttpResp := fun n =>
  if isPush s then
    (e.request "GET" s.url [("data", dataOf s.body)],
     { n with direct := n.direct ++ [("GET", s.url, [("data", dataOf s.body)])] })
  else
    ((Http.call e s.url s.method (kwargsOf s) n.lib).1,
     { n with lib := (Http.call e s.url s.method (kwargsOf s) n.lib).2 })

/-- The network after some requests. (not in the code) -/
def run (e : Http.Ext) (log : List Sent) (n : Net) : Net := log.foldl (fun n s => (step e s n).2) n

/-- The answer to a request after some others. (oauth2/__init__.py:122) -/
def answer (e : Http.Ext) (n : Net) (log : List Sent) (s : Sent) : Except Exc HttpResp := (step e s (run e log n)).1

/-- The world in which a client talks over this network. (not in the code) -/
def online (x : Verif.Ext) (e : Http.Ext) (n : Net) : Verif.Ext := { x with http := answer e n }

end Verif.Transport
