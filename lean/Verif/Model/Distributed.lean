import Verif.Model.ClientAuth
/-!
# Model of `RP.fetch_distributed_claims` (src/oidcrp/oidc/__init__.py:125-178)
-/

namespace Verif.Distributed
open Verif

/-- A request for claims: the URL and the headers; the method is GET. (oidc/__init__.py:145-157) -/
structure Fetch where
  url : String
  headers : Dict String := []
  deriving DecidableEq, Inhabited, Repr

/-- What is outside: the HTTP library, the JSON parser, the call back for tokens; `env` is the client
authentication environment of the userinfo service. (oidc/__init__.py:125-181) -/
structure Ext where
  env : ClientAuth.Env
  http : Fetch → Except Exc HttpResp
  loads : String → Except Exc Obj
  callback : Option (String → Val) := none

/-- The claims so far and the requests made. (oidc/__init__.py:125-181) -/
structure St where
  info : Obj
  log : List Fetch := []

/-- The headers for a token (oidc/__init__.py:139-142, 149-152). -/
def tokenHeaders (x : Ext) (t : Val) : Except Exc (Dict String) :=
  (ClientAuth.bearerHeader x.env [("access_token", t)] [] []).map Prod.fst

/-- The headers of the request to a source (oidc/__init__.py:138-156). -/
def headersFor (x : Ext) (spec : Obj) (url : String) : Except Exc (Dict String) :=
  match Dict.get? spec "access_token" with
  | some t => tokenHeaders x t
  | none => match x.callback with
    | some f => tokenHeaders x (f url)
    | none => .ok []

/-- `self.http.send`. (oidc/__init__.py:145, 154, 157) -/
def send (x : Ext) (f : Fetch) : Py St HttpResp := fun s => (x.http f, { s with log := s.log ++ [f] })

/-- The claims that are expected of a source (oidc/__init__.py:165-166). -/
def expected (info : Obj) (src : String) : Except Exc (List String) :=
  match Dict.get? info "_claim_names" with
  | none => .error .keyError
  | some (.obj names) => .ok ((names.filter (fun p => decide (p.2 = .str src))).map Prod.fst)
  | some _ => .error .attributeError

/-- Copy the claims (oidc/__init__.py:174-175); those copied before a `KeyError` stay. -/
def copyClaims (fetched : Obj) : List String → Py St Unit
  | [] => pure ()
  | k :: ks => do
    let v ← Py.lift (Dict.getItem fetched k)
    Py.modify (fun s => { s with info := Dict.set s.info k v })
    copyClaims fetched ks

/-- The answer (oidc/__init__.py:158-163). -/
def answer (x : Ext) (r : HttpResp) : Except Exc Obj :=
  if r.status = 200 then x.loads r.text else .error (.external "FetchException")

/-- One source with an endpoint (oidc/__init__.py:137-175). -/
def fetchSource (x : Ext) (src : String) (spec : Obj) (url : String) : Py St Unit := do
  let h ← Py.lift (headersFor x spec url)
  let r ← send x { url := url, headers := h }
  let o ← Py.lift (answer x r)
  let ks ← (fun s => (expected s.info src, s))
  copyClaims o ks

/-- One source (oidc/__init__.py:136-175).  A source must be a JSON object and its endpoint a string. -/
def source (x : Ext) (src : String) (v : Val) : Py St Unit :=
  match v with
  | .obj spec => match Dict.get? spec "endpoint" with
    | some e => do
      let url ← Py.lift (asStr e)
      fetchSource x src spec url
    | none => pure ()
  | _ => Py.raise .typeError

/-- The loop over the sources (oidc/__init__.py:136-175), which runs over the sources as they were at the start. -/
def sources (x : Ext) : List (String × Val) → Py St Unit
  | [] => pure ()
  | (src, v) :: rest => do
    source x src v
    sources x rest

/-- `fetch_distributed_claims` (oidc/__init__.py:125-178); the userinfo is changed in place. -/
def fetch (x : Ext) : Py St Unit := fun s =>
  match Dict.get? s.info "_claim_sources" with
  | none => (.ok (), s)
  | some (.obj o) => sources x o s
  | some _ => (.error .attributeError, s)

end Verif.Distributed
