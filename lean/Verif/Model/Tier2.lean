import Verif.Model.Handler
/-!
# The single steps of `begin`, called for a session

The "tier 2 API" of doc/source/rp_handler.rst:174-200: the steps `begin` is made of, called by the application with the
value of a session (`state=…`) instead of a client.
-/

namespace Verif
namespace Handler
open Verif Service

/-- `do_provider_info(state=…)` (rp_handler.py:189-247).  An empty session value is a `ValueError`
(rp_handler.py:205-209). -/
def providerInfoOf (x : Ext) (state : String) : Py Handler String :=
  if state = "" then Py.raise .valueError else onSession state (doProviderInfo x)

/-- `do_client_registration(state=…, iss_id=…)` (rp_handler.py:249-288): `hash2issuer` is written before the client
registers.  `request_args` is left at its default, nothing. -/
def registrationOf (x : Ext) (state issId : String) (behaviourArgs : Obj) : Py Handler Unit :=
  if state = "" then Py.raise .valueError else do
    let h ← Py.read
    let c ← Py.lift (getClientFromSessionKey h state)
    Py.modify (fun h => { h with hash2issuer := Dict.set h.hash2issuer issId c.ctx.issuer })
    onSession state (register x behaviourArgs)

/-- `init_authorization(state=…)` (rp_handler.py:362-423): URL and the new state. -/
def authorizationOf (x : Ext) (state : String) (req behaviourArgs : Obj) : Py Handler (String × String) :=
  if state = "" then Py.raise .valueError else onSession state (initAuthorization x req behaviourArgs)

/-- What an application may call: the interface modelled by `Call`, and the single steps for a session.
(rp_handler.py:189-423) -/
inductive Step where
  | call (c : Call)
  | providerInfo (state : String)
  | registration (state issId : String) (behaviourArgs : Obj)
  | authorization (state : String) (req behaviourArgs : Obj)
  deriving Inhabited

/-- Execute a step; the issuer `do_provider_info` returns is left out. (rp_handler.py:189-423) -/
def execStep (x : Ext) : Step → Py Handler Ret
  | .call c => exec x c
  | .providerInfo s => ret (fun _ => .unit) (providerInfoOf x s)
  | .registration s i b => ret (fun _ => .unit) (registrationOf x s i b)
  | .authorization s r b => ret (fun p => .started p.1 p.2) (authorizationOf x s r b)

/-- The handler after a history of steps. (not in the code: the calls of an application) -/
def runSteps : List (Ext × Step) → Handler → Handler
  | [], h => h
  | (x, c) :: l, h => runSteps l (execStep x c h).2

end Handler
end Verif
