import Verif.Py.Exc
/-!
# oidcmsg `Message` objects as dictionaries

`oidcmsg` is a dependency of the repository (setup.py: `oidcmsg==1.6.0`); only the behaviour listed
here is used by the model.
-/

namespace Verif.Msg

/-- A value `Message.from_dict` / `Message(**kw)` skips: `""` and `[""]` (oidcmsg, external). (used through
state_interface.py:99, 150) -/
def emptyVal : Val → Bool
  | .str s => s == ""
  | .list [.str s] => s == ""
  | _ => false

/-- `Message(**d)`: copies the parameters, without the empty ones (oidcmsg, external). (used in
state_interface.py:99, 150) -/
def ofDict (d : Obj) : Obj := d.filter (fun p => !emptyVal p.2)

/-- `oidcmsg.oidc.verified_claim_name` (oidcmsg, external). (used in state_interface.py:185, 227, rp_handler.py:975) -/
def verifiedName (claim : String) : String := "__verified_" ++ claim

/-- `oidcmsg.oauth2.is_error_message(msg)`: `'error' in msg` (oidcmsg, external). (used in service.py:559,
rp_handler.py:647) -/
def isError (m : Obj) : Bool := Dict.has m "error"

end Verif.Msg
