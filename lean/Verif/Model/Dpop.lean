import Verif.Model.Service
/-!
# Model of the DPoP proof (src/oidcrp/oauth2/add_on/dpop.py:17-83)

`DPoPProof` is an oidcmsg message with a key.  Signing and verifying JWS (cryptojwt) are external functions, collected in
`Jws`.  A key is named by the text of its JWK.
-/

namespace Verif.Dpop
open Verif

/-- The external functions of cryptojwt. (used in oauth2/add_on/dpop.py:58-84) -/
structure Jws where
  /-- `JWS(payload, alg).sign_compact(keys=[key], **headers)` -/
  sign : (key : String) → (headers payload : Obj) → Except Exc String
  /-- the protected headers of `factory(token).jwt`; `none`: not a JWS -/
  headers : String → Option Obj
  /-- `key_from_jwk_dict(jwk)` and `deserialize` -/
  keyOf : Val → Except Exc String
  /-- `verify_compact(keys=[key], sigalg=alg)`: the payload -/
  verify : (key : String) → (alg : Val) → (token : String) → Except Exc Obj

/-- `DPoPProof.header_params` (dpop.py:29). -/
abbrev HEADER_PARAMS : List String := ["typ", "alg", "jwk"]

/-- `DPoPProof.body_params` (dpop.py:30). -/
abbrev BODY_PARAMS : List String := ["jti", "htm", "htu", "iat"]

/-- `{k: self[k] for k in params}` (dpop.py:59, 61). -/
def pick (o : Obj) : List String → Except Exc Obj
  | [] => .ok []
  | p :: ps => match Dict.getItem o p, pick o ps with
    | .ok v, .ok r => .ok ((p, v) :: r)
    | .error e, _ => .error e
    | _, .error e => .error e

/-- `create_header` (dpop.py:58-63), for a proof with the given key. -/
def createHeader (j : Jws) (key : String) (proof : Obj) : Except Exc String :=
  match pick proof BODY_PARAMS, pick proof HEADER_PARAMS with
  | .ok payload, .ok headers => j.sign key headers payload
  | .error e, _ => .error e
  | _, .error e => .error e

/-- `verify_header` (dpop.py:65-83): the proof with everything of headers and payload set, the headers first; `none` if the
text is no JWS.  The conversion of values to the types of the message's parameters is not modelled. -/
def verifyHeader (j : Jws) (proof : Obj) (header : String) : Except Exc (Option Obj) :=
  match j.headers header with
  | none => .ok none
  | some hs => match Dict.get? hs "jwk" with
    | none => .error (.external "Exception")
    | some jwk => match j.keyOf jwk with
      | .error e => .error e
      | .ok key => match Dict.getItem hs "alg" with
        | .error e => .error e
        | .ok alg => match j.verify key alg header with
          | .error e => .error e
          | .ok info => .ok (some (Dict.update (Dict.update proof hs) info))

/-- `verify` (dpop.py:51-56): the required parameters (oidcmsg), the type, and an algorithm that signs. -/
def verify (proof : Obj) : Except Exc Unit :=
  if (HEADER_PARAMS ++ BODY_PARAMS).all (fun p => Dict.has proof p) then
    if Dict.get? proof "typ" ≠ some (.str "dpop+jwt") then .error .valueError
    else if Dict.get? proof "alg" = some (.str "none") then .error .valueError
    else .ok ()
  else .error .missingRequiredAttribute

end Verif.Dpop
