import Verif.Model.StateInterface
/-!
# What is stored for a session

Read through the store's own interface (`get_item`); what that reads is the subject of C02.
-/

namespace Verif.Spec.Session
open Verif

/-- The access token of the response `item` of session `k`, if it has no expiry time. -/
def unlimited (db : DB) (k item : String) : Option Val :=
  match StateInterface.getItem db item k with
  | .ok r => match Dict.get? r "__expires_at" with
    | none => Dict.get? r "access_token"
    | some _ => none
  | .error _ => none

/-- The response `item` of session `k` has the access token `t` that expires at `e`. -/
def ExpiresAt (db : DB) (k item : String) (t : Val) (e : Int) : Prop :=
  ∃ r, StateInterface.getItem db item k = .ok r ∧ Dict.get? r "access_token" = some t ∧
    Dict.get? r "__expires_at" = some (.int e)

/-- The response `item` of session `k` is absent, or a document whose expiry time, if any, is a number. -/
def Sound (db : DB) (k item : String) : Prop :=
  StateInterface.getItem db item k = .error .keyError ∨
  ∃ r, StateInterface.getItem db item k = .ok r ∧
    ∀ v, Dict.get? r "__expires_at" = some v → ∃ e, v = .int e

/-- `item` is the last one of `items` in which the response of session `k` has a claim `claim`, and `v`
is its value there. -/
def Latest (db : DB) (k claim : String) (items : List String) (item : String) (v : Val) : Prop :=
  ∃ before after, items = before ++ item :: after ∧
    (∃ r, StateInterface.getItem db item k = .ok r ∧ Dict.get? r claim = some v) ∧
    ∀ later ∈ after, ∀ r, StateInterface.getItem db later k = .ok r → Dict.get? r claim = none

/-- Session `k` exists. -/
def Exists (db : DB) (k : String) : Prop := ∃ st, StateInterface.getState db k = .ok st

/-- What the response `item` of session `k` has for the parameter `p`; the verified form is preferred. -/
def storedIn (db : DB) (k item p : String) : Option Val :=
  match StateInterface.getItem db item k with
  | .ok r => (Dict.get? r ("__verified_" ++ p)).or (Dict.get? r p)
  | .error _ => none

end Verif.Spec.Session
