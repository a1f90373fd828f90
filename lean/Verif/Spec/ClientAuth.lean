import Verif.Model.ClientAuth
/-!
# Specification vocabulary for client authentication
-/

namespace Verif.Spec
open Verif

/-- The first alternative that is there. -/
def firstOf {α : Type} : List (Option α) → Option α
  | [] => none
  | some a :: _ => some a
  | none :: l => firstOf l

/-- A receiver (RFC 7617/RFC 6749 2.3.1) decodes an `Authorization: Basic` header with the given
base64 alphabet: decode, split at the first colon, undo the form encoding of both parts. -/
def decodeBasic (url : Bool) (header : String) : Option (List UInt8 × List UInt8) :=
  if Str.startsWith header "Basic " then
    match Base64.decode url (header.toList.drop 6) with
    | none => none
    | some bs =>
      match Str.cutL ':' (bs.map (fun b => Char.ofNat b.toNat)) with
      | (u, some p) => some (Quote.unquoteBytes u, Quote.unquoteBytes p)
      | (_, none) => none
  else none

/-- `r'` is `r` except for the listed parameters. -/
def SameExcept (ks : List String) (r r' : Obj) : Prop :=
  ∀ k, k ∉ ks → Dict.get? r' k = Dict.get? r k

end Verif.Spec
