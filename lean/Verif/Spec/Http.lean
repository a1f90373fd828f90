import Verif.Model.Util
/-!
# Specification vocabulary for HTTP level properties
-/

namespace Verif.Spec

/-- The media types of a response body and the deserialisation method each calls for. -/
def mediaTable : List (String × String) :=
  [("application/json", "json"), ("application/jrd+json", "json"), ("application/jwt", "jwt"),
   ("application/jose", "jose"), ("application/x-www-form-urlencoded", "urlencoded"),
   ("text/plain", ""), ("text/html", "")]

/-- A content type header value: a media type, alone or followed by `;` and parameters. -/
def IsContentType (ctype media : String) : Prop := ctype = media ∨ ∃ p, ctype = media ++ ";" ++ p

/-- What an expected body type admits: media type and resulting body type. -/
def admits : String → List (String × String)
  | "json" => [("application/json", "json"), ("application/jrd+json", "json"),
               ("application/jwt", "jwt")]
  | "jwt" => [("application/jwt", "jwt")]
  | "urlencoded" => [("application/x-www-form-urlencoded", "urlencoded"),
                     ("text/plain", "urlencoded")]
  | "txt" => [("text/plain", "txt"), ("text/html", "txt")]
  | _ => []

/-- The bytes a receiver reads for a list of text parameters. -/
def onWire (ps : List (String × String)) : List (List UInt8 × List UInt8) :=
  ps.map (fun p => (Quote.utf8 p.1, Quote.utf8 p.2))

/-- A request consisting of text parameters. -/
def textRequest (ps : List (String × String)) : Obj := ps.map (fun p => (p.1, Val.str p.2))

end Verif.Spec
