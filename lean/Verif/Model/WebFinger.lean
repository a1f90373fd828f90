import Verif.Model.Discovery
/-!
# Model of src/oidcrp/oidc/webfinger.py

Identifiers are assumed to have no control characters, tabs or newlines (`urlsplit` strips those).
The NFKC check of host names in `urlsplit` is not modelled.
-/

namespace Verif.WebFinger
open Verif

/-- The result of `urllib.parse.urlsplit`. (used in webfinger.py:91-145) -/
structure Parts where
  scheme : List Char := []
  netloc : List Char := []
  path : List Char := []
  query : List Char := []
  fragment : List Char := []
  deriving DecidableEq, Inhabited, Repr

/-- ASCII letter. (used through webfinger.py:91) -/
def isAlpha (c : Char) : Bool :=
  (65 ≤ c.toNat && c.toNat ≤ 90) || (97 ≤ c.toNat && c.toNat ≤ 122)

/-- `scheme_chars` of urllib.parse. (used through webfinger.py:91) -/
def isSchemeChar (c : Char) : Bool :=
  isAlpha c || (48 ≤ c.toNat && c.toNat ≤ 57) || c = '+' || c = '-' || c = '.'

/-- The scheme of a URL and the rest (urllib.parse, Python 3.10 and later). (used through webfinger.py:91) -/
def splitScheme (s : List Char) : List Char × List Char :=
  match Str.cutL ':' s with
  | (c :: pre, some rest) =>
    if isAlpha c && (c :: pre).all isSchemeChar then ((c :: pre).map Char.toLower, rest) else ([], s)
  | _ => ([], s)

/-- `_splitnetloc` (urllib.parse): up to the first of `/?#`. (used through webfinger.py:91) -/
def takeNetloc : List Char → List Char × List Char
  | [] => ([], [])
  | c :: s => if c = '/' ∨ c = '?' ∨ c = '#' then ([], c :: s)
    else ((c :: (takeNetloc s).1), (takeNetloc s).2)

/-- `_splitnetloc` applied if the text starts with `//`; unbalanced brackets are a `ValueError`. (used through
webfinger.py:91) -/
def splitNetloc (s : List Char) : Except Exc (List Char × List Char) :=
  match s with
  | '/' :: '/' :: t =>
    let r := takeNetloc t
    if decide ('[' ∈ r.1) != decide (']' ∈ r.1) then .error .valueError else .ok r
  | _ => .ok ([], s)

/-- `urlsplit` (urllib.parse). (used in webfinger.py:91, 101, 111, 115, 125) -/
def urlsplit (url : List Char) : Except Exc Parts :=
  match splitNetloc (splitScheme url).2 with
  | .error e => .error e
  | .ok (netloc, rest) =>
    .ok { scheme := (splitScheme url).1, netloc := netloc,
          path := (Str.cutL '?' (Str.cutL '#' rest).1).1,
          query := (Str.cutL '?' (Str.cutL '#' rest).1).2.getD [],
          fragment := (Str.cutL '#' rest).2.getD [] }

/-- `urlunsplit` (urllib.parse), for the schemes that occur (`http`, `https`, `acct`): with a netloc
the path gets a leading slash. (used in webfinger.py:70-77) -/
def urlunsplit (p : Parts) : List Char :=
  let url := if p.netloc ≠ [] ∨ (Str.startsWith (String.ofList p.path) "//" = true) then
      "//".toList ++ p.netloc ++ (match p.path with
        | [] => []
        | '/' :: t => '/' :: t
        | t => '/' :: t)
    else p.path
  (if p.scheme = [] then url else p.scheme ++ ':' :: url) ++
    (if p.query = [] then [] else '?' :: p.query) ++
    (if p.fragment = [] then [] else '#' :: p.fragment)

/-- `create_url(part, [FRAGMENT])` (webfinger.py:69-77). -/
def withoutFragment (p : Parts) : List Char := urlunsplit { p with fragment := [] }

/-- `s.split('@')[1]` (webfinger.py:105, 137) -/
def afterAt (s : List Char) : List Char := (Str.splitL '@' s)[1]?.getD []

/-- The netloc of `https://` followed by a text. (webfinger.py:100-102, 110-116) -/
def httpsNetloc (s : List Char) : Except Exc (List Char) :=
  (urlsplit ("https://".toList ++ s)).map Parts.netloc

/-- An identifier without a scheme (webfinger.py:95-116): authority and resource. -/
def noScheme (res : List Char) (p : Parts) : Except Exc (List Char × List Char) :=
  if p.netloc ≠ [] then .error .valueError
  else if p.query = [] ∧ p.fragment = [] then
    if '/' ∈ p.path ∨ ':' ∈ p.path then
      (httpsNetloc res).map (fun a => (a, "https://".toList ++ res))
    else .ok (if '@' ∈ p.path then afterAt p.path else p.path, "acct:".toList ++ p.path)
  else if p.query ≠ [] then
    (httpsNetloc (p.path ++ '?' :: p.query)).map
      (fun a => (a, "https://".toList ++ p.path ++ '?' :: p.query))
  else (httpsNetloc p.path).map (fun a => (a, "https://".toList ++ p.path))

/-- An identifier with a scheme (webfinger.py:117-144): authority and resource. -/
def withScheme (res : List Char) (p : Parts) : Except Exc (List Char × List Char) :=
  if p.scheme ≠ "http".toList ∧ p.scheme ≠ "https".toList ∧ p.scheme ≠ "acct".toList then
    (urlsplit ("https://".toList ++ res)).map (fun q => (q.netloc, withoutFragment q))
  else if p.scheme ≠ "acct".toList ∧ p.netloc = [] then .error .valueError
  else if p.scheme = "acct".toList then
    let path := ((Str.splitL '?' ((Str.splitL '/' p.path)[0]?.getD []))[0]?.getD [])
    if '@' ∈ path then
      .ok (((Str.splitL '#' (afterAt path))[0]?.getD []), withoutFragment p)
    else .error .valueError
  else .ok (p.netloc, withoutFragment p)

/-- Authority and normalised resource (webfinger.py:87-144). -/
def normalise (res : List Char) : Except Exc (List Char × List Char) :=
  match res with
  | [] => .error .indexError
  | c :: _ =>
    if c = '=' ∨ c = '@' ∨ c = '!' then .error .valueError
    else match urlsplit res with
      | .error _ => .error .valueError
      | .ok p => if p.scheme = [] then noScheme res p else withScheme res p

/-- `OIC_ISSUER` (oidc/__init__.py). (oidc/__init__.py:48) -/
def OIC_ISSUER : String := "http://openid.net/specs/connect/1.0/issuer"

/-- `query` (webfinger.py:79-149); the parameter order is that of oidcmsg's `WebFingerRequest`. -/
def query (res : String) : Except Exc String :=
  (normalise res.toList).map (fun r =>
    String.ofList ("https://".toList ++ r.1 ++ "/.well-known/webfinger?".toList ++
      Quote.urlencode [("rel", OIC_ISSUER), ("resource", String.ofList r.2)]))

/-- Which identifier is looked up (webfinger.py:156-165). -/
def resourceOf (ctx : Ctx) (req kwargs : Obj) : Except Exc Val :=
  match Dict.get? req "resource" with
  | some v => .ok v
  | none => match Dict.get? kwargs "resource" with
    | some v => .ok v
    | none => match Dict.get? ctx.config "resource" with
      | some v => .ok v
      | none => .error .missingRequiredAttribute

/-- `allow['http_links']` (webfinger.py:55-59). -/
def httpAllowed (conf : Obj) : Bool :=
  match Dict.get? conf "allow" with
  | some (.obj a) => Util.truthyO (Dict.get? a "http_links")
  | _ => false

/-- The loop of `update_service_context` (webfinger.py:52-66): the issuer taken, `none` if no link
has the relation. -/
def pickIssuer (conf : Obj) (rel : String) : List Val → Except Exc (Option String)
  | [] => .ok none
  | .obj link :: links =>
    match Dict.get? link "rel" with
    | none => .error .keyError
    | some r =>
      if r = .str rel then
        match Dict.get? link "href" with
        | none => .error .keyError
        | some (.str href) =>
          if Str.startsWith href "http://" && !httpAllowed conf then .error .valueError
          else .ok (some href)
        | some _ => .error .attributeError
      else pickIssuer conf rel links
  | _ :: _ => .error .typeError

/-- `update_service_context` (webfinger.py:46-67). -/
def update (conf : Obj) (rel : String) (resp : Obj) : Py Ctx Unit := fun ctx =>
  match Dict.get? resp "links" with
  | none => (.error .missingRequiredAttribute, ctx)
  | some (.list links) =>
    match pickIssuer conf rel links with
    | .error e => (.error e, ctx)
    | .ok none => (.ok (), ctx)
    | .ok (some i) => (.ok (), { ctx with issuer := i })
  | some _ => (.error .typeError, ctx)

end Verif.WebFinger
