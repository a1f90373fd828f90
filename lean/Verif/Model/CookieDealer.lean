import Verif.Model.Cookie
/-!
# Model of the attributes of the cookies made by src/oidcrp/cookie.py, and of `CookieDealer`

`SimpleCookie`'s rendering is not modelled: a cookie is the record of what is rendered.  Times are seconds.
-/

namespace Verif.Cookie
open Verif

/-- What a `Set-Cookie` header says. (cookie.py:180-200) -/
structure SetCookie where
  name : String
  value : String
  path : String := ""
  domain : String := ""
  /-- `expires`; `none` if it is not set -/
  expires : Option Int := none
  secure : Bool := false
  httpOnly : Bool := false
  sameSite : String := ""
  deriving DecidableEq, Inhabited, Repr

/-- `_expiration` for a number of minutes (cookie.py:46-58; `in_a_while` is external: now and that many minutes). -/
def expiration (now minutes : Int) : Int := now + 60 * minutes

/-- `make_cookie` (cookie.py:108-200): the value is that of `makeCookie`; the attributes, 0 minutes are no expiry. -/
def makeSetCookie (c : Crypto) (name load : String) (seed : List UInt8) (expire : Int) (domain path timestamp : String)
    (encKey : List UInt8) (secure httpOnly : Bool) (sameSite : String) (now : Int) (nowText : String) (iv : List UInt8) : SetCookie :=
  { name := name
    value := makeCookie c load seed timestamp encKey nowText iv
    path := path
    domain := domain
    expires := if expire = 0 then none else some (expiration now expire)
    secure := secure
    httpOnly := httpOnly
    sameSite := sameSite }

/-- A key of a server: a text or bytes. -/
inductive Key where
  | text (s : String)
  | bytes (b : List UInt8)
  deriving DecidableEq, Inhabited

/-- The bytes of a key; without key none.  (Encryption takes bytes: a text that is not empty fails there in the code.) -/
def keyBytes : Option Key → List UInt8
  | none => []
  | some (.text s) => Quote.utf8 s
  | some (.bytes b) => b

/-- The server a `CookieDealer` works for: the attributes it looks at.  An attribute that is missing or `None` is `none`
(without any `symkey` attribute `create_cookie` raises, which is not modelled). (cookie.py:292-313, 343-356) -/
structure Server where
  cookieName : String := ""
  cookieDomain : Option String := none
  cookiePath : Option String := none
  symkey : Option Key := none
  seed : Option (List UInt8) := none
  deriving Inhabited

/-- `CookieDealer.init_srv` (cookie.py:294-313): an empty text as key is refused, a missing (or empty) seed is made up. -/
def initSrv (rnd : List UInt8) (srv : Server) : Except Exc Server :=
  if srv.symkey = some (.text "") then .error (.external "ImproperlyConfigured")
  else if srv.seed.getD [] = [] then .ok { srv with seed := some rnd } else .ok srv

/-- The lifetime of a cookie in minutes (cookie.py:333-336). -/
def lifetime (dealerTtl ttl : Int) (kill : Bool) : Int :=
  if kill then -1 else if ttl < 0 then dealerTtl else ttl

/-- `CookieDealer.create_cookie` (cookie.py:324-369), for a text value.  `nowText` is the time as text. -/
def dealerSetCookie (c : Crypto) (srv : Server) (dealerTtl : Int) (value typ : String) (cookieName : Option String)
    (ttl : Int) (kill : Bool) (now : Int) (nowText : String) (iv : List UInt8) : SetCookie :=
  makeSetCookie c (cookieName.getD srv.cookieName) (dealerPayload value nowText typ) (srv.seed.getD []) (lifetime dealerTtl ttl kill)
    (srv.cookieDomain.getD "") (srv.cookiePath.getD "") nowText (keyBytes srv.symkey) true true "" now nowText iv

/-- `CookieDealer.delete_cookie` (cookie.py:315-322). -/
def deleteCookie (c : Crypto) (srv : Server) (dealerTtl : Int) (cookieName : Option String) (now : Int) (nowText : String)
    (iv : List UInt8) : SetCookie :=
  dealerSetCookie c srv dealerTtl "" "" cookieName (-1) true now nowText iv

/-- `CookieDealer.get_cookie_value` with the server's keys (cookie.py:371-392); the lifetime is not looked at. -/
def dealerRead (c : Crypto) (srv : Server) (cookie : String) : Except Exc (Option (String × String × String)) :=
  dealerGet c (srv.seed.getD []) (keyBytes srv.symkey) cookie

end Verif.Cookie
