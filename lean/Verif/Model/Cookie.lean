import Verif.Py.Base64
import Verif.Py.Exc
/-!
# Model of src/oidcrp/cookie.py

The cookie *value* is modelled (the text between `name=` and the first `;`).  Not modelled: the
`SimpleCookie` rendering (name, attributes, quoting of special characters), which is assumed to
hand the value over unchanged.  HMAC-SHA1, SHA-256 and AES-GCM are external functions (`Crypto`).
Keys and payloads are text or bytes; `as_bytes` is UTF-8 encoding.
-/

namespace Verif.Cookie
open Verif

/-- The external cryptographic functions. (hmac, hashlib and AES-GCM as used in cookie.py:61-106, 163-176, 237-254) -/
structure Crypto where
  /-- `hmac.new(key, digestmod=sha1)` over the data, as hexdigest -/
  mac : List UInt8 → List UInt8 → String
  /-- `hashlib.sha256(data).digest()` -/
  hash : List UInt8 → List UInt8
  /-- `AESGCM(key).encrypt(iv, data, aad)`: ciphertext followed by a 16 byte tag -/
  aeadEnc : (key iv data aad : List UInt8) → List UInt8
  /-- `AESGCM(key).decrypt(iv, ct, aad)`; `none` is `cryptography.exceptions.InvalidTag` -/
  aeadDec : (key iv ct aad : List UInt8) → Option (List UInt8)

/-- `safe_str_cmp` (cookie.py:36-43). -/
def safeStrCmp (a b : String) : Bool :=
  if a.toList.length ≠ b.toList.length then false
  else ((a.toList.zip b.toList).foldl (fun r p => r ||| (p.1.toNat ^^^ p.2.toNat)) 0) == 0

/-- `cookie_signature` (cookie.py:61-75): the parts are fed to the MAC one after the other, without
separator. -/
def cookieSignature (c : Crypto) (key : List UInt8) (parts : List String) : String :=
  c.mac key (parts.flatMap Quote.utf8)

/-- `verify_cookie_signature` (cookie.py:78-88). -/
def verifyCookieSignature (c : Crypto) (sig : String) (key : List UInt8) (parts : List String) : Bool :=
  safeStrCmp sig (cookieSignature c key parts)

/-- `_make_hashed_key` (cookie.py:91-105). -/
def makeHashedKey (c : Crypto) (encKey seed : List UInt8) : List UInt8 := c.hash (encKey ++ seed)

/-- `split_ctx_and_tag` (cryptojwt, external): the last 16 bytes are the tag. (used in cookie.py:168) -/
def splitTag (ct : List UInt8) : List UInt8 × List UInt8 :=
  (ct.take (ct.length - 16), ct.drop (ct.length - 16))

/-- The value of the cookie `make_cookie` builds (cookie.py:108-181).  `encKey = []` is no (or an
empty) key; `now` is `str(int(time.time()))`; `iv` is `os.urandom(12)`. -/
def makeCookie (c : Crypto) (load : String) (seed : List UInt8) (timestamp : String)
    (encKey : List UInt8) (now : String) (iv : List UInt8) : String :=
  let ts := if timestamp = "" then now else timestamp
  if encKey ≠ [] then
    let ct := splitTag (c.aeadEnc (makeHashedKey c encKey seed) iv (Quote.utf8 load) (Quote.utf8 ts))
    String.ofList (ts.toList ++ '|' :: Base64.encode false iv ++ '|' :: Base64.encode false ct.1 ++
      '|' :: Base64.encode false ct.2)
  else
    String.ofList (load.toList ++ '|' :: ts.toList ++
      '|' :: (cookieSignature c seed [load, ts]).toList)

/-- `bytes.decode('utf-8')`. (used in cookie.py:180, 254) -/
def decodeStrict (bs : List UInt8) : Except Exc String :=
  match String.fromUTF8? ⟨bs.toArray⟩ with
  | some s => .ok s
  | none => .error .valueError

/-- `parse_cookie` on a cookie value (cookie.py:203-255, 258-272).  Simplification: `b64decode`
skips characters outside the alphabet, the model rejects them. A failing decryption raises
`InvalidTag`, which is not the `JWEException` the code catches. -/
def parseCookie (c : Crypto) (seed : List UInt8) (value : String) (encKey : List UInt8) :
    Except Exc (Option (String × String)) :=
  match Str.split value '|' with
  | [cleartext, timestamp, sig] =>
    if verifyCookieSignature c sig seed [cleartext, timestamp] then .ok (some (cleartext, timestamp))
    else .error .invalidCookieSign
  | [timestamp, iv64, ct64, tag64] =>
    match Base64.decode false iv64.toList, Base64.decode false ct64.toList,
        Base64.decode false tag64.toList with
    | some iv, some ct, some tag =>
      match c.aeadDec (makeHashedKey c encKey seed) iv (ct ++ tag) (Quote.utf8 timestamp) with
      | none => .error (.external "InvalidTag")
      | some pt => (decodeStrict pt).map (fun s => some (s, timestamp))
    | _, _, _ => .error (.external "binascii.Error")
  | _ => .ok none

/-- `s.split("::")` on code points. (used in cookie.py:389) -/
def splitCC : List Char → List (List Char)
  | [] => [[]]
  | ':' :: ':' :: s => [] :: splitCC s
  | d :: s =>
    match splitCC s with
    | [] => [[d]]
    | w :: ws => (d :: w) :: ws

/-- The payload `CookieDealer.create_cookie` builds (cookie.py:355-360), for a text value. -/
def dealerPayload (value timestamp typ : String) : String :=
  value ++ "::" ++ timestamp ++ "::" ++ typ

/-- `CookieDealer.create_cookie` (cookie.py:324-369): the value of the cookie. -/
def dealerCreate (c : Crypto) (seed symkey : List UInt8) (value typ now : String) (iv : List UInt8) :
    String :=
  makeCookie c (dealerPayload value now typ) seed now symkey now iv

/-- `CookieDealer.get_cookie_value` (cookie.py:371-392) on a cookie value.  Unpacking `None` raises
the `TypeError` that is caught; unpacking the wrong number of parts raises `ValueError`. -/
def dealerGet (c : Crypto) (seed symkey : List UInt8) (cookie : String) :
    Except Exc (Option (String × String × String)) :=
  match parseCookie c seed cookie symkey with
  | .error e => .error e
  | .ok none => .ok none
  | .ok (some (info, timestamp)) =>
    match (splitCC info.toList).map String.ofList with
    | [value, ts, typ] => if timestamp = ts then .ok (some (value, ts, typ)) else .ok none
    | _ => .error .valueError

end Verif.Cookie
