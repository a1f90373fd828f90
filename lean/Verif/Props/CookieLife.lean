import Verif.Model.CookieDealer
import Verif.Props.Cookie
/-!
# C117: how long cookies live
-/

namespace Verif.Spec.Browser
open Verif Verif.Cookie

/-- A cookie of a browser is identified by name, domain and path (RFC 6265, 5.3). -/
def sameCookie (a b : SetCookie) : Bool := a.name == b.name && a.domain == b.domain && a.path == b.path

/-- Whether a browser still sends a cookie at a time.  (Without expiry: until the browser is closed.) -/
def alive (now : Int) (s : SetCookie) : Bool :=
  match s.expires with
  | none => true
  | some t => decide (now < t)

/-- A browser receives a cookie: it replaces the one of the same identity. -/
def receive (jar : List SetCookie) (s : SetCookie) : List SetCookie := s :: jar.filter (fun a => !sameCookie a s)

/-- The cookies a browser would send at a time. -/
def sends (now : Int) (jar : List SetCookie) : List SetCookie := jar.filter (alive now)

end Verif.Spec.Browser

namespace Verif.Props
open Verif Verif.Cookie Verif.Spec.Browser

/-- **C117**, lifetime.  A cookie made with a positive lifetime, given or the dealer's, is sent back by the browser from when
it was made until that many minutes later, and not after; it is not readable for scripts and is only sent encrypted; its
name, domain and path are those asked for or configured. -/
theorem C117_lifetime (c : Crypto) (srv : Server) (dealerTtl : Int) (value typ : String) (name : Option String) (ttl now : Int)
    (nowText : String) (iv : List UInt8) (minutes : Int)
    (hm : (0 ≤ ttl ∧ minutes = ttl) ∨ (ttl < 0 ∧ minutes = dealerTtl)) (hpos : 0 < minutes) :
    let s := dealerSetCookie c srv dealerTtl value typ name ttl false now nowText iv
    (∀ t, alive t s = true ↔ t < now + 60 * minutes) ∧ s.secure = true ∧ s.httpOnly = true ∧
      s.name = name.getD srv.cookieName ∧ s.domain = srv.cookieDomain.getD "" ∧ s.path = srv.cookiePath.getD "" := by
  intro s
  have hl : lifetime dealerTtl ttl false = minutes := by
    unfold lifetime
    rcases hm with ⟨h, rfl⟩ | ⟨h, rfl⟩
    · simp; omega
    · simp [h]
  refine ⟨fun t => ?_, rfl, rfl, rfl, rfl, rfl⟩
  have he : s.expires = some (now + 60 * minutes) := by
    show (if lifetime dealerTtl ttl false = 0 then none else some (expiration now (lifetime dealerTtl ttl false))) = _
    rw [hl, if_neg (by omega)]
    rfl
  unfold alive
  rw [he]
  simp

/-- **C117**, deletion.  When the browser receives what `delete_cookie` makes, it no longer sends any cookie of that name that
was made for the same server — whatever its lifetime —, from that moment on; all other cookies are sent as before. -/
theorem C117_deleted (c : Crypto) (srv : Server) (dealerTtl : Int) (name : Option String) (now : Int) (nowText : String)
    (iv : List UInt8) (jar : List SetCookie) (t : Int) (ht : now ≤ t) (s : SetCookie) :
    s ∈ sends t (receive jar (deleteCookie c srv dealerTtl name now nowText iv)) ↔
      s ∈ sends t jar ∧ ¬ (s.name = name.getD srv.cookieName ∧ s.domain = srv.cookieDomain.getD "" ∧ s.path = srv.cookiePath.getD "") := by
  have hd : alive t (deleteCookie c srv dealerTtl name now nowText iv) = false := by
    have he : (deleteCookie c srv dealerTtl name now nowText iv).expires = some (now + 60 * (-1)) := rfl
    unfold alive
    rw [he]
    simp
    omega
  unfold sends receive
  rw [List.filter_cons, if_neg (by simp [hd])]
  simp only [List.mem_filter, sameCookie]
  have e1 : (deleteCookie c srv dealerTtl name now nowText iv).name = name.getD srv.cookieName := rfl
  have e2 : (deleteCookie c srv dealerTtl name now nowText iv).domain = srv.cookieDomain.getD "" := rfl
  have e3 : (deleteCookie c srv dealerTtl name now nowText iv).path = srv.cookiePath.getD "" := rfl
  rw [e1, e2, e3]
  simp only [Bool.not_eq_true', Bool.and_eq_false_iff, beq_eq_false_iff_ne]
  constructor
  · rintro ⟨⟨h1, h2⟩, h3⟩
    exact ⟨⟨h1, h3⟩, fun ⟨a, b, d⟩ => by rcases h2 with (h | h) | h <;> contradiction⟩
  · rintro ⟨⟨h1, h3⟩, h2⟩
    refine ⟨⟨h1, ?_⟩, h3⟩
    by_cases ha : s.name = name.getD srv.cookieName
    · by_cases hb : s.domain = srv.cookieDomain.getD ""
      · exact Or.inr fun hc => h2 ⟨ha, hb, hc⟩
      · exact Or.inl (Or.inr hb)
    · exact Or.inl (Or.inl ha)

/-- **C117**, the keys.  A dealer never works with an empty text as key, and has a seed; a seed that was there is kept, so another
dealer for the same server can read the cookies. -/
theorem C117_keys (rnd : List UInt8) (hr : rnd ≠ []) (srv srv' : Server) (h : initSrv rnd srv = .ok srv') :
    srv'.symkey ≠ some (.text "") ∧ srv'.symkey = srv.symkey ∧ (∃ s, srv'.seed = some s ∧ s ≠ []) ∧
      (∀ s, srv.seed = some s → s ≠ [] → srv'.seed = some s) ∧ ∀ rnd', initSrv rnd' srv' = .ok srv' := by
  unfold initSrv at h
  split at h
  · cases h
  next hk =>
    have key : ∀ q : Server, q.symkey ≠ some (.text "") → (∃ s, q.seed = some s ∧ s ≠ []) → ∀ rnd', initSrv rnd' q = .ok q := by
      rintro q h1 ⟨s, h2, h3⟩ rnd'
      unfold initSrv
      rw [if_neg h1, h2, if_neg (by simpa using h3)]
    split at h
    · next he =>
      injection h with h
      subst h
      refine ⟨hk, rfl, ⟨rnd, rfl, hr⟩, fun s hs hne => ?_, key _ hk ⟨rnd, rfl, hr⟩⟩
      rw [hs] at he
      exact absurd he hne
    · next he =>
      injection h with h
      subst h
      have : ∃ s, srv.seed = some s ∧ s ≠ [] := by
        cases hs : srv.seed with
        | none => rw [hs] at he; exact absurd rfl he
        | some s => rw [hs] at he; exact ⟨s, rfl, he⟩
      exact ⟨hk, rfl, this, fun s hs _ => hs, key _ hk this⟩

/-- **C117** is violated for keys that are bytes: the check for empty keys lets the empty bytes through, and cookies are then
written unencrypted: the value, its time and type can be read in it. -/
theorem C117_empty_key_violated (c : Crypto) (rnd : List UInt8) (srv : Server) (dealerTtl : Int) (value typ : String)
    (name : Option String) (ttl now : Int) (kill : Bool) (nowText : String) (iv : List UInt8)
    (hk : srv.symkey = some (.bytes [])) (hs : srv.seed.getD [] ≠ []) :
    initSrv rnd srv = .ok srv ∧
      Str.startsWith (dealerSetCookie c srv dealerTtl value typ name ttl kill now nowText iv).value
        (value ++ "::" ++ nowText ++ "::" ++ typ ++ "|") = true := by
  constructor
  · unfold initSrv
    rw [hk, if_neg (by decide), if_neg hs]
  · have e : (dealerSetCookie c srv dealerTtl value typ name ttl kill now nowText iv).value =
        makeCookie c (dealerPayload value nowText typ) (srv.seed.getD []) nowText [] nowText iv := by
      unfold dealerSetCookie makeSetCookie
      rw [hk]
      rfl
    rw [e]
    refine (Str.startsWith_iff _ _).2 ⟨String.ofList ((if nowText = "" then nowText else nowText).toList ++
      '|' :: (cookieSignature c (srv.seed.getD []) [dealerPayload value nowText typ, if nowText = "" then nowText else nowText]).toList), ?_⟩
    unfold makeCookie
    rw [if_neg (by simp)]
    apply String.toList_inj.1
    simp [dealerPayload]

/-- **C117** is violated for a lifetime of 0 minutes: such a cookie does not end now, it stays until the browser is closed. -/
theorem C117_zero_violated (c : Crypto) (srv : Server) (dealerTtl : Int) (value typ : String) (name : Option String) (now : Int)
    (nowText : String) (iv : List UInt8) (t : Int) :
    alive t (dealerSetCookie c srv dealerTtl value typ name 0 false now nowText iv) = true := by
  rfl

/-- **C117** is violated by whoever keeps cookies: the end of its lifetime is told to the browser only.  What the dealer reads
from the value of a cookie does not depend on the lifetime it was made with (nor on the time it is read): the value is
accepted after its end, whatever that was. -/
theorem C117_kept_violated (c : Crypto) (srv : Server) (dealerTtl : Int) (value typ : String) (name : Option String)
    (ttl now : Int) (kill : Bool) (nowText : String) (iv : List UInt8)
    (hk : keyBytes srv.symkey = []) (hmac : ∀ k d, '|' ∉ (c.mac k d).toList) (hne : nowText ≠ "")
    (hv : Str.containsL [':', ':'] (value.toList ++ [':']) = false)
    (hts : Str.containsL [':', ':'] (nowText.toList ++ [':']) = false)
    (htyp : Str.containsL [':', ':'] typ.toList = false)
    (pv : '|' ∉ value.toList) (pn : '|' ∉ nowText.toList) (pt : '|' ∉ typ.toList) :
    dealerRead c srv (dealerSetCookie c srv dealerTtl value typ name ttl kill now nowText iv).value =
      .ok (some (value, nowText, typ)) := by
  unfold dealerRead
  rw [hk]
  have : (dealerSetCookie c srv dealerTtl value typ name ttl kill now nowText iv).value =
      dealerCreate c (srv.seed.getD []) [] value typ nowText iv := by
    unfold dealerSetCookie makeSetCookie dealerCreate
    rw [hk]
  rw [this]
  exact C58_roundtrip_signed_partial c (srv.seed.getD []) iv value typ nowText hmac hne hv hts htyp pv pn pt

/-! ## Examples -/

/-- A server with a name for its cookies and a path. -/
def shop : Server := { cookieName := "shop", cookiePath := some "/app", seed := some [1, 2, 3] }

/-- Some cryptography. -/
def plainCrypto : Crypto where
  mac := fun _ d => String.ofList (Base64.encode false d)
  hash := id
  aeadEnc := fun _ _ d _ => d
  aeadDec := fun _ _ d _ => some d

/-- Non-vacuity: a cookie of the dealer's five minutes, read back after a year, and deleted while another one stays. -/
example :
    let s := dealerSetCookie plainCrypto shop 5 "alice" "sso" none (-1) false 1000 "1000" []
    let other := dealerSetCookie plainCrypto shop 5 "x" "y" (some "other") 60 false 1000 "1000" []
    alive 1299 s = true ∧ alive 1300 s = false ∧
    dealerRead plainCrypto shop s.value = .ok (some ("alice", "1000", "sso")) ∧
    sends 1100 [s, other] = [s, other] ∧
    sends 1100 (receive [s, other] (deleteCookie plainCrypto shop 5 none 1100 "1100" [])) = [other] := by
  refine ⟨by decide, by decide, ?_, by decide +kernel, by decide +kernel⟩
  refine C117_kept_violated plainCrypto shop 5 "alice" "sso" none (-1) 1000 false "1000" [] rfl ?_ (by decide) (by decide)
    (by decide) (by decide) (by decide) (by decide) (by decide)
  intro k d
  simp only [plainCrypto, String.toList_ofList]
  exact encode_nopipe d

end Verif.Props
