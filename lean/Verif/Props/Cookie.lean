import Verif.Lemmas.Cookie
/-!
# C54–C58: cookies (src/oidcrp/cookie.py)

`Crypto` (MAC, hash, AEAD) is universally quantified: every theorem holds for every such function,
with the assumptions on it spelled out as hypotheses.
-/

namespace Verif.Props
open Verif Verif.Cookie

/-! ## C54: constant time comparison -/

/-- **C54** `safe_str_cmp(a, b)` is `True` exactly if `a == b`. -/
theorem C54_safe_str_cmp (a b : String) : safeStrCmp a b = true ↔ a = b := safeStrCmp_iff a b

example : safeStrCmp "abc" "abd" = false ∧ safeStrCmp "abc" "abc" = true := by decide

/-! ## C55: round trip -/

/-- The effective timestamp of `make_cookie`. -/
def effectiveTs (timestamp now : String) : String := if timestamp = "" then now else timestamp

/-- **C55 (signed)** A cookie made without encryption key is parsed back to its payload and
timestamp, whatever key the parser has for encryption – if payload and timestamp are free of `|`
(and the MAC's hexdigest is). -/
theorem C55_signed_partial (c : Crypto) (load timestamp now : String) (seed encKey iv : List UInt8)
    (hmac : ∀ k d, '|' ∉ (c.mac k d).toList)
    (hl : '|' ∉ load.toList) (ht : '|' ∉ (effectiveTs timestamp now).toList) :
    parseCookie c seed (makeCookie c load seed timestamp [] now iv) encKey =
      .ok (some (load, effectiveTs timestamp now)) := by
  unfold effectiveTs at *
  unfold makeCookie parseCookie
  rw [if_neg (by simp)]
  try simp only []
  rw [split3 load.toList _ (cookieSignature c seed [load, if timestamp = "" then now else timestamp]).toList hl ht (hmac _ _)]
  simp only [String.ofList_toList]
  have : verifyCookieSignature c (cookieSignature c seed [load, if timestamp = "" then now else timestamp])
      seed [load, if timestamp = "" then now else timestamp] = true := (safeStrCmp_iff _ _).2 rfl
  rw [if_pos this]

/-- **C55 (encrypted)** A cookie made with an encryption key is parsed back to its payload and
timestamp by the same keys, for *every* payload; the timestamp must be free of `|`.  `haead` is the
correctness of AES-GCM. -/
theorem C55_encrypted (c : Crypto) (load timestamp now : String) (seed encKey iv : List UInt8)
    (haead : ∀ key iv data aad, c.aeadDec key iv (c.aeadEnc key iv data aad) aad = some data)
    (hk : encKey ≠ []) (ht : '|' ∉ (effectiveTs timestamp now).toList) :
    parseCookie c seed (makeCookie c load seed timestamp encKey now iv) encKey =
      .ok (some (load, effectiveTs timestamp now)) := by
  unfold effectiveTs at *
  unfold makeCookie parseCookie
  rw [if_pos hk]
  simp only []
  rw [split4 _ _ _ _ ht (encode_nopipe _) (encode_nopipe _) (encode_nopipe _)]
  simp only [String.toList_ofList, Base64.decode_encode, splitTag_append, String.ofList_toList, haead,
    decodeStrict_utf8]
  rfl

/-- **C55 fails** for a signed cookie whose payload contains exactly one `|`: the parser reads four
parts, takes it for an encrypted cookie and never returns the payload. (`base64`/AEAD decoding of
`x` is attempted; here it is no base64 at all.) -/
theorem C55_signed_violated (c : Crypto) (seed encKey iv : List UInt8)
    (hmac : ∀ k d, '|' ∉ (c.mac k d).toList) (r : Option (String × String)) :
    parseCookie c seed (makeCookie c "x|y" seed "1" [] "1" iv) encKey ≠ .ok r := by
  unfold makeCookie parseCookie
  rw [if_neg (by simp)]
  simp only [if_neg (show ¬ ("1" : String) = "" by decide)]
  have h : ("x|y".toList ++ '|' :: "1".toList ++
      '|' :: (cookieSignature c seed ["x|y", "1"]).toList) = ['x'] ++ '|' :: ['y'] ++ '|' :: ['1'] ++
      '|' :: (cookieSignature c seed ["x|y", "1"]).toList := by rfl
  rw [h, split4 _ _ _ _ (by decide) (by decide) (by decide) (show '|' ∉ (cookieSignature c seed ["x|y", "1"]).toList from hmac _ _)]
  simp only [String.toList_ofList]
  rw [show Base64.decode false ['y'] = none by decide]
  intro h; cases h

/-- The hypotheses can be met: a MAC without `|`, an AEAD that decrypts what it encrypted. -/
def toyCrypto : Crypto where
  mac k d := if k = d then "00" else "11"
  hash d := d
  aeadEnc _ _ d _ := d
  aeadDec _ _ d _ := some d

example : (∀ k d, '|' ∉ (toyCrypto.mac k d).toList) ∧
    (∀ key iv data aad, toyCrypto.aeadDec key iv (toyCrypto.aeadEnc key iv data aad) aad = some data) :=
  ⟨fun k d => by unfold toyCrypto; simp only; split <;> decide, fun _ _ _ _ => rfl⟩

/-! ## C56: tampering -/

/-- **C56 (signed)** Whatever text arrives: it is accepted with payload `p` and timestamp `t` through
the signed format *iff* its third part is the MAC, under the signing key, of `p` followed by `t`;
with any other third part it is refused with `InvalidCookieSign`. -/
theorem C56_signed (c : Crypto) (seed encKey : List UInt8) (p t sig : String)
    (hp : '|' ∉ p.toList) (ht : '|' ∉ t.toList) (hs : '|' ∉ sig.toList) :
    let value := String.ofList (p.toList ++ '|' :: t.toList ++ '|' :: sig.toList)
    (sig = c.mac seed (Quote.utf8 p ++ Quote.utf8 t) →
      parseCookie c seed value encKey = .ok (some (p, t))) ∧
    (sig ≠ c.mac seed (Quote.utf8 p ++ Quote.utf8 t) →
      parseCookie c seed value encKey = .error .invalidCookieSign) := by
  intro value
  have hv : value = String.ofList (p.toList ++ '|' :: t.toList ++ '|' :: sig.toList) := rfl
  have key : parseCookie c seed value encKey =
      if sig = c.mac seed (Quote.utf8 p ++ Quote.utf8 t) then .ok (some (p, t))
      else .error .invalidCookieSign := by
    unfold parseCookie
    rw [hv, split3 _ _ _ hp ht hs]
    simp only [String.ofList_toList, verifyCookieSignature, safeStrCmp_iff, cookieSignature,
      List.flatMap_cons, List.flatMap_nil, List.append_nil]
  constructor
  · intro h; rw [key, if_pos h]
  · intro h; rw [key, if_neg h]

/-- **C56 (accepted means authenticated)** For *every* text: if it is accepted as `(p, t)` then it
carries the MAC of `p ++ t` as third of three parts, or the decryption – with the timestamp `t` as
associated data – under the combined key succeeded and gave `p`. -/
theorem C56_accepted_authentic (c : Crypto) (seed encKey : List UInt8) (value p t : String)
    (h : parseCookie c seed value encKey = .ok (some (p, t))) :
    (∃ sig, Str.split value '|' = [p, t, sig] ∧ sig = c.mac seed (Quote.utf8 p ++ Quote.utf8 t)) ∨
    (∃ a b d iv ct tag, Str.split value '|' = [t, a, b, d] ∧
      Base64.decode false a.toList = some iv ∧ Base64.decode false b.toList = some ct ∧
      Base64.decode false d.toList = some tag ∧
      ∃ pt, c.aeadDec (c.hash (encKey ++ seed)) iv (ct ++ tag) (Quote.utf8 t) = some pt ∧
        decodeStrict pt = .ok p) := by
  unfold parseCookie at h
  split at h
  · next p' t' sig hsp =>
    split at h
    · next hv =>
      have := (safeStrCmp_iff _ _).1 hv
      simp only [Except.ok.injEq, Option.some.injEq, Prod.mk.injEq] at h
      obtain ⟨rfl, rfl⟩ := h
      refine .inl ⟨sig, hsp, ?_⟩
      simpa [cookieSignature] using this
    · cases h
  · next t' a b d hsp =>
    split at h
    · next iv ct tag ha hb hd =>
      split at h
      · cases h
      · next pt hdec =>
        cases hs : decodeStrict pt with
        | error e => rw [hs] at h; cases h
        | ok s =>
          rw [hs] at h
          simp only [Except.map, Except.ok.injEq, Option.some.injEq, Prod.mk.injEq] at h
          obtain ⟨rfl, rfl⟩ := h
          exact .inr ⟨a, b, d, iv, ct, tag, hsp, ha, hb, hd, pt, hdec, hs⟩
    · cases h
  · cases h

/-- **C56 (changed content)** Take the tag of a genuine cookie `(p, t)` and put it on another payload
and timestamp: accepted only if the concatenated content is the same or the MAC collides. -/
theorem C56_changed_content (c : Crypto) (seed encKey : List UInt8) (p t p' t' : String)
    (hp : '|' ∉ p'.toList) (ht : '|' ∉ t'.toList) (hmac : ∀ k d, '|' ∉ (c.mac k d).toList)
    (hne : p.toList ++ t.toList ≠ p'.toList ++ t'.toList)
    (hcoll : ∀ d d', c.mac seed d = c.mac seed d' → d = d') :
    parseCookie c seed (String.ofList (p'.toList ++ '|' :: t'.toList ++ '|' ::
      (c.mac seed (Quote.utf8 p ++ Quote.utf8 t)).toList)) encKey = .error .invalidCookieSign := by
  refine (C56_signed c seed encKey p' t' _ hp ht (hmac _ _)).2 ?_
  intro h
  have h' := hcoll _ _ h
  apply hne
  have e : ∀ a b : String, Quote.utf8 a ++ Quote.utf8 b = Quote.utf8 (a ++ b) := by
    intro a b; simp [Quote.utf8, String.toByteArray_append]
  rw [e, e] at h'
  have := Quote.utf8_inj h'
  rw [← String.toList_append, ← String.toList_append, this]

/-- **C56 (encrypted)** A four part cookie whose ciphertext, tag, IV or timestamp does not
authenticate is not accepted.  (The exception is AES-GCM's `InvalidTag`; the `InvalidCookieSign`
announced by the code is raised only for the signed format.) -/
theorem C56_encrypted (c : Crypto) (seed encKey iv ct tag : List UInt8) (t : String)
    (ht : '|' ∉ t.toList)
    (hbad : c.aeadDec (c.hash (encKey ++ seed)) iv (ct ++ tag) (Quote.utf8 t) = none) :
    parseCookie c seed (String.ofList (t.toList ++ '|' :: Base64.encode false iv ++
      '|' :: Base64.encode false ct ++ '|' :: Base64.encode false tag)) encKey =
      .error (.external "InvalidTag") := by
  unfold parseCookie
  rw [split4 _ _ _ _ ht (encode_nopipe _) (encode_nopipe _) (encode_nopipe _)]
  simp only [String.toList_ofList, Base64.decode_encode, String.ofList_toList, makeHashedKey, hbad]

/-- **C56 (any other shape)** A value that has neither three nor four parts is not accepted. -/
theorem C56_other_shape (c : Crypto) (seed encKey : List UInt8) (value : String)
    (h3 : (Str.split value '|').length ≠ 3) (h4 : (Str.split value '|').length ≠ 4) :
    parseCookie c seed value encKey = .ok none := by
  unfold parseCookie
  split
  · next h => rw [h] at h3; exact absurd rfl h3
  · next h => rw [h] at h4; exact absurd rfl h4
  · rfl

/-- The collision hypothesis of `C56_changed_content` can be met: an injective "MAC". -/
example : ∃ mac : List UInt8 → List UInt8 → String,
    (∀ k d, '|' ∉ (mac k d).toList) ∧ ∀ s d d', mac s d = mac s d' → d = d' := by
  refine ⟨fun _ d => String.ofList (Base64.encode false d), fun _ d => ?_, fun _ d d' h => ?_⟩
  · rw [String.toList_ofList]; exact encode_nopipe d
  · have h' := congrArg String.toList h
    simp only [String.toList_ofList] at h'
    exact Base64.encode_inj _ h'

/-! ## C57: the boundary between payload and timestamp -/

/-- **C57 fails**: for *every* genuine signed cookie with payload `p ++ [x]` and timestamp `t`, moving
the last character of the payload to the front of the timestamp gives another cookie that verifies
under the same tag – and is accepted with a different payload and timestamp. -/
theorem C57_boundary_violated (c : Crypto) (seed encKey iv : List UInt8) (p t now : List Char)
    (x : Char) (hmac : ∀ k d, '|' ∉ (c.mac k d).toList)
    (hp : '|' ∉ p) (ht : '|' ∉ t) (hx : x ≠ '|') (hne : t ≠ []) :
    ∃ sig : String,
      makeCookie c (String.ofList (p ++ [x])) seed (String.ofList t) [] (String.ofList now) iv =
        String.ofList ((p ++ [x]) ++ '|' :: t ++ '|' :: sig.toList) ∧
      parseCookie c seed (String.ofList (p ++ '|' :: (x :: t) ++ '|' :: sig.toList)) encKey =
        .ok (some (String.ofList p, String.ofList (x :: t))) := by
  refine ⟨c.mac seed (Quote.utf8 (String.ofList (p ++ [x])) ++ Quote.utf8 (String.ofList t)), ?_, ?_⟩
  · unfold makeCookie
    have hts : String.ofList t ≠ "" := by
      intro h; apply hne
      have := congrArg String.toList h
      simpa using this
    rw [if_neg (by simp)]
    simp [hts, cookieSignature]
  · have hxt : '|' ∉ (String.ofList (x :: t)).toList := by
      simp only [String.toList_ofList, List.mem_cons, not_or]; exact ⟨Ne.symm hx, ht⟩
    have := (C56_signed c seed encKey (String.ofList p) (String.ofList (x :: t)) _
      (by rw [String.toList_ofList]; exact hp) hxt
      (hmac seed (Quote.utf8 (String.ofList (p ++ [x])) ++ Quote.utf8 (String.ofList t)))).1 ?_
    · rwa [String.toList_ofList, String.toList_ofList] at this
    · congr 1
      have e : ∀ a b : String, Quote.utf8 a ++ Quote.utf8 b = Quote.utf8 (a ++ b) := by
        intro a b; simp [Quote.utf8, String.toByteArray_append]
      rw [e, e]
      congr 1
      apply String.toList_inj.1
      simp

/-- **C57 (what saves the dealer)** A `CookieDealer` cookie repeats the timestamp inside the payload.
If a genuine dealer payload `value::ts::typ` and timestamp `ts` are cut at *any* other place, the
dealer never returns a value for it. -/
theorem C57_dealer_partial (c : Crypto) (seed symkey : List UInt8) (value ts typ : String)
    (hv : Str.containsL [':', ':'] (value.toList ++ [':']) = false)
    (hts : Str.containsL [':', ':'] (ts.toList ++ [':']) = false)
    (p t sig : String) (hp : '|' ∉ p.toList) (ht : '|' ∉ t.toList) (hs : '|' ∉ sig.toList)
    (hsame : p.toList ++ t.toList = (dealerPayload value ts typ).toList ++ ts.toList)
    (hshift : t ≠ ts) (r : String × String × String) :
    dealerGet c seed symkey (String.ofList (p.toList ++ '|' :: t.toList ++ '|' :: sig.toList)) ≠
      .ok (some r) := by
  intro h
  unfold dealerGet at h
  have key := C56_signed c seed symkey p t sig hp ht hs
  simp only at key
  by_cases hsig : sig = c.mac seed (Quote.utf8 p ++ Quote.utf8 t)
  · rw [key.1 hsig] at h
    simp only at h
    split at h
    · next v' ts' typ' hsplit =>
      split at h
      · next heq =>
        -- the second field of the shifted payload is `ts`
        have hlen : ∃ a b d, splitCC p.toList = [a, b, d] ∧ String.ofList b = ts' := by
          generalize hg : splitCC p.toList = l at hsplit
          match l, hsplit with
          | [a, b, d], hsplit =>
            simp only [List.map_cons, List.map_nil, List.cons.injEq] at hsplit
            exact ⟨a, b, d, rfl, hsplit.2.1⟩
        obtain ⟨a, b, d, hl, hb⟩ := hlen
        obtain ⟨r', h1, h2⟩ := splitCC_append p.toList t.toList a b [d] hl
        obtain ⟨r'', h3⟩ := h2 [] d rfl
        have hfull : splitCC ((dealerPayload value ts typ).toList ++ ts.toList) =
            value.toList :: ts.toList :: splitCC (typ.toList ++ ts.toList) := by
          have : (dealerPayload value ts typ).toList ++ ts.toList =
              value.toList ++ ':' :: ':' :: (ts.toList ++ ':' :: ':' :: (typ.toList ++ ts.toList)) := by
            unfold dealerPayload
            simp
          rw [this, splitCC_field _ _ hv, splitCC_field _ _ hts]
        rw [hsame, hfull, h3] at h1
        simp only [List.cons.injEq] at h1
        apply hshift
        rw [heq, ← hb, ← h1.2.1, String.ofList_toList]
      · cases h
    · cases h
  · rw [key.2 hsig] at h
    cases h

/-- The hypotheses of `C57_dealer_partial` can be met by a real shift. -/
example : (("v::1::" : String).toList ++ ("t1" : String).toList =
      (dealerPayload "v" "1" "t").toList ++ ("1" : String).toList) ∧ ("t1" : String) ≠ "1" ∧
    Str.containsL [':', ':'] (("v" : String).toList ++ [':']) = false ∧
    Str.containsL [':', ':'] (("1" : String).toList ++ [':']) = false := by decide

/-! ## C58: the cookie dealer -/

private theorem payload_toList (value ts typ : String) :
    (dealerPayload value ts typ).toList =
      value.toList ++ ':' :: ':' :: (ts.toList ++ ':' :: ':' :: typ.toList) := by
  unfold dealerPayload; simp

private theorem split_payload (value ts typ : String)
    (hv : Str.containsL [':', ':'] (value.toList ++ [':']) = false)
    (hts : Str.containsL [':', ':'] (ts.toList ++ [':']) = false)
    (htyp : Str.containsL [':', ':'] typ.toList = false) :
    (splitCC (dealerPayload value ts typ).toList).map String.ofList = [value, ts, typ] := by
  rw [payload_toList, splitCC_field _ _ hv, splitCC_field _ _ hts, splitCC_noSep _ htyp]
  simp

/-- **C58 (signed)** `get_cookie_value` of a cookie the dealer created without symmetric key returns
value, timestamp and type – if the value neither contains `::` nor ends in `:`, the type does not
contain `::`, and nothing contains `|`. (`now` is a decimal number in the code.) -/
theorem C58_roundtrip_signed_partial (c : Crypto) (seed iv : List UInt8) (value typ now : String)
    (hmac : ∀ k d, '|' ∉ (c.mac k d).toList) (hne : now ≠ "")
    (hv : Str.containsL [':', ':'] (value.toList ++ [':']) = false)
    (hts : Str.containsL [':', ':'] (now.toList ++ [':']) = false)
    (htyp : Str.containsL [':', ':'] typ.toList = false)
    (pv : '|' ∉ value.toList) (pn : '|' ∉ now.toList) (pt : '|' ∉ typ.toList) :
    dealerGet c seed [] (dealerCreate c seed [] value typ now iv) = .ok (some (value, now, typ)) := by
  unfold dealerGet dealerCreate
  rw [C55_signed_partial c (dealerPayload value now typ) now now seed [] iv hmac ?_ ?_]
  · simp only [effectiveTs, if_neg hne]
    rw [split_payload value now typ hv hts htyp]
    simp
  · rw [payload_toList]
    simp only [List.mem_append, List.mem_cons, not_or]
    exact ⟨pv, by decide, by decide, pn, by decide, by decide, pt⟩
  · unfold effectiveTs; rw [if_neg hne]; exact pn

/-- **C58 (encrypted)** The same with a symmetric key, where `|` in value and type is harmless. -/
theorem C58_roundtrip_encrypted_partial (c : Crypto) (seed symkey iv : List UInt8)
    (value typ now : String) (hk : symkey ≠ [])
    (haead : ∀ key iv data aad, c.aeadDec key iv (c.aeadEnc key iv data aad) aad = some data)
    (hne : now ≠ "")
    (hv : Str.containsL [':', ':'] (value.toList ++ [':']) = false)
    (hts : Str.containsL [':', ':'] (now.toList ++ [':']) = false)
    (htyp : Str.containsL [':', ':'] typ.toList = false) (pn : '|' ∉ now.toList) :
    dealerGet c seed symkey (dealerCreate c seed symkey value typ now iv) =
      .ok (some (value, now, typ)) := by
  unfold dealerGet dealerCreate
  rw [C55_encrypted c (dealerPayload value now typ) now now seed symkey iv haead hk ?_]
  · simp only [effectiveTs, if_neg hne]
    rw [split_payload value now typ hv hts htyp]
    simp
  · unfold effectiveTs; rw [if_neg hne]; exact pn

/-- **C58 (timestamps must agree)** If the dealer returns a value, the timestamp inside the payload
equals the one outside, for every cookie text. -/
theorem C58_timestamps_agree (c : Crypto) (seed symkey : List UInt8) (cookie v ts typ : String)
    (h : dealerGet c seed symkey cookie = .ok (some (v, ts, typ))) :
    ∃ info, parseCookie c seed cookie symkey = .ok (some (info, ts)) ∧
      (splitCC info.toList).map String.ofList = [v, ts, typ] := by
  unfold dealerGet at h
  split at h
  · cases h
  · cases h
  · next info t hp =>
    split at h
    · next v' ts' typ' hsp =>
      split at h
      · next heq =>
        simp only [Except.ok.injEq, Option.some.injEq, Prod.mk.injEq] at h
        obtain ⟨rfl, rfl, rfl⟩ := h
        subst heq
        exact ⟨info, hp, hsp⟩
      · cases h
    · cases h

/-- **C58 fails** for a value containing `::` (here `a::b`): reading the dealer's own cookie back
raises `ValueError`, whatever keys and time. -/
theorem C58_separator_violated (c : Crypto) (seed symkey iv : List UInt8) (now : String)
    (hk : symkey ≠ [])
    (haead : ∀ key iv data aad, c.aeadDec key iv (c.aeadEnc key iv data aad) aad = some data)
    (hne : now ≠ "") (hts : Str.containsL [':', ':'] (now.toList ++ [':']) = false)
    (pn : '|' ∉ now.toList) :
    dealerGet c seed symkey (dealerCreate c seed symkey "a::b" "sso" now iv) = .error .valueError := by
  unfold dealerGet dealerCreate
  rw [C55_encrypted c (dealerPayload "a::b" now "sso") now now seed symkey iv haead hk
    (by unfold effectiveTs; rw [if_neg hne]; exact pn)]
  simp only
  rw [payload_toList]
  have : "a::b".toList ++ ':' :: ':' :: (now.toList ++ ':' :: ':' :: "sso".toList) =
      ['a'] ++ ':' :: ':' :: (['b'] ++ ':' :: ':' :: (now.toList ++ ':' :: ':' :: "sso".toList)) := rfl
  rw [this, splitCC_field _ _ (by decide), splitCC_field _ _ (by decide), splitCC_field _ _ hts,
    splitCC_noSep _ (by decide)]
  rfl

/-- **C58 fails** for a value ending in `:`: the dealer's own cookie is silently not recognised. -/
theorem C58_trailing_colon_violated (c : Crypto) (seed symkey iv : List UInt8) (now : String)
    (hk : symkey ≠ [])
    (haead : ∀ key iv data aad, c.aeadDec key iv (c.aeadEnc key iv data aad) aad = some data)
    (hne : now ≠ "") (hts : Str.containsL [':', ':'] (':' :: now.toList ++ [':']) = false)
    (pn : '|' ∉ now.toList) :
    dealerGet c seed symkey (dealerCreate c seed symkey "a:" "sso" now iv) = .ok none := by
  unfold dealerGet dealerCreate
  rw [C55_encrypted c (dealerPayload "a:" now "sso") now now seed symkey iv haead hk
    (by unfold effectiveTs; rw [if_neg hne]; exact pn)]
  simp only
  rw [payload_toList]
  have : "a:".toList ++ ':' :: ':' :: (now.toList ++ ':' :: ':' :: "sso".toList) =
      ['a'] ++ ':' :: ':' :: ((':' :: now.toList) ++ ':' :: ':' :: "sso".toList) := rfl
  rw [this, splitCC_field _ _ (by decide), splitCC_field _ _ hts, splitCC_noSep _ (by decide)]
  simp only [List.map_cons, List.map_nil, effectiveTs, if_neg hne]
  rw [if_neg]
  intro h
  have := congrArg (fun s => s.toList.length) h
  simp at this

example : Str.containsL [':', ':'] (("1600000000" : String).toList ++ [':']) = false ∧
    '|' ∉ ("1600000000" : String).toList ∧ ("1600000000" : String) ≠ "" := by decide

end Verif.Props
