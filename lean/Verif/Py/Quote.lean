import Verif.Py.Str
/-!
# urllib.parse.quote_plus / unquote_plus / urlencode / parse_qsl and base64

Python standard library functions the client uses to build request URLs, bodies and Basic
credentials.
-/

namespace Verif.Quote

/-- `s.encode('utf-8')` -/
def utf8 (s : String) : List UInt8 := s.toByteArray.data.toList

theorem utf8_inj {s t : String} (h : utf8 s = utf8 t) : s = t := by
  have h1 : s.toByteArray = t.toByteArray := by
    cases hs : s.toByteArray; cases ht : t.toByteArray
    simp only [utf8, hs, ht] at h
    congr 1
    exact Array.toList_inj.1 h
  exact String.toByteArray_inj.1 h1

/-- hexadecimal digit, upper case -/
def hexDigit (n : Nat) : Char :=
  if n < 10 then Char.ofNat (48 + n) else Char.ofNat (55 + n)

/-- value of a hexadecimal digit -/
def hexVal (c : Char) : Option Nat :=
  if 48 ≤ c.toNat ∧ c.toNat ≤ 57 then some (c.toNat - 48)
  else if 65 ≤ c.toNat ∧ c.toNat ≤ 70 then some (c.toNat - 55)
  else if 97 ≤ c.toNat ∧ c.toNat ≤ 102 then some (c.toNat - 87)
  else none

/-- `urllib.parse._ALWAYS_SAFE`: letters, digits and `_.-~`. -/
def alwaysSafe (n : Nat) : Bool :=
  (48 ≤ n && n ≤ 57) || (65 ≤ n && n ≤ 90) || (97 ≤ n && n ≤ 122) ||
    n == 95 || n == 46 || n == 45 || n == 126

/-- one byte of `quote_plus` -/
def quoteByte (b : UInt8) : List Char :=
  if alwaysSafe b.toNat then [Char.ofNat b.toNat]
  else if b.toNat = 32 then ['+']
  else ['%', hexDigit (b.toNat / 16), hexDigit (b.toNat % 16)]

/-- `quote_plus` of a byte string -/
def quoteBytes : List UInt8 → List Char
  | [] => []
  | b :: bs => quoteByte b ++ quoteBytes bs

/-- `urllib.parse.quote_plus(s)` -/
def quotePlus (s : String) : List Char := quoteBytes (utf8 s)

/-- `urllib.parse.unquote_plus`, as bytes.  A `%` not followed by two hexadecimal digits stands for
itself.  Characters above `0xff` do not occur in quoted text; their low byte is taken. -/
def unquoteBytes : List Char → List UInt8
  | [] => []
  | '+' :: s => 32 :: unquoteBytes s
  | '%' :: a :: b :: s =>
    match hexVal a, hexVal b with
    | some x, some y => UInt8.ofNat (16 * x + y) :: unquoteBytes s
    | _, _ => 37 :: unquoteBytes (a :: b :: s)
  | c :: s => UInt8.ofNat c.toNat :: unquoteBytes s

theorem hexVal_hexDigit : ∀ n : Fin 16, hexVal (hexDigit n.val) = some n.val := by decide

theorem unquote_quoteByte (b : UInt8) (s : List Char) :
    unquoteBytes (quoteByte b ++ s) = b :: unquoteBytes s := by
  unfold quoteByte
  have hb : b.toNat < 256 := b.toNat_lt
  split
  · next h =>
    have hv : (b.toNat).isValidChar := by
      left; omega
    have hn : (Char.ofNat b.toNat).toNat = b.toNat := by
      simp [Char.ofNat, hv, Char.ofNatAux, Char.toNat]
    simp only [List.cons_append, List.nil_append]
    rw [unquoteBytes]
    · rw [hn]; simp
    · intro h'
      have : b.toNat = 43 := by rw [← hn, h']; rfl
      rw [this] at h; revert h; decide
    · intro a b' s' h' _
      have : b.toNat = 37 := by rw [← hn, h']; rfl
      rw [this] at h; revert h; decide
  · split
    · next h =>
      simp only [List.cons_append, List.nil_append, unquoteBytes]
      congr 1
      apply UInt8.toNat_inj.1; rw [h]; rfl
    · simp only [List.cons_append, List.nil_append, unquoteBytes]
      rw [hexVal_hexDigit ⟨b.toNat / 16, by omega⟩, hexVal_hexDigit ⟨b.toNat % 16, by omega⟩]
      simp only
      congr 1
      apply UInt8.toNat_inj.1
      simp only [UInt8.toNat_ofNat']
      omega

/-- `unquote_plus` undoes `quote_plus`. -/
theorem unquote_quoteBytes (bs : List UInt8) : unquoteBytes (quoteBytes bs) = bs := by
  induction bs with
  | nil => rfl
  | cons b bs ih => rw [quoteBytes, unquote_quoteByte, ih]

theorem unquote_quotePlus (s : String) : unquoteBytes (quotePlus s) = utf8 s :=
  unquote_quoteBytes _

theorem quotePlus_inj {s t : String} (h : quotePlus s = quotePlus t) : s = t :=
  utf8_inj (by rw [← unquote_quotePlus, ← unquote_quotePlus, h])

/-- The characters quoted text can consist of. -/
def quotedChar (c : Char) : Bool := alwaysSafe c.toNat || c == '+' || c == '%'

theorem quotedChar_byte : ∀ n : Fin 256, ∀ c ∈ quoteByte (UInt8.ofNat n.val), quotedChar c = true := by
  decide +kernel

theorem quoteBytes_chars (bs : List UInt8) : ∀ c ∈ quoteBytes bs, quotedChar c = true := by
  induction bs with
  | nil => simp [quoteBytes]
  | cons b bs ih =>
    intro c hc
    rw [quoteBytes, List.mem_append] at hc
    rcases hc with hc | hc
    · have := quotedChar_byte ⟨b.toNat, b.toNat_lt⟩ c
      simp only [UInt8.ofNat_toNat] at this
      exact this hc
    · exact ih c hc

/-- One `key=value` pair of `urllib.parse.urlencode`. -/
def encPair (p : String × String) : List Char := quotePlus p.1 ++ '=' :: quotePlus p.2

/-- `urllib.parse.urlencode(params)` -/
def urlencode (ps : List (String × String)) : List Char := Str.joinL '&' (ps.map encPair)

/-- Decode one `key=value` field (bytes). -/
def decPair (f : List Char) : Option (List UInt8 × List UInt8) :=
  match Str.cutL '=' f with
  | (k, some v) => some (unquoteBytes k, unquoteBytes v)
  | (_, none) => none

/-- `urllib.parse.parse_qsl(query, keep_blank_values=True)`, as bytes; fields without `=` are
dropped. -/
def parseQsl (q : List Char) : List (List UInt8 × List UInt8) :=
  if q = [] then [] else (Str.splitL '&' q).filterMap decPair

theorem noChar_quotePlus (s : String) (c : Char) (hc : quotedChar c = false) :
    c ∉ quotePlus s := fun h => by
  rw [quoteBytes_chars _ c h] at hc; cases hc

theorem decPair_encPair (p : String × String) :
    decPair (encPair p) = some (utf8 p.1, utf8 p.2) := by
  unfold decPair encPair
  rw [Str.cutL_append _ _ _ (noChar_quotePlus _ _ (by decide))]
  simp [unquote_quotePlus]

/-- The receiver of an encoded query or body gets back exactly the parameters. -/
theorem parseQsl_urlencode (ps : List (String × String)) :
    parseQsl (urlencode ps) = ps.map (fun p => (utf8 p.1, utf8 p.2)) := by
  cases ps with
  | nil => rfl
  | cons p ps =>
    have hne : urlencode (p :: ps) ≠ [] := by
      cases ps with
      | nil => simp [urlencode, Str.joinL, encPair]
      | cons q qs => simp [urlencode, Str.joinL, encPair]
    have hs : Str.splitL '&' (urlencode (p :: ps)) = (p :: ps).map encPair := by
      apply Str.splitL_joinL
      · intro w hw
        rw [List.mem_map] at hw
        obtain ⟨q, _, rfl⟩ := hw
        unfold encPair
        simp only [List.mem_append, List.mem_cons, not_or]
        exact ⟨noChar_quotePlus _ _ (by decide), by decide, noChar_quotePlus _ _ (by decide)⟩
      · simp
    unfold parseQsl
    rw [if_neg hne, hs, List.filterMap_map]
    induction (p :: ps) with
    | nil => rfl
    | cons q qs ih =>
      simp only [List.map_cons, List.filterMap_cons, Function.comp_apply, decPair_encPair, ← ih]

/-- Every character of an encoded query is a quoted character, `=` or `&`. -/
theorem urlencode_chars (ps : List (String × String)) (c : Char) (h : c ∈ urlencode ps) :
    quotedChar c = true ∨ c = '=' ∨ c = '&' := by
  unfold urlencode at h
  induction ps with
  | nil => simp [Str.joinL] at h
  | cons p ps ih =>
    have key : ∀ c ∈ encPair p, quotedChar c = true ∨ c = '=' ∨ c = '&' := by
      intro c hc
      unfold encPair at hc
      simp only [List.mem_append, List.mem_cons] at hc
      rcases hc with hc | hc | hc
      · exact .inl (quoteBytes_chars _ c hc)
      · exact .inr (.inl hc)
      · exact .inl (quoteBytes_chars _ c hc)
    cases ps with
    | nil => exact key c (by simpa [Str.joinL] using h)
    | cons q qs =>
      simp only [List.map_cons, Str.joinL, List.mem_append, List.mem_cons] at h
      rcases h with h | h | h
      · exact key c h
      · exact .inr (.inr h)
      · exact ih (by simpa using h)

end Verif.Quote
