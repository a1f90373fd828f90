import Verif.Py.Quote
/-!
# base64.b64encode / base64.urlsafe_b64encode

Python standard library; `url` selects the URL-safe alphabet (`-` and `_` instead of `+` and `/`).
-/

namespace Verif.Base64

/-- The base64 alphabet. -/
def enc6 (url : Bool) (n : Nat) : Char :=
  if n < 26 then Char.ofNat (65 + n)
  else if n < 52 then Char.ofNat (71 + n)
  else if n < 62 then Char.ofNat (n - 4)
  else if n = 62 then (if url then '-' else '+')
  else (if url then '_' else '/')

/-- Inverse alphabet. -/
def dec6 (url : Bool) (c : Char) : Option Nat :=
  if 65 ≤ c.toNat ∧ c.toNat ≤ 90 then some (c.toNat - 65)
  else if 97 ≤ c.toNat ∧ c.toNat ≤ 122 then some (c.toNat - 71)
  else if 48 ≤ c.toNat ∧ c.toNat ≤ 57 then some (c.toNat + 4)
  else if c = (if url then '-' else '+') then some 62
  else if c = (if url then '_' else '/') then some 63
  else none

/-- Encoding with padding. -/
def encode (url : Bool) : List UInt8 → List Char
  | [] => []
  | [a] => [enc6 url (a.toNat / 4), enc6 url (a.toNat % 4 * 16), '=', '=']
  | [a, b] =>
    [enc6 url (a.toNat / 4), enc6 url (a.toNat % 4 * 16 + b.toNat / 16),
      enc6 url (b.toNat % 16 * 4), '=']
  | a :: b :: c :: s =>
    enc6 url (a.toNat / 4) :: enc6 url (a.toNat % 4 * 16 + b.toNat / 16) ::
      enc6 url (b.toNat % 16 * 4 + c.toNat / 64) :: enc6 url (c.toNat % 64) :: encode url s

/-- Decode groups of four characters. -/
def decode (url : Bool) : List Char → Option (List UInt8)
  | [] => some []
  | a :: b :: c :: d :: s =>
    match dec6 url a, dec6 url b with
    | some x, some y =>
      if c = '=' then
        (if d = '=' ∧ s = [] then some [UInt8.ofNat (x * 4 + y / 16)] else none)
      else match dec6 url c with
        | none => none
        | some z =>
          if d = '=' then
            (if s = [] then some [UInt8.ofNat (x * 4 + y / 16), UInt8.ofNat (y % 16 * 16 + z / 4)]
             else none)
          else match dec6 url d, decode url s with
            | some w, some r =>
              some (UInt8.ofNat (x * 4 + y / 16) :: UInt8.ofNat (y % 16 * 16 + z / 4) ::
                UInt8.ofNat (z % 4 * 64 + w) :: r)
            | _, _ => none
    | _, _ => none
  | _ => none

theorem dec6_enc6 : ∀ (url : Bool) (n : Fin 64), dec6 url (enc6 url n.val) = some n.val := by
  decide

theorem enc6_ne_pad : ∀ (url : Bool) (n : Fin 64), enc6 url n.val ≠ '=' := by decide

private theorem d6 (url : Bool) {n : Nat} (h : n < 64) : dec6 url (enc6 url n) = some n :=
  dec6_enc6 url ⟨n, h⟩

private theorem np (url : Bool) {n : Nat} (h : n < 64) : ¬ enc6 url n = '=' :=
  enc6_ne_pad url ⟨n, h⟩

private theorem u8 {n : Nat} {a : UInt8} (h : n = a.toNat) : UInt8.ofNat n = a := by
  subst h; simp

/-- Decoding undoes encoding. -/
theorem decode_encode (url : Bool) (bs : List UInt8) : decode url (encode url bs) = some bs := by
  fun_induction encode url bs with
  | case1 => rfl
  | case2 a =>
    have ha := a.toNat_lt
    simp only [decode]
    rw [d6 url (by omega), d6 url (by omega)]
    simp only [if_true, and_self]
    rw [u8 (a := a) (by omega)]
  | case3 a b =>
    have ha := a.toNat_lt
    have hb := b.toNat_lt
    simp only [decode]
    rw [d6 url (by omega), d6 url (by omega), d6 url (by omega)]
    simp only [if_neg (np url (n := b.toNat % 16 * 4) (by omega)), if_true]
    rw [u8 (a := a) (by omega), u8 (a := b) (by omega)]
  | case4 a b c s ih =>
    have ha := a.toNat_lt
    have hb := b.toNat_lt
    have hc := c.toNat_lt
    simp only [decode]
    rw [d6 url (by omega), d6 url (by omega), d6 url (by omega), d6 url (by omega), ih]
    simp only [if_neg (np url (n := b.toNat % 16 * 4 + c.toNat / 64) (by omega)),
      if_neg (np url (n := c.toNat % 64) (by omega))]
    rw [u8 (a := a) (by omega), u8 (a := b) (by omega), u8 (a := c) (by omega)]

theorem encode_inj (url : Bool) {a b : List UInt8} (h : encode url a = encode url b) : a = b := by
  have := decode_encode url a
  rw [h, decode_encode] at this
  exact (Option.some.inj this).symm

theorem enc6_agree {n : Nat} (h : n < 62) : enc6 true n = enc6 false n := by
  unfold enc6; split
  · rfl
  · split
    · rfl
    · first | rfl | rw [if_pos h, if_pos h]

theorem enc6_differ : ∀ n : Fin 64, enc6 true n.val = enc6 false n.val → n.val < 62 := by decide

/-- Position `i` (0-based, counted from `k`) holds a byte whose low six bits are 62 or 63 and
`i ≡ 2 (mod 3)`. -/
def hits : List UInt8 → Bool
  | _ :: _ :: c :: s => decide (62 ≤ c.toNat % 64) || hits s
  | _ => false

/-- For ASCII input the two alphabets give the same text exactly if no third byte of a triple has
low bits 62 or 63. -/
theorem encode_agree_iff (bs : List UInt8) (h : ∀ b ∈ bs, b.toNat < 128) :
    encode true bs = encode false bs ↔ hits bs = false := by
  fun_induction encode true bs with
  | case1 => simp [encode, hits]
  | case2 a =>
    have ha := h a (by simp)
    simp only [encode, hits]
    rw [enc6_agree (n := a.toNat / 4) (by omega), enc6_agree (n := a.toNat % 4 * 16) (by omega)]
    simp
  | case3 a b =>
    have ha := h a (by simp)
    have hb := h b (by simp)
    simp only [encode, hits]
    rw [enc6_agree (n := a.toNat / 4) (by omega), enc6_agree (n := a.toNat % 4 * 16 + b.toNat / 16) (by omega),
      enc6_agree (n := b.toNat % 16 * 4) (by omega)]
    simp
  | case4 a b c s ih =>
    have ha := h a (by simp)
    have hb := h b (by simp)
    have hc := h c (by simp)
    have hs := ih (fun x hx => h x (by simp [hx]))
    simp only [encode, hits]
    rw [enc6_agree (n := a.toNat / 4) (by omega), enc6_agree (n := a.toNat % 4 * 16 + b.toNat / 16) (by omega),
      enc6_agree (n := b.toNat % 16 * 4 + c.toNat / 64) (by omega)]
    simp only [List.cons.injEq, true_and, hs, Bool.or_eq_false_iff, decide_eq_false_iff_not]
    constructor
    · rintro ⟨h1, h2⟩
      have := enc6_differ ⟨c.toNat % 64, by omega⟩ h1
      exact ⟨by simp only at this; omega, h2⟩
    · rintro ⟨h1, h2⟩
      exact ⟨enc6_agree (by omega), h2⟩

end Verif.Base64
