import Verif.Spec.ClientAuth
/-! Helper lemmas for `Verif.Props.ClientAuth`. -/

namespace Verif.ClientAuth
open Verif

theorem quoted_ascii {c : Char} (h : Quote.quotedChar c = true) : c.toNat < 128 := by
  unfold Quote.quotedChar Quote.alwaysSafe at h
  simp only [Bool.or_eq_true, Bool.and_eq_true, decide_eq_true_eq, beq_iff_eq] at h
  rcases h with ((((((((h | h) | h) | h) | h) | h) | h) | h) | h)
  all_goals first | omega | (subst h; decide)

theorem credentials_ascii (u p : String) : ∀ c ∈ credentials u p, c.toNat < 128 := by
  intro c hc
  unfold credentials at hc
  simp only [List.mem_append, List.mem_cons] at hc
  rcases hc with hc | hc | hc
  · exact quoted_ascii (Quote.quoteBytes_chars _ c hc)
  · subst hc; decide
  · exact quoted_ascii (Quote.quoteBytes_chars _ c hc)

theorem ascii_roundtrip {s : List Char} (h : ∀ c ∈ s, c.toNat < 128) :
    (asciiBytes s).map (fun b => Char.ofNat b.toNat) = s := by
  unfold asciiBytes
  rw [List.map_map]
  induction s with
  | nil => rfl
  | cons c s ih =>
    have hc := h c (by simp)
    simp only [List.map_cons, Function.comp_apply]
    rw [ih (fun x hx => h x (by simp [hx]))]
    congr 1
    have : (UInt8.ofNat c.toNat).toNat = c.toNat := by
      simp only [UInt8.toNat_ofNat']; omega
    rw [this]; exact Char.ofNat_toNat c

theorem decodeBasic_token (u p : String) :
    Spec.decodeBasic true ("Basic " ++ basicToken u p) = some (Quote.utf8 u, Quote.utf8 p) := by
  unfold Spec.decodeBasic
  have hs : Str.startsWith ("Basic " ++ basicToken u p) "Basic " = true :=
    (Str.startsWith_iff _ _).2 ⟨_, rfl⟩
  have hd : ("Basic " ++ basicToken u p).toList.drop 6 =
      Base64.encode true (asciiBytes (credentials u p)) := by
    simp [basicToken]
  rw [if_pos hs, hd, Base64.decode_encode]
  simp only
  rw [ascii_roundtrip (credentials_ascii u p), credentials,
    Str.cutL_append _ _ _ (Quote.noChar_quotePlus _ _ (by decide))]
  simp only [Quote.unquote_quotePlus]

theorem get?_map_idx (bs : List UInt8) (h : ∀ b ∈ bs, Quote.quotedChar (Char.ofNat b.toNat) = true ∨ b.toNat = 58) :
    Base64.hits bs = false ↔ ∀ i, bs[3 * i + 2]? ≠ some 126 := by
  have key : ∀ b : UInt8, (Quote.quotedChar (Char.ofNat b.toNat) = true ∨ b.toNat = 58) →
      (62 ≤ b.toNat % 64 ↔ b = 126) := by
    have hall : ∀ n : Fin 256, (Quote.quotedChar (Char.ofNat n.val) = true ∨ n.val = 58) →
      (62 ≤ n.val % 64 ↔ n.val = 126) := by decide +kernel
    intro b hb
    have := hall ⟨b.toNat, b.toNat_lt⟩ hb
    simp only at this
    rw [this]
    constructor
    · intro h; exact UInt8.toNat_inj.1 h
    · rintro rfl; rfl
  fun_induction Base64.hits bs with
  | case1 a b c s ih =>
    have ih := ih (fun x hx => h x (by simp [hx]))
    have hc := key c (h c (by simp))
    simp only [Bool.or_eq_false_iff, decide_eq_false_iff_not, ih]
    constructor
    · rintro ⟨h1, h2⟩ i
      cases i with
      | zero =>
        simp only [Nat.mul_zero, Nat.zero_add]
        show some c ≠ some 126
        intro e; exact h1 (hc.2 (Option.some.inj e))
      | succ i =>
        have e : 3 * (i + 1) + 2 = (3 * i + 2) + 3 := by omega
        rw [e]; exact h2 i
    · intro hi
      constructor
      · intro h1
        have := hi 0
        simp only [Nat.mul_zero, Nat.zero_add] at this
        exact this (by show some c = some 126; rw [hc.1 h1])
      · intro i
        have := hi (i + 1)
        have e : 3 * (i + 1) + 2 = (3 * i + 2) + 3 := by omega
        rw [e] at this; exact this
  | case2 bs hb =>
    simp only [true_iff]
    intro i hi
    have hlt : 3 * i + 2 < bs.length := by
      rw [List.getElem?_eq_some_iff] at hi; exact hi.1
    match bs, hb, hlt with
    | a :: b :: c :: s, hb, _ => exact hb a b c s rfl
    | [], _, h => exact absurd h (by simp)
    | [_], _, h => exact absurd h (by simp only [List.length_cons, List.length_nil]; omega)
    | [_, _], _, h => exact absurd h (by simp only [List.length_cons, List.length_nil]; omega)

theorem asciiBytes_getElem? (s : List Char) (h : ∀ c ∈ s, c.toNat < 128) (i : Nat) :
    (asciiBytes s)[i]? = some 126 ↔ s[i]? = some '~' := by
  unfold asciiBytes
  rw [List.getElem?_map]
  cases hc : s[i]? with
  | none => simp
  | some c =>
    have hm : c ∈ s := List.mem_of_getElem? hc
    have := h c hm
    simp only [Option.map_some, Option.some.injEq]
    constructor
    · intro e
      have e2 : (UInt8.ofNat c.toNat).toNat = 126 := by rw [e]; rfl
      simp only [UInt8.toNat_ofNat'] at e2
      have e3 : c.toNat = 126 := by omega
      rw [← Char.ofNat_toNat c, e3]
    · rintro rfl; rfl

theorem basicToken_standard_iff (u p : String) :
    basicToken u p = String.ofList (Base64.encode false (asciiBytes (credentials u p))) ↔
      ∀ i, (credentials u p)[3 * i + 2]? ≠ some '~' := by
  have hasc : ∀ b ∈ asciiBytes (credentials u p), b.toNat < 128 := by
    intro b hb
    obtain ⟨c, hc, rfl⟩ := List.mem_map.1 hb
    have := credentials_ascii u p c hc
    simp only [UInt8.toNat_ofNat']; omega
  have hq : ∀ b ∈ asciiBytes (credentials u p),
      Quote.quotedChar (Char.ofNat b.toNat) = true ∨ b.toNat = 58 := by
    intro b hb
    obtain ⟨c, hc, rfl⟩ := List.mem_map.1 hb
    have hlt := credentials_ascii u p c hc
    have hn : (UInt8.ofNat c.toNat).toNat = c.toNat := by simp only [UInt8.toNat_ofNat']; omega
    rw [hn, Char.ofNat_toNat]
    unfold credentials at hc
    simp only [List.mem_append, List.mem_cons] at hc
    rcases hc with hc | hc | hc
    · exact .inl (Quote.quoteBytes_chars _ c hc)
    · subst hc; exact .inr rfl
    · exact .inl (Quote.quoteBytes_chars _ c hc)
  unfold basicToken
  rw [String.ofList_inj, Base64.encode_agree_iff _ hasc, get?_map_idx _ hq]
  constructor
  · intro h i hi; exact h i ((asciiBytes_getElem? _ (credentials_ascii u p) _).2 hi)
  · intro h i hi; exact h i ((asciiBytes_getElem? _ (credentials_ascii u p) _).1 hi)

theorem basic_ok {env : Env} {kwargs : Obj} {headers : Dict String} {request : Obj} {h r}
    (e : clientSecretBasic env kwargs headers request = .ok (h, r)) :
    ∃ u p, getUser env kwargs = .str u ∧ getPasswd env kwargs request = .str p ∧
      h = Dict.set headers "Authorization" ("Basic " ++ basicToken u p) ∧
      basicModify env request = .ok r := by
  unfold clientSecretBasic at e
  cases hu : getUser env kwargs <;> simp only [hu, asStr] at e <;> try (cases e)
  cases hp : getPasswd env kwargs request <;> simp only [hp] at e <;> try (cases e)
  cases hm : basicModify env request with
  | error x => rw [hm] at e; cases e
  | ok r' =>
    rw [hm] at e
    simp only [Except.ok.injEq, Prod.mk.injEq] at e
    exact ⟨_, _, rfl, rfl, e.1.symm, by rw [e.2]⟩

end Verif.ClientAuth
