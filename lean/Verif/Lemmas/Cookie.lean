import Verif.Model.Cookie
/-! Helper lemmas for `Verif.Props.Cookie`. -/

namespace Verif.Cookie
open Verif

theorem fold_or_zero (l : List (Char × Char)) (r : Nat) :
    l.foldl (fun r p => r ||| (p.1.toNat ^^^ p.2.toNat)) r = 0 ↔ r = 0 ∧ ∀ p ∈ l, p.1 = p.2 := by
  induction l generalizing r with
  | nil => simp
  | cons p l ih =>
    simp only [List.foldl_cons, ih, List.forall_mem_cons, Nat.or_eq_zero_iff, and_assoc]
    have : (p.1.toNat ^^^ p.2.toNat = 0) ↔ p.1 = p.2 := by
      constructor
      · intro h
        apply Char.toNat_inj.1
        apply Nat.eq_of_testBit_eq
        intro i
        have h' := congrArg (fun n => n.testBit i) h
        simp only [Nat.testBit_xor, Nat.zero_testBit] at h'
        revert h'
        cases p.1.toNat.testBit i <;> cases p.2.toNat.testBit i <;> simp
      · intro h; rw [h, Nat.xor_self]
    rw [this]

theorem zip_all_eq {a b : List Char} (hl : a.length = b.length) (h : ∀ p ∈ a.zip b, p.1 = p.2) :
    a = b := by
  induction a generalizing b with
  | nil => cases b with
    | nil => rfl
    | cons => simp at hl
  | cons x a ih =>
    cases b with
    | nil => simp at hl
    | cons y b =>
      simp only [List.zip_cons_cons, List.forall_mem_cons] at h
      simp only [List.length_cons, Nat.succ.injEq] at hl
      rw [ih hl h.2, h.1]

theorem zip_diag (l : List Char) : ∀ p ∈ l.zip l, p.1 = p.2 := by
  induction l with
  | nil => simp
  | cons x l ih =>
    simp only [List.zip_cons_cons, List.forall_mem_cons]
    exact ⟨trivial, ih⟩

theorem safeStrCmp_iff (a b : String) : safeStrCmp a b = true ↔ a = b := by
  unfold safeStrCmp
  split
  · next h =>
    simp only [Bool.false_eq_true, false_iff]
    rintro rfl; exact h rfl
  · next h =>
    have h : a.toList.length = b.toList.length := Decidable.not_not.1 h
    rw [beq_iff_eq, fold_or_zero]
    constructor
    · rintro ⟨-, h2⟩; exact String.toList_inj.1 (zip_all_eq h h2)
    · rintro rfl
      refine ⟨rfl, ?_⟩
      exact zip_diag a.toList

theorem split3 (a b d : List Char) (ha : '|' ∉ a) (hb : '|' ∉ b) (hd : '|' ∉ d) :
    Str.split (String.ofList (a ++ '|' :: b ++ '|' :: d)) '|' =
      [String.ofList a, String.ofList b, String.ofList d] := by
  unfold Str.split
  rw [String.toList_ofList, List.append_assoc, List.cons_append, Str.splitL_append_sep _ _ _ ha,
    Str.splitL_append_sep _ _ _ hb, Str.splitL_noSep _ _ hd]
  rfl

theorem split4 (a b d e : List Char) (ha : '|' ∉ a) (hb : '|' ∉ b) (hd : '|' ∉ d) (he : '|' ∉ e) :
    Str.split (String.ofList (a ++ '|' :: b ++ '|' :: d ++ '|' :: e)) '|' =
      [String.ofList a, String.ofList b, String.ofList d, String.ofList e] := by
  unfold Str.split
  rw [String.toList_ofList]
  have : a ++ '|' :: b ++ '|' :: d ++ '|' :: e = a ++ '|' :: (b ++ '|' :: (d ++ '|' :: e)) := by simp
  rw [this, Str.splitL_append_sep _ _ _ ha, Str.splitL_append_sep _ _ _ hb,
    Str.splitL_append_sep _ _ _ hd, Str.splitL_noSep _ _ he]
  rfl

theorem enc6_nopipe : ∀ (n : Fin 64), Base64.enc6 false n.val ≠ '|' := by decide

theorem encode_nopipe (bs : List UInt8) : '|' ∉ Base64.encode false bs := by
  have np : ∀ n : Nat, n < 64 → '|' ≠ Base64.enc6 false n := fun n h e =>
    enc6_nopipe ⟨n, h⟩ e.symm
  fun_induction Base64.encode false bs with
  | case1 => simp
  | case2 a =>
    have ha := a.toNat_lt
    simp only [List.mem_cons, List.not_mem_nil, or_false, not_or]
    exact ⟨np _ (by omega), np _ (by omega), by decide, by decide⟩
  | case3 a b =>
    have ha := a.toNat_lt
    have hb := b.toNat_lt
    simp only [List.mem_cons, List.not_mem_nil, or_false, not_or]
    exact ⟨np _ (by omega), np _ (by omega), np _ (by omega), by decide⟩
  | case4 a b c s ih =>
    have ha := a.toNat_lt
    have hb := b.toNat_lt
    have hc := c.toNat_lt
    simp only [List.mem_cons, not_or]
    exact ⟨np _ (by omega), np _ (by omega), np _ (by omega), np _ (by omega), ih⟩

theorem splitTag_append (ct : List UInt8) : (splitTag ct).1 ++ (splitTag ct).2 = ct :=
  List.take_append_drop _ _

theorem decodeStrict_utf8 (s : String) : decodeStrict (Quote.utf8 s) = .ok s := by
  unfold decodeStrict Quote.utf8 String.fromUTF8?
  have h : (⟨s.toByteArray.data.toList.toArray⟩ : ByteArray) = s.toByteArray := by simp
  have hv : ByteArray.IsValidUTF8 ⟨s.toByteArray.data.toList.toArray⟩ := by rw [h]; exact s.isValidUTF8
  rw [dif_pos hv]
  simp only [Except.ok.injEq]
  apply String.toByteArray_inj.1
  exact h

theorem splitCC_ne_nil (s : List Char) : splitCC s ≠ [] := by
  fun_induction splitCC s <;> simp

/-- Scanning a longer text finds the same completed fields first. -/
theorem splitCC_append (p q a b : List Char) (r : List (List Char)) (h : splitCC p = a :: b :: r) :
    ∃ r', splitCC (p ++ q) = a :: r' ∧
      ∀ r2 c, r = c :: r2 → ∃ r'', r' = b :: r'' := by
  fun_induction splitCC p generalizing a b r with
  | case1 => cases h
  | case2 s ih =>
    simp only [List.cons.injEq] at h
    obtain ⟨rfl, h⟩ := h
    refine ⟨splitCC (s ++ q), by simp [splitCC], ?_⟩
    rintro r2 c rfl
    obtain ⟨r', h1, -⟩ := ih b c r2 h
    exact ⟨r', h1⟩
  | case3 d s hn hnil ih => exact absurd hnil (splitCC_ne_nil s)
  | case4 d s hn w ws hw ih =>
    simp only [List.cons.injEq] at h
    obtain ⟨rfl, rfl⟩ := h
    obtain ⟨r', h1, h2⟩ := ih w b r hw
    refine ⟨r', ?_, h2⟩
    rw [List.cons_append, splitCC, h1]
    intro s' hd hs'
    cases s with
    | nil => simp [splitCC] at hw
    | cons c s =>
      simp only [List.cons_append, List.cons.injEq] at hs'
      exact hn s hd (by rw [hs'.1])

/-- A field followed by the separator. -/
theorem splitCC_field (v s : List Char) (h : Str.containsL [':', ':'] (v ++ [':']) = false) :
    splitCC (v ++ ':' :: ':' :: s) = v :: splitCC s := by
  induction v with
  | nil => simp [splitCC]
  | cons d v ih =>
    simp only [List.cons_append, Str.containsL, Bool.or_eq_false_iff] at h
    rw [List.cons_append, splitCC, ih h.2]
    intro s' hd hs'
    subst hd
    cases v with
    | nil =>
      simp at h
    | cons c v =>
      simp only [List.cons_append, List.cons.injEq] at hs'
      obtain ⟨rfl, -⟩ := hs'
      simp at h

theorem splitCC_noSep (v : List Char) (h : Str.containsL [':', ':'] v = false) : splitCC v = [v] := by
  induction v with
  | nil => rfl
  | cons d v ih =>
    simp only [Str.containsL, Bool.or_eq_false_iff] at h
    rw [splitCC, ih h.2]
    rintro s' rfl rfl
    simp at h

end Verif.Cookie
