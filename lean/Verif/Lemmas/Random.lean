import Verif.Model.Random
/-!
# The Mersenne Twister is linear

Every bit of every output is the exclusive or of some bits of the state.  There are 19968 bits, so among any 19969 such bits
some are the exclusive or of others, whatever the state.
-/

namespace Verif.Random

/-! ## Linear dependence over two elements -/

/-- The exclusive or of `f a` over the members of a list. -/
def xorAll (l : List Bool) : Bool := l.foldr Bool.xor false

@[simp] theorem xorAll_nil : xorAll [] = false := rfl
@[simp] theorem xorAll_cons (b : Bool) (l : List Bool) : xorAll (b :: l) = Bool.xor b (xorAll l) := rfl

theorem xorAll_append (l l' : List Bool) : xorAll (l ++ l') = Bool.xor (xorAll l) (xorAll l') := by
  induction l with
  | nil => simp
  | cons b l ih => simp [ih, Bool.xor_assoc]

/-- The exclusive or of the vectors whose coefficient is set, at a coordinate. -/
def comb (cs : List Bool) (vs : List (Nat → Bool)) (i : Nat) : Bool :=
  xorAll ((cs.zip vs).map fun p => p.1 && p.2 i)

theorem comb_append {c1 c2 : List Bool} {v1 v2 : List (Nat → Bool)} (h : c1.length = v1.length) (i : Nat) :
    comb (c1 ++ c2) (v1 ++ v2) i = Bool.xor (comb c1 v1 i) (comb c2 v2 i) := by
  unfold comb
  rw [List.zip_append h, List.map_append, xorAll_append]

theorem comb_cons (c : Bool) (cs : List Bool) (v : Nat → Bool) (vs : List (Nat → Bool)) (i : Nat) :
    comb (c :: cs) (v :: vs) i = Bool.xor (c && v i) (comb cs vs i) := rfl

/-- Subtracting the vector `p` where the last coordinate is set. -/
def reduced (n : Nat) (p v : Nat → Bool) (i : Nat) : Bool := Bool.xor (v i) (v n && p i)

theorem comb_reduced (n : Nat) (p : Nat → Bool) (i : Nat) : ∀ (cs : List Bool) (vs : List (Nat → Bool)),
    comb cs (vs.map (reduced n p)) i = Bool.xor (comb cs vs i) (comb cs vs n && p i) := by
  intro cs
  induction cs with
  | nil => intro vs; simp [comb]
  | cons c cs ih =>
    intro vs
    cases vs with
    | nil => simp [comb]
    | cons v vs =>
      rw [List.map_cons, comb_cons, comb_cons, comb_cons, ih]
      unfold reduced
      cases c <;> cases v i <;> cases v n <;> cases p i <;> cases comb cs vs i <;> cases comb cs vs n <;> rfl

/-- More vectors than coordinates are dependent. -/
theorem dependent : ∀ (n : Nat) (vs : List (Nat → Bool)), n < vs.length →
    ∃ cs : List Bool, cs.length = vs.length ∧ true ∈ cs ∧ ∀ i, i < n → comb cs vs i = false := by
  intro n
  induction n with
  | zero =>
    intro vs h
    refine ⟨List.replicate vs.length true, by simp, ?_, fun i hi => absurd hi (Nat.not_lt_zero i)⟩
    cases hl : vs.length with
    | zero => omega
    | succ m => simp
  | succ n ih =>
    intro vs h
    by_cases hp : ∃ p ∈ vs, p n = true
    · obtain ⟨p, hp, hpn⟩ := hp
      obtain ⟨v1, v2, rfl⟩ := List.append_of_mem hp
      simp only [List.length_append, List.length_cons] at h
      obtain ⟨cs, h1, h2, h3⟩ := ih ((v1 ++ v2).map (reduced n p)) (by simp only [List.length_map, List.length_append]; omega)
      simp only [List.length_map, List.length_append] at h1
      obtain ⟨c1, c2, rfl, e1, e2⟩ : ∃ c1 c2, cs = c1 ++ c2 ∧ c1.length = v1.length ∧ c2.length = v2.length :=
        ⟨cs.take v1.length, cs.drop v1.length, (List.take_append_drop _ _).symm, by rw [List.length_take]; omega,
          by rw [List.length_drop]; omega⟩
      refine ⟨c1 ++ comb (c1 ++ c2) (v1 ++ v2) n :: c2, by simp [e1, e2], ?_, ?_⟩
      · rcases List.mem_append.1 h2 with h2 | h2
        · exact List.mem_append.2 (Or.inl h2)
        · exact List.mem_append.2 (Or.inr (List.mem_cons_of_mem _ h2))
      · intro i hi
        rw [comb_append e1, comb_cons]
        by_cases e : i = n
        · subst e
          rw [hpn, comb_append e1]
          cases comb c1 v1 i <;> cases comb c2 v2 i <;> rfl
        · have := h3 i (by omega)
          rw [comb_reduced, comb_append e1 i] at this
          generalize comb (c1 ++ c2) (v1 ++ v2) n = d at this ⊢
          revert this
          cases comb c1 v1 i <;> cases comb c2 v2 i <;> cases d <;> cases p i <;> simp
    · obtain ⟨cs, h1, h2, h3⟩ := ih vs (by omega)
      refine ⟨cs, h1, h2, fun i hi => ?_⟩
      by_cases e : i = n
      · subst e
        have : ∀ (cs : List Bool) (l : List (Nat → Bool)), (∀ p ∈ l, p i = false) → comb cs l i = false := by
          intro cs
          induction cs with
          | nil => intro l _; simp [comb]
          | cons c cs ih =>
            intro l hl
            cases l with
            | nil => simp [comb]
            | cons v l =>
              rw [comb_cons, ih l (fun p hp => hl p (by simp [hp])), hl v (by simp)]
              simp
        refine this cs vs fun p hpm => ?_
        cases hpi : p i with
        | false => rfl
        | true => exact absurd ⟨p, hpm, hpi⟩ hp
      · exact h3 i (by omega)

/-! ## Linearity -/

/-- The exclusive or of two states. -/
def addState (s t : Nat → Word) (n : Nat) : Word := s n ^^^ t n

theorem twist_add (u l u' l' : Word) : twist (u ^^^ u') (l ^^^ l') = twist u l ^^^ twist u' l' := by
  have hy : ∀ (a b : Word), (a &&& 0x80000000#32) ||| (b &&& 0x7fffffff#32) = (a &&& 0x80000000#32) ^^^ (b &&& 0x7fffffff#32) := by
    intro a b
    apply BitVec.eq_of_getLsbD_eq
    intro i hi
    simp only [BitVec.getLsbD_or, BitVec.getLsbD_and, BitVec.getLsbD_xor]
    have : ((0x80000000#32).getLsbD i && (0x7fffffff#32).getLsbD i) = false := by
      revert i
      decide
    revert this
    cases a.getLsbD i <;> cases b.getLsbD i <;> cases (0x80000000#32).getLsbD i <;> cases (0x7fffffff#32).getLsbD i <;> simp
  have hb : ∀ (a b c : Word), (if (a ^^^ b).getLsbD 0 then c else 0#32) =
      (if a.getLsbD 0 then c else 0#32) ^^^ (if b.getLsbD 0 then c else 0#32) := by
    intro a b c
    rw [BitVec.getLsbD_xor]
    cases a.getLsbD 0 <;> cases b.getLsbD 0 <;> simp
  have hsum : ∀ (a b c d m n : Word), ((a ^^^ b) &&& m) ^^^ ((c ^^^ d) &&& n) = ((a &&& m) ^^^ (c &&& n)) ^^^ ((b &&& m) ^^^ (d &&& n)) := by
    intro a b c d m n
    apply BitVec.eq_of_getLsbD_eq
    intro i hi
    simp only [BitVec.getLsbD_and, BitVec.getLsbD_xor]
    cases a.getLsbD i <;> cases b.getLsbD i <;> cases c.getLsbD i <;> cases d.getLsbD i <;> cases m.getLsbD i <;> cases n.getLsbD i <;> rfl
  have hx : ∀ (a b c d : Word), (a ^^^ b) ^^^ (c ^^^ d) = (a ^^^ c) ^^^ (b ^^^ d) := by
    intro a b c d
    apply BitVec.eq_of_getLsbD_eq
    intro i hi
    simp only [BitVec.getLsbD_xor]
    cases a.getLsbD i <;> cases b.getLsbD i <;> cases c.getLsbD i <;> cases d.getLsbD i <;> rfl
  have hs : ∀ (a b : Word), (a ^^^ b) >>> 1 = (a >>> 1) ^^^ (b >>> 1) := fun a b => BitVec.ushiftRight_xor_distrib a b 1
  unfold twist
  simp only [hy]
  rw [hsum, hb, hs, hx]

theorem word_add (s t : Nat → Word) (n : Nat) : word (addState s t) n = word s n ^^^ word t n := by
  induction n using Nat.strongRecOn with
  | _ n ih =>
    rw [word, word.eq_def s, word.eq_def t]
    by_cases h : n < 624
    · simp only [if_pos h]; rfl
    · simp only [if_neg h]
      rw [ih (n - 227) (by omega), ih (n - 624) (by omega), ih (n - 623) (by omega), twist_add]
      generalize twist (word s (n - 624)) (word s (n - 623)) = a
      generalize twist (word t (n - 624)) (word t (n - 623)) = b
      generalize word s (n - 227) = c
      generalize word t (n - 227) = d
      apply BitVec.eq_of_getLsbD_eq
      intro i hi
      simp only [BitVec.getLsbD_xor]
      cases a.getLsbD i <;> cases b.getLsbD i <;> cases c.getLsbD i <;> cases d.getLsbD i <;> rfl

theorem temper_add (a b : Word) : temper (a ^^^ b) = temper a ^^^ temper b := by
  have h1 : ∀ (k : Nat) (a b : Word), (a ^^^ b) ^^^ ((a ^^^ b) >>> k) = (a ^^^ (a >>> k)) ^^^ (b ^^^ (b >>> k)) := by
    intro k a b
    rw [BitVec.ushiftRight_xor_distrib]
    apply BitVec.eq_of_getLsbD_eq
    intro i hi
    simp only [BitVec.getLsbD_xor]
    generalize (a >>> k).getLsbD i = x
    generalize (b >>> k).getLsbD i = y
    cases a.getLsbD i <;> cases b.getLsbD i <;> cases x <;> cases y <;> rfl
  have h2 : ∀ (k : Nat) (m a b : Word), (a ^^^ b) ^^^ (((a ^^^ b) <<< k) &&& m) =
      (a ^^^ ((a <<< k) &&& m)) ^^^ (b ^^^ ((b <<< k) &&& m)) := by
    intro k m a b
    rw [BitVec.shiftLeft_xor_distrib]
    apply BitVec.eq_of_getLsbD_eq
    intro i hi
    simp only [BitVec.getLsbD_xor, BitVec.getLsbD_and]
    generalize (a <<< k).getLsbD i = x
    generalize (b <<< k).getLsbD i = y
    cases a.getLsbD i <;> cases b.getLsbD i <;> cases x <;> cases y <;> cases m.getLsbD i <;> rfl
  unfold temper
  simp only [h1, h2]

theorem output_add (s t : Nat → Word) (n : Nat) : output (addState s t) n = output s n ^^^ output t n := by
  unfold output
  rw [word_add, temper_add]

/-- Only the first 624 words of the state count. -/
theorem word_congr {s t : Nat → Word} (h : ∀ i, i < 624 → s i = t i) (n : Nat) : word s n = word t n := by
  induction n using Nat.strongRecOn with
  | _ n ih =>
    rw [word, word.eq_def t]
    by_cases hn : n < 624
    · simp only [if_pos hn]; exact h n hn
    · simp only [if_neg hn]
      rw [ih (n - 227) (by omega), ih (n - 624) (by omega), ih (n - 623) (by omega)]

/-- Later words are those of the state reached. -/
theorem word_shift (s : Nat → Word) (t n : Nat) : word (fun i => word s (t + i)) n = word s (t + n) := by
  induction n using Nat.strongRecOn with
  | _ n ih =>
    rw [word]
    by_cases hn : n < 624
    · rw [if_pos hn]
    · rw [if_neg hn, word.eq_def s (t + n), if_neg (by omega), ih (n - 227) (by omega), ih (n - 624) (by omega),
        ih (n - 623) (by omega)]
      rw [show t + n - 227 = t + (n - 227) from by omega, show t + n - 624 = t + (n - 624) from by omega,
        show t + n - 623 = t + (n - 623) from by omega]

theorem output_shift (s : Nat → Word) (t n : Nat) : output (fun i => word s (t + i)) n = output s (t + n) := by
  unfold output
  rw [word_shift, show t + (624 + n) = 624 + (t + n) from by omega]

/-! ## A state as a sum of single bits -/

/-- The state with only bit `m` set. -/
def unit (m : Nat) (i : Nat) : Word := if i = m / 32 then BitVec.twoPow 32 (m % 32) else 0#32

/-- The state with only the first `m` bits of `s`. -/
def firstBits (s : Nat → Word) : Nat → Nat → Word
  | 0 => fun _ => 0#32
  | m + 1 => addState (firstBits s m) (if (s (m / 32)).getLsbD (m % 32) then unit m else fun _ => 0#32)

theorem firstBits_bit (s : Nat → Word) (m i j : Nat) (hj : j < 32) :
    (firstBits s m i).getLsbD j = (decide (32 * i + j < m) && (s i).getLsbD j) := by
  induction m with
  | zero => simp [firstBits]
  | succ m ih =>
    show ((firstBits s m i) ^^^ _).getLsbD j = _
    rw [BitVec.getLsbD_xor, ih]
    by_cases e : 32 * i + j = m
    · have e1 : m / 32 = i := by omega
      have e2 : m % 32 = j := by omega
      rw [e1, e2]
      rw [show decide (32 * i + j < m) = false from by simp; omega, show decide (32 * i + j < m + 1) = true from by simp; omega]
      cases h : (s i).getLsbD j with
      | false => simp
      | true => simp [unit, e1, e2, hj]
    · have : (((if (s (m / 32)).getLsbD (m % 32) then unit m else fun _ => 0#32) : Nat → Word) i).getLsbD j = false := by
        split
        · unfold unit
          split
          · next e1 =>
            rw [BitVec.getLsbD_twoPow]
            simp
            omega
          · simp
        · simp
      rw [this, Bool.xor_false]
      congr 1
      simp only [decide_eq_decide]
      omega

theorem firstBits_all (s : Nat → Word) (i : Nat) (hi : i < 624) : firstBits s 19968 i = s i := by
  apply BitVec.eq_of_getLsbD_eq
  intro j hj
  rw [firstBits_bit s _ _ _ hj, show decide (32 * i + j < 19968) = true from by simp; omega, Bool.true_and]

/-- A linear function of the state that is nothing on single bits is nothing. -/
theorem zero_of_units (φ : (Nat → Word) → Bool) (hadd : ∀ s t, φ (addState s t) = Bool.xor (φ s) (φ t))
    (hcongr : ∀ s t, (∀ i, i < 624 → s i = t i) → φ s = φ t) (hunit : ∀ m, m < 19968 → φ (unit m) = false)
    (s : Nat → Word) : φ s = false := by
  have hzero : φ (fun _ => 0#32) = false := by
    have := hadd (fun _ => 0#32) (fun _ => 0#32)
    rw [show addState (fun _ => 0#32) (fun _ => 0#32) = fun _ => 0#32 from by funext n; simp [addState]] at this
    cases h : φ (fun _ => 0#32) with
    | false => rfl
    | true => rw [h] at this; cases this
  have : ∀ m, m ≤ 19968 → φ (firstBits s m) = false := by
    intro m
    induction m with
    | zero => intro _; exact hzero
    | succ m ih =>
      intro hm
      show φ (addState _ _) = false
      rw [hadd, ih (by omega)]
      split
      · rw [hunit m (by omega)]; rfl
      · rw [hzero]; rfl
  rw [hcongr s (firstBits s 19968) (fun i hi => (firstBits_all s i hi).symm)]
  exact this 19968 (Nat.le_refl _)

end Verif.Random
