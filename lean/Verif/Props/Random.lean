import Verif.Lemmas.Random
import Verif.Spec.StoreHistory
/-!
# C106: random values
-/

namespace Verif.Props
open Verif Verif.Random Verif.Spec.History

/-! ## The form of random values -/

theorem choose_below {src : Nat → Nat} {n : Nat} : ∀ {fuel pos i pos' : Nat}, choose src n fuel pos = some (i, pos') →
    i < n ∧ i = src (pos' - 1) ∧ pos < pos' ∧ ∀ q, pos ≤ q → q + 1 < pos' → ¬ src q < n := by
  intro fuel
  induction fuel with
  | zero => intro pos i pos' h; cases h
  | succ fuel ih =>
    intro pos i pos' h
    unfold choose at h
    split at h
    · next hlt =>
      simp only [Option.some.injEq, Prod.mk.injEq] at h
      obtain ⟨rfl, rfl⟩ := h
      exact ⟨hlt, rfl, by omega, fun q h1 h2 => by omega⟩
    · next hge =>
      obtain ⟨a, b, c, d⟩ := ih h
      refine ⟨a, b, by omega, fun q h1 h2 => ?_⟩
      by_cases e : q = pos
      · subst e; exact hge
      · exact d q (by omega) h2

theorem basechr_alnum : ∀ i, i < BASECHR.length → alnum (BASECHR.getD i 'a') = true := by decide

theorem joined_form {src : Nat → Nat} {fuel : Nat} : ∀ {size pos : Nat} {l : List Char} {pos' : Nat},
    joined src fuel size pos = some (l, pos') → l.length = size ∧ ∀ c ∈ l, alnum c = true := by
  intro size
  induction size with
  | zero =>
    intro pos l pos' h
    simp only [joined, Option.some.injEq, Prod.mk.injEq] at h
    obtain ⟨rfl, _⟩ := h
    simp
  | succ size ih =>
    intro pos l pos' h
    unfold joined at h
    split at h
    · cases h
    · next i p1 h1 =>
      split at h
      · cases h
      · next l2 p2 h2 =>
        simp only [Option.some.injEq, Prod.mk.injEq] at h
        obtain ⟨rfl, _⟩ := h
        obtain ⟨a, b⟩ := ih h2
        refine ⟨by simp [a], fun c hc => ?_⟩
        rcases List.mem_cons.1 hc with rfl | hc
        · exact basechr_alnum _ (choose_below h1).1
        · exact b c hc

/-- **C106** (form).  Whatever the source of randomness gives: a random string has exactly the length asked for and consists
of letters and digits. -/
theorem C106_form (src : Nat → Nat) (fuel size pos pos' : Nat) (r : String)
    (h : rndstr src fuel size pos = some (r, pos') ∨ unreserved src fuel size pos = some (r, pos')) :
    r.toList.length = size ∧ ∀ c ∈ r.toList, alnum c = true := by
  have h : (joined src fuel size pos).map (fun r => (String.ofList r.1, r.2)) = some (r, pos') := by
    rcases h with h | h <;> exact h
  cases hj : joined src fuel size pos with
  | none => rw [hj] at h; cases h
  | some p =>
    rw [hj] at h
    simp only [Option.map_some, Option.some.injEq, Prod.mk.injEq] at h
    obtain ⟨rfl, _⟩ := h
    rw [String.toList_ofList]
    exact joined_form (l := p.1) (pos' := p.2) hj

/-- **C106** (session values).  `rndstr(32)` gives session values of the form all the properties of sessions are about. -/
theorem C106_session_value (src : Nat → Nat) (fuel pos pos' : Nat) (r : String)
    (h : rndstr src fuel 32 pos = some (r, pos')) : Generated r := C106_form src fuel 32 pos pos' r (Or.inl h)

/-! ## Every value, from exactly one sequence of draws -/

theorem choose_first {src : Nat → Nat} {n fuel pos : Nat} (h : src pos < n) : choose src n (fuel + 1) pos = some (src pos, pos + 1) := by
  unfold choose
  rw [if_pos h]

theorem joined_all {src : Nat → Nat} {fuel : Nat} : ∀ {size pos : Nat}, (∀ q, pos ≤ q → q < pos + size → src q < BASECHR.length) →
    joined src (fuel + 1) size pos = some ((List.range size).map (fun n => BASECHR.getD (src (pos + n)) 'a'), pos + size) := by
  intro size
  induction size with
  | zero => intro pos _; rfl
  | succ size ih =>
    intro pos h
    unfold joined
    rw [choose_first (h pos (by omega) (by omega))]
    simp only
    rw [ih (fun q h1 h2 => h q (by omega) (by omega))]
    simp only [Option.some.injEq, Prod.mk.injEq]
    refine ⟨?_, by omega⟩
    rw [List.range_succ_eq_map, List.map_cons, List.map_map]
    congr 1
    apply List.map_congr_left
    intro n _
    show BASECHR.getD (src (pos + 1 + n)) 'a' = BASECHR.getD (src (pos + (n + 1))) 'a'
    rw [show pos + 1 + n = pos + (n + 1) from by omega]

theorem basechr_inj : ∀ i, i < BASECHR.length → ∀ j, j < BASECHR.length → BASECHR.getD i 'a' = BASECHR.getD j 'a' → i = j := by
  decide +kernel

theorem mem_basechr_of_alnum (c : Char) (h : alnum c = true) : c ∈ BASECHR := by
  have h1 : c.toNat < 128 ∧ alnum (Char.ofNat c.toNat) = true := by
    rw [Char.ofNat_toNat]
    refine ⟨?_, h⟩
    simp only [alnum, Bool.or_eq_true, Bool.and_eq_true, decide_eq_true_eq] at h
    have key : ∀ d : Char, d.toNat < 128 → c ≤ d → c.toNat < 128 := by
      intro d hd hc
      have : c.toNat ≤ d.toNat := hc
      omega
    rcases h with (⟨_, h⟩ | ⟨_, h⟩) | ⟨_, h⟩
    · exact key 'z' (by decide) h
    · exact key 'Z' (by decide) h
    · exact key '9' (by decide) h
  have h2 : ∀ n, n < 128 → alnum (Char.ofNat n) = true → Char.ofNat n ∈ BASECHR := by decide +kernel
  have := h2 _ h1.1 h1.2
  rwa [Char.ofNat_toNat] at this

/-- **C106** (every value, equally).  Every string of letters and digits of the length asked for can be drawn, and from exactly
one sequence of choices: if the choices are independent and uniform, so are the values. -/
theorem C106_every_value (size pos : Nat) :
    (∀ w : String, w.toList.length = size → (∀ c ∈ w.toList, alnum c = true) →
      ∃ src : Nat → Nat, (∀ q, src q < 62) ∧ rndstr src 1 size pos = some (w, pos + size)) ∧
    (∀ src src' : Nat → Nat, (∀ q, src q < 62) → (∀ q, src' q < 62) →
      rndstr src 1 size pos = rndstr src' 1 size pos → ∀ n, n < size → src (pos + n) = src' (pos + n)) := by
  have hlen : BASECHR.length = 62 := by decide
  constructor
  · intro w hw hal
    refine ⟨fun q => if BASECHR.idxOf (w.toList.getD (q - pos) 'a') < 62 then BASECHR.idxOf (w.toList.getD (q - pos) 'a') else 0,
      fun q => ?_, ?_⟩
    · dsimp only; split
      · assumption
      · decide
    · unfold rndstr
      rw [joined_all (fuel := 0) (fun q _ _ => by rw [hlen]; split; assumption; decide)]
      simp only [Option.map_some, Option.some.injEq, Prod.mk.injEq, and_true]
      rw [← String.toList_inj, String.toList_ofList]
      refine List.ext_getElem (by simp [hw]) fun n h1 h2 => ?_
      simp only [List.getElem_map, List.getElem_range, Nat.add_sub_cancel_left]
      have hg : w.toList.getD n 'a' = w.toList[n] := by simp [List.getD, List.getElem?_eq_getElem h2]
      rw [hg]
      have hm : w.toList[n] ∈ BASECHR := mem_basechr_of_alnum _ (hal _ (List.getElem_mem h2))
      have hi : BASECHR.idxOf w.toList[n] < BASECHR.length := List.idxOf_lt_length_iff.2 hm
      rw [if_pos (by rw [← hlen]; exact hi)]
      simp [List.getD, List.getElem?_eq_getElem hi]
  · intro src src' hs hs' he n hn
    unfold rndstr at he
    rw [joined_all (fuel := 0) (fun q _ _ => by rw [hlen]; exact hs q), joined_all (fuel := 0) (fun q _ _ => by rw [hlen]; exact hs' q)] at he
    simp only [Option.map_some, Option.some.injEq, Prod.mk.injEq, and_true] at he
    have he := congrArg String.toList he
    rw [String.toList_ofList, String.toList_ofList] at he
    have hn' : ((List.range size).map (fun n => BASECHR.getD (src (pos + n)) 'a'))[n]? =
        ((List.range size).map (fun n => BASECHR.getD (src' (pos + n)) 'a'))[n]? := by rw [he]
    simp only [List.getElem?_map, List.getElem?_range hn, Option.map_some, Option.some.injEq] at hn'
    exact basechr_inj _ (by rw [hlen]; exact hs _) _ (by rw [hlen]; exact hs' _) hn'

/-! ## Not to be predicted -/

theorem comb_range {cs : List Bool} {len : Nat} (h : cs.length = len) (v : Nat → Nat → Bool) (i : Nat) :
    comb cs ((List.range len).map v) i = xorAll ((List.range len).map fun n => cs.getD n false && v n i) := by
  unfold comb
  congr 1
  refine List.ext_getElem (by simp [h]) fun n h1 h2 => ?_
  have hn : n < cs.length := by simp only [List.length_map, List.length_range] at h2; omega
  simp [List.getD, List.getElem?_eq_getElem hn]

theorem xorAll_add {α : Type} (f g : α → Bool) (l : List α) :
    xorAll (l.map fun a => Bool.xor (f a) (g a)) = Bool.xor (xorAll (l.map f)) (xorAll (l.map g)) := by
  induction l with
  | nil => rfl
  | cons a l ih =>
    simp only [List.map_cons, xorAll_cons, ih]
    cases f a <;> cases g a <;> cases xorAll (l.map f) <;> cases xorAll (l.map g) <;> rfl

theorem last_set {mask : Nat → Bool} : ∀ {n : Nat}, (∃ m, m < n ∧ mask m = true) →
    ∃ p, p < n ∧ mask p = true ∧ ∀ m, p < m → m < n → mask m = false := by
  intro n
  induction n with
  | zero => rintro ⟨m, h, _⟩; omega
  | succ n ih =>
    rintro ⟨m, h1, h2⟩
    cases hn : mask n with
    | true => exact ⟨n, by omega, hn, fun m h3 h4 => by omega⟩
    | false =>
      have : m ≠ n := fun e => by rw [e, hn] at h2; cases h2
      obtain ⟨p, p1, p2, p3⟩ := ih ⟨m, by omega, h2⟩
      refine ⟨p, by omega, p2, fun m h3 h4 => ?_⟩
      by_cases e : m = n
      · subst e; exact hn
      · exact p3 m h3 (by omega)

theorem xorAll_upto {mask : Nat → Bool} {p : Nat} (g : Nat → Bool) : ∀ {n : Nat}, p < n → mask p = true →
    (∀ m, p < m → m < n → mask m = false) →
    xorAll ((List.range n).map fun m => mask m && g m) = Bool.xor (xorAll ((List.range p).map fun m => mask m && g m)) (g p) := by
  intro n
  induction n with
  | zero => intro h; omega
  | succ n ih =>
    intro h hp hz
    rw [List.range_succ, List.map_append, xorAll_append]
    by_cases e : p = n
    · subst e
      simp [hp]
    · rw [ih (by omega) hp (fun m h1 h2 => hz m h1 (by omega))]
      simp [hz n (by omega) (by omega)]

theorem masked_add (mask : Nat → Bool) (N j : Nat) (s t : Nat → Word) :
    xorAll ((List.range N).map fun n => mask n && (output (addState s t) n).getLsbD j) =
      Bool.xor (xorAll ((List.range N).map fun n => mask n && (output s n).getLsbD j))
        (xorAll ((List.range N).map fun n => mask n && (output t n).getLsbD j)) := by
  rw [← xorAll_add]
  congr 1
  apply List.map_congr_left
  intro n _
  rw [output_add, BitVec.getLsbD_xor]
  cases mask n <;> simp

theorem masked_congr (mask : Nat → Bool) (N j : Nat) (s t : Nat → Word) (h : ∀ i, i < 624 → s i = t i) :
    xorAll ((List.range N).map fun n => mask n && (output s n).getLsbD j) =
      xorAll ((List.range N).map fun n => mask n && (output t n).getLsbD j) := by
  congr 1
  apply List.map_congr_left
  intro n _
  unfold output
  rw [word_congr h]

/-- **C106** (violated: not to be predicted), the generator.  Every bit of the numbers the generator gives is the exclusive or
of fixed ones among the bits before it, whatever it was seeded with and however many numbers it gave before. -/
theorem output_recurrence (j : Nat) :
    ∃ p, p ≤ 19968 ∧ ∃ mask : Nat → Bool, ∀ (s : Nat → Word) (t : Nat),
      (output s (t + p)).getLsbD j = xorAll ((List.range p).map fun n => mask n && (output s (t + n)).getLsbD j) := by
  obtain ⟨cs, h1, h2, h3⟩ := dependent 19968 ((List.range 19969).map fun n i => (output (unit i) n).getLsbD j)
    (by rw [List.length_map, List.length_range]; omega)
  rw [List.length_map, List.length_range] at h1
  have hmask : ∃ m, m < 19969 ∧ cs.getD m false = true := by
    obtain ⟨m, hm, e⟩ := List.mem_iff_getElem.1 h2
    exact ⟨m, by omega, by simp [List.getD, List.getElem?_eq_getElem hm, e]⟩
  obtain ⟨p, p1, p2, p3⟩ := last_set hmask
  have hzero : ∀ s, xorAll ((List.range 19969).map fun n => cs.getD n false && (output s n).getLsbD j) = false := by
    refine zero_of_units _ ?_ ?_ ?_
    · exact masked_add _ _ _
    · exact masked_congr _ _ _
    · intro m hm
      rw [← comb_range h1 (fun n i => (output (unit i) n).getLsbD j) m]
      exact h3 m hm
  refine ⟨p, by omega, fun n => cs.getD n false, fun s t => ?_⟩
  have := hzero (fun i => word s (t + i))
  rw [xorAll_upto (mask := fun n => cs.getD n false) (g := fun n => (output (fun i => word s (t + i)) n).getLsbD j) p1 p2 p3] at this
  simp only [output_shift] at this
  revert this
  generalize xorAll _ = a
  generalize (output s (t + p)).getLsbD j = b
  cases a <;> cases b <;> simp

theorem sixBits_bit (s : Nat → Word) (n j : Nat) : (sixBits s n).testBit j = (output s n).getLsbD (26 + j) := by
  unfold sixBits
  rw [BitVec.testBit_toNat, BitVec.getLsbD_ushiftRight]

/-- **C106** (violated: not to be predicted).  State values, nonces and PKCE verifiers are made of numbers of six bits from
`random`.  Each bit of such a number is the exclusive or of fixed ones among the same bits of the numbers before: the mask
`mask` and the distance `p`, at most 19968, are the same for every seed and at every time. -/
theorem C106_predictable_violated (j : Nat) :
    ∃ p, p ≤ 19968 ∧ ∃ mask : Nat → Bool, ∀ (s : Nat → Word) (t : Nat),
      (sixBits s (t + p)).testBit j = xorAll ((List.range p).map fun n => mask n && (sixBits s (t + n)).testBit j) := by
  obtain ⟨p, hp, mask, h⟩ := output_recurrence (26 + j)
  refine ⟨p, hp, mask, fun s t => ?_⟩
  simp only [sixBits_bit]
  exact h s t

/-- The number with the given six bits. -/
def ofBits (b : Nat → Bool) : Nat :=
  (b 0).toNat + 2 * (b 1).toNat + 4 * (b 2).toNat + 8 * (b 3).toNat + 16 * (b 4).toNat + 32 * (b 5).toNat

theorem sixBits_lt (s : Nat → Word) (n : Nat) : sixBits s n < 64 := by
  unfold sixBits
  rw [BitVec.toNat_ushiftRight]
  have := (output s n).isLt
  rw [Nat.shiftRight_eq_div_pow]
  omega

theorem ofBits_eq {n : Nat} {b : Nat → Bool} (hn : n < 64) (h : ∀ j, j < 6 → n.testBit j = b j) : n = ofBits b := by
  have key : ∀ m, m < 64 → m = (m.testBit 0).toNat + 2 * (m.testBit 1).toNat + 4 * (m.testBit 2).toNat +
      8 * (m.testBit 3).toNat + 16 * (m.testBit 4).toNat + 32 * (m.testBit 5).toNat := by decide +kernel
  have := key n hn
  rw [h 0 (by omega), h 1 (by omega), h 2 (by omega), h 3 (by omega), h 4 (by omega), h 5 (by omega)] at this
  exact this

/-- **C106** (violated: not to be predicted), whole numbers.  There is one function that, from 19968 numbers in a row, gives the
next one, whatever the generator was seeded with. -/
theorem C106_next_number_violated :
    ∃ predict : (Nat → Nat) → Nat, (∀ f g : Nat → Nat, (∀ n, n < 19968 → f n = g n) → predict f = predict g) ∧
      ∀ (s : Nat → Word) (t : Nat), sixBits s (t + 19968) = predict fun n => sixBits s (t + n) := by
  have hj : ∀ j, ∃ p, p ≤ 19968 ∧ ∃ mask : Nat → Bool, ∀ (s : Nat → Word) (t : Nat),
      (sixBits s (t + p)).testBit j = xorAll ((List.range p).map fun n => mask n && (sixBits s (t + n)).testBit j) :=
    C106_predictable_violated
  let p : Nat → Nat := fun j => Classical.choose (hj j)
  have hp : ∀ j, p j ≤ 19968 ∧ ∃ mask : Nat → Bool, ∀ (s : Nat → Word) (t : Nat),
      (sixBits s (t + p j)).testBit j = xorAll ((List.range (p j)).map fun n => mask n && (sixBits s (t + n)).testBit j) :=
    fun j => Classical.choose_spec (hj j)
  let mask : Nat → Nat → Bool := fun j => Classical.choose (hp j).2
  have hm : ∀ j (s : Nat → Word) (t : Nat),
      (sixBits s (t + p j)).testBit j = xorAll ((List.range (p j)).map fun n => mask j n && (sixBits s (t + n)).testBit j) :=
    fun j => Classical.choose_spec (hp j).2
  refine ⟨fun f => ofBits fun j => xorAll ((List.range (p j)).map fun n => mask j n && (f (19968 - p j + n)).testBit j), ?_, ?_⟩
  · intro f g h
    show ofBits _ = ofBits _
    congr 1
    funext j
    congr 1
    apply List.map_congr_left
    intro n hn
    have h1 := (hp j).1
    have h2 := List.mem_range.1 hn
    rw [h _ (by omega)]
  · intro s t
    refine ofBits_eq (sixBits_lt _ _) fun j _ => ?_
    have h1 := (hp j).1
    have := hm j s (t + (19968 - p j))
    rw [show t + (19968 - p j) + p j = t + 19968 from by omega] at this
    rw [this]
    congr 1
    apply List.map_congr_left
    intro n _
    rw [show t + (19968 - p j) + n = t + (19968 - p j + n) from by omega]

/-- A sequence continued by a function of the `N` values before. -/
def continued (N : Nat) (predict : (Nat → Nat) → Nat) (seen : Nat → Nat) (n : Nat) : Nat :=
  if n < N then seen n else predict fun k => if h : n - N + k < n then continued N predict seen (n - N + k) else 0
termination_by n

theorem continued_congr {N : Nat} {predict : (Nat → Nat) → Nat} {f g : Nat → Nat} (h : ∀ n, n < N → f n = g n) :
    ∀ n, continued N predict f n = continued N predict g n := by
  intro n
  induction n using Nat.strongRecOn with
  | ind n ih =>
    rw [continued, continued.eq_1 N predict g]
    split
    · next hn => exact h n hn
    · congr 1
      funext k
      split
      · next hk => exact ih _ hk
      · rfl

theorem continued_eq {N : Nat} {predict : (Nat → Nat) → Nat} {src : Nat → Nat}
    (hc : ∀ f g : Nat → Nat, (∀ n, n < N → f n = g n) → predict f = predict g)
    (hs : ∀ n, N ≤ n → src n = predict fun k => src (n - N + k)) :
    ∀ n, src n = continued N predict src n := by
  intro n
  induction n using Nat.strongRecOn with
  | ind n ih =>
    rw [continued]
    split
    · rfl
    · next hn =>
      rw [hs n (by omega)]
      refine hc _ _ fun k hk => ?_
      have : n - N + k < n := by omega
      rw [dif_pos this]
      exact ih _ this

theorem joined_congr {f g : Nat → Nat} (fuel : Nat) {d : Nat} : ∀ (size pos : Nat), (∀ q, pos ≤ q → f (d + q) = g q) →
    joined f fuel size (d + pos) = (joined g fuel size pos).map fun r => (r.1, d + r.2) := by
  have hch : ∀ fuel pos, (∀ q, pos ≤ q → f (d + q) = g q) →
      choose f BASECHR.length fuel (d + pos) = (choose g BASECHR.length fuel pos).map fun r => (r.1, d + r.2) := by
    intro fuel
    induction fuel with
    | zero => intro pos _; rfl
    | succ fuel ih =>
      intro pos h
      unfold choose
      rw [h pos (Nat.le_refl _)]
      split
      · rfl
      · have := ih (pos + 1) (fun q hq => h q (by omega))
        rw [← Nat.add_assoc] at this
        exact this
  intro size
  induction size with
  | zero => intro pos _; rfl
  | succ size ih =>
    intro pos h
    unfold joined
    rw [hch fuel pos h]
    cases hcg : choose g BASECHR.length fuel pos with
    | none => rfl
    | some r =>
      obtain ⟨i, p⟩ := r
      dsimp only [Option.map_some]
      have hp := (choose_below hcg).2.2.1
      rw [ih p (fun q hq => h q (by omega))]
      cases joined g fuel size p with
      | none => rfl
      | some r => rfl

/-- **C106** (violated: not to be predicted), session values.  There is one function that, from 19968 numbers in a row, gives every
later random string -- the next state value, the next nonce, the next verifier -- whatever the generator was seeded with: who has
seen the values this process handed out knows the ones it will hand out to others. -/
theorem C106_next_value_violated :
    ∃ foresee : (Nat → Nat) → (fuel size ahead : Nat) → Option (String × Nat),
      (∀ f g : Nat → Nat, (∀ n, n < 19968 → f n = g n) → foresee f = foresee g) ∧
      ∀ (s : Nat → Word) (t fuel size ahead : Nat),
        (rndstr (sixBits s) fuel size (t + ahead)).map (fun r => (r.1, r.2 - t)) = foresee (fun n => sixBits s (t + n)) fuel size ahead := by
  obtain ⟨predict, hc, hs⟩ := C106_next_number_violated
  refine ⟨fun seen fuel size ahead => rndstr (continued 19968 predict seen) fuel size ahead, ?_, ?_⟩
  · intro f g h
    have : continued 19968 predict f = continued 19968 predict g := funext (continued_congr h)
    simp only [this]
  · intro s t fuel size ahead
    generalize 19968 = N at hc hs ⊢
    have hsrc : ∀ n, sixBits s (t + n) = continued N predict (fun n => sixBits s (t + n)) n := by
      refine continued_eq (src := fun n => sixBits s (t + n)) hc fun n hn => ?_
      have := hs s (t + (n - N))
      rw [show t + (n - N) + N = t + n from by omega] at this
      show sixBits s (t + n) = _
      rw [this]
      congr 1
      funext k
      rw [Nat.add_assoc]
    dsimp only
    unfold rndstr
    rw [joined_congr (g := continued N predict fun n => sixBits s (t + n)) fuel size ahead fun q _ => hsrc q]
    cases joined (continued N predict fun n => sixBits s (t + n)) fuel size ahead with
    | none => rfl
    | some r => simp

/-- **C106**, in contrast: no such rule holds for all sequences of numbers, so it does not hold for independent choices. -/
theorem C106_independent_source (j : Nat) (hj : j < 6) (p : Nat) (mask : Nat → Bool) :
    ∃ src : Nat → Nat, (∀ q, src q < 62) ∧
      (src p).testBit j ≠ xorAll ((List.range p).map fun n => mask n && (src n).testBit j) := by
  refine ⟨fun q => if q = p then 2 ^ j else 0, ?_, ?_⟩
  · intro q
    dsimp only
    split
    · have : ∀ j, j < 6 → 2 ^ j < 62 := by decide
      exact this j hj
    · decide
  · have : xorAll ((List.range p).map fun n => mask n && ((if n = p then 2 ^ j else 0 : Nat).testBit j)) = false := by
      have hz : ((List.range p).map fun n => mask n && ((if n = p then 2 ^ j else 0 : Nat).testBit j)) = (List.range p).map fun _ => false := by
        apply List.map_congr_left
        intro n hn
        rw [if_neg (by have := List.mem_range.1 hn; omega)]
        simp
      rw [hz]
      induction (List.range p) with
      | nil => rfl
      | cons a l ih => simpa using ih
    rw [this]
    simp

/-! ## What can be seen of the numbers -/

/-- The numbers a random string was made of: `ps` are their positions. -/
inductive MadeAt (src : Nat → Nat) : (pos : Nat) → List Char → (pos' : Nat) → Prop
  | done (pos : Nat) : MadeAt src pos [] pos
  | thrown {pos pos' : Nat} {l : List Char} : 62 ≤ src pos → MadeAt src (pos + 1) l pos' → MadeAt src pos l pos'
  | taken {pos pos' : Nat} {l : List Char} : src pos < 62 → MadeAt src (pos + 1) l pos' →
      MadeAt src pos (BASECHR.getD (src pos) 'a' :: l) pos'

theorem made_choose {src : Nat → Nat} {l : List Char} {pos'' : Nat} : ∀ {fuel pos i pos' : Nat},
    choose src 62 fuel pos = some (i, pos') → MadeAt src pos' l pos'' → MadeAt src pos (BASECHR.getD i 'a' :: l) pos'' := by
  intro fuel
  induction fuel with
  | zero => intro pos i pos' h; cases h
  | succ fuel ih =>
    intro pos i pos' h hm
    unfold choose at h
    split at h
    · next hlt =>
      simp only [Option.some.injEq, Prod.mk.injEq] at h
      obtain ⟨rfl, rfl⟩ := h
      exact .taken hlt hm
    · next hge => exact .thrown (by omega) (ih h hm)

/-- **C106** (what is seen).  The characters of a random string are, in order, those at the numbers the generator gave, except
those that are not below 62; of those all bits but the last are known. -/
theorem C106_numbers_seen (src : Nat → Nat) (fuel size : Nat) : ∀ (pos pos' : Nat) (r : String),
    rndstr src fuel size pos = some (r, pos') → MadeAt src pos r.toList pos' := by
  have : ∀ size pos l pos', joined src fuel size pos = some (l, pos') → MadeAt src pos l pos' := by
    intro size
    induction size with
    | zero =>
      intro pos l pos' h
      simp only [joined, Option.some.injEq, Prod.mk.injEq] at h
      obtain ⟨rfl, rfl⟩ := h
      exact .done _
    | succ size ih =>
      intro pos l pos' h
      unfold joined at h
      split at h
      · cases h
      · next i p1 h1 =>
        split at h
        · cases h
        · next l2 p2 h2 =>
          simp only [Option.some.injEq, Prod.mk.injEq] at h
          obtain ⟨rfl, rfl⟩ := h
          exact made_choose h1 (ih _ _ _ h2)
  intro pos pos' r h
  unfold rndstr at h
  cases hj : joined src fuel size pos with
  | none => rw [hj] at h; cases h
  | some q =>
    rw [hj] at h
    simp only [Option.map_some, Option.some.injEq, Prod.mk.injEq] at h
    obtain ⟨rfl, rfl⟩ := h
    rw [String.toList_ofList]
    exact this size pos q.1 q.2 hj

/-- The numbers that are thrown away have all bits set but possibly the last. -/
theorem C106_thrown_away (s : Nat → Word) (n : Nat) (h : 62 ≤ sixBits s n) (j : Nat) (h1 : 1 ≤ j) (h2 : j < 6) :
    (sixBits s n).testBit j = true := by
  have hl := sixBits_lt s n
  have : ∀ m, m < 64 → 62 ≤ m → ∀ j, j < 6 → 1 ≤ j → m.testBit j = true := by decide +kernel
  exact this _ hl h j h2 h1

/-! ## Random values in URLs -/

theorem utf8_ascii : ∀ (l : List Char), (∀ c ∈ l, c.toNat < 128) → Quote.utf8 (String.ofList l) = l.map fun c => c.val.toUInt8 := by
  intro l
  induction l with
  | nil => intro _; rfl
  | cons c l ih =>
    intro h
    have h1 := ih (fun d hd => h d (by simp [hd]))
    have hc := h c (by simp)
    have hs : c.utf8Size = 1 := by
      rw [Char.utf8Size_eq_one_iff, UInt32.le_iff_toNat_le]
      have : c.val.toNat < 128 := hc
      show c.val.toNat ≤ 127
      omega
    unfold Quote.utf8 at h1 ⊢
    rw [String.toByteArray_ofList] at h1 ⊢
    rw [List.utf8Encode_cons, List.utf8Encode_singleton, String.utf8EncodeChar_eq_singleton hs, ByteArray.data_append, Array.toList_append, h1]
    simp [List.data_toByteArray]

theorem alnum_safe (c : Char) (h : alnum c = true) : c.toNat < 128 ∧ Quote.quoteByte c.val.toUInt8 = [c] := by
  have h1 : c ∈ BASECHR := mem_basechr_of_alnum c h
  have : ∀ c ∈ BASECHR, c.toNat < 128 ∧ Quote.quoteByte c.val.toUInt8 = [c] := by decide +kernel
  exact this c h1

/-- **C106** (in URLs).  A random value is written into a query or a form as it is: nothing in it is escaped. -/
theorem C106_verbatim (src : Nat → Nat) (fuel size pos pos' : Nat) (r : String)
    (h : rndstr src fuel size pos = some (r, pos') ∨ unreserved src fuel size pos = some (r, pos')) :
    Quote.quotePlus r = r.toList := by
  have hf := (C106_form src fuel size pos pos' r h).2
  rw [show r = String.ofList r.toList from (String.ofList_toList).symm] 
  generalize r.toList = l at hf
  rw [String.toList_ofList]
  unfold Quote.quotePlus
  rw [utf8_ascii l fun c hc => (alnum_safe c (hf c hc)).1]
  induction l with
  | nil => rfl
  | cons c l ih =>
    rw [List.map_cons, Quote.quoteBytes, (alnum_safe c (hf c (by simp))).2, ih (fun d hd => hf d (by simp [hd]))]
    rfl

/-! ## Non-vacuity -/

/-- A generator whose state is all zero but for one word. -/
def oneWord : Nat → Word := fun n => if n = 1 then 0x80000001#32 else 0#32

/-- Two draws, one of them thrown away. -/
example : rndstr (fun q => if q = 0 then 63 else q) 5 3 0 = some ("bcd", 4) := by decide +kernel

/-- The hypotheses of the theorems are met. -/
example : ∃ r pos', rndstr (fun q => q % 64) 5 32 50 = some (r, pos') ∧ pos' = 84 := ⟨_, _, rfl, rfl⟩

/-- The generator is not constant: the numbers it gives depend on the state. -/
example : output oneWord 0 ≠ output (fun _ => 0#32) 0 := by decide +kernel

end Verif.Props
