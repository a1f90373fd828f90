import Verif.Py.Quote
/-!
# Model of the random strings (src/oidcrp/util.py, src/oidcrp/defaults.py) and of the generator behind them

`import SystemRandom as rnd` (util.py:21-24) fails on every Python: there is no module of that name (the class is
`random.SystemRandom`).  So `rnd` is the module `random`, whose functions use one Mersenne Twister (MT19937) per process.
The generator and `random.choice` are modelled after CPython's `_randommodule.c` and `random.py`; seeding is not modelled:
any state of the generator is possible at the start.
-/

namespace Verif.Random

/-! ## `random`: choices from a source of words -/

/-- `rnd.choice(seq)`: `_randbelow(len(seq))` takes numbers of `k` bits, `k` the number of bits of the length, until one is
below the length (CPython random.py, `_randbelow_with_getrandbits`).  `src` gives, for every position of the generator, the number
of six bits that `getrandbits(6)` gives there.  The result is the position in the sequence and the next position of the
generator; the loop has no bound in Python, here it is given `fuel`.  (used in util.py:82, 94) -/
def choose (src : Nat → Nat) (n : Nat) : (fuel pos : Nat) → Option (Nat × Nat)
  | 0, _ => none
  | fuel + 1, pos => if src pos < n then some (src pos, pos + 1) else choose src n fuel (pos + 1)

/-- `string.ascii_letters + string.digits` (util.py:81, defaults.py:73) -/
def BASECHR : List Char := "abcdefghijklmnopqrstuvwxyzABCDEFGHIJKLMNOPQRSTUVWXYZ0123456789".toList

/-- `"".join(rnd.choice(chars) for i in range(size))` (util.py:82, 94) -/
def joined (src : Nat → Nat) (fuel : Nat) : (size pos : Nat) → Option (List Char × Nat)
  | 0, pos => some ([], pos)
  | size + 1, pos =>
    match choose src BASECHR.length fuel pos with
    | none => none
    | some (i, pos') =>
      match joined src fuel size pos' with
      | none => none
      | some (l, pos'') => some (BASECHR.getD i 'a' :: l, pos'')

/-- `rndstr` (util.py:74-82). -/
def rndstr (src : Nat → Nat) (fuel size pos : Nat) : Option (String × Nat) :=
  (joined src fuel size pos).map fun r => (String.ofList r.1, r.2)

/-- `unreserved` (util.py:85-94); in spite of its name and description it uses the characters of `rndstr`. -/
def unreserved (src : Nat → Nat) (fuel size pos : Nat) : Option (String × Nat) :=
  (joined src fuel size pos).map fun r => (String.ofList r.1, r.2)

/-! ## The Mersenne Twister -/

/-- A word of the generator. (behind util.py:21-24) -/
abbrev Word := BitVec 32

/-- The step of the recurrence: the upper bit of one word and the lower bits of the next, times a matrix.
(behind util.py:21-24: CPython _randommodule.c, genrand_uint32) -/
def twist (u l : Word) : Word :=
  let y := (u &&& 0x80000000#32) ||| (l &&& 0x7fffffff#32)
  (y >>> 1) ^^^ (if y.getLsbD 0 then 0x9908b0df#32 else 0#32)

/-- The sequence of words of the generator with the 624 words `s` as its state.
(behind util.py:21-24: CPython _randommodule.c, genrand_uint32; the 624 words of the C array are the last 624 of the sequence) -/
def word (s : Nat → Word) (n : Nat) : Word :=
  if n < 624 then s n
  else word s (n - 227) ^^^ twist (word s (n - 624)) (word s (n - 623))
termination_by n
decreasing_by all_goals omega

/-- Tempering. (behind util.py:21-24: CPython _randommodule.c, genrand_uint32) -/
def temper (y0 : Word) : Word :=
  let y1 := y0 ^^^ (y0 >>> 11)
  let y2 := y1 ^^^ ((y1 <<< 7) &&& 0x9d2c5680#32)
  let y3 := y2 ^^^ ((y2 <<< 15) &&& 0xefc60000#32)
  y3 ^^^ (y3 >>> 18)

/-- The `n`th number `genrand_uint32` gives. (behind util.py:21-24) -/
def output (s : Nat → Word) (n : Nat) : Word := temper (word s (624 + n))

/-- `getrandbits(6)`: the upper six bits; six is the number of bits of the length of the alphabet.
(behind util.py:82, 94) -/
def sixBits (s : Nat → Word) (n : Nat) : Nat := (output s n >>> 26).toNat

end Verif.Random
