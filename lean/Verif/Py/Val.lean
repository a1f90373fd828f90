/-!
# Python-like values

`Val` is the value universe of JSON-like Python data used by the library: `None`, `bool`, `int`,
`str`, `list` and `dict` (insertion-ordered association list).
-/

namespace Verif

/-- JSON-like Python values.  Floats are not needed by the modelled code. -/
inductive Val where
  | null
  | bool (b : Bool)
  | int (i : Int)
  | str (s : String)
  | list (l : List Val)
  | obj (o : List (String × Val))
  deriving Inhabited, Repr

namespace Val

mutual
/-- Decidable equality (Python `==` on these values). -/
def decEq : (a b : Val) → Decidable (a = b)
  | .null, .null => isTrue rfl
  | .bool a, .bool b =>
      if h : a = b then isTrue (by rw [h]) else isFalse (by intro h'; injection h'; contradiction)
  | .int a, .int b =>
      if h : a = b then isTrue (by rw [h]) else isFalse (by intro h'; injection h'; contradiction)
  | .str a, .str b =>
      if h : a = b then isTrue (by rw [h]) else isFalse (by intro h'; injection h'; contradiction)
  | .list a, .list b =>
      match decEqList a b with
      | isTrue h => isTrue (by rw [h])
      | isFalse h => isFalse (by intro h'; injection h'; contradiction)
  | .obj a, .obj b =>
      match decEqObj a b with
      | isTrue h => isTrue (by rw [h])
      | isFalse h => isFalse (by intro h'; injection h'; contradiction)
  | .null, .bool _ => isFalse (by intro h; cases h)
  | .null, .int _ => isFalse (by intro h; cases h)
  | .null, .str _ => isFalse (by intro h; cases h)
  | .null, .list _ => isFalse (by intro h; cases h)
  | .null, .obj _ => isFalse (by intro h; cases h)
  | .bool _, .null => isFalse (by intro h; cases h)
  | .bool _, .int _ => isFalse (by intro h; cases h)
  | .bool _, .str _ => isFalse (by intro h; cases h)
  | .bool _, .list _ => isFalse (by intro h; cases h)
  | .bool _, .obj _ => isFalse (by intro h; cases h)
  | .int _, .null => isFalse (by intro h; cases h)
  | .int _, .bool _ => isFalse (by intro h; cases h)
  | .int _, .str _ => isFalse (by intro h; cases h)
  | .int _, .list _ => isFalse (by intro h; cases h)
  | .int _, .obj _ => isFalse (by intro h; cases h)
  | .str _, .null => isFalse (by intro h; cases h)
  | .str _, .bool _ => isFalse (by intro h; cases h)
  | .str _, .int _ => isFalse (by intro h; cases h)
  | .str _, .list _ => isFalse (by intro h; cases h)
  | .str _, .obj _ => isFalse (by intro h; cases h)
  | .list _, .null => isFalse (by intro h; cases h)
  | .list _, .bool _ => isFalse (by intro h; cases h)
  | .list _, .int _ => isFalse (by intro h; cases h)
  | .list _, .str _ => isFalse (by intro h; cases h)
  | .list _, .obj _ => isFalse (by intro h; cases h)
  | .obj _, .null => isFalse (by intro h; cases h)
  | .obj _, .bool _ => isFalse (by intro h; cases h)
  | .obj _, .int _ => isFalse (by intro h; cases h)
  | .obj _, .str _ => isFalse (by intro h; cases h)
  | .obj _, .list _ => isFalse (by intro h; cases h)
/-- Decidable equality on lists of values. -/
def decEqList : (a b : List Val) → Decidable (a = b)
  | [], [] => isTrue rfl
  | [], _ :: _ => isFalse (by intro h; cases h)
  | _ :: _, [] => isFalse (by intro h; cases h)
  | x :: xs, y :: ys =>
      match decEq x y, decEqList xs ys with
      | isTrue h1, isTrue h2 => isTrue (by rw [h1, h2])
      | isFalse h1, _ => isFalse (by intro h; injection h; contradiction)
      | _, isFalse h2 => isFalse (by intro h; injection h; contradiction)
/-- Decidable equality on association lists of values. -/
def decEqObj : (a b : List (String × Val)) → Decidable (a = b)
  | [], [] => isTrue rfl
  | [], _ :: _ => isFalse (by intro h; cases h)
  | _ :: _, [] => isFalse (by intro h; cases h)
  | (k, x) :: xs, (l, y) :: ys =>
      if hk : k = l then
        match decEq x y, decEqObj xs ys with
        | isTrue h1, isTrue h2 => isTrue (by rw [hk, h1, h2])
        | isFalse h1, _ => isFalse (by
            intro h; injection h with h _; injection h; contradiction)
        | _, isFalse h2 => isFalse (by intro h; injection h; contradiction)
      else isFalse (by intro h; injection h with h _; injection h; contradiction)
end

instance : DecidableEq Val := decEq

/-- Python truthiness (`bool(v)`). -/
def truthy : Val → Bool
  | .null => false
  | .bool b => b
  | .int i => i != 0
  | .str s => s != ""
  | .list l => !l.isEmpty
  | .obj o => !o.isEmpty

/-- `isinstance(v, str)` projection. -/
def str? : Val → Option String
  | .str s => some s
  | _ => none

/-- `isinstance(v, dict)` projection. -/
def obj? : Val → Option (List (String × Val))
  | .obj o => some o
  | _ => none

/-- integer projection -/
def int? : Val → Option Int
  | .int i => some i
  | _ => none

end Val
end Verif
