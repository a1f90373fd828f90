import Verif.Model.StateInterface
/-!
# Specification of the session store

Sessions, four reverse indexes, and per session the list of values that were bound to it: three
separate maps.  Nothing here mentions the flat dictionary or its key patterns.
-/

namespace Verif.Spec.Store
open Verif.StateInterface (Op Out)

/-- A session: who it was started with (`""`: unknown) and the items stored for it. -/
structure Session where
  iss : String
  items : String → Option Obj

/-- The abstract store. -/
structure Store where
  sess : String → Option Session
  idx : XTyp → String → Option String
  refs : String → Option (List (XTyp × String))

/-- The empty store. -/
def empty : Store := ⟨fun _ => none, fun _ _ => none, fun _ => none⟩

/-- function update -/
def upd {α β : Type} [DecidableEq α] (f : α → β) (a : α) (b : β) : α → β :=
  fun a' => if a = a' then b else f a'

/-- An item is read back without its empty parameters. -/
def withoutEmpty (o : Obj) : Obj :=
  o.filter (fun p => decide (p.2 ≠ .str "") && decide (p.2 ≠ .list [.str ""]))

/-- Remember that `v` was bound to the session as its (only) value of kind `x`. -/
def setRef : List (XTyp × String) → XTyp → String → List (XTyp × String)
  | [], x, v => [(x, v)]
  | (y, w) :: l, x, v => if y = x then (y, v) :: l else (y, w) :: setRef l x v

/-- Remove index entries one by one; a missing one is a `KeyError` and ends the walk. -/
def dropRefs : List (XTyp × String) → (XTyp → String → Option String) →
    Except Exc Unit × (XTyp → String → Option String)
  | [], idx => (.ok (), idx)
  | (x, v) :: l, idx =>
    match idx x v with
    | none => (.error .keyError, idx)
    | some _ => dropRefs l (upd idx x (upd (idx x) v none))

/-- The abstract behaviour of one call. -/
def step (s : Store) : Op → Except Exc Out × Store
  | .create iss key rnd =>
    let k := if key = "" then rnd else key
    (.ok (.key k), { s with sess := upd s.sess k (some ⟨iss, fun _ => none⟩) })
  | .store item t k =>
    let old := (s.sess k).getD ⟨"", fun _ => none⟩
    (.ok .unit, { s with sess := upd s.sess k (some { old with items := upd old.items t (some item) }) })
  | .bind x v k =>
    (.ok .unit, { s with
      idx := upd s.idx x (upd (s.idx x) v (some k)),
      refs := upd s.refs k (some (setRef ((s.refs k).getD []) x v)) })
  | .remove k =>
    match s.sess k with
    | none => (.error .keyError, s)
    | some _ =>
      let s1 := { s with sess := upd s.sess k none }
      match s.refs k with
      | none => (.error .typeError, s1)
      | some l =>
        match dropRefs l s.idx with
        | (.ok _, idx) => (.ok .unit, { s1 with idx := idx })
        | (.error e, idx) => (.error e, { s1 with idx := idx })
  | .item t k =>
    match s.sess k with
    | none => (.error .keyError, s)
    | some ss => match ss.items t with
      | none => (.error .keyError, s)
      | some o => (.ok (.doc (withoutEmpty o)), s)
  | .issuer k =>
    match s.sess k with
    | none => (.error .keyError, s)
    | some ss => if ss.iss = "" then (.error .keyError, s) else (.ok (.val (.str ss.iss)), s)
  | .lookup x v =>
    match s.idx x v with
    | none => (.error .keyError, s)
    | some k => (.ok (.ptr (.raw k)), s)

/-- The results of a history of calls. -/
def run : List Op → Store → List (Except Exc Out) × Store
  | [], s => ([], s)
  | op :: ops, s =>
    let (r, s1) := step s op
    let (rs, s2) := run ops s1
    (r :: rs, s2)

/-- A space of session keys the caller may use: not empty, not wrapped in one of the four index
markers, and no key is the bookkeeping name of another. -/
structure KeySpace (K : String → Prop) : Prop where
  nonempty : ∀ k, K k → k ≠ ""
  plain : ∀ k, K k → ∀ m ∈ ["__", "::", "..", "=="],
    ¬ (m.toList <+: k.toList ∧ m.toList <:+ k.toList)
  noRef : ∀ k k', K k → K k' → k ≠ "ref" ++ k' ++ "ref"

/-- The session keys a call mentions lie in `K`, and the item type is not the issuer slot. -/
def OpOk (K : String → Prop) : Op → Prop
  | .create _ key rnd => (key = "" ∨ K key) ∧ K rnd
  | .store _ t k => K k ∧ t ≠ "iss"
  | .bind _ _ k => K k
  | .remove k => K k
  | .item t k => K k ∧ t ≠ "iss"
  | .issuer k => K k
  | .lookup _ _ => True

end Verif.Spec.Store
