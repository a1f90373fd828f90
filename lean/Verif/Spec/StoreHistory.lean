import Verif.Model.StateInterface
/-!
# What a history of calls on the session store should have established

Functions of the history (list of calls, oldest first) only.
-/

namespace Verif.Spec.History
open Verif.StateInterface (Op)

/-- The item of type `t` last stored for session `k`, unless the session was created anew or
removed since. -/
def lastItem (t k : String) (ops : List Op) : Option Obj :=
  ops.foldl (fun cur op => match op with
    | .store i t' k' => if t' = t ∧ k' = k then some i else cur
    | .create _ key rnd => if (if key = "" then rnd else key) = k then none else cur
    | .remove k' => if k' = k then none else cur
    | _ => cur) none

/-- Whether session `k` exists, and with which issuer (`""`: stored into without being created). -/
def sessionIss (k : String) (ops : List Op) : Option String :=
  ops.foldl (fun cur op => match op with
    | .store _ _ k' => if k' = k then some (cur.getD "") else cur
    | .create iss key rnd => if (if key = "" then rnd else key) = k then some iss else cur
    | .remove k' => if k' = k then none else cur
    | _ => cur) none

/-- The session the value `v` of kind `x` was bound to last. -/
def lastBind (x : XTyp) (v : String) (ops : List Op) : Option String :=
  ops.foldl (fun cur op => match op with
    | .bind x' v' k => if x' = x ∧ v' = v then some k else cur
    | _ => cur) none

/-- The characters of `rndstr` (util.py:74-82: `string.ascii_letters + string.digits`). -/
def alnum (c : Char) : Bool :=
  ('a' ≤ c && c ≤ 'z') || ('A' ≤ c && c ≤ 'Z') || ('0' ≤ c && c ≤ '9')

/-- A key the library generates: `rndstr(32)`. -/
def Generated (k : String) : Prop := k.toList.length = 32 ∧ ∀ c ∈ k.toList, alnum c = true

end Verif.Spec.History
