import Verif.Model.StateInterface
/-!
# The session store, one dictionary operation at a time

`Verif.Model.StateInterface` takes every call as one step.  Here a call is the sequence of operations it makes on the
dictionary `_db` (state_interface.py:84-86), so that calls of several threads can be interleaved between any two of them, and
a crash can happen between any two of them.  A single look-up, assignment or deletion is taken as atomic (for a `dict` it is,
under the interpreter lock; a persistent mapping has to guarantee it).
-/

namespace Verif.Threads
open Verif Verif.StateInterface

/-- What a thread still has to do: nothing (with its result), or an operation on the dictionary and what depends on its
outcome. (the operations on `self.state_db` in state_interface.py:88-388) -/
inductive Prog (α : Type) where
  | done (r : α)
  /-- `self._db.get(k)` -/
  | get (k : String) (next : Option DbVal → Prog α)
  /-- `self._db[k] = v` -/
  | set (k : String) (v : DbVal) (next : Prog α)
  /-- `del self._db[k]`; `false`: `KeyError` -/
  | del (k : String) (next : Bool → Prog α)

namespace Prog
variable {α β : Type}

/-- One operation. (not in the code: one operation on a dictionary) -/
def step : Prog α → DB → Prog α × DB
  | .done r, db => (.done r, db)
  | .get k next, db => (next (Dict.get? db k), db)
  | .set k v next, db => (next, Dict.set db k v)
  | .del k next, db => if Dict.has db k then (next true, Dict.del db k) else (next false, db)

/-- All operations, with nobody else at work. (not in the code) -/
def exec : Prog α → DB → α × DB
  | .done r, db => (r, db)
  | .get k next, db => exec (next (Dict.get? db k)) db
  | .set k v next, db => exec next (Dict.set db k v)
  | .del k next, db => if Dict.has db k then exec (next true) (Dict.del db k) else exec (next false) db

/-- One program after another. (not in the code) -/
def andThen : Prog α → (α → Prog β) → Prog β
  | .done r, f => f r
  | .get k next, f => .get k (fun v => andThen (next v) f)
  | .set k v next, f => .set k v (andThen next f)
  | .del k next, f => .del k (fun b => andThen (next b) f)

/-- The first `n` operations, with nobody else at work: what a crash after them leaves. (not in the code) -/
def alone : Nat → Prog α → DB → Prog α × DB
  | 0, p, db => (p, db)
  | n + 1, p, db => alone n (step p db).1 (step p db).2

end Prog

/-- `get_state` (state_interface.py:88-99) of what was found. -/
def readState : Option DbVal → Except Exc Obj
  | none => .error .keyError
  | some (.raw s) => if s = "" then .error .keyError else .error .valueError
  | some (.doc o) => .ok (Msg.ofDict o)

/-- `create_state` (state_interface.py:360-376). -/
def createProg (iss key rnd : String) : Prog (Except Exc Out) :=
  if key = "" then .set rnd (.doc (Msg.ofDict [("iss", .str iss)])) (.done (.ok (.key rnd)))
  else if dunder key then .done (.error .valueError)
  else .set key (.doc (Msg.ofDict [("iss", .str iss)])) (.done (.ok (.key key)))

/-- `store_item` (state_interface.py:101-121). -/
def storeProg (item : Obj) (itemType key : String) : Prog (Except Exc Out) :=
  .get key fun v => match readState v with
    | .ok st => .set key (.doc (Dict.set st itemType (.obj item))) (.done (.ok .unit))
    | .error .keyError => .set key (.doc (Dict.set [] itemType (.obj item))) (.done (.ok .unit))
    | .error e => .done (.error e)

/-- `store_x2state` (state_interface.py:236-256). -/
def bindProg (x : XTyp) (value state : String) : Prog (Except Exc Out) :=
  .set (indexKey x value) (.raw state) <| .get (refKey state) fun v => match v with
    | none => .set (refKey state) (.doc [(x.name, .str value)]) (.done (.ok .unit))
    | some (.doc refs) => .set (refKey state) (.doc (Dict.set refs x.name (.str value))) (.done (.ok .unit))
    | some (.raw _) => .done (.error .valueError)

/-- The loop of `remove_state` (state_interface.py:387-388). -/
def removeRefsProg : Obj → Prog (Except Exc Out)
  | [] => .done (.ok .unit)
  | (xt, v) :: refs => match XTyp.ofName? xt, v with
    | some x, .str s => .del (indexKey x s) fun b => if b then removeRefsProg refs else .done (.error .keyError)
    | _, _ => .done (.error .keyError)

/-- `remove_state` (state_interface.py:378-388). -/
def removeProg (state : String) : Prog (Except Exc Out) :=
  .del state fun b => if b then .get (refKey state) fun v => match v with
      | none => .done (.error .typeError)
      | some (.raw _) => .done (.error .valueError)
      | some (.doc refs) => removeRefsProg refs
    else .done (.error .keyError)

/-- `get_item` (state_interface.py:135-150). -/
def itemProg (itemType key : String) : Prog (Except Exc Out) :=
  .get key fun v => match readState v with
    | .ok st => .done ((asItem (Dict.get? st itemType)).map .doc)
    | .error e => .done (.error e)

/-- `get_iss` (state_interface.py:123-133). -/
def issuerProg (key : String) : Prog (Except Exc Out) :=
  .get key fun v => match readState v with
    | .ok st => .done (if st.isEmpty then .error .keyError else (Dict.getItem st "iss").map .val)
    | .error e => .done (.error e)

/-- `get_state_by_x` (state_interface.py:258-271). -/
def lookupProg (x : XTyp) (value : String) : Prog (Except Exc Out) :=
  .get (indexKey x value) fun v => match v with
    | some (.raw s) => .done (if s = "" then .error .keyError else .ok (.ptr (.raw s)))
    | some (.doc o) => .done (.ok (.ptr (.doc o)))
    | none => .done (.error .keyError)

/-- A call (dispatch only, see the cited functions). (state_interface.py:84-388) -/
def callProg : Op → Prog (Except Exc Out)
  | .create iss key rnd => createProg iss key rnd
  | .store item t key => storeProg item t key
  | .bind x v key => bindProg x v key
  | .remove key => removeProg key
  | .item t key => itemProg t key
  | .issuer key => issuerProg key
  | .lookup x v => lookupProg x v

/-- A thread: one call after another; an exception does not end it (the caller goes on). (not in the code: the
calls of an application) -/
def threadProg : List Op → Prog (List (Except Exc Out))
  | [] => .done []
  | op :: ops => (callProg op).andThen fun r => (threadProg ops).andThen fun rs => .done (r :: rs)

/-- Several threads on one store. (not in the code) -/
structure System (ι α : Type) where
  threads : ι → Prog α
  db : DB

/-- Thread `i` makes one operation. (not in the code) -/
def System.step {ι α : Type} [DecidableEq ι] (s : System ι α) (i : ι) : System ι α :=
  let r := (s.threads i).step s.db
  { threads := fun j => if j = i then r.1 else s.threads j, db := r.2 }

/-- A schedule: whose turn it is, one operation at a time.  Where it ends, the process may have crashed. (not
in the code) -/
def System.run {ι α : Type} [DecidableEq ι] (s : System ι α) : List ι → System ι α
  | [] => s
  | i :: is => (s.step i).run is

/-- The threads `ops` start on the store `db`. (not in the code) -/
def System.start {ι : Type} (ops : ι → List Op) (db : DB) : System ι (List (Except Exc Out)) :=
  { threads := fun i => threadProg (ops i), db := db }

end Verif.Threads
