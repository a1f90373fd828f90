import Verif.Model.Threads
import Verif.Model.Handler
/-!
# What the session store is kept in

`StateInterface` uses its `_db` only by look-up, assignment and deletion.  Here those are parameters: the calls, as sequences of
such operations (`Verif.Model.Threads`), run on any mapping.
-/

namespace Verif.Backend
open Verif Verif.StateInterface Verif.Threads

/-- A mapping from texts to values, with the operations `StateInterface` uses (state_interface.py:95, 121, 245-256, 266, 375,
384-388). -/
structure Mapping (σ : Type) where
  /-- `db.get(k)`; `none` is Python `None` -/
  get : σ → String → Option DbVal
  /-- `db[k] = v` -/
  set : σ → String → DbVal → σ
  /-- `del db[k]`; `false`: `KeyError` -/
  del : σ → String → Bool × σ

/-- The dictionary of `StateInterface()` (state_interface.py:84-86). -/
def dict : Mapping DB where
  get := Dict.get?
  set := Dict.set
  del := fun db k => if Dict.has db k then (true, Dict.del db k) else (false, db)

/-- `InMemoryStateDataBase` (state_interface.py:34-74): a dictionary inside; `get` (44-49) does not raise, `__setitem__`
(58-60), and `__delitem__` (69-74), which does not raise either. -/
def inMemory : Mapping DB where
  get := Dict.get?
  set := Dict.set
  del := fun db k => if Dict.has db k then (true, Dict.del db k) else (true, db)

/-- A program on a mapping. (the operations of the calls of state_interface.py:88-388 on `self.state_db`) -/
def runOn {σ α : Type} (m : Mapping σ) : Prog α → σ → α × σ
  | .done r, s => (r, s)
  | .get k next, s => runOn m (next (m.get s k)) s
  | .set k v next, s => runOn m next (m.set s k v)
  | .del k next, s => runOn m (next (m.del s k).1) (m.del s k).2

/-- A history of calls of `StateInterface` with `_db` on a mapping; an exception does not end the history.
(state_interface.py:84-388) -/
def history {σ : Type} (m : Mapping σ) : List Op → σ → List (Except Exc Out) × σ
  | [], s => ([], s)
  | op :: ops, s =>
    let r := runOn m (callProg op) s
    let q := history m ops r.2
    (r.1 :: q.1, q.2)

/-- A process with a handler: the store given to the handler, `state_db` (rp_handler.py:71-74), and the handler. -/
structure Process where
  stateDb : DB := []
  handler : Verif.Handler

/-- A call of the handler: no method of rp_handler.py reads or writes `self.state_db`; every client has a `StateInterface`
of its own (service_context.py:122). -/
def Process.exec (x : Ext) (call : Handler.Call) (p : Process) : Process :=
  { p with handler := (Handler.exec x call p.handler).2 }

/-- The process ends and is started again: a new handler is made (rp_handler.py:42-103) with the same configuration and
store. -/
def Process.restart (new : Verif.Handler) (p : Process) : Process := { p with handler := new }

end Verif.Backend
