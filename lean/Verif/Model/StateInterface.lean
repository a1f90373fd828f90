import Verif.Model.Msg
/-!
# Model of src/oidcrp/state_interface.py

The class keeps everything in one dictionary `_db` from strings to strings.  A value is either the
JSON text of a document (session record, or the `ref…ref` bookkeeping entry) or a bare string
(index entry pointing to a session key).  The model stores the document itself (`DbVal.doc`) instead
of its JSON text; `json.dumps`/`json.loads` is taken to be the identity on documents.
-/

namespace Verif

/-- A value in `StateInterface._db` (state_interface.py:84-86, 121, 245, 256, 375). -/
inductive DbVal where
  /-- JSON text of a document -/
  | doc (o : Obj)
  /-- bare string (index entry) -/
  | raw (s : String)
  deriving DecidableEq, Inhabited, Repr

/-- `StateInterface._db` (state_interface.py:80-86). -/
abbrev DB := Dict DbVal

/-- The kinds of index values, i.e. the keys of `KEY_PATTERN` (state_interface.py:26-31). -/
inductive XTyp where
  | nonce | logoutState | sessionId | subjectId
  deriving DecidableEq, Inhabited, Repr

namespace XTyp

/-- The key string used in `KEY_PATTERN` (state_interface.py:26-31). -/
def name : XTyp → String
  | .nonce => "nonce"
  | .logoutState => "logout state"
  | .sessionId => "session id"
  | .subjectId => "subject id"

/-- `xtyp in KEY_PATTERN` (state_interface.py:26-31); `none` is the `KeyError`. -/
def ofName? (s : String) : Option XTyp :=
  if s = "nonce" then some .nonce
  else if s = "logout state" then some .logoutState
  else if s = "session id" then some .sessionId
  else if s = "subject id" then some .subjectId
  else none

end XTyp

namespace StateInterface

/-- `KEY_PATTERN[xtyp].format(value)` (state_interface.py:26-31). -/
def indexKey : XTyp → String → String
  | .nonce, v => "__" ++ v ++ "__"
  | .logoutState, v => "::" ++ v ++ "::"
  | .sessionId, v => ".." ++ v ++ ".."
  | .subjectId, v => "==" ++ v ++ "=="

/-- `"ref{}ref".format(state)` (state_interface.py:247, 256, 385). -/
def refKey (state : String) : String := "ref" ++ state ++ "ref"

/-- `get_state` (state_interface.py:88-99).  A falsy value raises `KeyError`; a bare string is not
a JSON document, `from_json` raises `ValueError` (json.JSONDecodeError).  Simplification: a bare
string that happens to be valid JSON is treated the same. -/
def getState (db : DB) (key : String) : Except Exc Obj :=
  match Dict.get? db key with
  | none => .error .keyError
  | some (.raw s) => if s = "" then .error .keyError else .error .valueError
  | some (.doc o) => .ok (Msg.ofDict o)

/-- `store_item` (state_interface.py:101-121).  `item` is the document denoted by the message or by
the JSON text given. -/
def storeItem (item : Obj) (itemType key : String) : Py DB Unit := fun db =>
  match getState db key with
  | .ok st => (.ok (), Dict.set db key (.doc (Dict.set st itemType (.obj item))))
  | .error .keyError => (.ok (), Dict.set db key (.doc (Dict.set [] itemType (.obj item))))
  | .error e => (.error e, db)

/-- `get_iss` (state_interface.py:123-133). -/
def getIss (db : DB) (key : String) : Except Exc Val :=
  match getState db key with
  | .ok st => if st.isEmpty then .error .keyError else Dict.getItem st "iss"
  | .error e => .error e

/-- `item_cls(**x)` / `item_cls().from_json(x)` of `get_item` (state_interface.py:147-150).  An
entry that is not a document raises `ValueError` in `from_json`. -/
def asItem : Option Val → Except Exc Obj
  | none => .error .keyError
  | some (.obj o) => .ok (Msg.ofDict o)
  | some _ => .error .valueError

/-- `get_item` (state_interface.py:135-150). -/
def getItem (db : DB) (itemType key : String) : Except Exc Obj :=
  match getState db key with
  | .ok st => asItem (Dict.get? st itemType)
  | .error e => .error e

/-- The loop body shared by `extend_request_args` and `multiple_extend_request_args`
(state_interface.py:177-190 and 219-232). -/
def copyParam (orig : Bool) (item : Obj) (args : Obj) (parameter : String) : Obj :=
  if orig then
    match Dict.get? item parameter with
    | some v => Dict.set args parameter v
    | none => args
  else
    match Dict.get? item (Msg.verifiedName parameter) with
    | some v => Dict.set args parameter v
    | none =>
      match Dict.get? item parameter with
      | some v => Dict.set args parameter v
      | none => args

/-- `extend_request_args` (state_interface.py:152-192). -/
def extendRequestArgs (db : DB) (args : Obj) (itemType key : String) (parameters : List String)
    (orig : Bool := false) : Except Exc Obj :=
  match getItem db itemType key with
  | .error .keyError => .ok args
  | .error e => .error e
  | .ok item => .ok (parameters.foldl (copyParam orig item) args)

/-- The loop over item types of `multiple_extend_request_args` (state_interface.py:213-234).
`Message(**x)` of something that is not a dictionary is a `TypeError`. -/
def multiExtendLoop (st : Obj) (parameters : List String) (orig : Bool) :
    List String → Obj → Except Exc Obj
  | [], args => .ok args
  | typ :: typs, args =>
    match Dict.get? st typ with
    | none => multiExtendLoop st parameters orig typs args
    | some (.obj o) =>
      multiExtendLoop st parameters orig typs (parameters.foldl (copyParam orig (Msg.ofDict o)) args)
    | some _ => .error .typeError

/-- `multiple_extend_request_args` (state_interface.py:194-234). -/
def multipleExtendRequestArgs (db : DB) (args : Obj) (key : String) (parameters : List String)
    (itemTypes : List String) (orig : Bool := false) : Except Exc Obj :=
  match getState db key with
  | .ok st => multiExtendLoop st parameters orig itemTypes args
  | .error e => .error e

/-- `store_x2state` (state_interface.py:236-256). -/
def storeX2State (value state : String) (x : XTyp) : Py DB Unit := fun db =>
  let db1 := Dict.set db (indexKey x value) (.raw state)
  match Dict.get? db1 (refKey state) with
  | none => (.ok (), Dict.set db1 (refKey state) (.doc [(x.name, .str value)]))
  | some (.doc refs) => (.ok (), Dict.set db1 (refKey state) (.doc (Dict.set refs x.name (.str value))))
  | some (.raw _) => (.error .valueError, db1)

/-- `get_state_by_x` (state_interface.py:258-271); the value found is returned as it is. -/
def getStateByX (db : DB) (value : String) (x : XTyp) : Except Exc DbVal :=
  match Dict.get? db (indexKey x value) with
  | some (.raw s) => if s = "" then .error .keyError else .ok (.raw s)
  | some (.doc o) => .ok (.doc o)
  | none => .error .keyError

/-- `key.startswith('__') and key.endswith('__')` (state_interface.py:370). -/
def dunder (key : String) : Bool :=
  "__".toList.isPrefixOf key.toList && "__".toList.isSuffixOf key.toList

/-- `create_state` (state_interface.py:360-376).  `rnd` is the value of `rndstr(32)`. -/
def createState (iss key rnd : String) : Py DB String := fun db =>
  if key = "" then
    (.ok rnd, Dict.set db rnd (.doc (Msg.ofDict [("iss", .str iss)])))
  else if dunder key then (.error .valueError, db)
  else (.ok key, Dict.set db key (.doc (Msg.ofDict [("iss", .str iss)])))

/-- The loop of `remove_state` (state_interface.py:387-388).  A value that is not a string is never
written by `store_x2state`; it is treated as an unknown key. -/
def removeRefs : Obj → Py DB Unit
  | [], db => (.ok (), db)
  | (xt, v) :: refs, db =>
    match XTyp.ofName? xt, v with
    | some x, .str s =>
      if Dict.has db (indexKey x s) then removeRefs refs (Dict.del db (indexKey x s))
      else (.error .keyError, db)
    | _, _ => (.error .keyError, db)

/-- `remove_state` (state_interface.py:378-388).  `json.loads(None)` is a `TypeError`. -/
def removeState (state : String) : Py DB Unit := fun db =>
  if Dict.has db state then
    let db1 := Dict.del db state
    match Dict.get? db1 (refKey state) with
    | none => (.error .typeError, db1)
    | some (.raw _) => (.error .valueError, db1)
    | some (.doc refs) => removeRefs refs db1
  else (.error .keyError, db)

/-- The operations of the class, as one label each (state_interface.py:77-388). -/
inductive Op where
  | create (iss key rnd : String)
  | store (item : Obj) (itemType key : String)
  | bind (x : XTyp) (value key : String)
  | remove (key : String)
  | item (itemType key : String)
  | issuer (key : String)
  | lookup (x : XTyp) (value : String)
  deriving Inhabited

/-- What a call returns. (state_interface.py:84-388) -/
inductive Out where
  | unit
  | key (k : String)
  | doc (o : Obj)
  | val (v : Val)
  | ptr (p : DbVal)
  deriving DecidableEq, Inhabited

/-- Map the result of a call. (not in the code) -/
def mapOut {α : Type} (f : α → Out) : Except Exc α × DB → Except Exc Out × DB
  | (.ok a, db) => (.ok (f a), db)
  | (.error e, db) => (.error e, db)

/-- One call of the public interface (dispatch only; see the cited functions). (state_interface.py:84-388) -/
def step (op : Op) : Py DB Out := fun db =>
  match op with
  | .create iss key rnd => mapOut .key (createState iss key rnd db)
  | .store item t key => mapOut (fun _ => .unit) (storeItem item t key db)
  | .bind x v key => mapOut (fun _ => .unit) (storeX2State v key x db)
  | .remove key => mapOut (fun _ => .unit) (removeState key db)
  | .item t key => mapOut .doc (getItem db t key, db)
  | .issuer key => mapOut .val (getIss db key, db)
  | .lookup x v => mapOut .ptr (getStateByX db v x, db)

/-- Run a history of calls; an exception does not end the history (the caller goes on). (not in the code: the
calls of an application) -/
def run : List Op → DB → List (Except Exc Out) × DB
  | [], db => ([], db)
  | op :: ops, db =>
    let (r, db1) := step op db
    let (rs, db2) := run ops db1
    (r :: rs, db2)

/-- `StateInterface()` (state_interface.py:84-86). -/
def init : DB := []

/-- The dictionary after a history of calls on a new `StateInterface()`. (state_interface.py:84-86) -/
def dbAfter (ops : List Op) : DB := (run ops init).2

end StateInterface
end Verif
