import Verif.Py.Dict
/-!
# Exceptions and the state+exception monad
-/

namespace Verif

/-- The exception classes the modelled code raises (messages are dropped). -/
inductive Exc where
  | keyError | valueError | typeError | attributeError | indexError
  | oidcServiceError | responseError | parseError | parameterError | configurationError
  | unsupported | webFingerError | wrongContentType | httpError
  | missingParameter | missingRequiredAttribute | formatError | jsonDecodeError | messageError
  | authnFailure | invalidCookieSign | notAllowed
  | external (name : String)
  deriving DecidableEq, Repr, Inhabited

/-- A computation on a mutable state `σ` that may raise; effects made before a raise persist. -/
def Py (σ α : Type) := σ → Except Exc α × σ

namespace Py
variable {σ α β : Type}

def ret (a : α) : Py σ α := fun s => (.ok a, s)

def bnd (x : Py σ α) (f : α → Py σ β) : Py σ β := fun s =>
  match x s with
  | (.ok a, s') => f a s'
  | (.error e, s') => (.error e, s')

instance : Monad (Py σ) where
  pure := ret
  bind := bnd

/-- `raise e` -/
def raise (e : Exc) : Py σ α := fun s => (.error e, s)

/-- read the mutable state -/
def read : Py σ σ := fun s => (.ok s, s)

/-- overwrite the mutable state -/
def write (s : σ) : Py σ Unit := fun _ => (.ok (), s)

/-- update the mutable state -/
def modify (f : σ → σ) : Py σ Unit := fun s => (.ok (), f s)

/-- embed a pure computation that may raise -/
def lift (x : Except Exc α) : Py σ α := fun s => (x, s)

/-- `try: x except <h>: ...` where the handler decides by exception class
    (`none` = not caught). -/
def try_ (x : Py σ α) (h : Exc → Option (Py σ α)) : Py σ α := fun s =>
  match x s with
  | (.ok a, s') => (.ok a, s')
  | (.error e, s') => match h e with
    | some k => k s'
    | none => (.error e, s')

@[simp] theorem pure_run (a : α) (s : σ) : (pure a : Py σ α) s = (.ok a, s) := rfl
@[simp] theorem ret_run (a : α) (s : σ) : (ret a : Py σ α) s = (.ok a, s) := rfl
@[simp] theorem raise_run (e : Exc) (s : σ) : (raise e : Py σ α) s = (.error e, s) := rfl
@[simp] theorem read_run (s : σ) : (read : Py σ σ) s = (.ok s, s) := rfl
@[simp] theorem write_run (s t : σ) : (write t : Py σ Unit) s = (.ok (), t) := rfl
@[simp] theorem modify_run (f : σ → σ) (s : σ) : (modify f : Py σ Unit) s = (.ok (), f s) := rfl
@[simp] theorem lift_run (x : Except Exc α) (s : σ) : (lift x : Py σ α) s = (x, s) := rfl

theorem bind_run (x : Py σ α) (f : α → Py σ β) (s : σ) :
    (x >>= f) s = match x s with
      | (.ok a, s') => f a s'
      | (.error e, s') => (.error e, s') := rfl

theorem bind_ok {x : Py σ α} {f : α → Py σ β} {s s' : σ} {a : α} (h : x s = (.ok a, s')) :
    (x >>= f) s = f a s' := by rw [bind_run, h]

theorem bind_error {x : Py σ α} {f : α → Py σ β} {s s' : σ} {e : Exc}
    (h : x s = (.error e, s')) : (x >>= f) s = (.error e, s') := by rw [bind_run, h]

@[simp] theorem pure_bind_run (a : α) (f : α → Py σ β) (s : σ) : (pure a >>= f) s = f a s := rfl
@[simp] theorem raise_bind_run (e : Exc) (f : α → Py σ β) (s : σ) :
    ((raise e : Py σ α) >>= f) s = (.error e, s) := rfl
@[simp] theorem read_bind_run (f : σ → Py σ β) (s : σ) : (read >>= f) s = f s s := rfl
@[simp] theorem write_bind_run (t : σ) (f : Unit → Py σ β) (s : σ) :
    (write t >>= f) s = f () t := rfl
@[simp] theorem modify_bind_run (g : σ → σ) (f : Unit → Py σ β) (s : σ) :
    (modify g >>= f) s = f () (g s) := rfl

/-- Inversion of a successful sequence. -/
theorem bind_eq_ok {x : Py σ α} {f : α → Py σ β} {s t : σ} {b : β} :
    (x >>= f) s = (.ok b, t) ↔ ∃ a s', x s = (.ok a, s') ∧ f a s' = (.ok b, t) := by
  rw [bind_run]
  rcases h : x s with ⟨r, s'⟩
  cases r with
  | ok a => simp [and_assoc]
  | error e => simp

/-- Inversion of a failing sequence. -/
theorem bind_eq_error {x : Py σ α} {f : α → Py σ β} {s t : σ} {e : Exc} :
    (x >>= f) s = (.error e, t) ↔
      x s = (.error e, t) ∨ ∃ a s', x s = (.ok a, s') ∧ f a s' = (.error e, t) := by
  rw [bind_run]
  rcases h : x s with ⟨r, s'⟩
  cases r with
  | ok a => simp [and_assoc]
  | error e' => simp

theorem lift_eq_ok {x : Except Exc α} {s t : σ} {a : α} :
    (lift x : Py σ α) s = (.ok a, t) ↔ x = .ok a ∧ s = t := by
  simp [lift, Prod.ext_iff]

end Py

/-- `d[k]` -/
def Dict.getItem {α : Type} (d : Dict α) (k : String) : Except Exc α :=
  match Dict.get? d k with
  | some v => .ok v
  | none => .error .keyError

@[simp] theorem Dict.getItem_eq_ok {α : Type} {d : Dict α} {k : String} {v : α} :
    Dict.getItem d k = .ok v ↔ Dict.get? d k = some v := by
  unfold Dict.getItem; cases Dict.get? d k <;> simp

end Verif
