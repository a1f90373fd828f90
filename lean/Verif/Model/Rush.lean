import Verif.Model.Handler
/-!
# Several threads at one handler

`Verif.Model.Handler` takes every call as one step, and keeps the client objects inside `issuer2rp`.  Here client objects are
references, and `begin` is the sequence of its steps, between any two of which other threads can run: the look-up in
`issuer2rp`, the choice of the configuration, the making of the client, the provider's metadata, the note in `hash2issuer`,
the registration, the entry in `issuer2rp`, and the login itself.  Simplification: each of these steps is taken as atomic (the
store underneath is interleaved operation by operation in `Verif.Model.Threads`).
-/

namespace Verif.Rush
open Verif Verif.Service Verif.Handler

/-- A handler with its client objects by reference. (rp_handler.py:39-102, 80-81: `issuer2rp` holds references) -/
structure Hall where
  /-- the client objects ever made -/
  objs : Nat → Client
  /-- the next unused reference -/
  next : Nat
  rp : Dict Nat := []
  hash2issuer : Dict String := []
  configs : Dict ClientConf := []
  baseUrl : String := ""
  jwksUri : String := ""
  keyLoads : List KeyLoad := []

/-- The handler as `Verif.Model.Handler` has it: clients in place of references to them. (not in the code) -/
def Hall.handler (H : Hall) : Handler where
  issuer2rp := H.rp.map (fun p => (p.1, H.objs p.2))
  hash2issuer := H.hash2issuer
  configs := H.configs
  baseUrl := H.baseUrl
  jwksUri := H.jwksUri
  keyLoads := H.keyLoads

/-- Put an object in place. (not in the code: assignment to an object) -/
def put (objs : Nat → Client) (r : Nat) (c : Client) : Nat → Client := fun q => if q = r then c else objs q

/-- `Handler.share` for all client objects, those in `issuer2rp` and others. (service_context.py:148-151) -/
def share (cfg : String) (b : Obj) (H : Hall) : Hall :=
  match Dict.get? H.configs cfg with
  | none => H
  | some cc =>
    if Dict.has cc.config "behaviour" then
      { H with
        configs := Dict.set H.configs cfg { cc with config := Dict.set cc.config "behaviour" (.obj b) }
        objs := fun r => sharedClient cfg b (H.objs r) }
    else H

/-- Do something with a client object. (rp_handler.py:325-353, 451-453) -/
def onRef {α : Type} (r : Nat) (m : Py Client α) : Py Hall α := fun H =>
  ((m (H.objs r)).1, share (m (H.objs r)).2.cfg (m (H.objs r)).2.ctx.behaviour { H with objs := put H.objs r (m (H.objs r)).2 })

/-- What a thread is asked to do: `begin` with the name of a provider (rp_handler.py:425-453), or a call that works on the
client of a provider, such as `finalize` (rp_handler.py:738-821) and `backchannel_logout` (rp_handler.py:944-989). -/
inductive Task where
  | begin (x : Ext) (issuer : String) (req b : Obj)
  | use (issuer : String) (m : Py Client Ret)

/-- How far a thread has come. (rp_handler.py:305-354, 425-453) -/
inductive Stage where
  | start
  | pick
  | make (cfg : String)
  | discover (r : Nat)
  | note (r : Nat) (name : String)
  | register (r : Nat) (name : String)
  | keep (r : Nat) (name : String)
  | work (r : Nat) (name : String)
  | done (name : String) (res : Except Exc Ret)

/-- The provider a thread was given. (rp_handler.py:305, 425) -/
def Task.issuer : Task → String
  | .begin _ i _ _ => i
  | .use i _ => i

/-- What a thread does with the client it got: `init_authorization` (rp_handler.py:362-423), or its call. -/
def Task.job : Task → Py Client Ret
  | .begin x _ req b => fun c => ((initAuthorization x req b c).1.map (fun p => .started p.1 p.2), (initAuthorization x req b c).2)
  | .use _ m => m

/-- `self.issuer2rp[iss_id]` (rp_handler.py:335-343, 457-459). -/
def look (t : Task) (H : Hall) : Stage :=
  match Dict.get? H.rp t.issuer, t with
  | some r, _ => .work r t.issuer
  | none, .begin .. => .pick
  | none, .use .. => .done "" (.error .keyError)

/-- The choice of the configuration in `init_client` (rp_handler.py:158-162): the default one is made that of the issuer. -/
def pickConfig (issuer : String) (H : Hall) : Stage × Hall :=
  if Dict.has H.configs issuer then (.make issuer, H)
  else match Dict.get? H.configs "" with
    | none => (.done "" (.error .keyError), H)
    | some cc => (.make "", { H with configs := Dict.set H.configs "" { cc with config := Dict.set cc.config "issuer" (.str issuer) } })

/-- The rest of `init_client` (rp_handler.py:164-187): the client is made of what the configuration is now. -/
def makeClient (x : Ext) (cfg : String) (H : Hall) : Stage × Hall :=
  match Dict.get? H.configs cfg with
  | none => (.done "" (.error .keyError), H)
  | some cc => (.discover H.next, { H with objs := put H.objs H.next (newClient x H.handler cfg cc), next := H.next + 1 })

/-- The next stage after something that may fail. (not in the code: an exception ends the call) -/
def go {α : Type} (f : α → Stage) (r : Except Exc α) : Stage :=
  match r with
  | .ok a => f a
  | .error e => .done "" (.error e)

/-- One step of a thread. (rp_handler.py:305-354, 425-453) -/
def step (t : Task) : Stage → Hall → Stage × Hall
  | .start, H => (look t H, H)
  | .done n res, H => (.done n res, H)
  | .work r n, H => (.done n (onRef r t.job H).1, (onRef r t.job H).2)
  | .keep r n, H => (.work r n, { H with rp := Dict.set H.rp n r })
  | .note r n, H => (.register r n, { H with hash2issuer := Dict.set H.hash2issuer t.issuer (H.objs r).ctx.issuer })
  | s, H => match t with
    | .use .. => (s, H)
    | .begin x i _ b => match s with
      | .pick => pickConfig i H
      | .make cfg => makeClient x cfg H
      | .discover r => (go (.note r) (onRef r (doProviderInfo x) H).1, (onRef r (doProviderInfo x) H).2)
      | .register r n => (go (fun _ => .keep r n) (onRef r (Handler.register x b) H).1, (onRef r (Handler.register x b) H).2)
      | s => (s, H)

/-- Threads at work on one handler. (not in the code: the threads of an application) -/
structure Crowd (ι : Type) where
  task : ι → Task
  stage : ι → Stage
  hall : Hall

/-- Thread `i` makes a step. (not in the code) -/
def Crowd.step {ι : Type} [DecidableEq ι] (s : Crowd ι) (i : ι) : Crowd ι :=
  let r := Rush.step (s.task i) (s.stage i) s.hall
  { s with stage := fun j => if j = i then r.1 else s.stage j, hall := r.2 }

/-- A schedule: whose turn it is. (not in the code) -/
def Crowd.run {ι : Type} [DecidableEq ι] (s : Crowd ι) : List ι → Crowd ι
  | [] => s
  | i :: is => (s.step i).run is

/-- All threads are about to begin. (not in the code) -/
def Crowd.start {ι : Type} (task : ι → Task) (H : Hall) : Crowd ι := { task := task, stage := fun _ => .start, hall := H }

/-- The call of a thread, as one step. (dispatch only; rp_handler.py:425-453, 738-821, 944-989) -/
def Task.call : Task → Py Handler Ret
  | .begin x i req b => exec x (.begin i "" req b)
  | .use i m => onClient i m

end Verif.Rush
