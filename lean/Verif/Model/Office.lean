import Verif.Model.Desk
/-!
# Calls of the handler made at the same time

`Verif.Model.Desk` has threads at the client of one provider.  Here they work with the handler: a thread first finds the client
its call is for (by the name of the provider, or by going through the clients to see which one has the session), and then does the
pieces of the call at that client.  Simplifications: setting up a client is one step (in steps: `Verif.Model.Rush`), as are
`clear_session` and `backchannel_logout`; a thread at work knows its client by name.
-/

namespace Verif.Office
open Verif Verif.Service Verif.Handler Verif.Desk

/-- How a call finds its client: it sets one up if there is none; it is given the provider; it looks for the session; and the
calls that are not cut into pieces. (rp_handler.py:325-353, 756, 457-458) -/
inductive Way where
  | setup (issuer user : String) (req behaviourArgs : Obj)
  | named (issuer : String) (j : Job)
  | session (state : String) (j : Job)
  | whole

/-- The calls. `close` takes the given issuer, else that of the session (rp_handler.py:925-937).
(rp_handler.py:425-453, 457-458, 492-940) -/
def way : Call → Way
  | .begin i u r b => .setup i u r b
  | .finalize i r b => .named i (.finalize i r b)
  | .getTokens s => .session s (.getTokens s)
  | .refresh s sc => .session s (.refresh s sc)
  | .userInfo s t => .session s (.userInfo s t)
  | .hasActive s => .session s (.hasActive s)
  | .validToken s => .session s (.validToken s)
  | .logout s u => .session s (.logout s u)
  | .close s i u => if i = "" then .session s (.logout s u) else .named i (.logout s u)
  | .clear _ => .whole
  | .backchannel _ _ => .whole

/-- Where a thread is: between calls; going through the clients for one that has the session (`size` clients when it started, `left`
those to come); at work at a client. (rp_handler.py:113-120) -/
inductive Stage : Type 1 where
  | idle
  | look (x : Ext) (j : Job) (state : String) (size : Nat) (left : List String)
  | work (issuer : String) (p : Pieces Ret)

/-- A thread: where it is, the calls it has still to make, what the others returned or raised, and the requests it has sent.
(not in the code: a thread of the application) -/
structure Clerk : Type 1 where
  stage : Stage := .idle
  todo : List (Ext × Call) := []
  results : List (Except Exc Ret) := []
  sent : List Sent := []

/-- The call has returned or raised. (not in the code) -/
def Clerk.over (t : Clerk) (r : Except Exc Ret) : Clerk := { t with stage := .idle, results := t.results ++ [r] }

/-- The session was found, with an issuer: `self.issuer2rp[…]` (rp_handler.py:458). -/
def Clerk.goto (t : Clerk) (x : Ext) (j : Job) (iss : Val) (h : Handler) : Clerk :=
  match iss with
  | .str i => if Dict.has h.issuer2rp i then { t with stage := .work i (j.pieces x) } else t.over (.error .keyError)
  | _ => t.over (.error .keyError)

/-- One round of the loop of `state2issuer` (rp_handler.py:113-121).  A dictionary that has grown since the loop was started makes the
loop raise `RuntimeError` (CPython, `dictiter_iternextvalue`). -/
def Clerk.visit (t : Clerk) (x : Ext) (j : Job) (k : String) (size : Nat) (left : List String) (h : Handler) : Clerk :=
  if h.issuer2rp.length ≠ size then t.over (.error (.external "RuntimeError"))
  else match left with
    | [] => t.over (.error .keyError)
    | i :: rest => match Dict.get? h.issuer2rp i with
      | none => t.over (.error .keyError)
      | some c => match StateInterface.getIss c.db k with
        | .error .keyError => { t with stage := .look x j k size rest }
        | .error e => t.over (.error e)
        | .ok v => if v.truthy then t.goto x j v h else { t with stage := .look x j k size rest }

/-- The start of a call (rp_handler.py:425-453, 457-458, 492-940). -/
def Clerk.call (t : Clerk) (x : Ext) (c : Call) (h : Handler) : Clerk × Handler :=
  match way c with
  | .setup i u r b => match clientSetup x i u b h with
    | (.ok n, g) => ({ t with stage := .work n ((Job.begin r b).pieces x) }, g)
    | (.error e, g) => (t.over (.error e), g)
  | .named i j => if Dict.has h.issuer2rp i then ({ t with stage := .work i (j.pieces x) }, h) else (t.over (.error .keyError), h)
  | .session k j => ({ t with stage := .look x j k h.issuer2rp.length (Dict.keys h.issuer2rp) }, h)
  | .whole => (t.over (exec x c h).1, (exec x c h).2)

/-- A piece of work at a client (the client is shared with others as in `onClient`; rp_handler.py:362-940). -/
def Clerk.piece (t : Clerk) (i : String) (p : Pieces Ret) (h : Handler) : Clerk × Handler :=
  match Dict.get? h.issuer2rp i with
  | none => (t.over (.error .keyError), h)
  | some c => ({ t with stage := .work i (p.step c).1, sent := t.sent ++ (p.step c).2.log.drop c.log.length },
      share (p.step c).2.cfg (p.step c).2.ctx.behaviour { h with issuer2rp := Dict.set h.issuer2rp i (p.step c).2 })

/-- The thread goes one step further. (not in the code: the scheduler) -/
def Clerk.step (t : Clerk) (h : Handler) : Clerk × Handler :=
  match t.stage with
  | .idle => match t.todo with
    | [] => (t, h)
    | (x, c) :: l => Clerk.call { t with todo := l } x c h
  | .look x j k size left => (t.visit x j k size left h, h)
  | .work _ (.done r) => (t.over r, h)
  | .work i p => t.piece i p h

/-- The thread has made its calls. (not in the code) -/
def Clerk.finished (t : Clerk) : Prop := (t.stage matches .idle) = true ∧ t.todo = []

/-- Threads with one handler. (not in the code: an application with several threads) -/
structure Office (ι : Type) : Type 1 where
  handler : Handler
  clerk : ι → Clerk

variable {ι : Type} [DecidableEq ι]

/-- One thread goes a step further. (not in the code: the scheduler) -/
def Office.step (o : Office ι) (u : ι) : Office ι where
  handler := ((o.clerk u).step o.handler).2
  clerk := fun v => if v = u then ((o.clerk u).step o.handler).1 else o.clerk v

/-- The threads run as the schedule says. (not in the code: the scheduler) -/
def Office.run (o : Office ι) (l : List ι) : Office ι := l.foldl Office.step o

/-- Each thread is given its calls. (not in the code) -/
def Office.start (h : Handler) (calls : ι → List (Ext × Call)) : Office ι where
  handler := h
  clerk := fun u => { todo := calls u }

end Verif.Office
