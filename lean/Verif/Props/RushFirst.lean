import Verif.Props.RushKept
import Verif.Props.Finalize
/-!
# C122: first use of a provider by two threads
-/

namespace Verif.Props
open Verif Verif.Service Verif.Handler Verif.Rush Verif.StateInterface

/-- A handler nobody has used yet. -/
def newHall : Hall where
  objs := fun _ => default
  next := 0
  configs := World.handler.configs
  baseUrl := World.handler.baseUrl
  jwksUri := World.handler.jwksUri

/-- Two users want to log in at the same provider. -/
def twoNewUsers : Bool → Task := fun u =>
  if u then .begin (World.ext 1000 World.s1 "n1" "n1") "https://op.example" [] []
  else .begin (World.ext 1000 World.s2 "n2" "n2") "https://op.example" [] []

/-- Both look for a client, then the first gets on, then the second. -/
def atOnce : List Bool := [true, false] ++ List.replicate 7 true ++ List.replicate 7 false

/-- The second user comes a little later. -/
def inTurn : List Bool := List.replicate 8 true ++ List.replicate 2 false

/-- The result of a thread. -/
def resultOf (s : Crowd Bool) (u : Bool) : Option (String × String) :=
  match s.stage u with
  | .done _ (.ok (.started url k)) => some (url, k)
  | _ => none

/-- The provider's answer to the first user. -/
def firstAnswer (s : Crowd Bool) : Bool :=
  (exec (World.ext 1001 "" "" "n1") (.finalize "https://op.example" [("code", .str "c1"), ("state", .str World.s1)] []) s.hall.handler).1.isOk

set_option maxRecDepth 100000 in
/-- **C122** is violated at the first use of a provider: two threads begin logins at the same time and both are given an address to
send the user to, but the client of the first is replaced by that of the second: the session of the first is not found and the
provider's answer to it is refused.  Had the second come a moment later, both had been found. -/
theorem C122_first_use_violated :
    ((resultOf ((Crowd.start twoNewUsers newHall).run atOnce) true).map (·.2) = some World.s1) ∧
    ((resultOf ((Crowd.start twoNewUsers newHall).run atOnce) false).map (·.2) = some World.s2) ∧
    sessionIssuer ((Crowd.start twoNewUsers newHall).run atOnce).hall.handler World.s1 = .error .keyError ∧
    firstAnswer ((Crowd.start twoNewUsers newHall).run atOnce) = false ∧
    ((resultOf ((Crowd.start twoNewUsers newHall).run inTurn) true).map (·.2) = some World.s1) ∧
    ((resultOf ((Crowd.start twoNewUsers newHall).run inTurn) false).map (·.2) = some World.s2) ∧
    sessionIssuer ((Crowd.start twoNewUsers newHall).run inTurn).hall.handler World.s1 = .ok "https://op.example" ∧
    firstAnswer ((Crowd.start twoNewUsers newHall).run inTurn) = true := by
  refine ⟨by rfl, by rfl, by rfl, by rfl, by rfl, by rfl, by rfl, by rfl⟩

/-- The metadata of a provider. -/
def metadataAtB (issuer : String) : Obj :=
  [("issuer", .str issuer), ("authorization_endpoint", .str (issuer ++ "/auth")), ("token_endpoint", .str (issuer ++ "/token")),
   ("registration_endpoint", .str (issuer ++ "/reg"))]

/-- What the two providers answer. -/
def answerOf (s : Sent) : HttpResp :=
  { status := 200, headers := [("content-type", "application/json")], text := if s.url = "https://a.example/.well-known/openid-configuration" then "a" else if s.url = "https://b.example/.well-known/openid-configuration" then "b" else "registered" }

/-- How the answers are read. -/
def readOf : Info → Except Exc Obj
  | .text "a" => .ok (metadataAtB "https://a.example")
  | .text "b" => .ok (metadataAtB "https://b.example")
  | i => World.parse i

/-- Circumstances with two providers, at `https://a.example` and `https://b.example`. -/
def twoProviders (state nonce : String) : Ext :=
  { World.ext 1000 state nonce nonce with http := fun _ s => .ok (answerOf s), deser := fun _ _ _ i => readOf i }

/-- Two users want to log in at different providers, neither with a configuration of its own. -/
def twoChoices : Bool → Task := fun u =>
  if u then .begin (twoProviders World.s1 "n1") "https://a.example" [] []
  else .begin (twoProviders World.s2 "n2") "https://b.example" [] []

/-- The first thread is interrupted just before it makes its client. -/
def interrupted : List Bool := [true, true, false, false] ++ List.replicate 6 true ++ List.replicate 6 false

/-- Whether the user is sent to an address of the provider. -/
def askedAt (s : Crowd Bool) (u : Bool) (issuer : String) : Bool :=
  match resultOf s u with
  | some (url, _) => Str.startsWith url (issuer ++ "/")
  | none => false

set_option maxRecDepth 100000 in
/-- **C122** is violated for providers without a configuration of their own, even different ones: the issuer is written into the
configuration all of them share, and the client is made of what is there a moment later.  The first user, who chose
`https://a.example`, is sent to `https://b.example`.  Alone, the user is sent to the right one. -/
theorem C122_other_provider_violated :
    askedAt ((Crowd.start twoChoices newHall).run interrupted) true "https://b.example" = true ∧
    askedAt ((Crowd.start twoChoices newHall).run interrupted) false "https://b.example" = true ∧
    askedAt ((Crowd.start twoChoices newHall).run (List.replicate 8 true ++ List.replicate 8 false)) true "https://a.example" = true ∧
    askedAt ((Crowd.start twoChoices newHall).run (List.replicate 8 true ++ List.replicate 8 false)) false "https://b.example" = true := by
  refine ⟨by decide +kernel, by decide +kernel, by decide +kernel, by decide +kernel⟩

/-! ## Examples -/

/-- The handler after the first login. -/
def usedHall : Hall := (steps (twoNewUsers true) 8 (.start, newHall)).2

theorem newHall_ok : newHall.Ok := ⟨by simp [newHall, Dict.keys], by simp [newHall], by simp [newHall]⟩

set_option maxRecDepth 100000 in
theorem usedHall_rp : usedHall.rp = [("https://op.example", 0)] ∧ usedHall.next = 1 := by
  constructor <;> rfl

theorem usedHall_ok : usedHall.Ok := by
  obtain ⟨e1, e2⟩ := usedHall_rp
  refine ⟨by rw [e1]; decide, ?_, ?_⟩
  · intro i j r hi hj
    rw [e1] at hi hj
    simp only [Dict.get?] at hi hj
    split at hi <;> split at hj
    · next h1 h2 => rw [← h1, ← h2]
    · cases hj
    · cases hi
    · cases hi
  · intro i r hi
    rw [e1] at hi
    simp only [Dict.get?] at hi
    split at hi
    · injection hi with hi; rw [e2, ← hi]; decide
    · cases hi

/-- Two more users at the provider that is known now. -/
def moreUsers : Bool → Task := fun u =>
  if u then .begin (World.ext 1001 World.s2 "n2" "n2") "https://op.example" [] []
  else .use "https://op.example" (fun c =>
    ((finalizeClient (World.ext 1001 "" "" "n1") "https://op.example" [("code", .str "c1"), ("state", .str World.s1)] [] c).1.map Ret.final,
      (finalizeClient (World.ext 1001 "" "" "n1") "https://op.example" [("code", .str "c1"), ("state", .str World.s1)] [] c).2))

set_option maxRecDepth 100000 in
/-- Non-vacuity of C122 (known providers): a login is begun while another is finished, in an interleaved schedule. -/
example : usedHall.Ok ∧ (∀ u, (moreUsers u).issuer ≠ "") ∧
    (∀ u, ∃ c, Dict.get? usedHall.handler.issuer2rp (moreUsers u).issuer = some c) ∧
    (resultOf ((Crowd.start moreUsers usedHall).run [true, false, false, true]) true).map (·.2) = some World.s2 ∧
    (match ((Crowd.start moreUsers usedHall).run [true, false, false, true]).stage false with
      | .done _ (.ok (.final _)) => true
      | _ => false) = true := by
  refine ⟨usedHall_ok, fun u => by cases u <;> simp [moreUsers, Task.issuer], fun u => ?_, by rfl, by rfl⟩
  refine ⟨usedHall.objs 0, ?_⟩
  rw [get_handler, usedHall_rp.1]
  cases u <;> rfl

/-- Everything is in order in a handler nobody has used yet. -/
theorem newHall_orderly (K : String → Prop) : Orderly K newHall := by
  refine ⟨fun r o ho => ?_, fun r κ v h => ?_, fun cfg cc h => ?_⟩
  · simp [newHall, default, instInhabitedClient.default] at ho
  · simp [newHall, default, instInhabitedClient.default, getIss, getState] at h
  · simp only [newHall, World.handler, Dict.get?] at h
    split at h
    · injection h with h
      subst h
      intro o ho
      simp [World.conf] at ho
    · cases h

/-- Whether a thread is about to put a client in place under the name. -/
def keepsName (n : String) : Stage → Bool
  | .keep _ m => m == n
  | _ => false

/-- `Undisturbed` by computation. -/
def undisturbedCheck (i : Bool) (n : String) : List Bool → Crowd Bool → Bool
  | [], _ => true
  | j :: sched, s => (j == i || !keepsName n (s.stage j)) && undisturbedCheck i n sched (s.step j)

theorem undisturbed_of_check {i : Bool} {n : String} {sched : List Bool} {s : Crowd Bool}
    (h : undisturbedCheck i n sched s = true) : Undisturbed i n sched s := by
  induction sched generalizing s with
  | nil => trivial
  | cons j sched ih =>
    simp only [undisturbedCheck, Bool.and_eq_true, Bool.or_eq_true, beq_iff_eq] at h
    refine ⟨fun hj r e => ?_, ih h.2⟩
    rcases h.1 with h1 | h1
    · exact hj h1
    · rw [e] at h1; simp [keepsName] at h1

/-- A login at a new provider while another is begun at a provider of another name. -/
def ownConfigs : Hall := { newHall with
  configs := [("https://a.example", { World.conf with config := World.conf.config ++ [("issuer", .str "https://a.example")] }),
    ("https://b.example", { World.conf with config := World.conf.config ++ [("issuer", .str "https://b.example")] })] }

/-- Non-vacuity of C122 (any providers): interleaved first uses of two providers. -/
def interleaving : List Bool := (List.replicate 8 [true, false]).flatten

theorem ownConfigs_orderly : Orderly Spec.History.Generated ownConfigs := by
  refine ⟨(newHall_orderly Spec.History.Generated).plain, (newHall_orderly Spec.History.Generated).known, fun cfg cc h => ?_⟩
  have h2 : cc.srvConf = [] := by
    unfold ownConfigs Dict.get? at h
    split at h
    · injection h with h; subst h; rfl
    · unfold Dict.get? at h
      split at h
      · injection h with h; subst h; rfl
      · cases h
  rw [h2]
  intro o ho
  cases ho

set_option maxRecDepth 100000 in
example : ownConfigs.Ok ∧ Orderly Spec.History.Generated ownConfigs ∧
    (∀ j, j ≠ true → Bystander Spec.History.Generated World.s1 (twoChoices j)) ∧ Spec.History.Generated World.s1 ∧
    Undisturbed true "https://a.example" interleaving (Crowd.start twoChoices ownConfigs) ∧
    (∃ url, ((Crowd.start twoChoices ownConfigs).run interleaving).stage true = .done "https://a.example" (.ok (.started url World.s1))) := by
  refine ⟨⟨by simp [ownConfigs, newHall, Dict.keys], by simp [ownConfigs, newHall], by simp [ownConfigs, newHall]⟩, ownConfigs_orderly, ?_, gen_s1, ?_, _, rfl⟩
  · intro j hj
    cases j with
    | true => exact absurd rfl hj
    | false => exact Bystander.begins _ _ _ _ gen_s2 (by decide)
  · exact undisturbed_of_check (by decide +kernel)

end Verif.Props
