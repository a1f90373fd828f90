import Verif.Model.Persist
import Verif.Lemmas.Made
import Verif.Props.NewClient
/-!
# C104: a client is saved in one process and loaded in another
-/

namespace Verif.Props
open Verif Service Handler Persist StateInterface

/-! ### What is loaded is what was saved -/

theorem get?_dumped (c : Client) (e : List String) (n : String) : ∀ l : List String,
    Dict.get? (l.filterMap (fun n => if n ∈ e then none else (getAttr c n).map (fun a => (n, a)))) n =
      if n ∈ l ∧ n ∉ e then getAttr c n else none := by
  intro l
  induction l with
  | nil => simp [Dict.get?]
  | cons m l ih =>
    by_cases he : m ∈ e
    · simp only [List.filterMap_cons, if_pos he]
      rw [ih]
      by_cases hm : n = m
      · subst hm; simp [he]
      · simp [hm]
    · cases ha : getAttr c m with
      | none =>
        simp only [List.filterMap_cons, if_neg he, ha, Option.map_none]
        rw [ih]
        by_cases hm : n = m
        · subst hm; simp [ha]
        · simp [hm]
      | some a =>
        simp only [List.filterMap_cons, if_neg he, ha, Option.map_some, Dict.get?_cons]
        by_cases hm : m = n
        · subst hm; simp [he, ha]
        · rw [if_neg hm, ih]
          simp [Ne.symm hm]

theorem get?_dump (c : Client) (e : List String) (n : String) :
    Dict.get? (dump e c) n = if n ∈ PARAMETER ∧ n ∉ e then getAttr c n else none := get?_dumped c e n _

theorem getAttr_setAttr_ne (c : Client) (n m : String) (a : Attr) (h : m ≠ n) : getAttr (setAttr c n a) m = getAttr c m := by
  unfold setAttr
  split <;> first | rfl | (unfold getAttr; simp only [if_neg h])

theorem getAttr_setAttr (c d : Client) (n : String) (a : Attr) (h : getAttr d n = some a) : getAttr (setAttr c n a) n = some a := by
  unfold getAttr at h
  by_cases h1 : n = "keyjar"
  · subst h1; injection h with h; subst h; rfl
  rw [if_neg h1] at h
  by_cases h1 : n = "add_on"
  · subst h1; injection h with h; subst h; rfl
  rw [if_neg h1] at h
  by_cases h1 : n = "allow"
  · subst h1; injection h with h; subst h; rfl
  rw [if_neg h1] at h
  by_cases h1 : n = "base_url"
  · subst h1; injection h with h; subst h; rfl
  rw [if_neg h1] at h
  by_cases h1 : n = "behaviour"
  · subst h1; injection h with h; subst h; rfl
  rw [if_neg h1] at h
  by_cases h1 : n = "callback"
  · subst h1; injection h with h; subst h; rfl
  rw [if_neg h1] at h
  by_cases h1 : n = "client_id"
  · subst h1; injection h with h; subst h; rfl
  rw [if_neg h1] at h
  by_cases h1 : n = "client_preferences"
  · subst h1; injection h with h; subst h; rfl
  rw [if_neg h1] at h
  by_cases h1 : n = "client_secret"
  · subst h1; injection h with h; subst h; rfl
  rw [if_neg h1] at h
  by_cases h1 : n = "client_secret_expires_at"
  · subst h1; injection h with h; subst h; rfl
  rw [if_neg h1] at h
  by_cases h1 : n = "clock_skew"
  · subst h1; injection h with h; subst h; rfl
  rw [if_neg h1] at h
  by_cases h1 : n = "config"
  · subst h1; injection h with h; subst h; rfl
  rw [if_neg h1] at h
  by_cases h1 : n = "hash_seed"
  · subst h1; injection h with h; subst h; rfl
  rw [if_neg h1] at h
  by_cases h1 : n = "hash2issuer"
  · subst h1; injection h with h; subst h; rfl
  rw [if_neg h1] at h
  by_cases h1 : n = "issuer"
  · subst h1; injection h with h; subst h; rfl
  rw [if_neg h1] at h
  by_cases h1 : n = "post_logout_redirect_uris"
  · subst h1; injection h with h; subst h; rfl
  rw [if_neg h1] at h
  by_cases h1 : n = "provider_info"
  · subst h1; injection h with h; subst h; rfl
  rw [if_neg h1] at h
  by_cases h1 : n = "redirect_uris"
  · subst h1; injection h with h; subst h; rfl
  rw [if_neg h1] at h
  by_cases h1 : n = "register_args"
  · subst h1; injection h with h; subst h; rfl
  rw [if_neg h1] at h
  by_cases h1 : n = "registration_response"
  · subst h1; injection h with h; subst h; rfl
  rw [if_neg h1] at h
  by_cases h1 : n = "state"
  · subst h1; injection h with h; subst h; rfl
  rw [if_neg h1] at h
  cases h

theorem load_kept (item : Dict Attr) (m : String) : ∀ (l : List String) (n : Client), m ∉ l →
    getAttr (l.foldl (loadAttr item) n) m = getAttr n m := by
  intro l
  induction l with
  | nil => intro n _; rfl
  | cons k l ih =>
    intro n hm
    simp only [List.foldl_cons]
    rw [ih _ (fun h => hm (List.mem_cons_of_mem _ h))]
    unfold loadAttr
    split
    · exact getAttr_setAttr_ne _ _ _ _ (fun e => hm (e ▸ List.mem_cons_self ..))
    · rfl

theorem load_attr (item : Dict Attr) (c : Client) (m : String) (ht : ∀ a, Dict.get? item m = some a → getAttr c m = some a) :
    ∀ (l : List String) (n : Client), l.Nodup → m ∈ l →
    getAttr (l.foldl (loadAttr item) n) m = (Dict.get? item m).or (getAttr n m) := by
  intro l
  induction l with
  | nil => intro n _ h; cases h
  | cons k l ih =>
    intro n hd hm
    simp only [List.foldl_cons]
    rw [List.nodup_cons] at hd
    by_cases he : m = k
    · subst he
      rw [load_kept item m l _ hd.1]
      unfold loadAttr
      cases hg : Dict.get? item m with
      | none => rfl
      | some a => exact getAttr_setAttr _ c _ _ (ht a hg)
    · rw [ih _ hd.2 ((List.mem_cons.1 hm).resolve_left he)]
      congr 1
      unfold loadAttr
      split
      · exact getAttr_setAttr_ne _ _ _ _ he
      · rfl

/-- An attribute is loaded if it is one of those that are saved, was not left out, and had a value; all others keep
the value they had. -/
theorem C104_attributes (exclude : List String) (c n : Client) (a : String) :
    getAttr (load (dump exclude c) n) a =
      if a ∈ PARAMETER ∧ a ∉ exclude then (getAttr c a).or (getAttr n a) else getAttr n a := by
  by_cases hp : a ∈ PARAMETER
  · unfold load
    rw [load_attr (dump exclude c) c a ?_ PARAMETER n (by decide) hp]
    · rw [get?_dump]
      by_cases he : a ∈ exclude
      · simp [he]
      · simp [hp, he]
    · intro v hv
      rw [get?_dump] at hv
      split at hv
      · exact hv
      · cases hv
  · rw [if_neg (fun h => hp h.1)]
    exact load_kept _ _ _ _ hp

theorem load_dump (c n : Client) : load (dump [] c) n =
  { n with
    db := c.db
    dpopKey := c.dpopKey
    ctx := { c.ctx with
      registrationAccessToken := n.ctx.registrationAccessToken
      jwksUri := n.ctx.jwksUri
      endpoints := n.ctx.endpoints } } := by
  unfold load loadAttr
  simp only [get?_dump]
  simp [PARAMETER, getAttr, setAttr]

/-! ### Two processes with the same configuration -/

/-- Two processes are started with the same configuration and live their own lives.  The context of a client of the
first is loaded into the client of the second that is made of the same part of the configuration.  Then the second
client is the first - its identity, provider, keys, behaviour, sessions - whatever it was before, but for the
endpoint attributes of its services and the attribute that keeps the registration access token. -/
theorem C104_handover (h : Handler) (hnew : h.issuer2rp = []) (one two : List (Ext × Call)) (i j : String) (c n : Client)
    (hc : Dict.get? (run one h).issuer2rp i = some c) (hn : Dict.get? (run two h).issuer2rp j = some n) (hcfg : n.cfg = c.cfg) :
    load (dump [] c) n =
      { c with
        log := n.log
        ctx := { c.ctx with
          registrationAccessToken := n.ctx.registrationAccessToken
          endpoints := n.ctx.endpoints } } := by
  obtain ⟨cc, e1, e2, e3, e4, e5⟩ := (madeOf_run one (madeOf_new hnew)).clients i c hc
  obtain ⟨cd, f1, f2, f3, f4, f5⟩ := (madeOf_run two (madeOf_new hnew)).clients j n hn
  rw [hcfg, e1] at f1
  injection f1 with f1
  subst f1
  rw [load_dump]
  obtain ⟨nctx, ndb, nlog, nsrv, nconf, ndpop, ncfg⟩ := n
  obtain ⟨cctx, cdb, clog, csrv, cconf, cdpop, ccfg⟩ := c
  simp only at *
  subst e2 e3 f2 f3 hcfg
  rw [f5, ← e5]

/-- A process is started again with the same configuration, and the context is loaded into a client just made. -/
theorem C104_restart (h : Handler) (hnew : h.issuer2rp = []) (calls : List (Ext × Call)) (i : String) (c : Client)
    (hc : Dict.get? (run calls h).issuer2rp i = some c) (x : Ext) :
    ∃ n, initClient x c.cfg h = (.ok n, h) ∧
      load (dump [] c) n =
        { c with
          log := []
          ctx := { c.ctx with
            registrationAccessToken := none
            endpoints := [] } } := by
  obtain ⟨cc, e1, e2, e3, e4, e5⟩ := (madeOf_run calls (madeOf_new hnew)).clients i c hc
  refine ⟨newClient x h c.cfg cc, by unfold initClient; rw [e1], ?_⟩
  rw [load_dump]
  obtain ⟨cctx, cdb, clog, csrv, cconf, cdpop, ccfg⟩ := c
  simp only at *
  subst e2 e3
  rw [e5]
  rfl

/-- The client of the second process after the handover; the requests sent so far are the world's memory, not the
client's. -/
def handedOver (c n : Client) : Client := { load (dump [] c) n with log := c.log }

/-- So whatever is done with the client in the second process gives what it would have given in the first, and leaves
the client as it would have been left there - provided that the services have the same endpoints, and neither or both
have that attribute. -/
theorem C104_goes_on {α : Type} (h : Handler) (hnew : h.issuer2rp = []) (one two : List (Ext × Call)) (i j : String) (c n : Client)
    (hc : Dict.get? (run one h).issuer2rp i = some c) (hn : Dict.get? (run two h).issuer2rp j = some n) (hcfg : n.cfg = c.cfg)
    (hep : n.ctx.endpoints = c.ctx.endpoints) (hrt : n.ctx.registrationAccessToken = c.ctx.registrationAccessToken)
    (m : Py Client α) (g : Handler) (hg : Dict.get? g.issuer2rp j = some (handedOver c n)) :
    (onClient j m g).1 = (onClient i m (run one h)).1 ∧
      (Dict.get? g.issuer2rp j).map m = (Dict.get? (run one h).issuer2rp i).map m := by
  have key : handedOver c n = c := by
    unfold handedOver
    rw [C104_handover h hnew one two i j c n hc hn hcfg, hep, hrt]
  rw [key] at hg
  unfold onClient
  rw [hg, hc]
  exact ⟨rfl, rfl⟩

theorem ret_fst {α : Type} {f : α → Ret} {m m' : Py Handler α} {g g' : Handler} (e : (m g).1 = (m' g').1) :
    (ret f m g).1 = (ret f m' g').1 := by
  unfold ret
  simp only [e]

/-- A login begun in one process is finished in the other. -/
theorem C104_login_finished_elsewhere (h : Handler) (hnew : h.issuer2rp = []) (one two : List (Ext × Call)) (i : String) (c n : Client)
    (hc : Dict.get? (run one h).issuer2rp i = some c) (hn : Dict.get? (run two h).issuer2rp i = some n) (hcfg : n.cfg = c.cfg)
    (hep : n.ctx.endpoints = c.ctx.endpoints) (hrt : n.ctx.registrationAccessToken = c.ctx.registrationAccessToken)
    (x : Ext) (r b : Obj) :
    (exec x (.finalize i r b) { run two h with issuer2rp := Dict.set (run two h).issuer2rp i (handedOver c n) }).1 =
      (exec x (.finalize i r b) (run one h)).1 := by
  have key := (C104_goes_on h hnew one two i i c n hc hn hcfg hep hrt (finalizeClient x i r b)
    { run two h with issuer2rp := Dict.set (run two h).issuer2rp i (handedOver c n) } (by simp [Dict.get?_set])).1
  exact ret_fst key

/-- A client just made sends its requests, after the load, where the client that was saved sent them, if that used the
endpoints its provider's metadata names (as every client does after its setup: C83). -/
theorem C104_same_addresses (c n : Client) (hn : n.ctx.endpoints = []) (hc : AsMetadata c.ctx) (srv : Srv) :
    Discovery.serviceEndpoint (load (dump [] c) n).ctx srv = Discovery.serviceEndpoint c.ctx srv := by
  rw [hc srv, load_dump]
  unfold Discovery.serviceEndpoint
  simp only [hn]
  rfl

/-! ### Examples, and what is lost -/

/-- A process that has begun one login. -/
def begunWith (s : String) : List (Ext × Call) := [(World.ext 1000 s "n1" "n1", .begin "https://op.example" "" [] [])]

/-- The client a process has for the provider, after a history. -/
def ownClient (l : List (Ext × Call)) : Option Client := Dict.get? (run l World.handler).issuer2rp "https://op.example"

/-- A process that has begun a login with a provider whose metadata names another token endpoint (`moved`), and that
gives a registration access token (`token`). -/
def begunWhere (s : String) (moved : Bool) (token : Option String) : List (Ext × Call) :=
  [({ World.ext 1000 s "n1" "n1" with
      deser := fun _ _ _ i => match i with
        | .text t => if t = "metadata" ∧ moved then
            .ok (Dict.set World.metadata "token_endpoint" (.str "https://op.example/new-token"))
          else match token with
            | some r => if t = "registered" then .ok [("client_id", .str ("client-" ++ s)), ("registration_access_token", .str r)]
              else World.parse i
            | none => World.parse i
        | _ => World.parse i },
    .begin "https://op.example" "" [] [])]

/-- The hypotheses of `C104_login_finished_elsewhere` are met by two processes that have each begun a login. -/
example : ∃ c n, ownClient (begunWith World.s1) = some c ∧ ownClient (begunWith World.s2) = some n ∧ n.cfg = c.cfg ∧
    n.ctx.endpoints = c.ctx.endpoints ∧ n.ctx.registrationAccessToken = c.ctx.registrationAccessToken := by
  have h1 : (ownClient (begunWith World.s1)).map (fun c => (c.cfg, c.ctx.endpoints, c.ctx.registrationAccessToken)) =
      some ("", Discovery.setEndpoints World.services World.metadata [], none) := by rfl
  have h2 : (ownClient (begunWith World.s2)).map (fun c => (c.cfg, c.ctx.endpoints, c.ctx.registrationAccessToken)) =
      some ("", Discovery.setEndpoints World.services World.metadata [], none) := by rfl
  simp only [Option.map_eq_some_iff, Prod.mk.injEq] at h1 h2
  obtain ⟨c, hc, c1, c2, c3⟩ := h1
  obtain ⟨n, hn, n1, n2, n3⟩ := h2
  exact ⟨c, n, hc, hn, by rw [c1, n1], by rw [c2, n2], by rw [c3, n3]⟩

/-- The login begun in the first is finished in the second after the handover, and not before. -/
example : (do
      let c ← ownClient (begunWith World.s1)
      let n ← ownClient (begunWith World.s2)
      let g := run (begunWith World.s2) World.handler
      let call : Call := .finalize "https://op.example" [("state", .str World.s1), ("code", .str "C1")] []
      let x := World.ext 1001 "x" "" "n1"
      some ((exec x call g).1.isOk, (exec x call { g with issuer2rp := Dict.set g.issuer2rp "https://op.example" (handedOver c n) }).1.isOk)) =
    some (false, true) := by rfl

/-- What is not kept (i): logins begun in the second process before the load can no longer be finished. -/
theorem C104_own_sessions_violated : ∃ (h : Handler) (one two : List (Ext × Call)) (i : String) (c n : Client) (s : String),
    h.issuer2rp = [] ∧ Dict.get? (run one h).issuer2rp i = some c ∧ Dict.get? (run two h).issuer2rp i = some n ∧ n.cfg = c.cfg ∧
      (∃ o, getState n.db s = .ok o) ∧ ¬ ∃ o, getState (load (dump [] c) n).db s = .ok o := by
  have h1 : (ownClient (begunWith World.s1)).map (fun c => (c.cfg, (getState c.db World.s2).isOk)) = some ("", false) := by rfl
  have h2 : (ownClient (begunWith World.s2)).map (fun c => (c.cfg, (getState c.db World.s2).isOk)) = some ("", true) := by rfl
  simp only [Option.map_eq_some_iff, Prod.mk.injEq] at h1 h2
  obtain ⟨c, hc, c1, c2⟩ := h1
  obtain ⟨n, hn, n1, n2⟩ := h2
  refine ⟨World.handler, begunWith World.s1, begunWith World.s2, "https://op.example", c, n, World.s2, rfl, hc, hn, by rw [c1, n1], ?_, ?_⟩
  · cases h : getState n.db World.s2 with
    | error e => rw [h] at n2; cases n2
    | ok o => exact ⟨o, rfl⟩
  · rw [load_dump]
    rintro ⟨o, ho⟩
    simp only at ho
    rw [ho] at c2
    cases c2

/-- What is not kept (ii): the provider has moved its token endpoint, and the first process knows; the second loads the
new metadata, but still sends to the old address. -/
theorem C104_old_address_violated : ∃ (h : Handler) (one two : List (Ext × Call)) (i : String) (c n : Client),
    h.issuer2rp = [] ∧ Dict.get? (run one h).issuer2rp i = some c ∧ Dict.get? (run two h).issuer2rp i = some n ∧ n.cfg = c.cfg ∧
      Dict.get? (load (dump [] c) n).ctx.providerInfo "token_endpoint" = some (.str "https://op.example/new-token") ∧
      Discovery.serviceEndpoint c.ctx .accesstoken = .ok (.str "https://op.example/new-token") ∧
      Discovery.serviceEndpoint (load (dump [] c) n).ctx .accesstoken = .ok (.str "https://op.example/token") := by
  have h1 : (ownClient (begunWhere World.s1 true none)).map (fun c => (c.cfg, Dict.get? c.ctx.providerInfo "token_endpoint",
      Dict.get? c.ctx.endpoints "accesstoken")) =
    some ("", some (.str "https://op.example/new-token"), some (.str "https://op.example/new-token")) := by rfl
  have h2 : (ownClient (begunWith World.s2)).map (fun c => (c.cfg, Dict.get? c.ctx.endpoints "accesstoken")) =
    some ("", some (.str "https://op.example/token")) := by rfl
  simp only [Option.map_eq_some_iff, Prod.mk.injEq] at h1 h2
  obtain ⟨c, hc, c1, c2, c3⟩ := h1
  obtain ⟨n, hn, n1, n2⟩ := h2
  refine ⟨World.handler, begunWhere World.s1 true none, begunWith World.s2, "https://op.example", c, n, rfl, hc, hn, by rw [c1, n1], ?_, ?_, ?_⟩
  · rw [load_dump]; exact c2
  · unfold Discovery.serviceEndpoint
    rw [show Srv.accesstoken.name = "accesstoken" from rfl, c3]
    rfl
  · rw [load_dump]
    unfold Discovery.serviceEndpoint
    simp only [show Srv.accesstoken.name = "accesstoken" from rfl, n2]
    rfl

/-- What is not kept (iii): the attribute with the registration access token stays that of the second process: one
registration's client identifier is combined with another's token.  (Reading a registration uses the registration
response, which is loaded: C92.) -/
theorem C104_registration_token_violated : ∃ (h : Handler) (one two : List (Ext × Call)) (i : String) (c n : Client),
    h.issuer2rp = [] ∧ Dict.get? (run one h).issuer2rp i = some c ∧ Dict.get? (run two h).issuer2rp i = some n ∧ n.cfg = c.cfg ∧
      c.ctx.clientId ≠ n.ctx.clientId ∧ c.ctx.registrationAccessToken = some (.str "token-one") ∧
      (load (dump [] c) n).ctx.clientId = c.ctx.clientId ∧
      (load (dump [] c) n).ctx.registrationAccessToken = some (.str "token-two") := by
  have h1 : (ownClient (begunWhere World.s1 false (some "token-one"))).map (fun c => (c.cfg, c.ctx.clientId, c.ctx.registrationAccessToken)) =
    some ("", "client-" ++ World.s1, some (.str "token-one")) := by rfl
  have h2 : (ownClient (begunWhere World.s2 false (some "token-two"))).map (fun c => (c.cfg, c.ctx.clientId, c.ctx.registrationAccessToken)) =
    some ("", "client-" ++ World.s2, some (.str "token-two")) := by rfl
  simp only [Option.map_eq_some_iff, Prod.mk.injEq] at h1 h2
  obtain ⟨c, hc, c1, c2, c3⟩ := h1
  obtain ⟨n, hn, n1, n2, n3⟩ := h2
  refine ⟨World.handler, _, _, "https://op.example", c, n, rfl, hc, hn, by rw [c1, n1], by rw [c2, n2]; decide, c3, ?_, ?_⟩
  · rw [load_dump]
  · rw [load_dump]; exact n3

/-- A client just made, and a set-up client that is saved: the hypotheses of `C104_same_addresses`. -/
example : ∃ c, ownClient (begunWith World.s1) = some c ∧ AsMetadata c.ctx ∧
    (newClient (World.ext 1 "" "" "") World.handler "" World.conf).ctx.endpoints = [] := by
  have h1 : (ownClient (begunWith World.s1)).map (fun c => (c.ctx.endpoints, c.ctx.providerInfo)) =
    some (Discovery.setEndpoints World.services World.metadata [], World.metadata) := by rfl
  simp only [Option.map_eq_some_iff, Prod.mk.injEq] at h1
  obtain ⟨c, hc, c1, c2⟩ := h1
  refine ⟨c, hc, fun srv => ?_, rfl⟩
  unfold Discovery.serviceEndpoint
  rw [c1, c2]
  cases srv <;> rfl

end Verif.Props
