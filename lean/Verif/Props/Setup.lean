import Verif.Lemmas.Setup
import Verif.Props.InFlight
/-!
# C70 and C71: what calls do to clients that are set up
-/

namespace Verif.Props
open Verif Verif.Service Verif.Handler Verif.StateInterface Verif.Spec.InFlight

/-- **C70**.  Whatever calls are made, a client that is not set up anew keeps its issuer, the metadata, the
endpoints, the credentials, the redirect URIs, its configuration and its services: only the behaviour may have
changed. -/
theorem C70_setup_is_stable (h : Handler) (hp : PlainHandler h) (i : String) (c : Client)
    (hc : Dict.get? h.issuer2rp i = some c) (calls : List (Ext × Call)) (hdrawn : ∀ xc ∈ calls, StateDrawn xc)
    (hkeep : NeverReplaced i calls h) :
    ∃ c', Dict.get? (run calls h).issuer2rp i = some c' ∧
      c'.ctx = { c.ctx with behaviour := c'.ctx.behaviour } ∧ c'.services = c.services ∧ c'.conf = c.conf := by
  obtain ⟨c', h1, h2⟩ := hasClient_run calls hp ⟨c, hc, FrameRel.refl _⟩ hdrawn hkeep
  refine ⟨c', h1, ?_, h2.services, h2.conf⟩
  obtain ⟨b, hb⟩ := h2.ctx
  rw [hb]

/-- Non-vacuity of C70: the client made by `begin` in the small world, over the calls `later`. -/
example : (Dict.get? inFlight.issuer2rp "https://op.example").map (fun c => (c.ctx.clientId, c.ctx.providerInfo)) =
      some ("client1", World.metadata) ∧
    (∀ xc ∈ later, StateDrawn xc) ∧ NeverReplaced "https://op.example" later inFlight :=
  ⟨by rfl, fun xc h => drawn_of_ok Props.C10_generated_keys_are_safe (later_ok xc h), later_keeps⟩

/-! ## C71 -/

/-- The name of the configuration `init_client` uses for an issuer. -/
def configFor (h : Handler) (issuer : String) : String := if Dict.has h.configs issuer then issuer else ""

/-- The call is served by clients that are not the one kept as `i`, and that are not made of the configuration
`n`. -/
def Elsewhere (i n : String) (h : Handler) : Ext × Call → Prop
  | (x, .begin issuer user _ b) =>
    (clientSetup x issuer user b h).1 ≠ .ok i ∧ configFor h issuer ≠ n ∧
    ∀ d, Dict.get? h.issuer2rp issuer = some d → d.cfg ≠ n
  | (_, .finalize j _ _) => j ≠ i ∧ ∀ d, Dict.get? h.issuer2rp j = some d → d.cfg ≠ n
  | (_, .backchannel j _) => j ≠ i ∧ ∀ d, Dict.get? h.issuer2rp j = some d → d.cfg ≠ n
  | (_, .close s j _) =>
    if j = "" then ∀ k, sessionIssuer h s = .ok k → k ≠ i ∧ ∀ d, Dict.get? h.issuer2rp k = some d → d.cfg ≠ n
    else j ≠ i ∧ ∀ d, Dict.get? h.issuer2rp j = some d → d.cfg ≠ n
  | (_, .getTokens s) | (_, .refresh s _) | (_, .userInfo s _) | (_, .hasActive s) | (_, .validToken s)
  | (_, .logout s _) | (_, .clear s) =>
    ∀ k, sessionIssuer h s = .ok k → k ≠ i ∧ ∀ d, Dict.get? h.issuer2rp k = some d → d.cfg ≠ n

/-- `Elsewhere` for every call of a history. -/
def AllElsewhere (i n : String) : List (Ext × Call) → Handler → Prop
  | [], _ => True
  | xc :: l, h => Elsewhere i n h xc ∧ AllElsewhere i n l (exec xc.1 xc.2 h).2

section
variable {i : String} {c : Client} {h : Handler}

theorem same_share (hc : Dict.get? h.issuer2rp i = some c) {n : String} (hn : n ≠ c.cfg) (b : Obj) :
    Dict.get? (share n b h).issuer2rp i = some c := by
  unfold share
  split
  · exact hc
  · split
    · have hm : Dict.get? (h.issuer2rp.map (fun p => (p.1, sharedClient n b p.2))) i =
          (Dict.get? h.issuer2rp i).map (sharedClient n b) := Dict.get?_map _ _ _
      simp only [hm, hc, Option.map_some]
      unfold sharedClient
      rw [if_neg (Ne.symm hn)]
    · exact hc

theorem same_onClient {α : Type} {j : String} {m : Py Client α} (hc : Dict.get? h.issuer2rp i = some c) (hj : j ≠ i)
    (hm : ∀ d, Dict.get? h.issuer2rp j = some d → d.cfg ≠ c.cfg ∧ (m d).2.cfg = d.cfg) :
    Dict.get? (onClient j m h).2.issuer2rp i = some c := by
  unfold onClient
  cases hd : Dict.get? h.issuer2rp j with
  | none => exact hc
  | some d =>
    obtain ⟨h1, h2⟩ := hm d hd
    refine same_share ?_ (by rw [h2]; exact h1) _
    simp only [Dict.get?_set_ne _ _ hj]
    exact hc

theorem same_session {α : Type} {s k : String} {m : Py Client α} (hc : Dict.get? h.issuer2rp i = some c)
    (hs : ∀ k, sessionIssuer h s = .ok k → k ≠ i ∧ ∀ d, Dict.get? h.issuer2rp k = some d → d.cfg ≠ c.cfg)
    (hm : Frame (Local k) m) : Dict.get? (onSession s m h).2.issuer2rp i = some c := by
  unfold onSession
  cases hr : sessionIssuer h s with
  | error e => exact hc
  | ok j => exact same_onClient hc (hs j hr).1 fun d hd => ⟨(hs j hr).2 d hd, (hm d).cfg⟩

theorem same_initClient (x : Ext) (issuer : String) (hc : Dict.get? h.issuer2rp i = some c) :
    Dict.get? (initClient x issuer h).2.issuer2rp i = some c ∧
    ∀ d, (initClient x issuer h).1 = .ok d → d.cfg = configFor h issuer := by
  unfold initClient configFor
  split
  · next cc hcc =>
    refine ⟨hc, fun d hd => ?_⟩
    injection hd with hd
    subst hd
    rw [if_pos (by rw [Dict.has_eq, hcc]; rfl)]
    rfl
  · next hcc =>
    rw [if_neg (by rw [Dict.has_eq, hcc]; simp)]
    split
    · exact ⟨hc, fun d hd => by cases hd⟩
    · refine ⟨hc, fun d hd => ?_⟩
      injection hd with hd
      subst hd
      rfl

theorem same_adopt {x : Ext} {d : Client} {issId : String} {b : Obj} (hc : Dict.get? h.issuer2rp i = some c)
    (hd : d.cfg ≠ c.cfg) (hn : (adopt x d issId b h).1 ≠ .ok i) :
    Dict.get? (adopt x d issId b h).2.issuer2rp i = some c ∧
    ∀ j e, (adopt x d issId b h).1 = .ok j → Dict.get? (adopt x d issId b h).2.issuer2rp j = some e → e.cfg ≠ c.cfg := by
  unfold adopt at hn ⊢
  rw [Py.bind_run] at hn ⊢
  have hk1 := noStore_providerInfo x d
  have h1 : Dict.get? (onNew d (doProviderInfo x) h).2.issuer2rp i = some c :=
    same_share hc (by rw [hk1.cfg]; exact hd) _
  rcases hr : onNew d (doProviderInfo x) h with ⟨r, g1⟩
  rw [hr] at h1 hn
  cases r with
  | error e => exact ⟨h1, fun j e hj => by cases hj⟩
  | ok r =>
    have hr2 : r.2 = (doProviderInfo x d).2 := by
      have := congrArg Prod.fst hr
      have h2 : (doProviderInfo x d).1.map (fun a => (a, (doProviderInfo x d).2)) = .ok r := this
      cases h3 : (doProviderInfo x d).1 with
      | error e => rw [h3] at h2; cases h2
      | ok a => rw [h3] at h2; injection h2 with h2; rw [← h2]
    have hk2 := noStore_register x b r.2
    have hcfg2 : (register x b r.2).2.cfg ≠ c.cfg := by rw [hk2.cfg, hr2, hk1.cfg]; exact hd
    simp only [Py.modify_bind_run] at hn ⊢
    rw [Py.bind_run] at hn ⊢
    have h2 : Dict.get? (onNew r.2 (register x b) { g1 with hash2issuer := Dict.set g1.hash2issuer issId r.2.ctx.issuer }).2.issuer2rp i = some c :=
      same_share (h := { g1 with hash2issuer := Dict.set g1.hash2issuer issId r.2.ctx.issuer }) h1 hcfg2 _
    rcases hs : onNew r.2 (register x b) { g1 with hash2issuer := Dict.set g1.hash2issuer issId r.2.ctx.issuer } with ⟨s, g2⟩
    rw [hs] at h2 hn
    cases s with
    | error e => exact ⟨h2, fun j e hj => by cases hj⟩
    | ok s =>
      have hs2 : s.2 = (register x b r.2).2 := by
        have h3 : (register x b r.2).1.map (fun a => (a, (register x b r.2).2)) = .ok s := congrArg Prod.fst hs
        cases h4 : (register x b r.2).1 with
        | error e => rw [h4] at h3; cases h3
        | ok a => rw [h4] at h3; injection h3 with h3; rw [← h3]
      simp only [Py.modify_bind_run, Py.pure_run] at hn ⊢
      have hne : r.1 ≠ i := fun e => hn (by rw [e])
      refine ⟨?_, fun j e hj he => ?_⟩
      · simp only [Dict.get?_set_ne _ _ hne]; exact h2
      · injection hj with hj
        subst hj
        rw [Dict.get?_set_self] at he
        injection he with he
        subst he
        rw [hs2]
        exact hcfg2

theorem same_setup (x : Ext) (issId user : String) (b : Obj) (hc : Dict.get? h.issuer2rp i = some c)
    (h1 : (clientSetup x issId user b h).1 ≠ .ok i) (h2 : configFor h issId ≠ c.cfg)
    (h3 : ∀ d, Dict.get? h.issuer2rp issId = some d → d.cfg ≠ c.cfg) :
    Dict.get? (clientSetup x issId user b h).2.issuer2rp i = some c ∧
    ∀ j e, (clientSetup x issId user b h).1 = .ok j → Dict.get? (clientSetup x issId user b h).2.issuer2rp j = some e → e.cfg ≠ c.cfg := by
  unfold clientSetup at h1 ⊢
  split
  · exact ⟨hc, fun j e hj => by cases hj⟩
  · split
    · next h0 hi =>
      rw [if_neg h0, if_pos hi] at h1
      unfold doWebfinger at h1 ⊢
      rw [Py.bind_run, Py.bind_run] at h1 ⊢
      subst hi
      obtain ⟨a1, a2⟩ := same_initClient x "" hc
      rcases hr : initClient x "" h with ⟨r, g1⟩
      have hg1 : g1.issuer2rp = h.issuer2rp := by
        have e1 : (initClient x "" h).2 = g1 := by rw [hr]
        rw [← e1]
        unfold initClient
        split
        · rfl
        · split <;> rfl
      rw [hr] at a1 a2 h1
      cases r with
      | error e => exact ⟨a1, fun j e hj => by cases hj⟩
      | ok d =>
        have hd := a2 d rfl
        simp only at h1 ⊢
        rw [Py.bind_run] at h1 ⊢
        have hk := noStore_doRequest (x := x) (srv := .webfinger) (Or.inr (Or.inr rfl)) [] {} [("resource", .str user)] d
        have a3 : Dict.get? (onNew d (doRequest x .webfinger [] {} [("resource", .str user)]) g1).2.issuer2rp i = some c :=
          same_share a1 (by rw [hk.cfg, hd]; exact h2) _
        have a4 : ∀ e, Dict.get? (onNew d (doRequest x .webfinger [] {} [("resource", .str user)]) g1).2.issuer2rp "" = some e → e.cfg ≠ c.cfg := by
          intro e he
          have he' : Dict.get? (share (doRequest x .webfinger [] {} [("resource", .str user)] d).2.cfg
            (doRequest x .webfinger [] {} [("resource", .str user)] d).2.ctx.behaviour g1).issuer2rp "" = some e := he
          unfold share at he'
          split at he'
          · rw [hg1] at he'; exact h3 e he'
          · split at he'
            · have hm : ∀ (l : Dict Client) n b, Dict.get? (l.map (fun p => (p.1, sharedClient n b p.2))) "" =
                  (Dict.get? l "").map (sharedClient n b) := fun l n b => Dict.get?_map _ _ _
              simp only [hm] at he'
              rw [hg1] at he'
              cases h5 : Dict.get? h.issuer2rp "" with
              | none => rw [h5] at he'; cases he'
              | some e0 =>
                rw [h5] at he'
                injection he' with he'
                subst he'
                have := h3 e0 h5
                unfold sharedClient
                split <;> exact this
            · rw [hg1] at he'; exact h3 e he'
        rcases hr2 : onNew d (doRequest x .webfinger [] {} [("resource", .str user)]) g1 with ⟨r2, g2⟩
        rw [hr2] at a3 a4 h1
        cases r2 with
        | error e => exact ⟨a3, fun j e hj => by cases hj⟩
        | ok r2 =>
          have hs2 : r2.2 = (doRequest x .webfinger [] {} [("resource", .str user)] d).2 := by
            have h3 : (doRequest x .webfinger [] {} [("resource", .str user)] d).1.map
              (fun a => (a, (doRequest x .webfinger [] {} [("resource", .str user)] d).2)) = .ok r2 := congrArg Prod.fst hr2
            cases h4 : (doRequest x .webfinger [] {} [("resource", .str user)] d).1 with
            | error e => rw [h4] at h3; cases h3
            | ok a => rw [h4] at h3; injection h3 with h3; rw [← h3]
          simp only [Py.pure_run, Py.read_bind_run] at h1 ⊢
          split
          · refine ⟨a3, fun j e hj he => ?_⟩
            injection hj with hj
            subst hj
            exact a4 e he
          · next hnot =>
            rw [if_neg hnot] at h1
            exact same_adopt a3 (by rw [hs2, hk.cfg, hd]; exact h2) h1
    · next h0 hi =>
      rw [if_neg h0, if_neg hi] at h1
      rw [Py.read_bind_run] at h1 ⊢
      split
      · next hh =>
        refine ⟨hc, fun j e hj he => ?_⟩
        injection hj with hj
        subst hj
        exact h3 e he
      · next hnot =>
        rw [if_neg hnot, Py.bind_run] at h1
        rw [Py.bind_run]
        obtain ⟨a1, a2⟩ := same_initClient x issId hc
        rcases hr : initClient x issId h with ⟨r, g1⟩
        rw [hr] at a1 a2 h1
        cases r with
        | error e => exact ⟨a1, fun j e hj => by cases hj⟩
        | ok d => exact same_adopt a1 (by rw [a2 d rfl]; exact h2) h1

theorem same_exec (hp : PlainHandler h) (hc : Dict.get? h.issuer2rp i = some c) (xc : Ext × Call) (hd : StateDrawn xc)
    (he : Elsewhere i c.cfg h xc) : Dict.get? (exec xc.1 xc.2 h).2.issuer2rp i = some c := by
  obtain ⟨x, call⟩ := xc
  cases call with
  | begin issId user req b =>
    show Dict.get? (begin_ x issId user req b h).2.issuer2rp i = some c
    unfold begin_
    rw [Py.bind_run]
    obtain ⟨e1, e2, e3⟩ := he
    obtain ⟨a1, a2⟩ := same_setup x issId user b hc e1 e2 e3
    have hp0 := (clientSetup_cases x issId user b hp).1
    rcases hs : clientSetup x issId user b h with ⟨r, h1⟩
    rw [hs] at a1 a2 hp0 e1
    cases r with
    | error e => exact a1
    | ok j =>
      simp only
      refine same_onClient a1 (fun e => e1 (by rw [e])) fun d hd' => ⟨a2 j d rfl hd', ?_⟩
      exact (begins_init x req b hd d (hp0.clients j d (Dict.get?_eq_some_mem hd'))).cfg
  | finalize j r b =>
    exact same_onClient (j := j) (m := finalizeClient x j r b) hc he.1 fun d hd => ⟨he.2 d hd, (finalizeClient_setup x j r b d).cfg⟩
  | getTokens s => exact same_session hc he (local_getTokens x s)
  | refresh s sc => exact same_session hc he (local_refresh x s sc)
  | userInfo s t => exact same_session hc he (local_userInfo x s t)
  | hasActive s => exact same_session (s := s) (k := s) (m := ask (hasActive x s)) hc he (Frame.ask _)
  | validToken s => exact same_session (s := s) (k := s) (m := ask (validAccessToken x s)) hc he (Frame.ask _)
  | logout s u => exact same_session hc he (local_logout x s u)
  | close s j u =>
    show Dict.get? (close x s j u h).2.issuer2rp i = some c
    have he : (if j = "" then ∀ k, sessionIssuer h s = .ok k → k ≠ i ∧ ∀ d, Dict.get? h.issuer2rp k = some d → d.cfg ≠ c.cfg
      else j ≠ i ∧ ∀ d, Dict.get? h.issuer2rp j = some d → d.cfg ≠ c.cfg) := he
    unfold close
    split
    · next hj =>
      rw [if_neg hj] at he
      exact same_onClient hc he.1 fun d hd => ⟨he.2 d hd, (local_logout x s u d).cfg⟩
    · next hj =>
      rw [if_pos (by simpa using hj)] at he
      exact same_session hc he (local_logout x s u)
  | clear s =>
    show Dict.get? (clearSession s h).2.issuer2rp i = some c
    unfold clearSession onSession
    cases hr : sessionIssuer h s with
    | error e => exact hc
    | ok j => exact same_onClient hc (he j hr).1 fun d hd => ⟨(he j hr).2 d hd, rfl⟩
  | backchannel j info =>
    exact same_onClient (j := j) (m := ask (backchannelLogout x info)) hc he.1 fun d hd => ⟨he.2 d hd, rfl⟩

end

/-- **C71** (the part that holds).  Calls that concern other providers, with clients made of other configurations,
leave a client exactly as it is: set-up, behaviour, sessions and requests sent. -/
theorem C71_own_configuration_partial (i : String) (c : Client) :
    ∀ (calls : List (Ext × Call)) (h : Handler), PlainHandler h → Dict.get? h.issuer2rp i = some c →
      (∀ xc ∈ calls, StateDrawn xc) → AllElsewhere i c.cfg calls h → Dict.get? (run calls h).issuer2rp i = some c := by
  intro calls
  induction calls with
  | nil => intro h _ hc _ _; exact hc
  | cons xc l ih =>
    intro h hp hc hd he
    exact ih _ (plain_exec hp xc (hd xc (by simp))) (same_exec hp hc xc (hd xc (by simp)) he.1)
      (fun y hy => hd y (by simp [hy])) he.2

/-! ### Two providers -/

/-- Metadata of a provider that supports one authentication method at the token endpoint. -/
def metadataOf (issuer method : String) : Obj :=
  [("issuer", .str issuer), ("authorization_endpoint", .str (issuer ++ "/auth")), ("token_endpoint", .str (issuer ++ "/token")),
   ("userinfo_endpoint", .str (issuer ++ "/userinfo")), ("registration_endpoint", .str (issuer ++ "/reg")),
   ("token_endpoint_auth_methods_supported", .list [.str method])]

/-- The bodies of the two providers: `a` supports `client_secret_basic`, `b` supports `client_secret_post`. -/
def parse2 : Info → Except Exc Obj
  | .text t => if t = "meta-a" then .ok (metadataOf "https://a.example" "client_secret_basic")
    else if t = "meta-b" then .ok (metadataOf "https://b.example" "client_secret_post")
    else World.parse (.text t)
  | i => World.parse i

/-- The small world with two providers. -/
def ext2 (now : Int) (state nonce idNonce : String) : Ext :=
  { World.ext now state nonce idNonce with
    http := fun _ s =>
      if s.srv = .providerInfo then
        .ok { World.answer s with text := if s.url = "https://a.example/.well-known/openid-configuration" then "meta-a" else "meta-b" }
      else .ok (World.answer s)
    deser := fun _ _ _ i => parse2 i
    loads := fun t => parse2 (.text t) }

/-- A configuration that prefers `client_secret_basic` and can do `client_secret_post`. -/
def conf2 : ClientConf :=
  { World.conf with config := Dict.set World.conf.config "client_preferences" (.obj [("response_types", .list [.str "code"]),
      ("token_endpoint_auth_method", .list [.str "client_secret_basic", .str "client_secret_post"])]) }

/-- The default configuration serves both providers. -/
def oneConfig : Handler := { World.handler with configs := [("", conf2)] }

/-- Provider `a` has a configuration of its own. -/
def twoConfigs : Handler :=
  { World.handler with configs := [("https://a.example", { conf2 with config := Dict.set conf2.config "issuer" (.str "https://a.example") }),
      ("", conf2)] }

/-- A session is started at `a`; with `mixed` one is started at `b` before the first one is finalized. -/
def atBoth (mixed : Bool) : List (Ext × Call) :=
  (ext2 1000 World.s1 "n1" "", .begin "https://a.example" "" [] []) ::
  (if mixed then [(ext2 1001 World.s2 "n2" "", .begin "https://b.example" "" [] [])] else []) ++
  [(ext2 1002 "" "" "n1", .finalize "https://a.example" [("code", .str "code1"), ("state", .str World.s1)] [])]

/-- How the clients of `a` authenticated at the token endpoint: whether there is an `Authorization` header. -/
def headersAt (h : Handler) (i : String) : Option (List (List String)) :=
  (Dict.get? h.issuer2rp i).map (fun c => (c.log.filter (fun s => s.srv = .accesstoken)).map (fun s => Dict.keys s.headers))

/-- **C71** is violated for providers that share a configuration: provider `a` supports `client_secret_basic` only, and
without other sessions the client authenticates with that.  If a session is started at provider `b` in between,
the method negotiated with `b` is used at `a`: there is no `Authorization` header. -/
theorem C71_shared_behaviour_violated :
    headersAt (run (atBoth false) oneConfig) "https://a.example" = some [["Authorization", "Content-Type"]] ∧
    headersAt (run (atBoth true) oneConfig) "https://a.example" = some [["Content-Type"]] := by
  refine ⟨by rfl, by rfl⟩

/-- Non-vacuity of the positive part: with a configuration of its own, provider `a` is not affected. -/
example :
    headersAt (run (atBoth true) twoConfigs) "https://a.example" = some [["Authorization", "Content-Type"]] ∧
    AllElsewhere "https://a.example" "https://a.example"
      [(ext2 1001 World.s2 "n2" "", .begin "https://b.example" "" [] []),
       (ext2 1002 "" "" "n2", .finalize "https://b.example" [("code", .str "code2"), ("state", .str World.s2)] [])]
      (run [(ext2 1000 World.s1 "n1" "", .begin "https://a.example" "" [] [])] twoConfigs) ∧
    (Dict.get? (run [(ext2 1000 World.s1 "n1" "", .begin "https://a.example" "" [] [])] twoConfigs).issuer2rp "https://a.example").map
      Client.cfg = some "https://a.example" := by
  refine ⟨by rfl, ⟨⟨?_, ?_, ?_⟩, ⟨by decide, ?_⟩, trivial⟩, by rfl⟩
  · intro e
    have h1 : (clientSetup (ext2 1001 World.s2 "n2" "") "https://b.example" "" []
      (run [(ext2 1000 World.s1 "n1" "", .begin "https://a.example" "" [] [])] twoConfigs)).1 = .ok "https://b.example" := by rfl
    rw [h1] at e
    injection e with e
    revert e
    decide
  · have h1 : configFor (run [(ext2 1000 World.s1 "n1" "", .begin "https://a.example" "" [] [])] twoConfigs) "https://b.example" = "" := by rfl
    rw [h1]
    decide
  · intro d hd
    have h1 : Dict.get? (run [(ext2 1000 World.s1 "n1" "", .begin "https://a.example" "" [] [])] twoConfigs).issuer2rp "https://b.example" = none := by rfl
    rw [h1] at hd
    cases hd
  · intro d hd
    have h1 : (Dict.get? (exec (ext2 1001 World.s2 "n2" "") (.begin "https://b.example" "" [] [])
      (run [(ext2 1000 World.s1 "n1" "", .begin "https://a.example" "" [] [])] twoConfigs)).2.issuer2rp "https://b.example").map Client.cfg = some "" := by rfl
    rw [hd] at h1
    injection h1 with h1
    rw [h1]
    decide

end Verif.Props
