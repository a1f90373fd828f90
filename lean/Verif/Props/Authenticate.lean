import Verif.Props.TokenRequest
import Verif.Props.SessionTokens
/-!
# C82: token requests are authenticated with the negotiated method
-/

namespace Verif.Props
open Verif Verif.Service Verif.Handler Verif.StateInterface Verif.Spec.Session Verif.Spec.Wire

/-! ## Specification -/

/-- The method negotiated for the token endpoint is `m`: it is the value, or the first of the list. -/
def Negotiated (c : Client) (m : String) : Prop :=
  Dict.get? c.ctx.behaviour "token_endpoint_auth_method" = some (.str m) ∨
  ∃ l, Dict.get? c.ctx.behaviour "token_endpoint_auth_method" = some (.list (.str m :: l))

/-- The request `s` with the parameters `req` is authenticated with `m` as client `c`.  `client_secret_basic`: the header
decodes to the client's id and secret, which is not among the parameters; `client_secret_post`: id and secret are among the
parameters and there is no header; with a JWT: there is an assertion, and no secret and no header. -/
structure AuthenticatedBy (c : Client) (m : String) (s : Sent) (req : Obj) : Prop where
  basic : m = "client_secret_basic" → Dict.get? req "client_secret" = none ∧
    ∃ header, Dict.get? s.headers "Authorization" = some header ∧
      Spec.decodeBasic true header = some (Quote.utf8 c.ctx.clientId, Quote.utf8 c.ctx.clientSecret)
  post : m = "client_secret_post" → Dict.get? s.headers "Authorization" = none ∧
    Dict.get? req "client_id" = some (.str c.ctx.clientId) ∧ Dict.get? req "client_secret" = some (.str c.ctx.clientSecret)
  jwt : m = "client_secret_jwt" ∨ m = "private_key_jwt" → Dict.get? s.headers "Authorization" = none ∧
    Dict.get? req "client_secret" = none ∧ ∃ a, Dict.get? req "client_assertion" = some a

/-! ## Proof -/

theorem negotiated_method {c : Client} {m : String} (h : Negotiated c m) : clientAuthnMethod c.ctx.behaviour = .ok m := by
  unfold clientAuthnMethod
  rcases h with h | ⟨l, h⟩ <;> rw [h]

theorem authenticated_of {x : Ext} {srv : Srv} (hsrv : srv ≠ .registrationRead) {c c0 : Client} {req0 req kw : Obj}
    {m : String} {h0 : Dict String} {s : Sent} (hctx : c0.ctx = c.ctx)
    (h : authnHeader x srv req0 m kw c0 = .ok (h0, req))
    (hkw : ∀ p ∈ ["user", "password", "client_secret"], Dict.get? kw p = none)
    (hsec : Dict.get? req0 "client_secret" = some (.str c.ctx.clientSecret))
    (hs : Dict.get? s.headers "Authorization" = Dict.get? h0 "Authorization") : AuthenticatedBy c m s req := by
  unfold authnHeader at h
  rw [if_neg hsrv] at h
  have hcid : (authEnv x c0 srv).ctx = c.ctx := hctx
  refine ⟨?_, ?_, ?_⟩
  · rintro rfl
    rw [if_neg (by decide)] at h
    refine ⟨(C30_request _ _ _ _ _ _ h).1, ?_⟩
    obtain ⟨u, p, hd, e1, e2, e3, e4⟩ := C30_header_decodes _ _ _ _ _ _ h
    rw [hkw _ (by simp)] at e1 e2
    rw [hsec] at e2
    rw [hcid] at e1
    simp only [Spec.firstOf, Option.some.injEq, Val.str.injEq] at e1 e2
    subst e1; subst e2
    exact ⟨hd, hs.trans e3, e4⟩
  · rintro rfl
    rw [if_neg (by decide)] at h
    obtain ⟨e1, e2, e3, -⟩ := C32_post _ _ _ _ _ _ h
    rw [hsec] at e3
    rw [hcid] at e2
    refine ⟨by rw [hs, e1]; rfl, e2, by rw [e3]; rfl⟩
  · rintro (rfl | rfl)
    · rw [if_neg (by decide)] at h
      obtain ⟨e1, e2, -, ⟨a, e3, -⟩, -⟩ := C33_request _ .clientSecretJwt _ _ _ _ (by simpa [ClientAuth.construct] using h)
      exact ⟨by rw [hs, e1]; rfl, e2, a, e3⟩
    · rw [if_neg (by decide)] at h
      obtain ⟨e1, e2, -, ⟨a, e3, -⟩, -⟩ := C33_request _ .privateKeyJwt _ _ _ _ (by simpa [ClientAuth.construct] using h)
      exact ⟨by rw [hs, e1]; rfl, e2, a, e3⟩

/-- The authorization header of the authentication is the one that is sent. -/
theorem sent_authorization {x : Ext} {srv : Srv} {request : Obj} {hm am : String} {kwargs : Obj} {c c' : Client}
    {hd : Dict String} {req' : Obj} {method bt : String} {kw : Obj} {info : ReqInfo}
    (hr : getHeaders x srv request hm am kwargs c = (.ok (hd, req'), c'))
    (ha : assemble x srv req' method bt hd kw c' = .ok info) :
    ∃ m h0, (if am = "" then getAuthnMethod c srv else .ok am) = .ok m ∧
      authnHeader x srv request m (Dict.set kwargs "authn_endpoint" (.str srv.endpointName)) c = .ok (h0, req') ∧
      Dict.get? (sentFor srv info).headers "Authorization" = Dict.get? h0 "Authorization" := by
  obtain ⟨m, h0, e1, e2, e3⟩ := getHeaders_ok hr
  refine ⟨m, h0, e1, e2, ?_⟩
  have hh : Dict.get? hd "Authorization" = Dict.get? h0 "Authorization" := by
    rcases e3 with ⟨_, rfl, _⟩ | ⟨_, e⟩
    · rfl
    · unfold dpopHeader at e
      obtain ⟨ko, c1, f1, f2⟩ := Py.bind_eq_ok.1 e
      cases ko with
      | none =>
        have := congrArg Prod.fst f2
        injection this with this
        rw [← this]
      | some p =>
        obtain ⟨key, alg⟩ := p
        obtain ⟨_, c2, f3, f4⟩ := Py.bind_eq_ok.1 f2
        obtain ⟨htu, c3, f5, f6⟩ := Py.bind_eq_ok.1 f4
        obtain ⟨jws, c4, f7, f8⟩ := Py.bind_eq_ok.1 f6
        have := congrArg Prod.fst f8
        injection this with this
        rw [← this, Dict.get?_set_ne _ _ (by decide)]
  obtain ⟨_, _, _, _, _, g⟩ := assemble_ok ha
  rcases g with ⟨_, b, _, _, g⟩ | ⟨_, _, g⟩
  · simp only [sentFor, g]
    rw [Dict.get?_set_ne _ _ (by decide)]; exact hh
  · simp only [sentFor, g]; exact hh

theorem withIss_none (c : Client) (k p e : String) (hp : p ≠ "state" ∧ p ≠ "iss" ∧ p ≠ "authn_endpoint") :
    Dict.get? (Dict.set (withIss c [("state", .str k)]) "authn_endpoint" (.str e)) p = none := by
  rw [Dict.get?_set_ne _ _ (Ne.symm hp.2.2)]
  unfold withIss
  split
  · simp [Dict.get?_cons, Ne.symm hp.1]
  · rw [Dict.get?_set_ne _ _ (Ne.symm hp.2.1)]
    simp [Dict.get?_cons, Ne.symm hp.1]

/-- **C82**, the code exchange: whatever is stored, for this or other sessions, fetching the tokens of session `k` sends
nothing, or one request that is authenticated with the negotiated method. -/
theorem C82_code_exchange (x : Ext) (c : Client) (k m : String) (hm : Negotiated c m) (hne : m ≠ "")
    (hsp : "client_secret" ∉ (x.msg .accesstoken).spaced) (hs : c.ctx.clientSecret ≠ "") :
    (getTokens x k c).2.log = c.log ∨
    ∃ s url req, (getTokens x k c).2.log = c.log ++ [s] ∧ s.srv = .accesstoken ∧ Carries x s url req ∧ AuthenticatedBy c m s req := by
  unfold getTokens
  cases ha : tokenArgs k c with
  | error e => left; rw [ask_bind_error ha]
  | ok args =>
  rw [ask_bind_ok ha, ask_bind_ok (by simpa using negotiated_method hm), refused_snd]
  rcases doRequest_log (x := x) (srv := .accesstoken) (args := args) (o := { authnMethod := m })
    (kwargs := [("state", .str k)]) (frame_request_reading (Or.inl rfl) _ _ _) c with hlog | ⟨info, c1, hg, hlog⟩
  · exact Or.inl hlog
  · right
    change buildRequest x .accesstoken args _ _ c = _ at hg
    obtain ⟨am, req0, c2, hd, req', g1, g2, g3, g4⟩ := buildRequest_ok hg
    obtain ⟨m', h0, g5, g6, g7⟩ := sent_authorization g3 g4
    obtain ⟨url, k1, k2, k3, k4⟩ := carries_assembled g4
    have hn : (Dict.keys args).Nodup ∧ Dict.get? args "client_secret" = some (.str c.ctx.clientSecret) := by
      unfold tokenArgs at ha
      split at ha
      · cases ha
      · split at ha
        · cases ha
        · split at ha
          · cases ha
          · split at ha
            · cases ha
            · injection ha with ha
              subst ha
              exact ⟨by simp [Dict.keys], rfl⟩
    obtain ⟨rfl, e5, -⟩ := token_construct hn.1 g2
    have hsec : Dict.get? req0 "client_secret" = some (.str c2.ctx.clientSecret) :=
      e5 _ _ (by decide) hsp (by simpa using hs) (by simp) hn.2
    rw [if_neg (show ({ authnMethod := m } : CallOpts).authnMethod ≠ "" from hne)] at g1
    injection g1 with g1
    subst g1
    rw [if_neg hne] at g5
    injection g5 with g5
    subst g5
    refine ⟨_, url, req', hlog, rfl, k4, authenticated_of (by decide) rfl g6 (fun p hp => ?_) hsec g7⟩
    refine withIss_none _ _ _ _ ?_
    simp only [List.mem_cons, List.not_mem_nil, or_false] at hp
    rcases hp with rfl | rfl | rfl <;> decide

/-- **C82**, refreshing. -/
theorem C82_refresh (x : Ext) (c : Client) (k sc m : String) (hm : Negotiated c m) (hne : m ≠ "")
    (hsp : "client_secret" ∈ (x.msg .refreshToken).params ∧ "client_secret" ∉ (x.msg .refreshToken).spaced)
    (hs : c.ctx.clientSecret ≠ "")
    (hst : storedIn c.db k "refresh_token_response" "client_secret" = none ∧
      storedIn c.db k "token_response" "client_secret" = none) :
    (refreshAccessToken x k sc c).2.log = c.log ∨
    ∃ s url req, (refreshAccessToken x k sc c).2.log = c.log ++ [s] ∧ s.srv = .refreshToken ∧ Carries x s url req ∧
      AuthenticatedBy c m s req := by
  unfold refreshAccessToken
  rw [ask_bind_ok (by simpa using negotiated_method hm), refused_snd]
  generalize ha : (if sc = "" then ([] : Obj) else [("scope", .str sc)]) = args
  rcases doRequest_log (x := x) (srv := .refreshToken) (args := args) (o := { authnMethod := m })
    (kwargs := [("state", .str k)]) (frame_request_reading (Or.inr (Or.inl rfl)) _ _ _) c with hlog | ⟨info, c1, hg, hlog⟩
  · exact Or.inl hlog
  · right
    change buildRequest x .refreshToken args _ _ c = _ at hg
    obtain ⟨am, req0, c2, hd, req', g1, g2, g3, g4⟩ := buildRequest_ok hg
    obtain ⟨m', h0, g5, g6, g7⟩ := sent_authorization g3 g4
    obtain ⟨url, k1, k2, k3, k4⟩ := carries_assembled g4
    obtain rfl := refresh_construct_same g2
    have hn : (Dict.keys args).Nodup := by rw [← ha]; split <;> simp [Dict.keys]
    have hnone : Dict.get? args "client_secret" = none := by
      rw [← ha]; split
      · rfl
      · simp [Dict.get?_cons]
    have hsec : Dict.get? req0 "client_secret" = some (.str c2.ctx.clientSecret) := by
      refine C38_refresh_request x c2 c2 k args req0 hn g2 "client_secret" (by decide) hsp.2 _ ⟨by simpa using hs, by simp⟩
        (Or.inr (Or.inr (Or.inr ⟨hnone, hsp.1, hst.1, hst.2, ?_⟩)))
      exact ⟨[], (places c2 .refreshToken "client_secret").tail, rfl, by simp [Val.truthy, hs], by simp⟩
    rw [if_neg (show ({ authnMethod := m } : CallOpts).authnMethod ≠ "" from hne)] at g1
    injection g1 with g1
    subst g1
    rw [if_neg hne] at g5
    injection g5 with g5
    subst g5
    refine ⟨_, url, req', hlog, rfl, k4, authenticated_of (by decide) rfl g6 (fun p hp => ?_) hsec g7⟩
    refine withIss_none _ _ _ _ ?_
    simp only [List.mem_cons, List.not_mem_nil, or_false] at hp
    rcases hp with rfl | rfl | rfl <;> decide

/-- The method of the service `srv` itself, when the caller names none: the negotiated one, else the configured one, else
`client_secret_basic` for the code exchange and the refresh token service's `bearer_header`. -/
def OwnMethod (c : Client) (srv : Srv) (m : String) : Prop :=
  Dict.get? c.ctx.behaviour "token_endpoint_auth_method" = some (.str m) ∨
  Dict.get? c.ctx.behaviour "token_endpoint_auth_method" = none ∧
    (Dict.get? (confOf c srv) "default_authn_method" = some (.str m) ∨
     Dict.get? (confOf c srv) "default_authn_method" = none ∧
      (srv = .accesstoken ∧ m = "client_secret_basic" ∨ srv = .refreshToken ∧ m = "bearer_header"))

/-- **C82**, the services themselves: a token or refresh request that is made by the client for session `k` without
naming a method is authenticated with the negotiated one, else with the configured one, else with the service's. -/
theorem C82_own_request (x : Ext) (c : Client) (srv : Srv) (hsrv : srv = .accesstoken ∨ srv = .refreshToken)
    (k m : String) (args : Obj) (hn : (Dict.keys args).Nodup) (hm : OwnMethod c srv m) (hne : m ≠ "")
    (hsp : "client_secret" ∉ (x.msg srv).spaced) (hs : c.ctx.clientSecret ≠ "")
    (hargs : Dict.get? args "client_secret" = some (.str c.ctx.clientSecret)) :
    (doRequest x srv args {} [("state", .str k)] c).2.log = c.log ∨
    ∃ s url req, (doRequest x srv args {} [("state", .str k)] c).2.log = c.log ++ [s] ∧ s.srv = srv ∧ Carries x s url req ∧
      AuthenticatedBy c m s req := by
  rcases doRequest_log (x := x) (srv := srv) (args := args) (o := {})
    (kwargs := [("state", .str k)]) (frame_request_reading (by rcases hsrv with h | h <;> simp [h]) _ _ _) c
    with hlog | ⟨info, c1, hg, hlog⟩
  · exact Or.inl hlog
  · right
    have hg : buildRequest x srv args {} [("state", .str k)] c = (.ok info, c1) := by
      rcases hsrv with rfl | rfl <;> exact hg
    obtain ⟨am, req0, c2, hd, req', g1, g2, g3, g4⟩ := buildRequest_ok hg
    obtain ⟨m', h0, g5, g6, g7⟩ := sent_authorization g3 g4
    obtain ⟨url, k1, k2, k3, k4⟩ := carries_assembled g4
    have hcs : c2 = c ∧ Dict.get? req0 "client_secret" = some (.str c.ctx.clientSecret) := by
      rcases hsrv with rfl | rfl
      · obtain ⟨rfl, e5, -⟩ := token_construct hn g2
        exact ⟨rfl, e5 _ _ (by decide) hsp (by simpa using hs) (by simp) hargs⟩
      · obtain rfl := refresh_construct_same g2
        exact ⟨rfl, C38_refresh_request x c2 c2 k args req0 hn g2 "client_secret" (by decide) hsp _
          ⟨by simpa using hs, by simp⟩ (Or.inl hargs)⟩
    obtain ⟨rfl, hsec⟩ := hcs
    have hown : getAuthnMethod c2 srv = .ok m := by
      unfold getAuthnMethod
      rw [if_pos hsrv]
      rcases hm with hm | ⟨h1, hm⟩
      · rw [hm]; rfl
      · rw [h1]
        simp only [attr]
        rcases hm with hm | ⟨h2, ⟨rfl, rfl⟩ | ⟨rfl, rfl⟩⟩
        · rw [hm]
        · rw [h2]; rfl
        · rw [h2]; rfl
    rw [if_pos rfl, hown] at g1
    injection g1 with g1
    subst g1
    rw [if_neg hne] at g5
    injection g5 with g5
    subst g5
    refine ⟨_, url, req', hlog, rfl, k4,
      authenticated_of (by rcases hsrv with rfl | rfl <;> decide) rfl g6 (fun p hp => ?_) hsec g7⟩
    refine withIss_none _ _ _ _ ?_
    simp only [List.mem_cons, List.not_mem_nil, or_false] at hp
    rcases hp with rfl | rfl | rfl <;> decide

/-! ## The hypotheses can be met -/

/-- The client of the small world, while its session waits for the tokens. -/
def fetchingTokens : Client :=
  ((Dict.get? started.issuer2rp "https://op.example").map (fun c => (finalizeAuth (World.ext 1001 "" "" "n1") "https://op.example" codeResponse c).2)) |>.getD default

/-- Non-vacuity of C82: the negotiated method is a list, and the exchange does send its request. -/
example : Negotiated fetchingTokens "client_secret_basic" ∧
    "client_secret" ∉ ((World.ext 1001 "" "" "n1").msg .accesstoken).spaced ∧ fetchingTokens.ctx.clientSecret ≠ "" ∧
    (getTokens (World.ext 1001 "" "" "n1") World.s1 fetchingTokens).2.log.length = fetchingTokens.log.length + 1 := by
  refine ⟨Or.inl (by rfl), by decide, by decide, by rfl⟩

/-- The client of the small world after the login. -/
def afterLogin : Client := (Dict.get? finalized.issuer2rp "https://op.example").getD default

/-- Non-vacuity of C82 for refreshing. -/
example : Negotiated afterLogin "client_secret_basic" ∧ afterLogin.ctx.clientSecret ≠ "" ∧
    storedIn afterLogin.db World.s1 "refresh_token_response" "client_secret" = none ∧
    storedIn afterLogin.db World.s1 "token_response" "client_secret" = none ∧
    (refreshAccessToken (World.ext 1002 "" "" "") World.s1 "" afterLogin).2.log.length = afterLogin.log.length + 1 ∧
    "client_secret" ∈ ((World.ext 1002 "" "" "").msg .refreshToken).params ∧
    "client_secret" ∉ ((World.ext 1002 "" "" "").msg .refreshToken).spaced := by
  refine ⟨Or.inl (by rfl), by decide, by rfl, by rfl, by rfl, by decide, by decide⟩

/-- Non-vacuity of `C82_own_request`: the refresh token service sends its request, with the negotiated method. -/
example : OwnMethod afterLogin .refreshToken "client_secret_basic" ∧
    (doRequest (World.ext 1002 "" "" "") .refreshToken [("client_secret", .str afterLogin.ctx.clientSecret)] {}
      [("state", .str World.s1)] afterLogin).2.log.length = afterLogin.log.length + 1 :=
  ⟨Or.inl (by rfl), by rfl⟩

end Verif.Props
