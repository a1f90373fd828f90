import Verif.Props.SessionTokens
/-!
# C76: tokens of the OAuth2 and client credentials services
-/

namespace Verif.Props
open Verif Service Spec.Session Spec.Store Spec.Wire StateInterface

/-- What storing a response with its expiry time does. -/
theorem storeResponse_cases (x : Ext) (t k : String) (resp : Obj) (c : Client) :
    ((∃ e, (storeResponse x t k resp c).1 = .error e) ∧ (storeResponse x t k resp c).2 = c) ∨
    ∃ r, withExpiry x resp = .ok r ∧ (storeItem r t k c.db).1 = .ok () ∧
      storeResponse x t k resp c = (.ok r, { c with db := (storeItem r t k c.db).2 }) := by
  unfold storeResponse
  cases hw : withExpiry x resp with
  | error e => left; rw [Py.lift_bind_error rfl]; exact ⟨⟨e, rfl⟩, rfl⟩
  | ok r =>
    rw [Py.lift_bind_ok rfl]
    have hrun : onDB (storeItem r t k) c = ((storeItem r t k c.db).1, { c with db := (storeItem r t k c.db).2 }) := rfl
    cases hs : (storeItem r t k c.db).1 with
    | error e =>
      left
      rw [hs] at hrun
      rw [Py.bind_error hrun]
      refine ⟨⟨e, rfl⟩, ?_⟩
      have : (storeItem r t k c.db).2 = c.db := by
        unfold storeItem at hs ⊢
        split <;> first | rfl | simp_all
      simp only [this]
    | ok u =>
      right
      rw [hs] at hrun
      rw [Py.bind_ok hrun]
      exact ⟨r, rfl, hs, by rfl⟩

theorem storeItem_elsewhere (item : Obj) (t k k' : String) (db : DB) (h : k' ≠ k) :
    Dict.get? (storeItem item t k db).2 k' = Dict.get? db k' := by
  unfold storeItem
  split <;> first | rfl | exact Dict.get?_set_ne _ _ (Ne.symm h)

/-- The services at the token endpoint other than the OIDC token service: what the OAuth2 and the client
credentials clients use, and the refresh service. -/
def PlainTokenService (srv : Srv) : Prop := srv.endpointName = "token_endpoint" ∧ srv ≠ .accesstoken

/-- The answer `r` was stored as token response of session `k`, and nothing else changed. -/
structure StoredAsTokens (x : Ext) (c c' : Client) (k : String) (r : Obj) : Prop where
  stored : getItem c'.db "token_response" k = .ok (withoutEmpty r)
  items : ∀ t, t ≠ "token_response" → getItem c'.db t k = getItem c.db t k
  sessions : ∀ k', k' ≠ k → Dict.get? c'.db k' = Dict.get? c.db k'
  context : c'.ctx = c.ctx
  expiry : ∀ e, Dict.get? r "expires_in" = some (.int e) → Dict.get? r "__expires_at" = some (.int (x.now + e))

/-- **C76** (storing).  Whatever request is made by an OAuth2 or client credentials service at the token
endpoint, with whatever arguments, and whatever the provider answers: the call raises or returns an error
message, and the store is as it was; or it returns the answer, and exactly that answer is stored, with the
time it expires, as token response of the session that was named (`""` if none was). -/
theorem C76_stored (x : Ext) (srv : Srv) (hs : PlainTokenService srv) (args : Obj) (o : CallOpts) (kwargs : Obj) (c : Client) :
    ((doRequest x srv args o kwargs c).2.db = c.db ∧
      ((∃ e, (doRequest x srv args o kwargs c).1 = .error e) ∨
       (∃ r, (doRequest x srv args o kwargs c).1 = .ok r ∧ r.isError = true))) ∨
    ∃ r, (doRequest x srv args o kwargs c).1 = .ok (.msg r) ∧ Dict.get? r "error" = none ∧
      StoredAsTokens x c (doRequest x srv args o kwargs c).2 (stateOf kwargs) r := by
  obtain ⟨h1, h2⟩ := hs
  rcases doRequest_stores' (x := x) h1 args o kwargs c with ⟨g1, g2⟩ | ⟨info, bt, resp, c0, c1, _, _, _, g, hne, hd⟩
  · exact Or.inl ⟨g1.1, g2⟩
  · have hu : updateMsg x srv resp (stateOf kwargs) = storeResponse x "token_response" (stateOf kwargs) resp := by
      rcases tokenService_cases h1 with rfl | rfl | rfl | rfl | rfl | rfl <;> first | contradiction | rfl
    rw [hu] at hd
    rw [hd]
    rcases storeResponse_cases x "token_response" (stateOf kwargs) resp c1 with ⟨⟨e, he⟩, hc⟩ | ⟨r, hw, hok, hr⟩
    · left
      rcases hsr : storeResponse x "token_response" (stateOf kwargs) resp c1 with ⟨a, c2⟩
      rw [hsr] at he hc
      simp only at he hc
      subst he hc
      exact ⟨g.1, Or.inl ⟨e, rfl⟩⟩
    · right
      rw [hr]
      have hne' : Dict.get? r "error" = none := by
        rw [withExpiry_get hw (by decide)]
        unfold Msg.isError at hne
        rw [Dict.has_eq] at hne
        cases hh : Dict.get? resp "error" with
        | none => rfl
        | some v => rw [hh] at hne; cases hne
      obtain ⟨k1, k2⟩ := C02_store_then_read r "token_response" (stateOf kwargs) c1.db hok
      refine ⟨r, rfl, hne', k1, ?_, ?_, g.2.1, ?_⟩
      · intro t ht; rw [← g.1]; exact k2 t ht
      · intro k' hk'; rw [← g.1]; exact storeItem_elsewhere _ _ _ _ _ hk'
      · intro e he
        rw [withExpiry_get hw (by decide)] at he
        unfold withExpiry at hw
        rw [he] at hw
        simp only [toInt, Except.map] at hw
        injection hw with hw
        rw [← hw, Dict.get?_set_self]

/-- The session a refresh of client credentials tokens is made for: the one named, `"cc"` if none is (and
the service is not configured otherwise). -/
def CCSession (c : Client) (kwargs : Obj) (k : String) : Prop :=
  Dict.get? kwargs "state" = some (.str k) ∨
  (Dict.get? kwargs "state" = none ∧ Dict.get? ((Dict.get? c.conf "refresh_token").getD []) "pre_construct" = none ∧ k = "cc")

theorem ccState_session {c : Client} {kwargs : Obj} (hn : (Dict.keys kwargs).Nodup) {k : String} (h : CCSession c kwargs k) :
    ccState (methodArgs (confOf c .ccRefreshToken) "pre_construct" kwargs) = .ok k := by
  unfold ccState
  rcases h with h | ⟨h, hc, rfl⟩
  · rw [methodArgs_given _ _ hn h]; rfl
  · have : methodArgs (confOf c .ccRefreshToken) "pre_construct" kwargs = kwargs := by
      unfold methodArgs confOf
      rw [show Srv.name .ccRefreshToken = "refresh_token" from rfl, hc]
    rw [this, h]

theorem ccRefreshPre_get {args kwargs a : Obj} {c : Client} {k : String}
    (h : ccRefreshPre args kwargs c = .ok a) (hs : ccState kwargs = .ok k)
    (hn : (Dict.keys args).Nodup) : (Dict.keys a).Nodup ∧ ∀ p, Dict.get? a p = (Dict.get? args p).or
      (if p = "refresh_token" then (storedIn c.db k "refresh_token_response" p).or (storedIn c.db k "token_response" p)
       else none) := by
  unfold ccRefreshPre at h
  rw [hs] at h
  simp only at h
  cases h1 : StateInterface.extendRequestArgs c.db [] "token_response" k ["refresh_token"] with
  | error e => rw [h1] at h; cases h
  | ok a1 =>
    rw [h1] at h
    simp only at h
    cases h2 : StateInterface.extendRequestArgs c.db a1 "refresh_token_response" k ["refresh_token"] with
    | error e => rw [h2] at h; cases h
    | ok a2 =>
      rw [h2] at h
      injection h with h; subst h
      refine ⟨Dict.nodup_update (StateInterface.nodup_extend h2 (StateInterface.nodup_extend h1 (by simp [Dict.keys]))) _,
        fun p => ?_⟩
      rw [Dict.get?_update_nodup _ hn, get?_extend_stored h2, get?_extend_stored h1]
      by_cases hp : p = "refresh_token" <;> simp [hp]

/-- **C76** (refreshing).  A request to refresh the client credentials tokens of a session changes nothing
at the client; it has no client id or secret among its parameters; its refresh token is the one the caller
gave, else the one of the session's token response. -/
theorem C76_refresh_request (x : Ext) (c c' : Client) (k : String) (args kwargs req : Obj)
    (hna : (Dict.keys args).Nodup) (hnk : (Dict.keys kwargs).Nodup) (hk : CCSession c kwargs k)
    (h : construct x .ccRefreshToken args kwargs c = (.ok req, c')) :
    c' = c ∧ Dict.get? req "client_id" = none ∧ Dict.get? req "client_secret" = none ∧
    ("refresh_token" ∉ (x.msg .ccRefreshToken).spaced → ∀ t, t ≠ "" →
      (Dict.get? args "refresh_token" = some (.str t) ∨
       (Dict.get? args "refresh_token" = none ∧ storedIn c.db k "refresh_token_response" "refresh_token" = none ∧
        storedIn c.db k "token_response" "refresh_token" = some (.str t))) →
      Dict.get? req "refresh_token" = some (.str t)) := by
  obtain ⟨r, c1, g, h1, h2, h3⟩ := construct_ok h
  simp only [preConstruct] at h1
  obtain ⟨a, c2, h4, h5⟩ := Py.bind_eq_ok.1 h1
  simp only [ask, Prod.mk.injEq] at h4
  obtain ⟨h4, rfl⟩ := h4
  simp only [Py.pure_run, Prod.mk.injEq, Except.ok.injEq] at h5
  obtain ⟨rfl, rfl⟩ := h5
  have hr : ccPost ((x.msg .ccRefreshToken).make g) = req ∧ c = c' := by
    unfold postConstruct at h3
    rw [Py.read_bind_run] at h3
    simpa only [Py.pure_run, Prod.mk.injEq, Except.ok.injEq] using h3
  obtain ⟨hna', hget⟩ := ccRefreshPre_get h4 (ccState_session hnk hk) hna
  obtain ⟨rfl, rfl⟩ := hr
  have hsf : Dict.get? (stateFromKwargs (x.msg .ccRefreshToken) a kwargs) "refresh_token" = Dict.get? a "refresh_token" := by
    unfold stateFromKwargs
    split
    · split
      · exact Dict.get?_set_ne _ _ (by decide)
      · rfl
    · rfl
  have hnf : (Dict.keys (stateFromKwargs (x.msg .ccRefreshToken) a kwargs)).Nodup := by
    unfold stateFromKwargs
    split
    · split
      · exact Dict.nodup_set hna' _ _
      · exact hna'
    · exact hna'
  refine ⟨rfl, ?_, ?_, ?_⟩
  · unfold ccPost
    rw [Dict.get?_del_ne _ (by decide), Dict.get?_del_self]
  · unfold ccPost
    rw [Dict.get?_del_self]
  · intro hsp t ht hsrc
    unfold ccPost
    rw [Dict.get?_del_ne _ (by decide), Dict.get?_del_ne _ (by decide)]
    refine (C38_message _ g (nodup_gather h2 hnf) "refresh_token" hsp).1 (.str t) ?_ (by simpa using ht) (by simp)
    refine gather_given h2 ?_
    rw [hsf, hget]
    rcases hsrc with h | ⟨h, h0, h'⟩
    · rw [h]; rfl
    · rw [h, h0, h', if_pos rfl]; rfl

theorem ccRefresh_authn {x : Ext} {req req' : Obj} {m : String} {kw : Obj} {c : Client} {hd : Dict String} {t : String}
    (h : authnHeader x .ccRefreshToken req m kw c = .ok (hd, req')) (hreq : Dict.get? req "refresh_token" = some (.str t)) :
    Dict.get? req' "refresh_token" = some (.str t) ∨ Dict.get? hd "Authorization" = some ("Bearer " ++ t) ∨
      Dict.get? req' "access_token" = some (.str t) := by
  by_cases hbear : m = "bearer_header"
  · subst hbear
    right; left
    have h' : ClientAuth.bearerHeader (authEnv x c .ccRefreshToken) kw [] req = .ok (hd, req') := h
    exact bearerHeader_refresh rfl h' hreq
  · by_cases hbb : m = "bearer_body"
    · subst hbb
      have h' : ClientAuth.bearerBody (authEnv x c .ccRefreshToken) kw [] req = .ok (hd, req') := h
      rcases bearerBody_refresh h' hreq with h | h
      · exact Or.inl h
      · exact Or.inr (Or.inr h)
    · left
      rw [authnHeader_keeps' h (by decide) ⟨hbear, hbb⟩]
      exact hreq

/-- The HTTP request `s` has the refresh token `t` as parameter, or as bearer token in header or body. -/
def HasRefreshToken (x : Ext) (url t : String) (s : Sent) : Prop :=
  ∃ req, Carries x s url req ∧
    (Dict.get? req "refresh_token" = some (.str t) ∨ Dict.get? s.headers "Authorization" = some ("Bearer " ++ t) ∨
      Dict.get? req "access_token" = some (.str t))

/-- A refresh of client credentials tokens sends nothing, or one request with the refresh token. -/
theorem ccRefresh_sends (x : Ext) (c : Client) (k t url : String) (ht : t ≠ "") (args : Obj) (o : CallOpts) (kwargs : Obj)
    (hna : (Dict.keys args).Nodup) (hnk : (Dict.keys kwargs).Nodup) (hk : CCSession c kwargs k)
    (hsp : "refresh_token" ∉ (x.msg .ccRefreshToken).spaced) (hend : Dict.get? kwargs "endpoint" = none)
    (hurl : Discovery.serviceEndpoint c.ctx .ccRefreshToken = .ok (.str url))
    (hsrc : Dict.get? args "refresh_token" = some (.str t) ∨
       (Dict.get? args "refresh_token" = none ∧ storedIn c.db k "refresh_token_response" "refresh_token" = none ∧
        storedIn c.db k "token_response" "refresh_token" = some (.str t))) :
    (doRequest x .ccRefreshToken args o kwargs c).2.log = c.log ∨
    ∃ s, (doRequest x .ccRefreshToken args o kwargs c).2.log = c.log ++ [s] ∧ s.srv = .ccRefreshToken ∧
      HasRefreshToken x url t s := by
  rcases doRequest_log (x := x) (srv := .ccRefreshToken) (args := args) (o := o)
    (kwargs := kwargs) (frame_request_reading' (by decide) _ _ _) c with hlog | ⟨info, c1, hg, hlog⟩
  · exact Or.inl hlog
  · right
    refine ⟨_, hlog, rfl, ?_⟩
    change buildRequest x .ccRefreshToken args _ _ c = _ at hg
    obtain ⟨am', req0, c2, hd, req', g1, g2, g3, g4⟩ := buildRequest_ok hg
    obtain ⟨m, hd0, g5, g6, g7⟩ := getHeaders_ok g3
    obtain ⟨rfl, -, -, hreq⟩ := C76_refresh_request x c c2 k args kwargs req0 hna hnk hk g2
    have hdp : usesDpop c2.ctx .ccRefreshToken = false := by simp [usesDpop, Srv.name]
    rcases g7 with ⟨-, rfl, rfl⟩ | ⟨g7, -⟩
    · obtain ⟨url', k1, k2, k3, k4⟩ := carries_assembled g4
      have hu : url' = url := by
        simp only [targetOf, hend, endpointOf, hurl, asStr] at k1
        simpa [eq_comm] using k1
      subst hu
      refine ⟨req', k4, ?_⟩
      rcases ccRefresh_authn g6 (hreq hsp t ht hsrc) with h | h | h
      · exact Or.inl h
      · right; left
        obtain ⟨_, _, _, _, _, g8⟩ := assemble_ok g4
        rcases g8 with ⟨_, b, _, _, g9⟩ | ⟨_, _, g9⟩
        · simp only [sentFor, g9]
          rw [Dict.get?_set_ne _ _ (by decide)]; exact h
        · simp only [sentFor, g9]; exact h
      · exact Or.inr (Or.inr h)
    · rw [hdp] at g7; cases g7

/-- **C76** (round trip).  Tokens were got by client credentials for a named session, with a refresh token;
a later refresh for that session, at a client that still has what was stored, sends nothing or one request
to the token endpoint with exactly that refresh token. -/
theorem C76_round_trip_partial (x : Ext) (args : Obj) (o : CallOpts) (kwargs : Obj) (c c1 : Client) (r : Obj) (k t : String)
    (ht : t ≠ "") (hk : Dict.get? kwargs "state" = some (.str k))
    (h : doRequest x .ccAccessToken args o kwargs c = (.ok (.msg r), c1)) (hne : Dict.get? r "error" = none)
    (hr : Dict.get? r "refresh_token" = some (.str t)) (hv : Dict.get? r "__verified_refresh_token" = none)
    (h0 : storedIn c.db k "refresh_token_response" "refresh_token" = none)
    (x' : Ext) (hsp : "refresh_token" ∉ (x'.msg .ccRefreshToken).spaced) (c2 : Client)
    (hsame : ∀ i, getItem c2.db i k = getItem c1.db i k)
    (args' : Obj) (o' : CallOpts) (kwargs' : Obj) (hna : (Dict.keys args').Nodup) (hnk : (Dict.keys kwargs').Nodup)
    (hk' : Dict.get? kwargs' "state" = some (.str k)) (hend : Dict.get? kwargs' "endpoint" = none)
    (hown : Dict.get? args' "refresh_token" = none) (url : String)
    (hurl : Discovery.serviceEndpoint c2.ctx .ccRefreshToken = .ok (.str url)) :
    (doRequest x' .ccRefreshToken args' o' kwargs' c2).2.log = c2.log ∨
    ∃ s, (doRequest x' .ccRefreshToken args' o' kwargs' c2).2.log = c2.log ++ [s] ∧ s.srv = .ccRefreshToken ∧
      HasRefreshToken x' url t s := by
  have hst : StoredAsTokens x c c1 k r := by
    rcases C76_stored x .ccAccessToken ⟨rfl, by decide⟩ args o kwargs c with ⟨_, ⟨e, he⟩ | ⟨r', he, hie⟩⟩ | ⟨r', he, _, hs⟩
    · rw [h] at he; cases he
    · rw [h] at he; injection he with he; subst he
      simp [Resp.isError, Msg.isError, Dict.has_eq, hne] at hie
    · rw [h] at he hs; injection he with he; injection he with he; subst he
      rw [show stateOf kwargs = k by simp [stateOf, hk]] at hs
      exact hs
  refine ccRefresh_sends x' c2 k t url ht args' o' kwargs' hna hnk (Or.inl hk') hsp hend hurl (Or.inr ⟨hown, ?_, ?_⟩)
  · unfold storedIn
    rw [hsame, hst.items _ (by decide)]
    exact h0
  · unfold storedIn
    rw [hsame, hst.stored, ← Msg.ofDict_eq_withoutEmpty]
    simp only
    rw [show "__verified_" ++ "refresh_token" = "__verified_refresh_token" from rfl, Msg.get?_ofDict_none hv,
      Msg.get?_ofDict_some hr (by simpa [Msg.emptyVal] using ht)]
    rfl

/-- **C76** is violated when no session is named: refreshing looks for session `"cc"`, but tokens got
without naming a session never come there, whatever the provider answers. -/
theorem C76_default_session_violated (x : Ext) (args : Obj) (o : CallOpts) (kwargs : Obj) (c : Client)
    (hk : Dict.get? kwargs "state" = none)
    (hc : Dict.get? ((Dict.get? c.conf "refresh_token").getD []) "pre_construct" = none) :
    CCSession c kwargs "cc" ∧
    Dict.get? (doRequest x .ccAccessToken args o kwargs c).2.db "cc" = Dict.get? c.db "cc" := by
  refine ⟨Or.inr ⟨hk, hc, rfl⟩, ?_⟩
  rcases C76_stored x .ccAccessToken ⟨rfl, by decide⟩ args o kwargs c with ⟨h, _⟩ | ⟨_, _, _, h⟩
  · rw [h]
  · refine h.sessions "cc" ?_
    rw [show stateOf kwargs = "" by simp [stateOf, hk]]
    decide

/-- A client with the client credentials services. -/
def ccClient : Client where
  ctx := { issuer := "https://op.example", clientId := "c1", clientSecret := "s3", providerInfo := World.metadata }
  services := [.ccAccessToken, .ccRefreshToken]

/-- The client after it got tokens for session `k`. -/
def ccGot (kwargs : Obj) : Except Exc Resp × Client := doRequest (World.ext 1000 "" "" "") .ccAccessToken [] {} kwargs ccClient

/-- What was sent and stored when a refresh followed. -/
def ccRefreshed (kwargs : Obj) : Except Exc Resp × Client :=
  doRequest (World.ext 1001 "" "" "") .ccRefreshToken [] { authnMethod := "client_secret_basic" } kwargs (ccGot kwargs).2

/-- Non-vacuity of C76: tokens are got and refreshed for a named session. -/
example :
    PlainTokenService .ccAccessToken ∧
    (ccGot [("state", .str "job")]).1 = .ok (.msg [("access_token", .str "CC1"), ("token_type", .str "Bearer"),
      ("expires_in", .int 60), ("refresh_token", .str "CR1"), ("__expires_at", .int 1060)]) ∧
    CCSession (ccGot [("state", .str "job")]).2 [("state", .str "job")] "job" ∧
    Discovery.serviceEndpoint (ccGot [("state", .str "job")]).2.ctx .ccRefreshToken = .ok (.str "https://op.example/token") ∧
    storedIn ccClient.db "job" "refresh_token_response" "refresh_token" = none ∧
    storedIn (ccGot [("state", .str "job")]).2.db "job" "token_response" "refresh_token" = some (.str "CR1") ∧
    (ccRefreshed [("state", .str "job")]).2.log.map (fun s => s.body) =
      [some (.text "grant_type=client_credentials"), some (.text "grant_type=refresh_token&refresh_token=CR1")] ∧
    storedIn (ccRefreshed [("state", .str "job")]).2.db "job" "token_response" "access_token" = some (.str "AT2") := by
  refine ⟨⟨by rfl, by decide⟩, by rfl, Or.inl rfl, by rfl, by rfl, by rfl, by rfl, by rfl⟩

/-- The violation at work: without a named session the refresh request has no refresh token. -/
theorem C76_default_session_witness_violated :
    (ccGot []).1.isOk = true ∧
    storedIn (ccGot []).2.db "" "token_response" "refresh_token" = some (.str "CR1") ∧
    storedIn (ccGot []).2.db "cc" "token_response" "refresh_token" = none ∧
    (ccRefreshed []).2.log.map (fun s => s.body) =
      [some (.text "grant_type=client_credentials"), some (.text "grant_type=refresh_token")] := by
  refine ⟨by rfl, by rfl, by rfl, by rfl⟩

end Verif.Props
