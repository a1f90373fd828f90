import Verif.Lemmas.Requests
import Verif.Lemmas.World
import Verif.Props.Requests
import Verif.Props.ClientAuth
/-!
# C20, C21 (token request part): the token request of a session
-/

namespace Verif.Props
open Verif Verif.Service Verif.Handler Verif.Spec.Wire Verif.Spec.Session

/-- What making the token request message of a session gives. -/
theorem token_construct {x : Ext} {c c1 : Client} {k : String} {args req : Obj}
    (hn : (Dict.keys args).Nodup)
    (h : construct x .accesstoken args [("state", .str k)] c = (.ok req, c1)) :
    c1 = c ∧
    (∀ p v, p ≠ "code_verifier" → p ∉ (x.msg .accesstoken).spaced → v ≠ .str "" → v ≠ .list [.str ""] →
      Dict.get? args p = some v → Dict.get? req p = some v) ∧
    (Dict.has c.ctx.addOn "pkce" = true → k ≠ "" → "state" ∉ (x.msg .accesstoken).spaced →
      Dict.get? args "state" = some (.str k) →
      ∃ item v, StateInterface.getItem c.db "pkce" k = .ok item ∧ Dict.get? item "code_verifier" = some v ∧
        Dict.get? req "code_verifier" = some v) := by
  obtain ⟨r, c2, g, h1, h2, h3⟩ := construct_ok h
  simp only [preConstruct] at h1
  obtain ⟨a, c3, h4, h5⟩ := Py.bind_eq_ok.1 h1
  simp only [ask, Prod.mk.injEq] at h4
  obtain ⟨h4, rfl⟩ := h4
  rw [Py.read_bind_run] at h5
  obtain ⟨b, c4, h6, h7⟩ := Py.bind_eq_ok.1 h5
  obtain ⟨h6, rfl⟩ := Py.lift_eq_ok.1 h6
  simp only [Py.pure_run, Prod.mk.injEq, Except.ok.injEq] at h7
  obtain ⟨rfl, rfl⟩ := h7
  have hst : Dict.get? (methodArgs (confOf c .accesstoken) "pre_construct" [("state", .str k)]) "state"
      = some (.str k) := methodArgs_given _ _ (by simp [Dict.keys]) rfl
  obtain ⟨hna, hget⟩ := tokenPre_get h4 hst hn
  have hb : b = a := by
    split at h6
    · rw [putState, getStateParameter_kwargs hst] at h6
      simpa [Except.map, eq_comm] using h6
    · simpa [eq_comm] using h6
  subst hb
  have hgiven : ∀ p v, Dict.get? args p = some v →
      Dict.get? (stateFromKwargs (x.msg .accesstoken) b [("state", .str k)]) p = some v := by
    intro p v hv
    have hbv : Dict.get? b p = some v := by rw [hget p, hv]; rfl
    unfold stateFromKwargs
    split
    · next hc =>
      simp only [Dict.get?_cons, if_true]
      rw [Dict.get?_set_ne]
      · exact hbv
      · rintro rfl
        exact hc.2 (by rw [Dict.has_eq, hbv]; rfl)
    · exact hbv
  have hnf : (Dict.keys (stateFromKwargs (x.msg .accesstoken) b [("state", .str k)])).Nodup := by
    unfold stateFromKwargs
    split
    · simp only [Dict.get?_cons, if_true]; exact Dict.nodup_set hna _ _
    · exact hna
  have hmake : ∀ p v, p ∉ (x.msg .accesstoken).spaced → v ≠ .str "" → v ≠ .list [.str ""] →
      Dict.get? args p = some v → Dict.get? ((x.msg .accesstoken).make g) p = some v := by
    intro p v hsp h1 h2' hv
    exact (C38_message _ g (nodup_gather h2 hnf) p hsp).1 v (gather_given h2 (hgiven p v hv)) h1 h2'
  unfold postConstruct at h3
  rw [Py.read_bind_run] at h3
  simp only at h3
  split at h3
  · next hp =>
    simp only [ask, Prod.mk.injEq] at h3
    obtain ⟨h3, rfl⟩ := h3
    unfold addCodeVerifier at h3
    split at h3
    · cases h3
    · next sv hsv =>
      cases hk : dbKey sv with
      | error e => rw [hk] at h3; cases h3
      | ok s =>
        rw [hk] at h3
        simp only at h3
        cases hi : StateInterface.getItem c.db "pkce" s with
        | error e => rw [hi] at h3; cases h3
        | ok item =>
          rw [hi] at h3
          simp only at h3
          cases hv : Dict.getItem item "code_verifier" with
          | error e => rw [hv] at h3; cases h3
          | ok v =>
            rw [hv] at h3
            simp only [Except.ok.injEq] at h3
            subst h3
            refine ⟨rfl, ?_, ?_⟩
            · intro p w hpc hsp hw1 hw2 hw
              rw [Dict.get?_set_ne _ _ (Ne.symm hpc)]
              exact hmake p w hsp hw1 hw2 hw
            · intro _ hk0 hsp hs
              have hreq := hmake "state" (.str k) hsp (by simpa using hk0) (by simp) hs
              rw [hreq] at hsv
              obtain rfl : Val.str k = sv := by simpa using hsv
              simp only [dbKey, Except.ok.injEq] at hk
              subst hk
              exact ⟨item, v, hi, Dict.getItem_eq_ok.1 hv, Dict.get?_set_self _ _ _⟩
  · next hp =>
    simp only [Py.pure_run, Prod.mk.injEq, Except.ok.injEq] at h3
    obtain ⟨rfl, rfl⟩ := h3
    refine ⟨rfl, fun p v _ hsp h1 h2' hv => hmake p v hsp h1 h2' hv, fun hp' => absurd hp' hp⟩

/-- The token request as it is sent. -/
theorem token_sent {x : Ext} {c c1 : Client} {k : String} {args : Obj} {o : CallOpts} {info : ReqInfo}
    (hn : (Dict.keys args).Nodup)
    (h : getRequestParameters x .accesstoken args o [("state", .str k)] c = (.ok info, c1)) :
    ∃ url req0 m h0, construct x .accesstoken args [("state", .str k)] c = (.ok req0, c) ∧
      Discovery.serviceEndpoint c.ctx .accesstoken = .ok (.str url) ∧
      authnHeader x .accesstoken req0 m (Dict.set (withIss c [("state", .str k)]) "authn_endpoint" (.str Srv.accesstoken.endpointName)) c
        = .ok (h0, info.request) ∧
      Carries x (sentFor .accesstoken info) url info.request := by
  change buildRequest x .accesstoken args o [("state", .str k)] c = _ at h
  obtain ⟨am, req0, c2, hd, req', h1, h2, h3, h4⟩ := buildRequest_ok h
  obtain ⟨m, h0, h5, h6, h7⟩ := getHeaders_ok h3
  obtain ⟨url, h8, h9, h10, h11⟩ := carries_assembled h4
  obtain ⟨rfl, -, -⟩ := token_construct hn h2
  have hc : c1.ctx = c2.ctx := by
    rcases h7 with ⟨_, _, rfl⟩ | ⟨_, hd⟩
    · rfl
    · have := DpopRel.dpop (R := OnlyDpop) x .accesstoken
        (orElse o.method (attr c2 .accesstoken "http_method" (httpMethod .accesstoken))) h0 c2
      rw [hd] at this
      obtain ⟨d, e⟩ := this
      rw [show c1 = _ from e]
  refine ⟨url, req0, m, h0, h2, ?_, by rw [h10]; exact h6, by rw [h10]; exact h11⟩
  simp only [targetOf, Dict.get?, endpointOf] at h8
  simp at h8
  rw [hc] at h8
  cases he : Discovery.serviceEndpoint c2.ctx .accesstoken with
  | error e => rw [he] at h8; cases h8
  | ok v =>
    rw [he] at h8
    cases v <;> simp [asStr] at h8
    rw [h8]

/-- The HTTP request `s` is a token request of session `k` of client `c`: it goes to the client's token
endpoint and carries the code of the stored authorization response, the redirect URI of the stored
authorization request, the grant type and the client id (or, instead of the id, a client assertion). -/
def TokenRequestOf (x : Ext) (c : Client) (k : String) (s : Sent) : Prop :=
  s.srv = .accesstoken ∧
  ∃ url req resp areq code ru,
    Discovery.serviceEndpoint c.ctx .accesstoken = .ok (.str url) ∧ Carries x s url req ∧
    StateInterface.getItem c.db "auth_response" k = .ok resp ∧ Dict.get? resp "code" = some code ∧
    StateInterface.getItem c.db "auth_request" k = .ok areq ∧ Dict.get? areq "redirect_uri" = some ru ∧
    Dict.get? req "code" = some code ∧ Dict.get? req "redirect_uri" = some ru ∧
    Dict.get? req "grant_type" = some (.str "authorization_code") ∧
    (Dict.get? req "client_id" = some (.str c.ctx.clientId) ∨
      (Dict.get? req "client_id" = none ∧ (Dict.get? req "client_assertion").isSome))

/-- The token request message keeps single values as they are (oidcmsg: only scopes are lists). -/
def PlainTokenRequest (x : Ext) : Prop :=
  (x.msg .accesstoken).isAccessTokenRequest = true ∧
  ∀ p ∈ ["code", "redirect_uri", "grant_type", "client_id", "state"], p ∉ (x.msg .accesstoken).spaced

theorem stored_nonempty {db : DB} {t k p : String} {item : Obj} {v : Val}
    (h : StateInterface.getItem db t k = .ok item) (hv : Dict.get? item p = some v) :
    v ≠ .str "" ∧ v ≠ .list [.str ""] := by
  have hmem := Dict.get?_eq_some_mem hv
  have he : Msg.emptyVal v = false := by
    unfold StateInterface.getItem at h
    split at h
    · unfold StateInterface.asItem at h
      split at h <;> first | cases h | skip
      exact Msg.ofDict_noEmpty _ _ hmem
    · cases h
  constructor <;> rintro rfl <;> simp [Msg.emptyVal] at he

/-- **C20**.  Whatever is stored for this or other sessions: fetching tokens for session `k` sends nothing, or
one token request of session `k`. -/
theorem C20_token_request (x : Ext) (c : Client) (k : String) (hm : PlainTokenRequest x)
    (hid : c.ctx.clientId ≠ "") :
    (getTokens x k c).2.log = c.log ∨
    ∃ s, (getTokens x k c).2.log = c.log ++ [s] ∧ TokenRequestOf x c k s := by
  unfold getTokens
  cases ha : tokenArgs k c with
  | error e => left; rw [ask_bind_error ha]
  | ok args =>
  rw [ask_bind_ok ha]
  cases hb : clientAuthnMethod c.ctx.behaviour with
  | error e => left; rw [ask_bind_error (by simpa using hb)]
  | ok am =>
  rw [ask_bind_ok (by simpa using hb)]
  have hlog := doRequest_log (x := x) (srv := .accesstoken) (args := args) (o := { authnMethod := am })
    (kwargs := [("state", .str k)]) (frame_request_reading (Or.inl rfl) _ _ _) c
  rw [refused_snd]
  rcases hlog with hlog | ⟨info, c1, hg, hlog⟩
  · exact Or.inl hlog
  · right
    refine ⟨_, hlog, rfl, ?_⟩
    unfold tokenArgs at ha
    cases h1 : StateInterface.getItem c.db "auth_response" k with
    | error e => rw [h1] at ha; cases ha
    | ok resp =>
    cases h2 : StateInterface.getItem c.db "auth_request" k with
    | error e => rw [h1, h2] at ha; cases ha
    | ok areq =>
    rw [h1, h2] at ha
    simp only at ha
    cases h3 : Dict.getItem resp "code" with
    | error e => rw [h3] at ha; cases ha
    | ok code =>
    cases h4 : Dict.getItem areq "redirect_uri" with
    | error e => rw [h3, h4] at ha; cases ha
    | ok ru =>
    rw [h3, h4] at ha
    simp only [Except.ok.injEq] at ha
    rw [Dict.getItem_eq_ok] at h3 h4
    have hn : (Dict.keys args).Nodup := by rw [← ha]; simp [Dict.keys]
    obtain ⟨url, req0, m, h0, g1, g2, g3, g4⟩ := token_sent hn hg
    obtain ⟨-, g5, -⟩ := token_construct hn g1
    obtain ⟨hm1, hm2⟩ := hm
    have ecode : Dict.get? req0 "code" = some code := by
      obtain ⟨e1, e2⟩ := stored_nonempty h1 h3
      exact g5 _ _ (by decide) (hm2 _ (by simp)) e1 e2 (by rw [← ha]; rfl)
    have eru : Dict.get? req0 "redirect_uri" = some ru := by
      obtain ⟨e1, e2⟩ := stored_nonempty h2 h4
      exact g5 _ _ (by decide) (hm2 _ (by simp)) e1 e2 (by rw [← ha]; rfl)
    have egt : Dict.get? req0 "grant_type" = some (.str "authorization_code") :=
      g5 _ _ (by decide) (hm2 _ (by simp)) (by decide) (by simp) (by rw [← ha]; rfl)
    have eci : Dict.get? req0 "client_id" = some (.str c.ctx.clientId) :=
      g5 _ _ (by decide) (hm2 _ (by simp)) (by simpa using hid) (by simp) (by rw [← ha]; rfl)
    refine ⟨url, info.request, resp, areq, code, ru, g2, g4, rfl, h3, rfl, h4, ?_, ?_, ?_, ?_⟩
    · rw [authnHeader_keeps g3 (by decide)]; exact ecode
    · rw [authnHeader_keeps g3 (by decide)]; exact eru
    · rw [authnHeader_keeps g3 (by decide)]; exact egt
    · rcases authnHeader_clientId g3 with h | h | ⟨h, hmeth⟩
      · left; rw [h, eci]
      · left; exact h
      · rcases hmeth with rfl | rfl | rfl
        · left
          have := (C30_request _ _ _ _ _ _ (by simpa [authnHeader] using g3)).2.1
          rw [this]
          simp [expectedClientId, authEnv, hm1, egt, eci, Spec.firstOf]
        · right
          obtain ⟨-, -, -, ⟨a, e, -⟩, -⟩ := C33_request _ .clientSecretJwt _ _ _ _ (by simpa [authnHeader, ClientAuth.construct] using g3)
          exact ⟨h, by rw [e]; rfl⟩
        · right
          obtain ⟨-, -, -, ⟨a, e, -⟩, -⟩ := C33_request _ .privateKeyJwt _ _ _ _ (by simpa [authnHeader, ClientAuth.construct] using g3)
          exact ⟨h, by rw [e]; rfl⟩

end Verif.Props
