import Verif.Props.ClientCredentials
import Verif.Props.TokenRequest
/-!
# C79: the token request of the code flow, for the OAuth2 and the OIDC token service
-/

namespace Verif.Props
open Verif Service Spec.Session Spec.Store Spec.Wire StateInterface

/-- The services that exchange a code for tokens. -/
def CodeExchange (srv : Srv) : Prop := srv = .oauth2AccessToken ∨ srv = .accesstoken

/-- Where the value of a parameter of the token request comes from: the caller, else the session's
authorization response, else the session's authorization request, else (for the grant type) the flow,
else the client's configuration. -/
def TokenSource (x : Ext) (srv : Srv) (c : Client) (k : String) (args : Obj) (p : String) (v : Val) : Prop :=
  Dict.get? args p = some v ∨
  (Dict.get? args p = none ∧
    ((p ∈ (x.msg srv).params ∧ storedIn c.db k "auth_response" p = some v) ∨
     (p ∈ (x.msg srv).params ∧ storedIn c.db k "auth_response" p = none ∧ storedIn c.db k "auth_request" p = some v) ∨
     ((p ∈ (x.msg srv).params → storedIn c.db k "auth_response" p = none ∧ storedIn c.db k "auth_request" p = none) ∧
       ((p = "grant_type" ∧ v = .str "authorization_code") ∨
        (p ≠ "grant_type" ∧ p ∈ (x.msg srv).params ∧ FirstNonEmpty (places c srv p) v)))))

theorem codePre_ok {x : Ext} {srv : Srv} (hs : CodeExchange srv) {args kwargs : Obj} {r : Obj × Obj} {c c' : Client}
    (h : preConstruct x srv args kwargs c = (.ok r, c')) :
    tokenPre (x.msg srv).params args kwargs c = .ok r.1 ∧ r.2 = [] ∧ c' = c := by
  have key : ∀ a, pkcePre a kwargs c = .ok r.1 → a = r.1 := by
    intro a h
    unfold pkcePre putState at h
    split at h
    · cases hg : getStateParameter a kwargs with
      | error e => rw [hg] at h; cases h
      | ok v => rw [hg] at h; injection h
    · injection h
  rcases hs with rfl | rfl
  · simp only [preConstruct] at h
    obtain ⟨a, c2, h4, h5⟩ := Py.bind_eq_ok.1 h
    simp only [ask, Prod.mk.injEq] at h4
    obtain ⟨h4, rfl⟩ := h4
    obtain ⟨b, c3, h6, h7⟩ := Py.bind_eq_ok.1 h5
    simp only [ask, Prod.mk.injEq] at h6
    obtain ⟨h6, rfl⟩ := h6
    simp only [Py.pure_run, Prod.mk.injEq, Except.ok.injEq] at h7
    obtain ⟨rfl, rfl⟩ := h7
    rw [← key a h6]
    exact ⟨h4, rfl, rfl⟩
  · simp only [preConstruct] at h
    obtain ⟨a, c2, h4, h5⟩ := Py.bind_eq_ok.1 h
    simp only [ask, Prod.mk.injEq] at h4
    obtain ⟨h4, rfl⟩ := h4
    rw [Py.read_bind_run] at h5
    obtain ⟨b, c3, h6, h7⟩ := Py.bind_eq_ok.1 h5
    obtain ⟨h6', rfl⟩ := Py.lift_eq_ok.1 h6
    simp only [Py.pure_run, Prod.mk.injEq, Except.ok.injEq] at h7
    obtain ⟨rfl, rfl⟩ := h7
    rw [← key a h6']
    exact ⟨h4, rfl, rfl⟩

theorem codePost_ok {x : Ext} {srv : Srv} (hs : CodeExchange srv) {q post req : Obj} {c c' : Client}
    (h : postConstruct x srv q post c = (.ok req, c')) :
    c' = c ∧ (∀ p, p ≠ "code_verifier" → Dict.get? req p = Dict.get? q p) ∧
    (Dict.has c.ctx.addOn "pkce" = false → req = q) ∧
    (Dict.has c.ctx.addOn "pkce" = true → ∀ k, Dict.get? q "state" = some (.str k) →
      ∃ item v, getItem c.db "pkce" k = .ok item ∧ Dict.get? item "code_verifier" = some v ∧
        Dict.get? req "code_verifier" = some v) := by
  have hh : postConstruct x srv q post c = (if Dict.has c.ctx.addOn "pkce" then
      ask (addCodeVerifier q (methodArgs (confOf c srv) "post_construct" post)) else pure q) c := by
    unfold postConstruct
    rw [Py.read_bind_run]
    rcases hs with rfl | rfl <;> rfl
  rw [hh] at h
  split at h
  · next hp =>
    simp only [ask, Prod.mk.injEq] at h
    obtain ⟨h, rfl⟩ := h
    refine ⟨rfl, fun p hp' => ?_, fun e => (by rw [hp] at e; cases e), fun _ k hk => ?_⟩
    rotate_left
    · unfold addCodeVerifier at h
      rw [hk] at h
      simp only [Option.some_or, dbKey] at h
      split at h
      · cases h
      · next item hi =>
        split at h
        · cases h
        · next v hv =>
          injection h with h
          exact ⟨item, v, hi, Dict.getItem_eq_ok.1 hv, by rw [← h, Dict.get?_set_self]⟩
    unfold addCodeVerifier at h
    split at h
    · cases h
    · split at h
      · cases h
      · split at h
        · cases h
        · split at h
          · cases h
          · injection h with h
            rw [← h, Dict.get?_set_ne _ _ (Ne.symm hp')]
  · next hp =>
    simp only [Py.pure_run, Prod.mk.injEq, Except.ok.injEq] at h
    obtain ⟨rfl, rfl⟩ := h
    exact ⟨rfl, fun _ _ => rfl, fun _ => rfl, fun e => absurd e hp⟩

/-- **C79** (message).  A token request made for session `k` changes nothing at the client, and each of its
parameters has its first source's value: nothing of another session can be in it. -/
theorem C79_token_message (x : Ext) (srv : Srv) (hs : CodeExchange srv) (args kwargs req : Obj) (c c' : Client) (k : String)
    (hna : (Dict.keys args).Nodup) (hnk : (Dict.keys kwargs).Nodup) (hk : Dict.get? kwargs "state" = some (.str k))
    (h : construct x srv args kwargs c = (.ok req, c')) :
    c' = c ∧ ∀ p v, p ≠ "state" → p ≠ "code_verifier" → p ∉ (x.msg srv).spaced → v ≠ .str "" → v ≠ .list [.str ""] →
      TokenSource x srv c k args p v → Dict.get? req p = some v := by
  obtain ⟨r, c2, g, h1, h2, h3⟩ := construct_ok h
  obtain ⟨h4, h5, rfl⟩ := codePre_ok hs h1
  obtain ⟨rfl, h6, _, _⟩ := codePost_ok hs h3
  refine ⟨rfl, ?_⟩
  intro p v hps hpc hsp hv1 hv2 hsrc
  obtain ⟨hn, hget⟩ := tokenPre_get h4 (methodArgs_given _ _ hnk hk) hna
  have hsf : ∀ q, q ≠ "state" → Dict.get? (stateFromKwargs (x.msg srv) r.1 kwargs) q = Dict.get? r.1 q := by
    intro q hq
    unfold stateFromKwargs
    split
    · split
      · exact Dict.get?_set_ne _ _ (Ne.symm hq)
      · rfl
    · rfl
  have hnf : (Dict.keys (stateFromKwargs (x.msg srv) r.1 kwargs)).Nodup := by
    unfold stateFromKwargs
    split
    · split
      · exact Dict.nodup_set hn _ _
      · exact hn
    · exact hn
  rw [h6 p hpc]
  refine (C38_message _ g (nodup_gather h2 hnf) p hsp).1 v ?_ hv1 hv2
  have hr : Dict.get? (stateFromKwargs (x.msg srv) r.1 kwargs) p = _ := (hsf p hps).trans (hget p)
  rcases hsrc with ha | ⟨ha, ⟨hm, hst⟩ | ⟨hm, hst, hst'⟩ | ⟨hno, ⟨rfl, rfl⟩ | ⟨hg, hm, hf⟩⟩⟩
  · exact gather_given h2 (by rw [hr, ha]; rfl)
  · exact gather_given h2 (by rw [hr, ha, if_pos hm, hst]; rfl)
  · exact gather_given h2 (by rw [hr, ha, if_pos hm, hst, hst']; rfl)
  · refine gather_given h2 ?_
    rw [hr, ha]
    by_cases hm : "grant_type" ∈ (x.msg srv).params
    · rw [if_pos hm, (hno hm).1, (hno hm).2]; rfl
    · rw [if_neg hm]; rfl
  · refine ((C38_precedence x _ srv _ g h2 p).2.1 ?_ hm).1 v hf
    rw [hr, ha, if_pos hm, (hno hm).1, (hno hm).2, if_neg hg]; rfl

/-- A state that, where it is present, is `k`. -/
def NoOtherState (k : String) (o : Option Val) : Prop := ∀ v, o = some v → v = .str k

/-- **C79** (PKCE).  With the PKCE add-on a token request made for session `k` has the code verifier that was
stored for session `k`. -/
theorem C79_verifier_of_session (x : Ext) (srv : Srv) (hs : CodeExchange srv) (args kwargs req : Obj) (c c' : Client) (k : String)
    (hna : (Dict.keys args).Nodup) (hnk : (Dict.keys kwargs).Nodup) (hk : Dict.get? kwargs "state" = some (.str k)) (hk0 : k ≠ "")
    (hm : "state" ∈ (x.msg srv).params ∧ "state" ∉ (x.msg srv).spaced)
    (h1 : NoOtherState k (Dict.get? args "state")) (h2 : NoOtherState k (storedIn c.db k "auth_response" "state"))
    (h3 : NoOtherState k (storedIn c.db k "auth_request" "state"))
    (hp : Dict.has c.ctx.addOn "pkce" = true) (h : construct x srv args kwargs c = (.ok req, c')) :
    ∃ item v, getItem c.db "pkce" k = .ok item ∧ Dict.get? item "code_verifier" = some v ∧
      Dict.get? req "code_verifier" = some v := by
  obtain ⟨r, c2, g, g1, g2, g3⟩ := construct_ok h
  obtain ⟨g4, g5, rfl⟩ := codePre_ok hs g1
  obtain ⟨-, -, -, g6⟩ := codePost_ok hs g3
  obtain ⟨hn, hget⟩ := tokenPre_get g4 (methodArgs_given _ _ hnk hk) hna
  refine g6 hp k ?_
  have hst : NoOtherState k (Dict.get? r.1 "state") := by
    intro v hv
    rw [hget, if_pos hm.1, if_neg (by decide)] at hv
    cases ha : Dict.get? args "state" with
    | some w => rw [ha] at hv; simp at hv; rw [← hv]; exact h1 w ha
    | none =>
      rw [ha] at hv
      cases hb : storedIn c2.db k "auth_response" "state" with
      | some w => rw [hb] at hv; simp at hv; rw [← hv]; exact h2 w hb
      | none => rw [hb] at hv; simp at hv; exact h3 v hv
  have hsf : Dict.get? (stateFromKwargs (x.msg srv) r.1 kwargs) "state" = some (.str k) ∧
      (Dict.keys (stateFromKwargs (x.msg srv) r.1 kwargs)).Nodup := by
    unfold stateFromKwargs
    split
    · rw [hk]; exact ⟨Dict.get?_set_self _ _ _, Dict.nodup_set hn _ _⟩
    · next hc =>
      refine ⟨?_, hn⟩
      cases hr : Dict.get? r.1 "state" with
      | none => exact absurd ⟨hm.1, by simp [Dict.has_eq, hr]⟩ hc
      | some w => rw [hst w hr]
  exact (C38_message _ g (nodup_gather g2 hsf.2) "state" hm.2).1 _ (gather_given g2 hsf.1) (by simpa using hk0) (by simp)

/-- **C79** (on the wire).  A code exchange by `do_request` for session `k` sends nothing, or one request to the
token endpoint; that has the code of the session's authorization response and the redirect URI of the
session's authorization request, unless the caller gave them. -/
theorem C79_token_sent (x : Ext) (srv : Srv) (hs : CodeExchange srv) (args kwargs : Obj) (o : CallOpts) (c : Client) (k url : String)
    (hna : (Dict.keys args).Nodup) (hnk : (Dict.keys kwargs).Nodup) (hk : Dict.get? kwargs "state" = some (.str k))
    (hend : Dict.get? kwargs "endpoint" = none) (hurl : Discovery.serviceEndpoint c.ctx srv = .ok (.str url)) :
    (doRequest x srv args o kwargs c).2.log = c.log ∨
    ∃ s req, (doRequest x srv args o kwargs c).2.log = c.log ++ [s] ∧ s.srv = srv ∧ Carries x s url req ∧
      ∀ p v, p ∈ ["code", "redirect_uri", "grant_type"] → p ∉ (x.msg srv).spaced → v ≠ .str "" → v ≠ .list [.str ""] →
        TokenSource x srv c k args p v → Dict.get? req p = some v := by
  have hr : Frame NoSend (getRequestParameters x srv args o kwargs) :=
    frame_request_reading' (by rcases hs with h | h <;> simp [h]) _ _ _
  rcases doRequest_log hr c with hlog | ⟨info, c1, hg, hlog⟩
  · exact Or.inl hlog
  · right
    have hg' : buildRequest x srv args o kwargs c = (.ok info, c1) := by
      rcases hs with rfl | rfl <;> exact hg
    obtain ⟨am, req0, c2, hd, req', g1, g2, g3, g4⟩ := buildRequest_ok hg'
    obtain ⟨m, h0, g5, g6, g7⟩ := getHeaders_ok g3
    obtain ⟨url', k1, k2, k3, k4⟩ := carries_assembled g4
    obtain ⟨rfl, hm⟩ := C79_token_message x srv hs args kwargs req0 c c2 k hna hnk hk g2
    have hctx : c1.ctx = c2.ctx := by
      rcases g7 with ⟨_, _, rfl⟩ | ⟨_, hd⟩
      · rfl
      · have := DpopRel.dpop (R := OnlyDpop) x srv (orElse o.method (attr c2 srv "http_method" (httpMethod srv))) h0 c2
        rw [hd] at this
        obtain ⟨d, e⟩ := this
        rw [show c1 = _ from e]
    have hu : url' = url := by
      have hsr : srv ≠ .registrationRead := by rcases hs with rfl | rfl <;> decide
      simp only [targetOf, hend, endpointOf, if_neg hsr, hctx, hurl, asStr] at k1
      simpa [eq_comm] using k1
    subst hu
    refine ⟨_, req', hlog, rfl, k4, ?_⟩
    intro p v hp hsp hv1 hv2 hsrc
    have hp' : p ≠ "state" ∧ p ≠ "code_verifier" := by
      simp only [List.mem_cons, List.not_mem_nil, or_false] at hp
      rcases hp with rfl | rfl | rfl <;> decide
    rw [authnHeader_keeps g6]
    · exact hm p v hp'.1 hp'.2 hsp hv1 hv2 hsrc
    · simp only [List.mem_cons, List.not_mem_nil, or_false] at hp
      rcases hp with rfl | rfl | rfl <;> decide

/-- A client with two sessions under way. -/
def exchanging : Client where
  ctx := { issuer := "https://op.example", clientId := "c1", clientSecret := "s3", providerInfo := World.metadata,
           redirectUris := ["https://rp.example/cb"], addOn := [("pkce", .obj [])] }
  services := [.oauth2AccessToken]
  db := [("s", .doc [("auth_request", .obj [("redirect_uri", .str "https://rp.example/cb"), ("state", .str "s")]),
      ("pkce", .obj [("code_verifier", .str "V1")]), ("auth_response", .obj [("code", .str "C1"), ("state", .str "s")])]),
    ("t", .doc [("auth_request", .obj [("redirect_uri", .str "https://rp.example/cb2"), ("state", .str "t")]),
      ("pkce", .obj [("code_verifier", .str "V2")]), ("auth_response", .obj [("code", .str "C2"), ("state", .str "t")])])]

set_option maxRecDepth 20000 in
/-- Non-vacuity of C79. -/
example :
    TokenSource (World.ext 0 "" "" "") .oauth2AccessToken exchanging "s" [] "code" (.str "C1") ∧
    TokenSource (World.ext 0 "" "" "") .oauth2AccessToken exchanging "s" [] "redirect_uri" (.str "https://rp.example/cb") ∧
    TokenSource (World.ext 0 "" "" "") .oauth2AccessToken exchanging "s" [] "grant_type" (.str "authorization_code") ∧
    NoOtherState "s" (storedIn exchanging.db "s" "auth_response" "state") ∧
    (construct (World.ext 0 "" "" "") .oauth2AccessToken [] [("state", .str "s")] exchanging).1 =
      .ok [("grant_type", .str "authorization_code"), ("redirect_uri", .str "https://rp.example/cb"), ("state", .str "s"), ("code", .str "C1"),
        ("client_id", .str "c1"), ("client_secret", .str "s3"), ("code_verifier", .str "V1")] ∧
    (doRequest (World.ext 0 "" "" "") .oauth2AccessToken [] {} [("state", .str "t")] exchanging).2.log.map (fun s => (s.url, s.body)) =
      [("https://op.example/token", some (.text
        "grant_type=authorization_code&redirect_uri=https%3A%2F%2Frp.example%2Fcb2&state=t&code=C2&client_id=c1&code_verifier=V2"))] := by
  refine ⟨Or.inr ⟨rfl, Or.inl ⟨by decide, by rfl⟩⟩, Or.inr ⟨rfl, Or.inr (Or.inl ⟨by decide, by rfl, by rfl⟩)⟩,
    Or.inr ⟨rfl, Or.inr (Or.inr ⟨fun _ => ⟨by rfl, by rfl⟩, Or.inl ⟨rfl, rfl⟩⟩)⟩, ?_, by rfl, by rfl⟩
  intro v hv
  have : storedIn exchanging.db "s" "auth_response" "state" = some (.str "s") := by rfl
  rw [this] at hv
  injection hv with hv
  exact hv.symm

end Verif.Props
