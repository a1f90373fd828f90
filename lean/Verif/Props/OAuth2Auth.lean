import Verif.Props.ClientCredentials
import Verif.Lemmas.AuthTrace
import Verif.Props.Responses
/-!
# C77: the OAuth2 authorization service
-/

namespace Verif.Props
open Verif Service Spec.Session Spec.Store Spec.Wire StateInterface

/-- The state the caller named: as keyword argument, else among the request arguments. -/
def NamedState (args kwargs : Obj) (k : String) : Prop :=
  Dict.get? kwargs "state" = some (.str k) ∨ (Dict.get? kwargs "state" = none ∧ Dict.get? args "state" = some (.str k))

/-- The authorization service has no arguments of its own for making requests. -/
structure NoConstructArgs (c : Client) (kwargs : Obj) : Prop where
  pre : Dict.get? ((Dict.get? c.conf "authorization").getD []) "pre_construct" = none
  post : Dict.get? ((Dict.get? c.conf "authorization").getD []) "post_construct" = none
  behaviour : Dict.get? kwargs "behaviour_args" = none

theorem pickRedirect_ok {args a : Obj} {c c' : Client} (h : pickRedirect args c = (.ok a, c')) :
    ∃ v, Registration.pickRedirectUri c.ctx args = .ok v ∧ a = Dict.set args "redirect_uri" v ∧ c' = c := by
  unfold pickRedirect at h
  obtain ⟨v, c1, h1, h2⟩ := Py.bind_eq_ok.1 h
  simp only [ask, Prod.mk.injEq] at h1
  obtain ⟨h1, rfl⟩ := h1
  simp only [Py.pure_run, Prod.mk.injEq, Except.ok.injEq] at h2
  exact ⟨v, h1, h2.1.symm, h2.2.symm⟩

theorem getStateParameter_named {args kwargs : Obj} {k : String} (h : NamedState args kwargs k) :
    getStateParameter args kwargs = .ok (.str k) := by
  unfold getStateParameter
  rcases h with h | ⟨h, h'⟩
  · rw [h]
  · rw [h, h']

theorem getStateParameter_in {args kwargs : Obj} {k : String} (h : Dict.get? args "state" = some (.str k))
    (h' : Dict.get? kwargs "state" = none) : getStateParameter args kwargs = .ok (.str k) := by
  simp [getStateParameter, h, h']

/-- What `pre_construct` of the service makes of the arguments. -/
theorem oauth2Pre_ok {x : Ext} {args kwargs : Obj} {r : Obj × Obj} {c c' : Client} {k : String}
    (hk : NamedState args kwargs k) (hna : (Dict.keys args).Nodup)
    (h : preConstruct x .oauth2Authorization args kwargs c = (.ok r, c')) :
    (Dict.keys r.1).Nodup ∧ r.2 = [] ∧ Dict.get? r.1 "state" = some (.str k) ∧
    (∀ p v, Dict.get? args p = some v → p ≠ "state" →
      (Dict.has c.ctx.addOn "pkce" = true → p ≠ "code_challenge" ∧ p ≠ "code_challenge_method") → Dict.get? r.1 p = some v) ∧
    c'.ctx = c.ctx ∧ c'.conf = c.conf ∧ ∀ k', k' ≠ k → Dict.get? c'.db k' = Dict.get? c.db k' := by
  simp only [preConstruct] at h
  obtain ⟨a, c1, h1, h2⟩ := Py.bind_eq_ok.1 h
  obtain ⟨ru, h3, rfl, rfl⟩ := pickRedirect_ok h1
  obtain ⟨b, c2, h4, h5⟩ := Py.bind_eq_ok.1 h2
  obtain ⟨h4', rfl⟩ := Py.lift_eq_ok.1 h4
  have hk' : NamedState (Dict.set args "redirect_uri" ru) kwargs k := by
    rcases hk with hk | ⟨hk, hk'⟩
    · exact Or.inl hk
    · exact Or.inr ⟨hk, by rw [Dict.get?_set_ne _ _ (by decide)]; exact hk'⟩
  unfold setStateParameter at h4'
  rw [getStateParameter_named hk'] at h4'
  simp only [Except.map] at h4'
  injection h4' with h4'
  subst h4'
  rw [Py.read_bind_run] at h5
  have hnd := Dict.nodup_set (Dict.nodup_set hna "redirect_uri" ru) "state" (.str k)
  have hkeep : ∀ p v, Dict.get? args p = some v → p ≠ "state" →
      Dict.get? (Dict.set (Dict.set args "redirect_uri" ru) "state" (.str k)) p = some v := by
    intro p v hp hs
    rw [Dict.get?_set_ne _ _ (Ne.symm hs)]
    by_cases e : p = "redirect_uri"
    · subst e
      rw [Dict.get?_set_self]
      unfold Registration.pickRedirectUri at h3
      rw [hp] at h3
      injection h3 with h3
      rw [h3]
    · rw [Dict.get?_set_ne _ _ (Ne.symm e)]; exact hp
  by_cases hpk : Dict.has c1.ctx.addOn "pkce" = true
  · rw [if_pos hpk] at h5
    obtain ⟨d, c3, h6, h7⟩ := Py.bind_eq_ok.1 h5
    simp only [Py.pure_run, Prod.mk.injEq, Except.ok.injEq] at h7
    obtain ⟨rfl, rfl⟩ := h7
    obtain ⟨g1, g2, g3⟩ := addCodeChallenge_ok (k := k) (Dict.get?_set_self _ _ _) h6
    subst g2 g3
    refine ⟨?_, rfl, ?_, ?_, rfl, rfl, ?_⟩
    · unfold withChallenge
      exact Dict.nodup_set (Dict.nodup_set hnd _ _) _ _
    · unfold withChallenge
      simp only
      rw [Dict.get?_set_ne _ _ (by decide), Dict.get?_set_ne _ _ (by decide), Dict.get?_set_self]
    · intro p v hp hs hcc
      obtain ⟨e1, e2⟩ := hcc hpk
      unfold withChallenge
      simp only
      rw [Dict.get?_set_ne _ _ (Ne.symm e2), Dict.get?_set_ne _ _ (Ne.symm e1)]
      exact hkeep p v hp hs
    · intro k' hk'
      exact storeItem_elsewhere _ _ _ _ _ hk'
  · rw [if_neg hpk] at h5
    simp only [Py.pure_run, Prod.mk.injEq, Except.ok.injEq] at h5
    obtain ⟨rfl, rfl⟩ := h5
    exact ⟨hnd, rfl, Dict.get?_set_self _ _ _, fun p v hp hs _ => hkeep p v hp hs, rfl, rfl, fun _ _ => rfl⟩

theorem storeAuthRequest_ok {req kwargs r : Obj} {c c' : Client} {k : String} (hs : Dict.get? req "state" = some (.str k))
    (hk : Dict.get? kwargs "state" = none) (h : storeAuthRequest req kwargs c = (.ok r, c')) :
    r = req ∧ (storeItem req "auth_request" k c.db).1 = .ok () ∧ c' = { c with db := (storeItem req "auth_request" k c.db).2 } := by
  unfold storeAuthRequest at h
  rw [getStateParameter_in hs hk, Py.lift_bind_ok rfl, show dbKey (.str k) = .ok k from rfl, Py.lift_bind_ok rfl] at h
  obtain ⟨u, c1, h1, h2⟩ := Py.bind_eq_ok.1 h
  simp only [Py.pure_run, Prod.mk.injEq, Except.ok.injEq] at h2
  obtain ⟨rfl, rfl⟩ := h2
  exact ⟨rfl, congrArg Prod.fst h1, onDB_snd h1⟩

/-- **C77** (request).  When the OAuth2 authorization service has made a request for a named state `k`, a
request `q` is stored for `k` (without empty parameters); it has the state `k` and every parameter the caller
gave; no other session changed.  If the request is not pushed and no client authentication is used, it is `q`
that is sent: the URL is the authorization endpoint with the parameters of `q`. -/
theorem C77_request (x : Ext) (c c' : Client) (args kwargs : Obj) (o : CallOpts) (info : ReqInfo) (k : String) (hk0 : k ≠ "")
    (hsp : "state" ∉ (x.msg .oauth2Authorization).spaced) (hk : NamedState args kwargs k) (hn : NoConstructArgs c kwargs)
    (hna : (Dict.keys args).Nodup)
    (h : getRequestParameters x .oauth2Authorization args o kwargs c = (.ok info, c')) :
    ∃ q, getItem c'.db "auth_request" k = .ok (withoutEmpty q) ∧ Dict.get? q "state" = some (.str k) ∧
      (∀ p v, Dict.get? args p = some v → p ≠ "state" → v ≠ .str "" → v ≠ .list [.str ""] →
        p ∉ (x.msg .oauth2Authorization).spaced →
        (Dict.has c.ctx.addOn "pkce" = true → p ≠ "code_challenge" ∧ p ≠ "code_challenge_method") → Dict.get? q p = some v) ∧
      (∀ k', k' ≠ k → Dict.get? c'.db k' = Dict.get? c.db k') ∧
      (Dict.has c.ctx.addOn "pushed_authorization" = false → o.authnMethod = "" →
        attr c .oauth2Authorization "default_authn_method" "" = "" →
        orElse o.method (attr c .oauth2Authorization "http_method" "GET") = "GET" → Dict.get? kwargs "endpoint" = none →
        ∃ u, Discovery.serviceEndpoint c.ctx .oauth2Authorization = .ok (.str u) ∧
          info.url = Util.getHttpUrl (x.ser .oauth2Authorization) u q "GET") := by
  change buildRequest x .oauth2Authorization args o kwargs c = _ at h
  obtain ⟨am, req, c1, hd, req', g1, g2, g3, g4⟩ := buildRequest_ok h
  obtain ⟨r, c2, g, k1, k2, k3⟩ := construct_ok g2
  have hpre : methodArgs (confOf c .oauth2Authorization) "pre_construct" kwargs = kwargs := by
    unfold methodArgs confOf
    rw [show Srv.name .oauth2Authorization = "authorization" from rfl, hn.pre]
  rw [hpre] at k1
  obtain ⟨p1, p2, p3, p4, p5, p6, p7⟩ := oauth2Pre_ok hk hna k1
  have hsf : stateFromKwargs (x.msg .oauth2Authorization) r.1 kwargs = r.1 := by
    unfold stateFromKwargs
    rw [if_neg]
    simp [Dict.has_eq, p3]
  rw [hsf] at k2
  have hmsg := fun (p : String) (hp : p ∉ (x.msg .oauth2Authorization).spaced) => (C38_message _ g (nodup_gather k2 p1) p hp).1
  have hstate : Dict.get? ((x.msg .oauth2Authorization).make g) "state" = some (.str k) :=
    hmsg "state" hsp _ (gather_given k2 p3) (by simpa using hk0) (by simp)
  have hpost : methodArgs (confOf c2 .oauth2Authorization) "post_construct" (withBehaviour kwargs r.2) = [] := by
    unfold methodArgs confOf withBehaviour
    rw [show Srv.name .oauth2Authorization = "authorization" from rfl, p6, hn.post, hn.behaviour, p2]
  unfold postConstruct at k3
  rw [Py.read_bind_run] at k3
  simp only [hpost] at k3
  obtain ⟨r1, c3, k4, k5⟩ := Py.bind_eq_ok.1 k3
  obtain ⟨rfl, s1, s2⟩ := storeAuthRequest_ok hstate rfl k4
  have hdb : c1.db = c3.db ∧ c1.ctx = c3.ctx ∧ (Dict.has c.ctx.addOn "pushed_authorization" = false → req = (x.msg .oauth2Authorization).make g) := by
    rw [p5] at k5
    by_cases hpa : Dict.has c.ctx.addOn "pushed_authorization" = true
    · rw [if_pos hpa] at k5
      have := (push_ok k5).2
      exact ⟨by rw [this], by rw [this], fun e => by rw [hpa] at e; cases e⟩
    · rw [if_neg hpa] at k5
      simp only [Py.pure_run, Prod.mk.injEq, Except.ok.injEq] at k5
      exact ⟨by rw [k5.2], by rw [k5.2], fun _ => k5.1.symm⟩
  obtain ⟨m, h0, m1, m2, m3⟩ := getHeaders_ok g3
  have hc' : c' = c1 := by
    rcases m3 with ⟨_, _, e⟩ | ⟨e, _⟩
    · exact e
    · simp [usesDpop, Srv.name] at e
  subst hc'
  obtain ⟨q1, q2⟩ := C02_store_then_read _ "auth_request" k c2.db s1
  refine ⟨_, ?_, hstate, ?_, ?_, ?_⟩
  · rw [hdb.1, s2]; exact q1
  · intro p v hp hs hv1 hv2 hps hcc
    exact hmsg p hps v (gather_given k2 (p4 p v hp hs hcc)) hv1 hv2
  · intro k' hk'
    rw [hdb.1, s2, storeItem_elsewhere _ _ _ _ _ hk']
    exact p7 k' hk'
  · intro hpa ham hda hme hend
    have hreq := hdb.2.2 hpa
    subst hreq
    have hm0 : m = "" := by
      have hg : ∀ d : Client, d.conf = c.conf → getAuthnMethod d .oauth2Authorization = .ok "" := by
        intro d hd'
        unfold getAuthnMethod
        rw [if_neg (by decide)]
        rw [show defaultAuthn .oauth2Authorization = "" from rfl]
        unfold attr confOf at hda ⊢
        rw [hd']
        exact congrArg Except.ok hda
      rw [ham] at g1
      simp only [if_true, hg c rfl] at g1
      injection g1 with g1
      subst g1
      have : c'.conf = c.conf := by
        have e1 : c3.conf = c2.conf := by rw [s2]
        rw [p5] at k5
        rw [if_neg (by rw [hpa]; decide)] at k5
        simp only [Py.pure_run, Prod.mk.injEq] at k5
        rw [← k5.2, e1, p6]
      simp only [if_true, hg c' this] at m1
      injection m1 with m1
      exact m1.symm
    subst hm0
    have hrq : req' = (x.msg .oauth2Authorization).make g := by
      unfold authnHeader at m2
      rw [if_neg (by decide), if_pos rfl] at m2
      injection m2 with m2
      injection m2 with _ m2
      exact m2.symm
    rw [show httpMethod .oauth2Authorization = "GET" from rfl, hme, hrq] at g4
    obtain ⟨u, a1, a2, _⟩ := assemble_ok g4
    refine ⟨u, ?_, a2⟩
    simp only [targetOf, hend, endpointOf] at a1
    rw [if_neg (by decide)] at a1
    have hctx : c'.ctx = c.ctx := by rw [hdb.2.1, s2]; exact p5
    rw [hctx] at a1
    cases he : Discovery.serviceEndpoint c.ctx .oauth2Authorization with
    | error e => rw [he] at a1; cases a1
    | ok v =>
      rw [he] at a1
      cases v <;> simp [asStr] at a1
      rw [a1]

/-- **C77** (no state).  Without a state the service makes no request, and the client stays as it was. -/
theorem C77_no_state_refused (x : Ext) (c : Client) (args kwargs : Obj) (o : CallOpts) (hn : NoConstructArgs c kwargs)
    (h1 : Dict.get? kwargs "state" = none) (h2 : Dict.get? args "state" = none) :
    ∃ e, getRequestParameters x .oauth2Authorization args o kwargs c = (.error e, c) ∧
      (∀ v, Registration.pickRedirectUri c.ctx args = .ok v → e = .missingParameter) := by
  have hpre : methodArgs (confOf c .oauth2Authorization) "pre_construct" kwargs = kwargs := by
    unfold methodArgs confOf
    rw [show Srv.name .oauth2Authorization = "authorization" from rfl, hn.pre]
  have hcon : ∃ e, construct x .oauth2Authorization args kwargs c = (.error e, c) ∧
      (∀ v, Registration.pickRedirectUri c.ctx args = .ok v → e = .missingParameter) := by
    unfold construct
    rw [Py.read_bind_run, hpre]
    simp only [preConstruct]
    cases hp : Registration.pickRedirectUri c.ctx args with
    | error e =>
      have : pickRedirect args c = (.error e, c) := by
        unfold pickRedirect; rw [ask_bind_error hp]
      exact ⟨e, by rw [Py.bind_error (Py.bind_error this)], fun v hv => by cases hv⟩
    | ok v =>
      have : pickRedirect args c = (.ok (Dict.set args "redirect_uri" v), c) := by
        unfold pickRedirect; rw [ask_bind_ok hp]; rfl
      refine ⟨.missingParameter, ?_, fun _ _ => rfl⟩
      have hg : setStateParameter (Dict.set args "redirect_uri" v) kwargs = .error .missingParameter := by
        unfold setStateParameter getStateParameter
        rw [h1, Dict.get?_set_ne _ _ (by decide), h2]
        rfl
      rw [Py.bind_error]
      rw [Py.bind_ok this, hg, Py.lift_bind_error rfl]
  obtain ⟨e, he, he'⟩ := hcon
  refine ⟨e, ?_, he'⟩
  change buildRequest x .oauth2Authorization args o kwargs c = _
  unfold buildRequest
  rw [Py.read_bind_run]
  have ham : ∃ am, (if o.authnMethod = "" then getAuthnMethod c .oauth2Authorization else .ok o.authnMethod) = .ok am := by
    split
    · unfold getAuthnMethod; rw [if_neg (by decide)]; exact ⟨_, rfl⟩
    · exact ⟨_, rfl⟩
  obtain ⟨am, ham⟩ := ham
  rw [ask_bind_ok ham, Py.bind_error he]

/-- **C77** (scope).  When an authorization response is accepted for a session, it is the verified message with
a scope: its own if it has one, else that of the session's authorization request (which must be known).
Nothing changes at the client.  This holds for the OAuth2 and the OIDC authorization service. -/
theorem C77_scope (x : Ext) (srv : Srv) (hs : srv = .oauth2Authorization ∨ srv = .authorization) (info : Info) (f k : String)
    (hk : k ≠ "") (c c' : Client) (r : Obj) (h : parseResponse x srv info f k c = (.ok (.msg r), c')) (hne : Dict.get? r "error" = none) :
    c' = c ∧ ∃ parsed v, parseInfo x c.ctx srv info (formatOf c srv f) = .ok parsed ∧
      x.verify c.ctx srv parsed (gatherVerify c.ctx srv) = .ok v ∧
      (∀ p, p ≠ "scope" → Dict.get? r p = Dict.get? v p) ∧
      (∀ sc, Dict.get? v "scope" = some sc → Dict.get? r "scope" = some sc) ∧
      (Dict.get? v "scope" = none → ∃ req, getItem c.db "auth_request" k = .ok req ∧ Dict.get? r "scope" = Dict.get? req "scope") := by
  rcases parseResponse_ok h with ⟨_, s, _, h2, _⟩ | ⟨_, parsed, hp, ⟨he, hr, _⟩ | ⟨_, v, o, hv, hpo, _, hr⟩⟩
  · cases h2
  · injection hr with hr; subst hr
    simp [Msg.isError, Dict.has_eq, hne] at he
  · injection hr with hr; subst hr
    have ha : addScope c.db v k = .ok r ∧ c' = c := by
      rcases hs with rfl | rfl
      · simp only [postParse, ask, Prod.mk.injEq] at hpo
        exact ⟨hpo.1, hpo.2.symm⟩
      · simp only [postParse, ask, Prod.mk.injEq] at hpo
        refine ⟨?_, hpo.2.symm⟩
        have hq := hpo.1
        unfold authorizationPostParse at hq
        cases ha : addScope c.db v k with
        | error e => rw [ha] at hq; cases hq
        | ok s =>
          rw [ha] at hq; simp only at hq
          cases hn : checkNonce c.db s with
          | error e => rw [hn] at hq; cases hq
          | ok u => rw [hn] at hq; injection hq with hq; rw [hq]
    refine ⟨ha.2, parsed, v, hp, hv, fun p hp => addScope_get ha.1 p hp, ?_, ?_⟩
    · intro sc hsc
      have := ha.1
      unfold addScope at this
      rw [Dict.has_eq, hsc] at this
      simp only [Option.isSome_some, Bool.true_or, if_true] at this
      injection this with this
      rw [← this]; exact hsc
    · intro hsc
      have := ha.1
      unfold addScope at this
      rw [Dict.has_eq, hsc] at this
      simp only [Option.isSome_none, Bool.false_or, beq_iff_eq, if_neg hk] at this
      cases hg : getItem c.db "auth_request" k with
      | error e => rw [hg] at this; cases this
      | ok req =>
        rw [hg] at this
        simp only at this
        refine ⟨req, rfl, ?_⟩
        cases hq : Dict.get? req "scope" with
        | none => rw [hq] at this; injection this with this; rw [← this, hsc]
        | some w => rw [hq] at this; injection this with this; rw [← this, Dict.get?_set_self]

/-- A client with the OAuth2 services. -/
def oauth2Client : Client where
  ctx := { issuer := "https://op.example", clientId := "c1", clientSecret := "s3", providerInfo := World.metadata,
           redirectUris := ["https://rp.example/cb"], behaviour := [("scope", .list [.str "profile"])] }
  services := [.oauth2Authorization, .oauth2AccessToken]

/-- The request of the example. -/
def oauth2Request : Except Exc ReqInfo × Client :=
  getRequestParameters (World.ext 1000 "" "" "") .oauth2Authorization [("response_type", .list [.str "code"])] {}
    [("state", .str "s")] oauth2Client

set_option maxRecDepth 20000 in
/-- Non-vacuity of C77: a request for state `s`, and a response that gets its scope. -/
example :
    NamedState [("response_type", .list [.str "code"])] [("state", .str "s")] "s" ∧
    NoConstructArgs oauth2Client [("state", .str "s")] ∧
    oauth2Request.1.toOption.map (fun i => i.url) = some
      "https://op.example/auth?response_type=code&redirect_uri=https%3A%2F%2Frp.example%2Fcb&state=s&client_id=c1&scope=profile" ∧
    storedIn oauth2Request.2.db "s" "auth_request" "scope" = some (.list [.str "profile"]) ∧
    (parseResponse (World.ext 1001 "" "" "") .oauth2Authorization (.dict [("code", .str "C"), ("state", .str "s")]) "dict" "s"
      oauth2Request.2).1 = .ok (.msg [("code", .str "C"), ("state", .str "s"), ("scope", .list [.str "profile"])]) ∧
    (getRequestParameters (World.ext 1000 "" "" "") .oauth2Authorization [] {} [] oauth2Client).1 = .error .missingParameter := by
  refine ⟨Or.inl rfl, ⟨rfl, rfl, rfl⟩, by rfl, by rfl, by rfl, by rfl⟩

end Verif.Props
