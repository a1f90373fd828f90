import Verif.Lemmas.Requests
import Verif.Lemmas.World
import Verif.Props.Discovery
/-!
# C92: requests go where they should
-/

namespace Verif.Props
open Verif Verif.Service Verif.Spec.Wire

/-! ## Specification -/

/-- Where a request of service `srv` should go: to the endpoint given with the call; else to the endpoint of the service; else to
the one in the metadata of the provider. -/
inductive Destination (c : Client) (srv : Srv) (kwargs : Obj) (u : String) : Prop
  | given (h : Dict.get? kwargs "endpoint" = some (.str u))
  | own (h : Dict.get? kwargs "endpoint" = none) (h1 : Dict.get? c.ctx.endpoints srv.name = some (.str u)) (h2 : u ≠ "")
  | published (h : Dict.get? kwargs "endpoint" = none)
      (h1 : ∀ v, Dict.get? c.ctx.endpoints srv.name = some v → v.truthy = false)
      (h2 : Dict.get? c.ctx.providerInfo srv.endpointName = some (.str u))

/-- With which method: the one of the call, else the configured one, else that of the service. -/
inductive MethodFor (c : Client) (srv : Srv) (o : CallOpts) (m : String) : Prop
  | given (h : o.method = m) (h1 : m ≠ "")
  | configured (h : o.method = "") (h1 : Dict.get? (confOf c srv) "http_method" = some (.str m))
  | usual (h : o.method = "") (h1 : ∀ s, Dict.get? (confOf c srv) "http_method" ≠ some (.str s)) (h2 : m = httpMethod srv)

/-- The services with requests of their own kind: discovery (metadata, WebFinger) and reading a registration. -/
def Special (srv : Srv) : Prop :=
  srv = .providerInfo ∨ srv = .oauth2ProviderInfo ∨ srv = .webfinger ∨ srv = .registrationRead

/-- A push of an authorization request to the endpoint for it. -/
def Push (c : Client) (s : Sent) : Prop :=
  s.srv = .authorization ∧ Dict.has c.ctx.addOn "pushed_authorization" = true ∧
  Dict.get? c.ctx.providerInfo "pushed_authorization_request_endpoint" = some (.str s.url)

/-! ## Proof -/

/-- Making a request keeps the set-up and sends nothing but pushed authorization requests. -/
structure Making (c c' : Client) : Prop where
  endpoints : c'.ctx.endpoints = c.ctx.endpoints
  info : c'.ctx.providerInfo = c.ctx.providerInfo
  addOn : c'.ctx.addOn = c.ctx.addOn
  log : ∃ l, c'.log = c.log ++ l ∧ ∀ s ∈ l, Push c s

instance : FrameRel Making where
  refl _ := ⟨rfl, rfl, rfl, [], by simp, by simp⟩
  trans := by
    rintro s t u ⟨a1, a2, a3, l, a4, a5⟩ ⟨b1, b2, b3, l', b4, b5⟩
    refine ⟨b1.trans a1, b2.trans a2, b3.trans a3, l ++ l', by rw [b4, a4, List.append_assoc], ?_⟩
    intro q hq
    rcases List.mem_append.1 hq with h | h
    · exact a5 q h
    · have := b5 q h
      unfold Push at this ⊢
      rw [a2, a3] at this
      exact this

instance : DpopRel Making where
  dpop := frame_dpopKey fun _ _ _ => ⟨rfl, rfl, rfl, [], by simp, by simp⟩

theorem making_onDB {α : Type} (m : Py DB α) : Frame Making (onDB m) := fun _ => ⟨rfl, rfl, rfl, [], by simp [onDB], by simp⟩

theorem making_push (x : Ext) (r : Obj) (c : Client) (h : Dict.has c.ctx.addOn "pushed_authorization" = true) :
    Making c (pushAuthorization x r c).2 := by
  unfold pushAuthorization
  rw [Py.read_bind_run]
  refine Frame.bind' (Frame.lift _) fun b c1 e1 => ?_
  obtain rfl : c1 = c := (congrArg Prod.snd e1).symm
  refine Frame.bind' (Frame.lift _) fun uv c2 e2 => ?_
  obtain rfl : c2 = c1 := (congrArg Prod.snd e2).symm
  refine Frame.bind' (Frame.lift _) fun u c3 e3 => ?_
  obtain rfl : c3 = c2 := (congrArg Prod.snd e3).symm
  have hu : Dict.get? c3.ctx.providerInfo "pushed_authorization_request_endpoint" = some (.str u) := by
    obtain ⟨e2', _⟩ := Py.lift_eq_ok.1 e2
    obtain ⟨e3', _⟩ := Py.lift_eq_ok.1 e3
    rw [Dict.getItem_eq_ok] at e2'
    cases uv <;> simp [asStr] at e3'
    rw [e2', e3']
  rw [Py.bind_run]
  have key : Making c3 { c3 with log := c3.log ++ [{ srv := .authorization, url := u, method := "GET", body := some (.text b) }] } :=
    ⟨rfl, rfl, rfl, _, rfl, by simpa [Push] using ⟨h, hu⟩⟩
  simp only [Service.send]
  rcases x.http c3.log { srv := .authorization, url := u, method := "GET", body := some (.text b) } with e | a
  · exact key
  · exact FrameRel.trans key (Frame.lift _ _)

theorem making_authorizationPost (x : Ext) (req kwargs : Obj) : Frame Making (authorizationPost x req kwargs) := by
  unfold authorizationPost bindNonce
  refine Frame.bind ?_ fun _ => ?_
  · refine Frame.bind (Frame.lift _) fun b => ?_
    refine Frame.ite (fun _ => ?_) (fun _ => Frame.pure _)
    exact Frame.bind (Frame.lift _) fun _ => Frame.bind (Frame.lift _) fun _ => Frame.bind (Frame.lift _) fun _ =>
      Frame.bind (Frame.lift _) fun _ => making_onDB _
  · exact Frame.bind (Frame.lift _) fun _ => Frame.bind (Frame.lift _) fun _ => Frame.bind (Frame.lift _) fun _ =>
      Frame.bind (making_onDB _) fun _ => Frame.ask _

theorem making_storeAuthRequest (req kwargs : Obj) : Frame Making (storeAuthRequest req kwargs) := by
  unfold storeAuthRequest
  exact Frame.bind (Frame.lift _) fun _ => Frame.bind (Frame.lift _) fun _ => Frame.bind (making_onDB _) fun _ => Frame.pure _

theorem making_pushed {x : Ext} {m : Py Client Obj} (hm : Frame Making m) (c : Client) :
    Making c ((m >>= fun r => if Dict.has c.ctx.addOn "pushed_authorization" then pushAuthorization x r else pure r) c).2 := by
  refine Frame.bind' hm fun r c1 e => ?_
  have h1 := hm c
  rw [e] at h1
  by_cases h : Dict.has c.ctx.addOn "pushed_authorization" = true
  · rw [if_pos h]
    exact making_push x r c1 (by rw [h1.addOn]; exact h)
  · rw [if_neg h]; exact Frame.pure _ _

theorem making_postConstruct (x : Ext) (srv : Srv) (req post : Obj) : Frame Making (postConstruct x srv req post) := by
  intro c
  unfold postConstruct
  rw [Py.read_bind_run]
  cases srv <;> simp only <;> first
    | exact Frame.pure _ c
    | exact Frame.ite (fun _ => Frame.ask _) (fun _ => Frame.pure _) c
    | exact making_pushed (making_authorizationPost _ _ _) c
    | exact making_pushed (making_storeAuthRequest _ _) c

theorem making_addCodeChallenge (x : Ext) (a : Obj) : Frame Making (addCodeChallenge x a) := by
  unfold addCodeChallenge
  refine Frame.bind Frame.read fun c => ?_
  refine Frame.ite (fun _ => Frame.raise _) (fun _ => ?_)
  exact Frame.bind (Frame.lift _) fun _ => Frame.bind (Frame.lift _) fun _ => Frame.bind (making_onDB _) fun _ => Frame.pure _

theorem making_pickRedirect (a : Obj) : Frame Making (pickRedirect a) := by
  unfold pickRedirect
  exact Frame.bind (Frame.ask _) fun _ => Frame.pure _

theorem making_preConstruct (x : Ext) (srv : Srv) (args kwargs : Obj) : Frame Making (preConstruct x srv args kwargs) := by
  cases srv <;> simp only [preConstruct] <;> first
    | exact Frame.pure _
    | exact Frame.bind (Frame.ask _) fun _ => Frame.pure _
    | exact Frame.bind (Frame.ask _) fun _ => Frame.bind (Frame.ask _) fun _ => Frame.pure _
    | exact Frame.bind (Frame.ask _) fun _ => Frame.bind Frame.read fun _ => Frame.bind (Frame.lift _) fun _ => Frame.pure _
    | skip
  · refine Frame.bind ?_ fun _ => Frame.bind (making_pickRedirect _) fun _ => Frame.bind Frame.read fun _ =>
      Frame.bind (Frame.lift _) fun _ => Frame.ite (fun _ => Frame.bind (making_addCodeChallenge _ _) fun _ => Frame.pure _)
        (fun _ => Frame.pure _)
    unfold setState
    exact Frame.bind (Frame.lift _) fun _ => Frame.bind Frame.read fun _ => Frame.bind (making_onDB _) fun _ => Frame.pure _
  · refine Frame.bind (Frame.ask _) fun _ => Frame.bind (Frame.ask _) fun _ => Frame.bind ?_ fun _ => Frame.pure _
    unfold addState
    exact Frame.bind (Frame.lift _) fun _ => Frame.bind (Frame.lift _) fun _ => Frame.bind (Frame.lift _) fun _ =>
      Frame.bind (making_onDB _) fun _ => Frame.pure _
  · refine Frame.bind Frame.read fun _ => Frame.bind ?_ fun _ => Frame.bind Frame.read fun _ => Frame.pure _
    intro c
    exact ⟨rfl, rfl, rfl, [], by simp [onCtx], by simp⟩
  · exact Frame.bind (making_pickRedirect _) fun _ => Frame.bind (Frame.lift _) fun _ => Frame.bind Frame.read fun _ =>
      Frame.ite (fun _ => Frame.bind (making_addCodeChallenge _ _) fun _ => Frame.pure _) (fun _ => Frame.pure _)

theorem making_buildRequest (x : Ext) (srv : Srv) (args : Obj) (o : CallOpts) (kwargs : Obj) :
    Frame Making (buildRequest x srv args o kwargs) :=
  frame_buildRequest o (frame_construct args kwargs (fun _ => making_preConstruct _ _ _ _) (fun _ _ => making_postConstruct _ _ _ _))

theorem making_getRequestParameters (x : Ext) (srv : Srv) (args : Obj) (o : CallOpts) (kwargs : Obj) :
    Frame Making (getRequestParameters x srv args o kwargs) := by
  unfold getRequestParameters
  split
  · exact Frame.ask _
  · exact Frame.ask _
  · exact Frame.ask _
  · exact making_buildRequest _ _ _ _ _

theorem methodFor (c : Client) (srv : Srv) (o : CallOpts) :
    MethodFor c srv o (orElse o.method (attr c srv "http_method" (httpMethod srv))) := by
  unfold orElse
  by_cases h : o.method = ""
  · rw [if_pos h]
    unfold attr
    split
    · next s hs => exact .configured h hs
    · next hn => exact .usual h hn rfl
  · rw [if_neg h]; exact .given rfl h

/-! ## C92 -/

/-- **C92** (the request).  Whatever the arguments, a request that is made for a service has the method and goes to the endpoint it
should have, with its parameters where the method demands. -/
theorem C92_destination (x : Ext) (srv : Srv) (hs : ¬ Special srv) (args : Obj) (o : CallOpts) (kwargs : Obj) (c c' : Client)
    (info : ReqInfo) (h : getRequestParameters x srv args o kwargs c = (.ok info, c')) :
    ∃ u, Destination c srv kwargs u ∧ MethodFor c srv o info.method ∧ Carries x (sentFor srv info) u info.request := by
  have hb : buildRequest x srv args o kwargs c = (.ok info, c') := by
    cases srv <;> first | exact h | (exfalso; exact hs (by simp [Special]))
  have hm := making_buildRequest x srv args o kwargs c
  rw [hb] at hm
  obtain ⟨am, req, c1, hd, req', g1, g2, g3, g4⟩ := buildRequest_ok hb
  obtain ⟨u, k1, k2, k3, k4⟩ := carries_assembled g4
  refine ⟨u, ?_, ?_, by rw [k3]; exact k4⟩
  · unfold targetOf at k1
    split at k1
    · next v hv =>
      cases v <;> simp [asStr] at k1
      subst k1
      exact .given hv
    · next hv =>
      have hne : srv ≠ .registrationRead := fun e => hs (by simp [Special, e])
      unfold endpointOf at k1
      rw [if_neg hne] at k1
      split at k1
      · cases k1
      · next v hv' =>
        have hvu : v = .str u := by cases v <;> simp [asStr] at k1; rw [k1]
        subst hvu
        rcases (C44_endpoint_used _ _ _).1 hv' with ⟨e1, e2⟩ | ⟨e1, e2⟩
        · rw [hm.endpoints] at e1
          exact .own hv e1 (by simpa [Val.truthy] using e2)
        · rw [hm.endpoints] at e1
          rw [hm.info] at e2
          exact .published hv e1 e2
  · rw [k2]; exact methodFor c srv o

/-- **C92** (what is sent).  Making and sending a request for a service (`do_request`) sends pushes of authorization requests, only
if the add-on is used and only to the endpoint for it, and then at most one request: that of the service, with the method
and to the endpoint it should have. -/
theorem C92_sent (x : Ext) (srv : Srv) (hs : ¬ Special srv) (args : Obj) (o : CallOpts) (kwargs : Obj) (c : Client) :
    ∃ pushes last, (doRequest x srv args o kwargs c).2.log = c.log ++ pushes ++ last ∧ (∀ s ∈ pushes, Push c s) ∧
      (last = [] ∨ ∃ s u req, last = [s] ∧ s.srv = srv ∧ Destination c srv kwargs u ∧ MethodFor c srv o s.method ∧
        Carries x s u req) := by
  unfold doRequest
  rw [Py.read_bind_run]
  split
  · exact ⟨[], [], by simp [Py.raise], by simp, .inl rfl⟩
  · rw [Py.bind_run]
    have h0 := making_getRequestParameters x srv args o kwargs c
    rcases h : getRequestParameters x srv args o kwargs c with ⟨r, c1⟩
    rw [h] at h0
    obtain ⟨l, h1, h2⟩ := h0.log
    cases r with
    | error e => exact ⟨l, [], by simpa using h1, h2, .inl rfl⟩
    | ok info =>
      refine ⟨l, [sentFor srv info], ?_, h2, .inr ?_⟩
      · simp only
        rw [serviceRequest_log]
        rw [show c1.log = c.log ++ l from h1]
      · obtain ⟨u, d1, d2, d3⟩ := C92_destination x srv hs args o kwargs c c1 info h
        exact ⟨_, u, _, rfl, rfl, d1, d2, d3⟩

/-- **C92** (nowhere to go).  Without an endpoint no request is made: the call fails, and nothing but pushes is sent. -/
theorem C92_nowhere (x : Ext) (srv : Srv) (hs : ¬ Special srv) (args : Obj) (o : CallOpts) (kwargs : Obj) (c : Client)
    (hno : ∀ u, ¬ Destination c srv kwargs u) :
    (∃ e, (doRequest x srv args o kwargs c).1 = .error e) ∧
      ∃ pushes, (doRequest x srv args o kwargs c).2.log = c.log ++ pushes ∧ ∀ s ∈ pushes, Push c s := by
  unfold doRequest
  rw [Py.read_bind_run]
  split
  · exact ⟨⟨_, rfl⟩, [], by simp [Py.raise], by simp⟩
  · rw [Py.bind_run]
    have h0 := making_getRequestParameters x srv args o kwargs c
    rcases h : getRequestParameters x srv args o kwargs c with ⟨r, c1⟩
    rw [h] at h0
    cases r with
    | error e => exact ⟨⟨e, rfl⟩, h0.log⟩
    | ok info =>
      obtain ⟨u, d1, _⟩ := C92_destination x srv hs args o kwargs c c1 info h
      exact absurd d1 (hno u)

/-- **C92** (discovery).  Metadata is asked for with GET (unless the caller wants another method) at the well-known location below
the issuer, with exactly one slash, without parameters or a body, whatever the arguments of the call. -/
theorem C92_discovery (x : Ext) (srv : Srv) (hs : srv = .providerInfo ∨ srv = .oauth2ProviderInfo) (args : Obj) (o : CallOpts)
    (kwargs : Obj) (c : Client) :
    ∃ info, getRequestParameters x srv args o kwargs c = (.ok info, c) ∧ info.body = none ∧
      (o.method = "" → info.method = "GET") ∧ (o.method ≠ "" → info.method = o.method) ∧
      (∀ base, c.ctx.issuer = base ++ "/" → info.url = base ++ "/.well-known/openid-configuration") ∧
      ((∀ base, c.ctx.issuer ≠ base ++ "/") → info.url = c.ctx.issuer ++ "/.well-known/openid-configuration") := by
  refine ⟨{ url := Discovery.getEndpoint c.ctx, method := orElse o.method "GET" }, ?_, rfl, ?_, ?_, ?_, ?_⟩
  · rcases hs with rfl | rfl <;> rfl
  · intro h; simp [orElse, h]
  · intro h; simp [orElse, h]
  · intro base hb
    show Discovery.getEndpoint c.ctx = _
    unfold Discovery.getEndpoint
    rw [hb, if_pos ((Discovery.slash_iff _).2 ⟨_, rfl⟩), Discovery.chop_slash]
  · intro hb
    show Discovery.getEndpoint c.ctx = _
    unfold Discovery.getEndpoint
    rw [if_neg]
    intro he
    obtain ⟨t, ht⟩ := (Discovery.slash_iff _).1 he
    exact hb t ht

/-- **C92** (reading the registration).  The request goes to the endpoint given with the call, else to the location the provider
named in its registration response. -/
theorem C92_read_registration (x : Ext) (args : Obj) (o : CallOpts) (kwargs : Obj) (c c' : Client)
    (info : ReqInfo) (h : getRequestParameters x .registrationRead args o kwargs c = (.ok info, c'))
    (hreg : ∃ v, Dict.get? c.ctx.registrationResponse "registration_client_uri" = some v) :
    ∃ u, (Dict.get? kwargs "endpoint" = some (.str u) ∨ (Dict.get? kwargs "endpoint" = none ∧
        Dict.get? c.ctx.registrationResponse "registration_client_uri" = some (.str u))) ∧
      MethodFor c .registrationRead o info.method ∧ Carries x (sentFor .registrationRead info) u info.request := by
  have hb : buildRequest x .registrationRead args o kwargs c = (.ok info, c') := h
  obtain ⟨am, req, c1, hd, req', g1, g2, g3, g4⟩ := buildRequest_ok hb
  obtain ⟨u, k1, k2, k3, k4⟩ := carries_assembled g4
  refine ⟨u, ?_, ?_, by rw [k3]; exact k4⟩
  · have hctx : c'.ctx = c.ctx := by
      have := frame_buildRequest (R := OnlyDpop) o (frame_construct_reading (x := x) (srv := .registrationRead)
        (.inr (.inr (.inr rfl))) args kwargs) c
      rw [hb] at this
      obtain ⟨d, e⟩ := this
      rw [show c' = _ from e]
    unfold targetOf at k1
    split at k1
    · next v hv =>
      cases v <;> simp [asStr] at k1
      subst k1
      exact .inl hv
    · next hv =>
      unfold endpointOf Registration.readEndpoint at k1
      rw [if_pos rfl, hctx] at k1
      obtain ⟨v, hreg⟩ := hreg
      rw [hreg] at k1
      simp only [Option.getD_some] at k1
      right
      refine ⟨hv, ?_⟩
      rw [hreg]
      cases v <;> simp [asStr] at k1
      rw [k1]
  · rw [k2]; exact methodFor c _ o

/-- The full claim is violated: a client that was not told where to read its registration sends a request to the empty URL. -/
theorem C92_read_nowhere_violated : ∃ (x : Ext) (c : Client), Dict.get? c.ctx.registrationResponse "registration_client_uri" = none ∧
    c.log = [] ∧ (doRequest x .registrationRead [] {} [] c).2.log = [{ srv := .registrationRead, url := "", method := "GET", headers := [("Authorization", "Bearer RAT")] }] :=
  ⟨World.ext 1000 World.s1 "n1" "", { ctx := { registrationResponse := [("registration_access_token", .str "RAT")] }, services := [.registrationRead] },
    rfl, rfl, by rfl⟩

/-! ## Non-vacuity -/

/-- A client for the examples: an endpoint of its own for the token service, the others published. -/
def aimedClient : Client where
  ctx := {
    clientId := "client1"
    clientSecret := "secret1"
    issuer := "https://op.example/"
    providerInfo := World.metadata
    endpoints := [("accesstoken", .str "https://op.example/token2"), ("userinfo", .str "")] }
  services := [.accesstoken, .userinfo, .providerInfo, .checkId]
  conf := [("userinfo", [("http_method", .str "POST")])]

/-- The three kinds of destination and of method. -/
example : Destination aimedClient .accesstoken [] "https://op.example/token2" ∧ MethodFor aimedClient .accesstoken {} "POST" ∧
    Destination aimedClient .userinfo [] "https://op.example/userinfo" ∧ MethodFor aimedClient .userinfo {} "POST" ∧
    Destination aimedClient .userinfo [("endpoint", .str "https://other.example/ui")] "https://other.example/ui" ∧
    MethodFor aimedClient .userinfo { method := "GET" } "GET" :=
  ⟨.own rfl rfl (by decide), .usual rfl (by intro s; simp [aimedClient, confOf, Dict.get?, Srv.name]) rfl,
    .published rfl (by intro v hv; cases hv; rfl) rfl, .configured rfl rfl, .given rfl, .given rfl (by decide)⟩

/-- They are what is sent. -/
example :
    ((doRequest (World.ext 1000 World.s1 "n1" "") .userinfo [("access_token", .str "AT")] { method := "GET" }
      [("endpoint", .str "https://other.example/ui"), ("state", .str World.s1)] aimedClient).2.log.map (fun s => (s.url, s.method))) =
      [("https://other.example/ui", "GET")] ∧
    ((doRequest (World.ext 1000 World.s1 "n1" "") .userinfo [("access_token", .str "AT")] {} [("state", .str World.s1)] aimedClient).2.log.map
      (fun s => (s.url, s.method))) = [("https://op.example/userinfo", "POST")] ∧
    ((doRequest (World.ext 1000 World.s1 "n1" "") .providerInfo [] {} [] aimedClient).2.log.map (fun s => (s.url, s.method))) =
      [("https://op.example/.well-known/openid-configuration", "GET")] := by
  refine ⟨by rfl, by rfl, by rfl⟩

/-- A service without any endpoint. -/
example : ∀ u, ¬ Destination aimedClient .checkId [] u := by
  rintro u (h | ⟨_, h, _⟩ | ⟨_, _, h⟩)
  · cases h
  · simp [aimedClient, Dict.get?, Srv.name] at h
  · simp [aimedClient, World.metadata, Dict.get?, Srv.endpointName] at h

end Verif.Props
