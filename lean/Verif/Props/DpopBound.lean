import Verif.Lemmas.Carried
import Verif.Props.AddOn
import Verif.Props.Target
/-!
# C120: token and userinfo requests prove possession of one key
-/

namespace Verif.Props
open Verif Verif.Service Verif.Handler Verif.StateInterface Verif.Spec.InFlight Verif.Spec.Wire

/-! ## Specification -/

/-- The client can bind its tokens: DPoP is enabled, there is a key or an algorithm both sides support, and the endpoints used are
those in the metadata. -/
structure Binds (c : Client) : Prop where
  dpop : Dpop c
  algorithm : (∃ k, c.dpopKey = some k) ∨ ∃ mine theirs a, Algorithms c mine theirs ∧ a ∈ mine ∧ a ∈ theirs
  advertised : ∀ srv, srv = .accesstoken ∨ srv = .userinfo → ∀ u, Dict.get? c.ctx.providerInfo srv.endpointName = some u →
    Discovery.serviceEndpoint c.ctx srv = .ok u

/-- The request `s`, made in one of the circumstances `X`, has a proof of possession of `key`, for its method and the URL it is sent
to (without the query). -/
def Proved (X : Ext → Prop) (key alg : String) (s : Sent) : Prop :=
  ∃ x j url req, X x ∧ Dict.get? s.headers "dpop" = some j ∧ ProofFor x j key alg s.method (.str url) ∧ Carries x s url req

/-! ## Proof -/

/-- What calls in the circumstances `X` do to a client. -/
structure Proving (X : Ext → Prop) (c c' : Client) : Prop where
  same : SameClient c c'
  log : ∃ l, c'.log = c.log ++ l ∧ (Binds c → ∀ s ∈ l, s.srv = .accesstoken ∨ s.srv = .userinfo →
    ∃ key alg, c'.dpopKey = some (key, alg) ∧ Proved X key alg s)

theorem binds_same {c c' : Client} (h : SameClient c c') (hb : Binds c) : Binds c' := by
  obtain ⟨b, hctx⟩ := h.ctx
  obtain ⟨h1, h2, h3⟩ := hb
  refine ⟨?_, ?_, ?_⟩
  · unfold Dpop at h1 ⊢; rw [hctx]; exact h1
  · rcases h2 with ⟨k, hk⟩ | ⟨mine, theirs, a, ha, hm⟩
    · exact Or.inl ⟨k, h.key k hk⟩
    · refine Or.inr ⟨mine, theirs, a, ?_, hm⟩
      unfold Algorithms at ha ⊢
      rw [hctx]
      exact ha
  · intro srv hs u hu
    rw [hctx] at hu ⊢
    exact h3 srv hs u hu

variable {X : Ext → Prop}

instance : FrameRel (Proving X) where
  refl c := ⟨FrameRel.refl c, [], by simp, by simp⟩
  trans := by
    rintro c d e ⟨h1, l, h2, h3⟩ ⟨g1, m, g2, g3⟩
    refine ⟨FrameRel.trans h1 g1, l ++ m, by rw [g2, h2, List.append_assoc], fun hb s hs ht => ?_⟩
    rcases List.mem_append.1 hs with hs | hs
    · obtain ⟨key, alg, k1, k2⟩ := h3 hb s hs ht
      exact ⟨key, alg, g1.key _ k1, k2⟩
    · exact g3 (binds_same h1 hb) s hs ht

theorem Proving.quiet {c c' : Client} (h : SameClient c c') (hl : c'.log = c.log) : Proving X c c' :=
  ⟨h, [], by simpa using hl, by simp⟩

instance : ShareRel (Proving X) where
  share cfg b c := by
    unfold sharedClient
    split
    · exact .quiet ⟨⟨b, rfl⟩, rfl, rfl, rfl, fun _ => id⟩ rfl
    · exact FrameRel.refl _

theorem proving_onDB {α : Type} (m : Py DB α) : Frame (Proving X) (onDB m) :=
  fun _ => .quiet ⟨SameSetup.refl _, rfl, rfl, rfl, fun _ => id⟩ rfl

theorem common_key {x : Ext} {c : Client} (hb : Binds c) : ∃ key alg, dpopKeyFor x c = .ok (some (key, alg)) := by
  unfold dpopKeyFor
  rcases hb.algorithm with ⟨k, hk⟩ | ⟨mine, theirs, a, ha, hm, ht⟩
  · rw [hk]; exact ⟨k.1, k.2, rfl⟩
  · cases hk : c.dpopKey with
    | some k => exact ⟨k.1, k.2, rfl⟩
    | none =>
      rcases dpopAlg_common ha with ⟨a', _, h2⟩ | ⟨h1, _⟩
      · rw [h2]; exact ⟨_, _, rfl⟩
      · exact absurd ht (h1 a hm)

/-- A token or userinfo request that is made has a proof with the key. -/
theorem request_proved {x : Ext} (hx : X x) {srv : Srv} (hs : srv = .accesstoken ∨ srv = .userinfo) {args : Obj} {o : CallOpts} {k : String}
    {c c' : Client} {info : ReqInfo} (h : getRequestParameters x srv args o [("state", .str k)] c = (.ok info, c')) (hb : Binds c) :
    ∃ key alg, c'.dpopKey = some (key, alg) ∧ Proved X key alg (sentFor srv info) := by
  have hn : srv.name = "accesstoken" ∨ srv.name = "userinfo" := by rcases hs with rfl | rfl <;> simp [Srv.name]
  obtain ⟨key0, alg0, hk0⟩ := common_key (x := x) hb
  rcases request_proof hn h hb.dpop with ⟨h1, _⟩ | ⟨key, alg, u, j, h1, h2, h3, h4, h5⟩
  · rw [hk0] at h1; cases h1
  · obtain ⟨u', d1, d2, d3⟩ := C92_destination x srv (by rcases hs with rfl | rfl <;> simp [Special]) args o _ c c' info h
    have hep : Discovery.serviceEndpoint c.ctx srv = .ok (.str u') := by
      cases d1 with
      | given e => simp [Dict.get?] at e
      | own _ e1 e2 => exact (C44_endpoint_used _ _ _).2 (Or.inl ⟨e1, by simpa [Val.truthy] using e2⟩)
      | published _ e1 e2 => exact (C44_endpoint_used _ _ _).2 (Or.inr ⟨e1, e2⟩)
    rw [hb.advertised srv hs u h3] at hep
    injection hep with hep
    subst hep
    exact ⟨key, alg, by rw [h2], x, j, u', info.request, hx, h4, h5, d3⟩

/-- Making and sending a token, refresh or userinfo request. -/
theorem proving_doRequest {x : Ext} (hx : X x) {srv : Srv} (hs : srv = .accesstoken ∨ srv = .refreshToken ∨ srv = .userinfo)
    (args : Obj) (o : CallOpts) (k : String) : Frame (Proving X) (doRequest x srv args o [("state", .str k)]) := by
  intro c
  have hsame := (local_doRequest (x := x) hs args o k c).sameClient
  have hno : Frame NoSend (getRequestParameters x srv args o [("state", .str k)]) :=
    frame_request_reading (by rcases hs with h | h | h <;> simp [h]) args o _
  rcases doRequest_log hno c with h | ⟨info, c1, h1, h2⟩
  · exact .quiet hsame h
  · refine ⟨hsame, [sentFor srv info], h2, fun hb s hs1 ht => ?_⟩
    rw [List.mem_singleton] at hs1
    subst hs1
    have ht : srv = .accesstoken ∨ srv = .userinfo := ht
    obtain ⟨key, alg, g1, g2⟩ := request_proved hx ht h1 hb
    refine ⟨key, alg, ?_, g2⟩
    -- the key stays while the answer is taken in
    have hrun : doRequest x srv args o [("state", .str k)] c =
        if srv ∉ c.services then (.error .keyError, c) else serviceRequest x srv info
          (orElse o.responseBodyType (attr c srv "response_body_type" (responseBodyType srv))) k c1 := by
      unfold doRequest
      rw [Py.read_bind_run]
      split
      · rfl
      · rw [Py.bind_ok h1]
        have hk : stateOf [("state", Val.str k)] = k := by simp [stateOf, Dict.get?]
        rw [hk]
    have hmem : srv ∈ c.services := by
      refine Classical.byContradiction fun hn => ?_
      rw [hrun, if_pos hn] at h2
      simp at h2
    rw [hrun, if_neg (by simpa using hmem)]
    have hl : Frame (Local k) (serviceRequest x srv info
        (orElse o.responseBodyType (attr c srv "response_body_type" (responseBodyType srv))) k) :=
      frame_serviceRequest _ _ (fun _ => local_postParse _ _ _ _ (Or.inl rfl)) (fun _ => local_postParse _ _ _ _ (Or.inr rfl))
        (fun _ => local_updateMsg (by rcases hs with h | h | h <;> simp [h]) _ _)
    exact (hl c1).key _ g1

theorem proving_getTokens {x : Ext} (hx : X x) (k : String) : Frame (Proving X) (getTokens x k) := by
  unfold getTokens
  exact Frame.bind (Frame.ask _) fun _ => Frame.bind (Frame.ask _) fun _ =>
    Frame.bind (proving_doRequest hx (Or.inl rfl) _ _ _) fun _ => Frame.bind (Frame.lift _) fun _ => Frame.pure _

theorem proving_refresh {x : Ext} (hx : X x) (k sc : String) : Frame (Proving X) (refreshAccessToken x k sc) := by
  unfold refreshAccessToken
  exact Frame.bind (Frame.ask _) fun _ =>
    Frame.bind (proving_doRequest hx (Or.inr (Or.inl rfl)) _ _ _) fun _ => Frame.bind (Frame.lift _) fun _ => Frame.pure _

theorem proving_userInfo {x : Ext} (hx : X x) (k : String) (t : Val) : Frame (Proving X) (getUserInfo x k t) := by
  unfold getUserInfo
  exact Frame.bind (Frame.ask _) fun _ =>
    Frame.bind (proving_doRequest hx (Or.inr (Or.inr rfl)) _ _ _) fun _ => Frame.bind (Frame.lift _) fun _ => Frame.pure _

/-- What only pushes authorization requests needs no proofs. -/
theorem proving_of_making {c c' : Client} (h : SameClient c c') (hm : Making c c') : Proving X c c' := by
  obtain ⟨l, h1, h2⟩ := hm.log
  refine ⟨h, l, h1, fun _ s hs ht => ?_⟩
  have := (h2 s hs).1
  rw [this] at ht
  rcases ht with e | e <;> cases e

theorem proving_logout (x : Ext) (k u : String) : Frame (Proving X) (logout x k u) := by
  intro c
  refine proving_of_making (local_logout x k u c).sameClient ?_
  have : Frame Making (logout x k u) := by
    unfold logout
    exact Frame.bind Frame.read fun _ => Frame.ite (fun _ => Frame.raise _) (fun _ => making_getRequestParameters _ _ _ _ _)
  exact this c

theorem making_init (x : Ext) (req b : Obj) : Frame Making (initAuthorization x req b) := by
  unfold initAuthorization
  refine Frame.bind (Frame.ask _) fun _ => Frame.bind Frame.read fun c => Frame.bind (making_onDB _) fun _ =>
    Frame.bind (making_onDB _) fun _ => Frame.ite (fun _ => Frame.raise _) (fun _ => ?_)
  refine Frame.bind ?_ fun _ => Frame.bind (making_getRequestParameters _ _ _ _ _) fun _ => Frame.pure _
  intro c
  obtain ⟨bh, hb⟩ := aliasScope_setup req c.ctx
  have hc : (onCtx (Py.modify (aliasScope req)) c).2.ctx = { c.ctx with behaviour := bh } := hb
  exact ⟨by rw [hc], by rw [hc], by rw [hc], [], by simp [onCtx], by simp⟩

theorem proving_endpointTokens {x : Ext} (hx : X x) (k : String) : Frame (Proving X) (endpointTokens x k) := by
  unfold endpointTokens
  exact Frame.bind (proving_getTokens hx _) fun _ => Frame.bind (Frame.lift _) fun _ => Frame.bind (Frame.lift _) fun _ => Frame.pure _

theorem proving_finalizeTokens {x : Ext} (hx : X x) (resp : Obj) (k : String) (b : Obj) :
    Frame (Proving X) (finalizeTokens x resp k b) := by
  unfold finalizeTokens
  refine Frame.bind ?_ fun _ => Frame.bind ?_ fun _ => Frame.bind ?_ fun _ => Frame.bind ?_ fun _ => Frame.pure _
  · unfold getAccessAndIdToken
    refine Frame.bind (Frame.ask _) fun rt => Frame.bind (Frame.lift _) fun idt => Frame.ite (fun _ => ?_) (fun _ => ?_)
    · exact Frame.bind (Frame.lift _) fun _ => Frame.ite (fun _ => proving_endpointTokens hx _) (fun _ => Frame.pure _)
    · exact Frame.ite (fun _ => proving_endpointTokens hx _) (fun _ => Frame.pure _)
  · unfold collectUserInfo
    refine Frame.bind Frame.read fun c => Frame.ite (fun _ => ?_) (fun _ => ?_)
    · exact Frame.bind (proving_userInfo hx _ _) fun _ => Frame.pure _
    · refine Frame.ite (fun _ => ?_) (fun _ => Frame.pure _)
      split
      · exact Frame.pure _
      · exact Frame.raise _
  · unfold bindSid
    refine Frame.bind Frame.read fun c => Frame.ite (fun _ => ?_) (fun _ => Frame.pure _)
    split
    · exact Frame.pure _
    · exact Frame.raise _
    · exact Frame.bind (Frame.lift _) fun _ => proving_onDB _
  · unfold bindSub
    exact Frame.bind (Frame.lift _) fun _ => Frame.bind (Frame.lift _) fun _ => proving_onDB _

theorem proving_finalizeClient {x : Ext} (hx : X x) (issuer : String) (response b : Obj) :
    Frame (Proving X) (finalizeClient x issuer response b) := by
  unfold finalizeClient
  refine Frame.bind ?_ fun resp => ?_
  · intro c
    rcases finalizeAuth_cases x issuer response c with ⟨e, he⟩ | ⟨resp, _, _, ⟨hie, hf⟩ | ⟨hie, κ, st, resp', k1, k2, k3, k4, hf⟩⟩
    · rw [he]; exact FrameRel.refl _
    · rw [hf]; exact FrameRel.refl _
    · rw [hf]; exact .quiet ⟨SameSetup.refl _, rfl, rfl, rfl, fun _ => id⟩ rfl
  · exact Frame.bind (Frame.lift _) fun sv => Frame.ite (fun _ => Frame.bind (Frame.lift _) fun _ => Frame.pure _)
      (fun _ => Frame.bind (Frame.lift _) fun k => proving_finalizeTokens hx _ _ _)

theorem respects_proving : Respects X (Proving X) where
  init x req b c _ hd hp := proving_of_making (begins_init x req b hd c hp).sameClient (making_init x req b c)
  finalize _ issuer response b c hx := proving_finalizeClient hx issuer response b c
  tokens _ k c hx := proving_getTokens hx k c
  refresh _ k sc c hx := proving_refresh hx k sc c
  userInfo _ k t c hx := proving_userInfo hx k t c
  logout x k u c _ := proving_logout x k u c
  clear _ c := proving_onDB _ c

/-! ## C120 -/

/-- **C120** (the part that holds).  In every history of calls of a handler, every token request (with a code) and every userinfo
request that a client which can bind its tokens sends has a proof of possession, for the method and the URL of the request and made
at the time of it; all are made with one key, and the client keeps it. -/
theorem C120_one_key_partial (h : Handler) (hp : PlainHandler h) (i : String) (c : Client) (hc : Dict.get? h.issuer2rp i = some c)
    (hb : Binds c) (calls : List (Ext × Call)) (hdrawn : ∀ xc ∈ calls, StateDrawn xc) (hkeep : NeverReplaced i calls h) :
    ∃ c' l, Dict.get? (run calls h).issuer2rp i = some c' ∧ c'.log = c.log ++ l ∧ Binds c' ∧
      (∀ k, c.dpopKey = some k → c'.dpopKey = some k) ∧
      ∀ s ∈ l, s.srv = .accesstoken ∨ s.srv = .userinfo →
        ∃ key alg, c'.dpopKey = some (key, alg) ∧ Proved (fun x => ∃ call, (x, call) ∈ calls) key alg s := by
  obtain ⟨c', h1, h2⟩ := hasRel_run (R := Proving (fun x => ∃ call, (x, call) ∈ calls)) (c := c) (i := i) respects_proving calls hp
    ⟨c, hc, FrameRel.refl c⟩ (fun xc hx => ⟨xc.2, hx⟩) hdrawn hkeep
  obtain ⟨l, h3, h4⟩ := h2.log
  exact ⟨c', l, h1, h3, binds_same h2.same hb, h2.same.key, h4 hb⟩

/-! ## Examples and violations -/

/-- Circumstances in which a proof shows what it claims. -/
def boundWorld (now : Int) : Ext :=
  { World.ext now World.s1 "n1" "n1" with
    dpopSign := fun k cl => .ok (k ++ "|" ++ (match Dict.get? cl "htm", Dict.get? cl "htu" with
      | some (.str m), some (.str u) => m ++ " " ++ u
      | _, _ => "")) }

/-- A handler with a DPoP client that has started a session. -/
def boundStart : Handler :=
  (exec (boundWorld 1000) (.begin "https://op.example" "" [] []) (dpopHandler [.str "PS256", .str "RS256", .str "ES256"])).2

/-- Its client. -/
def boundClient (h : Handler) : Client := (Dict.get? h.issuer2rp "https://op.example").getD default

/-- A login, another userinfo request and a refresh. -/
def boundCalls : List (Ext × Call) :=
  [(boundWorld 1001, .finalize "https://op.example" [("code", .str "c1"), ("state", .str World.s1)] []),
   (boundWorld 1002, .userInfo World.s1 (.str "AT1")),
   (boundWorld 1003, .refresh World.s1 "")]

/-- What the client sends in it: service, proof, authorization. -/
def boundSent : List (Srv × Option String × Option String) :=
  ((boundClient (run boundCalls boundStart)).log.drop (boundClient boundStart).log.length).map
    (fun s => (s.srv, Dict.get? s.headers "dpop", Dict.get? s.headers "Authorization"))

theorem bound_plain : PlainHandler boundStart := by
  have h0 : (boundWorld 1000).rnd "init_state" ≠ "" := by decide
  refine plain_exec (h := dpopHandler [.str "PS256", .str "RS256", .str "ES256"])
    ⟨?_, ?_⟩ (boundWorld 1000, .begin "https://op.example" "" [] []) h0
  · intro n cc h
    simp only [dpopHandler, List.mem_singleton, Prod.mk.injEq] at h
    rw [h.2]
    unfold PlainConf
    simp [World.conf]
  · intro i c h; cases h

set_option maxRecDepth 100000 in
theorem bound_binds : Binds (boundClient boundStart) := by
  refine ⟨by rfl, Or.inr ⟨["PS256", "RS256", "ES256"], ["ES256", "RS256"], "RS256", ⟨by rfl, by decide, by rfl⟩, by decide, by decide⟩, ?_⟩
  intro srv hs u hu
  rcases hs with rfl | rfl
  · have h1 : Dict.get? (boundClient boundStart).ctx.providerInfo (Srv.endpointName .accesstoken) = some (.str "https://op.example/token") := by rfl
    have h2 : Discovery.serviceEndpoint (boundClient boundStart).ctx .accesstoken = .ok (.str "https://op.example/token") := by rfl
    rw [h1] at hu; injection hu with hu; rw [← hu]; exact h2
  · have h1 : Dict.get? (boundClient boundStart).ctx.providerInfo (Srv.endpointName .userinfo) = some (.str "https://op.example/userinfo") := by rfl
    have h2 : Discovery.serviceEndpoint (boundClient boundStart).ctx .userinfo = .ok (.str "https://op.example/userinfo") := by rfl
    rw [h1] at hu; injection hu with hu; rw [← hu]; exact h2

set_option maxRecDepth 100000 in
/-- Non-vacuity of C120: a client that can bind its tokens and has no key yet, and a history in which it sends two userinfo requests, a
token request and a refresh request: the first three have proofs, with the key it has then. -/
example : PlainHandler boundStart ∧ (Dict.get? boundStart.issuer2rp "https://op.example").isSome ∧ Binds (boundClient boundStart) ∧
    (boundClient boundStart).dpopKey = none ∧ (∀ xc ∈ boundCalls, StateDrawn xc) ∧ NeverReplaced "https://op.example" boundCalls boundStart ∧
    boundSent.take 3 = [(.accesstoken, some "key-RS256|POST https://op.example/token", some "Basic Y2xpZW50MTpzZWNyZXQx"),
      (.userinfo, some "key-RS256|GET https://op.example/userinfo", some "Bearer AT1"),
      (.userinfo, some "key-RS256|GET https://op.example/userinfo", some "Bearer AT1")] ∧
    (boundClient (run boundCalls boundStart)).dpopKey = some ("key-RS256", "RS256") :=
  ⟨bound_plain, by rfl, bound_binds, by rfl, by simp [boundCalls, StateDrawn], ⟨trivial, trivial, trivial, trivial⟩,
    by decide +kernel, by decide +kernel⟩

set_option maxRecDepth 100000 in
/-- **C120** is violated by refreshing: the request, which goes to the token endpoint as well, has no proof (the add-on covers the services
`accesstoken` and `userinfo` only), although the client has a key. -/
theorem C120_refresh_violated : Binds (boundClient boundStart) ∧
    boundSent.drop 3 = [(.refreshToken, none, some "Basic Y2xpZW50MTpzZWNyZXQx")] :=
  ⟨bound_binds, by decide +kernel⟩

set_option maxRecDepth 100000 in
/-- **C120** is violated by the way the token is presented: the scheme is `Bearer`, not `DPoP` (RFC 9449, 7.1), though the request has a
proof; resource servers that know DPoP must not take it as proof of possession. -/
theorem C120_scheme_violated : Binds (boundClient boundStart) ∧
    (boundSent.filter (fun r => decide (r.1 = .userinfo))).map (fun r => (r.2.1.isSome, r.2.2)) =
      [(true, some "Bearer AT1"), (true, some "Bearer AT1")] :=
  ⟨bound_binds, by decide +kernel⟩

end Verif.Props
