import Verif.Props.Setup
import Verif.Props.Begin
import Verif.Props.SessionUse
import Verif.Lemmas.Discovery
/-!
# C59, C60, C61: DPoP and pushed authorization requests
-/

namespace Verif.Props
open Verif Verif.Service Verif.Handler Verif.StateInterface Verif.Spec.InFlight
open Verif.Spec.Store (KeySpace withoutEmpty)

/-! ## Specification -/

/-- DPoP is enabled for a client. -/
def Dpop (c : Client) : Prop := Dict.has c.ctx.addOn "dpop" = true

/-- `j` is a DPoP proof for a request by `method` to `url`, signed now by `key` with `alg`; the key is named in the
proof (RFC 9449, 4.2). -/
structure ProofFor (x : Ext) (j key alg method : String) (url : Val) : Prop where
  signed : ∃ claims, x.dpopSign key claims = .ok j ∧ Dict.get? claims "htm" = some (.str method) ∧
    Dict.get? claims "htu" = some url ∧ Dict.get? claims "alg" = some (.str alg) ∧
    Dict.get? claims "jwk" = some (.str key) ∧ Dict.get? claims "typ" = some (.str "dpop+jwt") ∧
    Dict.get? claims "iat" = some (.int x.now)

/-- `a` is the first of `mine` that is in `theirs`. -/
def FirstCommon (mine theirs : List String) (a : String) : Prop :=
  ∃ before after, mine = before ++ a :: after ∧ a ∈ theirs ∧ ∀ b ∈ before, b ∉ theirs

/-! ## What is sent -/

/-- Client authentication does not make a DPoP header. -/
theorem authn_noDpop {x : Ext} {srv : Srv} {request : Obj} {method : String} {kwargs : Obj} {c : Client} {h : Dict String} {r : Obj}
    (hr : authnHeader x srv request method kwargs c = .ok (h, r)) : Dict.get? h "dpop" = none := by
  unfold authnHeader at hr
  split at hr
  · unfold Registration.readHeader at hr
    split at hr
    · split at hr
      · injection hr with hr; injection hr with hr _; subst hr; rfl
      · cases hr
      · cases hr
    · injection hr with hr; injection hr with hr _; subst hr; rfl
  · split at hr
    · injection hr with hr; injection hr with hr _; subst hr; rfl
    · generalize hgen : authEnv x c srv = env at hr
      unfold ClientAuth.construct at hr
      split at hr
      · have hr' : ClientAuth.clientSecretBasic env kwargs [] request = .ok (h, r) := hr
        unfold ClientAuth.clientSecretBasic at hr'
        split at hr'
        · split at hr'
          · injection hr' with hr'; injection hr' with hr' _; subst hr'
            rw [Dict.get?_set_ne _ _ (by decide)]; rfl
          · cases hr'
        · cases hr'
        · cases hr'
      split at hr
      · unfold ClientAuth.clientSecretPost at hr
        cases hm : ClientAuth.postModify env kwargs request with
        | error e => rw [hm] at hr; cases hr
        | ok q => rw [hm] at hr; injection hr with hr; injection hr with hr _; subst hr; rfl
      split at hr
      · unfold ClientAuth.bearerHeader at hr
        simp only at hr
        split at hr
        · cases hr
        · split at hr
          · injection hr with hr; injection hr with hr _; subst hr
            rw [Dict.get?_set_ne _ _ (by decide)]; rfl
          · cases hr
      split at hr
      · unfold ClientAuth.bearerBody at hr
        cases hm : ClientAuth.bearerBodyModify env kwargs request with
        | error e => rw [hm] at hr; cases hr
        | ok q => rw [hm] at hr; injection hr with hr; injection hr with hr _; subst hr; rfl
      split at hr
      · unfold ClientAuth.jwtAuthn at hr
        cases hm : ClientAuth.jwtModify env .clientSecretJwt kwargs request with
        | error e => rw [hm] at hr; cases hr
        | ok q => rw [hm] at hr; injection hr with hr; injection hr with hr _; subst hr; rfl
      split at hr
      · unfold ClientAuth.jwtAuthn at hr
        cases hm : ClientAuth.jwtModify env .privateKeyJwt kwargs request with
        | error e => rw [hm] at hr; cases hr
        | ok q => rw [hm] at hr; injection hr with hr; injection hr with hr _; subst hr; rfl
      · cases hr

theorem dpopHeader_ok {x : Ext} {srv : Srv} {m : String} {hd h : Dict String} {c c' : Client}
    (hr : dpopHeader x srv m hd c = (.ok h, c')) :
    (dpopKeyFor x c = .ok none ∧ h = hd ∧ c' = c) ∨
    (∃ key alg u j, dpopKeyFor x c = .ok (some (key, alg)) ∧ c' = { c with dpopKey := some (key, alg) } ∧
      Dict.get? c.ctx.providerInfo srv.endpointName = some u ∧ x.dpopSign key (dpopClaims x key alg m u) = .ok j ∧
      h = Dict.set hd "dpop" j) := by
  unfold dpopHeader at hr
  obtain ⟨ko, c1, h1, h2⟩ := Py.bind_eq_ok.1 hr
  have hko : dpopKeyFor x c = .ok ko := congrArg Prod.fst h1
  obtain rfl : c1 = c := (congrArg Prod.snd h1).symm
  cases ko with
  | none =>
    left
    simp only [Py.pure_run, Prod.mk.injEq, Except.ok.injEq] at h2
    exact ⟨hko, h2.1.symm, h2.2.symm⟩
  | some ka =>
    right
    obtain ⟨key, alg⟩ := ka
    simp only [Py.modify_bind_run] at h2
    obtain ⟨htu, c3, h3, h4⟩ := Py.bind_eq_ok.1 h2
    have hh : Dict.getItem c1.ctx.providerInfo srv.endpointName = .ok htu := congrArg Prod.fst h3
    have hc3 : { c1 with dpopKey := some (key, alg) } = c3 := congrArg Prod.snd h3
    obtain ⟨j, c4, h5, h6⟩ := Py.bind_eq_ok.1 h4
    obtain ⟨h5', h5''⟩ := Py.lift_eq_ok.1 h5
    simp only [Py.pure_run, Prod.mk.injEq, Except.ok.injEq] at h6
    exact ⟨key, alg, htu, j, hko, by rw [← h6.2, ← h5'', hc3], Dict.getItem_eq_ok.1 hh, h5', h6.1.symm⟩

/-- The DPoP header of a token or userinfo request, and the key used. -/
theorem request_proof {x : Ext} {srv : Srv} (hs : srv.name = "accesstoken" ∨ srv.name = "userinfo") {args kwargs : Obj} {o : CallOpts}
    {c c' : Client} {info : ReqInfo} (h : getRequestParameters x srv args o kwargs c = (.ok info, c')) (hd : Dpop c) :
    (dpopKeyFor x c = .ok none ∧ c' = c ∧ Dict.get? info.headers "dpop" = none) ∨
    (∃ key alg u j, dpopKeyFor x c = .ok (some (key, alg)) ∧ c' = { c with dpopKey := some (key, alg) } ∧
      Dict.get? c.ctx.providerInfo srv.endpointName = some u ∧ Dict.get? info.headers "dpop" = some j ∧
      ProofFor x j key alg info.method u) := by
  have h : buildRequest x srv args o kwargs c = (.ok info, c') := by
    cases srv <;> first | exact h | (exfalso; revert hs; decide)
  have hs' : srv ≠ .authorization ∧ srv ≠ .oauth2Authorization ∧ srv ≠ .endSession ∧ srv ≠ .registration := by
    cases srv <;> first | decide | (exfalso; revert hs; decide)
  obtain ⟨am, req, c1, hd1, req', a1, a2, a3, a4⟩ := buildRequest_ok h
  have hc1 : c = c1 := by
    have hi : FrameRel (fun a b : Client => a = b) := ⟨fun _ => rfl, fun h h' => h.trans h'⟩
    have := frame_construct_reading' (R := fun a b : Client => a = b) (x := x) hs' args kwargs c
    rw [a2] at this
    exact this
  subst hc1
  obtain ⟨m, h0, b1, b2, b3⟩ := getHeaders_ok a3
  obtain ⟨url, e1, e2, e3, e4, e5⟩ := assemble_ok a4
  have hhead : Dict.get? info.headers "dpop" = Dict.get? hd1 "dpop" := by
    rcases e5 with ⟨_, b, _, _, e6⟩ | ⟨_, _, e6⟩
    · rw [e6, Dict.get?_set_ne _ _ (by decide)]
    · rw [e6]
  have huse : usesDpop c.ctx srv = true := by
    unfold usesDpop
    rw [show Dict.has c.ctx.addOn "dpop" = true from hd]
    simpa using hs
  rw [huse] at b3
  rcases b3 with ⟨b3, _⟩ | ⟨_, b3⟩
  · cases b3
  · rcases dpopHeader_ok b3 with ⟨k1, k2, k3⟩ | ⟨key, alg, u, j, k1, k2, k3, k4, k5⟩
    · left
      exact ⟨k1, k3, by rw [hhead, k2]; exact authn_noDpop b2⟩
    · right
      refine ⟨key, alg, u, j, k1, k2, k3, by rw [hhead, k5, Dict.get?_set_self], ?_⟩
      rw [e3]
      exact ⟨_, k4, rfl, rfl, rfl, rfl, rfl, rfl⟩

/-! ## C59 -/

/-- The requests go where the metadata say. -/
def AsAdvertised (c : Client) (srv : Srv) (kwargs : Obj) : Prop :=
  Dict.get? kwargs "endpoint" = none ∧
  ∀ u, Dict.get? c.ctx.providerInfo srv.endpointName = some u → Discovery.serviceEndpoint c.ctx srv = .ok u

/-- **C59** (the part that holds).  A DPoP header of a token or userinfo request is a proof for the HTTP method of the
request and the URL it is sent to (without the query), if the request goes to the endpoint in the metadata; it is
made with the DPoP key of the client, which is the one it had if it had one. -/
theorem C59_proof_describes_request_partial (x : Ext) (srv : Srv) (hs : srv.name = "accesstoken" ∨ srv.name = "userinfo") (args kwargs : Obj)
    (o : CallOpts) (c c' : Client) (info : ReqInfo) (h : getRequestParameters x srv args o kwargs c = (.ok info, c'))
    (hd : Dpop c) (hadv : AsAdvertised c srv kwargs) (j : String) (hj : Dict.get? info.headers "dpop" = some j) :
    ∃ key alg url, c'.dpopKey = some (key, alg) ∧ (∀ k, c.dpopKey = some k → k = (key, alg)) ∧
      ProofFor x j key alg info.method (.str url) ∧
      info.url = Util.getHttpUrl (x.ser srv) url info.request info.method := by
  rcases request_proof hs h hd with ⟨_, _, h3⟩ | ⟨key, alg, u, j', h1, h2, h3, h4, h5⟩
  · rw [h3] at hj; cases hj
  · rw [h4] at hj
    injection hj with hj
    subst hj
    have hep := hadv.2 u h3
    have hb : buildRequest x srv args o kwargs c = (.ok info, c') := by
      cases srv <;> first | exact h | (exfalso; revert hs; decide)
    obtain ⟨am, req, c1, hd1, req', a1, a2, a3, a4⟩ := buildRequest_ok hb
    obtain ⟨url, e1, e2, e3, e4, e5⟩ := assemble_ok a4
    have hne : srv ≠ .registrationRead := by rintro rfl; revert hs; decide
    have hurl : u = .str url := by
      unfold targetOf endpointOf at e1
      rw [hadv.1] at e1
      simp only [if_neg hne] at e1
      have hc' : c'.ctx = c.ctx := by rw [h2]
      rw [hc', hep] at e1
      cases u <;> simp [asStr] at e1
      rw [e1]
    refine ⟨key, alg, url, by rw [h2], ?_, hurl ▸ h5, by rw [e2, e4, e3]⟩
    intro k hk
    unfold dpopKeyFor at h1
    rw [hk] at h1
    injection h1 with h1
    injection h1

/-- **C59** (key and algorithm do not change).  Once a client has a DPoP key, it has the same key and algorithm after
every history of calls in which it is not set up anew. -/
theorem C59_key_is_kept (h : Handler) (hp : PlainHandler h) (i : String) (c : Client) (k : String × String)
    (hc : Dict.get? h.issuer2rp i = some c) (hk : c.dpopKey = some k) (calls : List (Ext × Call))
    (hdrawn : ∀ xc ∈ calls, StateDrawn xc) (hkeep : NeverReplaced i calls h) :
    ∃ c', Dict.get? (run calls h).issuer2rp i = some c' ∧ c'.dpopKey = some k := by
  obtain ⟨c', h1, h2⟩ := hasClient_run calls hp ⟨c, hc, FrameRel.refl _⟩ hdrawn hkeep
  exact ⟨c', h1, h2.key k hk⟩

/-! ## C60 -/

/-- The algorithms the client is configured with and those the provider announces. -/
def Algorithms (c : Client) (mine theirs : List String) : Prop :=
  Dict.get? (addOnConf c.ctx "dpop") "sign_algs" = some (.list (mine.map .str)) ∧ (∀ a ∈ mine, a ≠ "") ∧
  Dict.get? c.ctx.providerInfo "dpop_signing_alg_values_supported" = some (.list (theirs.map .str))

theorem find_common (mine theirs : List String) :
    (∃ a, FirstCommon mine theirs a ∧ (mine.map Val.str).find? (fun v => decide (v ∈ theirs.map Val.str)) = some (.str a)) ∨
    ((∀ a ∈ mine, a ∉ theirs) ∧ (mine.map Val.str).find? (fun v => decide (v ∈ theirs.map Val.str)) = none) := by
  induction mine with
  | nil => right; exact ⟨by simp, rfl⟩
  | cons a l ih =>
    by_cases ha : a ∈ theirs
    · left
      refine ⟨a, ⟨[], l, rfl, ha, by simp⟩, ?_⟩
      simp [ha]
    · have hn : (Val.str a) ∉ theirs.map Val.str := by
        simp only [List.mem_map, not_exists, not_and]
        intro b hb e
        injection e with e
        subst e
        exact ha hb
      rcases ih with ⟨b, ⟨p, q, e1, e2, e3⟩, hf⟩ | ⟨hno, hf⟩
      · left
        refine ⟨b, ⟨a :: p, q, by rw [e1]; rfl, e2, ?_⟩, ?_⟩
        · intro d hd
          rcases List.mem_cons.1 hd with rfl | hd
          · exact ha
          · exact e3 d hd
        · simp only [List.map_cons, List.find?]
          rw [decide_eq_false hn]
          exact hf
      · right
        refine ⟨?_, ?_⟩
        · intro d hd
          rcases List.mem_cons.1 hd with rfl | hd
          · exact ha
          · exact hno d hd
        · simp only [List.map_cons, List.find?]
          rw [decide_eq_false hn]
          exact hf

theorem dpopAlg_common {c : Client} {mine theirs : List String} (ha : Algorithms c mine theirs) :
    (∃ a, FirstCommon mine theirs a ∧ dpopAlg c.ctx = .ok (some a)) ∨
    ((∀ a ∈ mine, a ∉ theirs) ∧ dpopAlg c.ctx = .ok none) := by
  obtain ⟨h1, h2, h3⟩ := ha
  have hg : Dict.getItem c.ctx.providerInfo "dpop_signing_alg_values_supported" = .ok (.list (theirs.map .str)) :=
    Dict.getItem_eq_ok.2 h3
  by_cases ht : theirs = []
  · subst ht
    right
    refine ⟨by simp, ?_⟩
    unfold dpopAlg
    rw [hg]
    rfl
  · have htr : (Val.list (theirs.map .str)).truthy = true := by
      cases theirs with
      | nil => exact absurd rfl ht
      | cons a l => rfl
    rcases find_common mine theirs with ⟨a, f1, f2⟩ | ⟨f1, f2⟩
    · left
      refine ⟨a, f1, ?_⟩
      unfold dpopAlg
      rw [hg]
      simp only [htr, if_true, h1, Discovery.firstSupported_list, f2]
      obtain ⟨p, q, e1, _, _⟩ := f1
      have : a ≠ "" := h2 a (by rw [e1]; simp)
      simp [this]
    · right
      refine ⟨f1, ?_⟩
      unfold dpopAlg
      rw [hg]
      simp only [htr, if_true, h1, Discovery.firstSupported_list, f2]

/-- **C60** (the part that holds).  When a client without DPoP key makes a token or userinfo request to a provider that
announces DPoP algorithms, the algorithm is the first of its own that the provider announces: the proof is made with it and a new key
for it.  With none in common there is no DPoP header and no key is made. -/
theorem C60_common_algorithm_partial (x : Ext) (srv : Srv) (hs : srv.name = "accesstoken" ∨ srv.name = "userinfo") (args kwargs : Obj)
    (o : CallOpts) (c c' : Client) (info : ReqInfo) (h : getRequestParameters x srv args o kwargs c = (.ok info, c'))
    (hd : Dpop c) (hnew : c.dpopKey = none) (mine theirs : List String) (ha : Algorithms c mine theirs) :
    (∃ a j u, FirstCommon mine theirs a ∧ c'.dpopKey = some (x.mintKey a, a) ∧ Dict.get? info.headers "dpop" = some j ∧
      ProofFor x j (x.mintKey a) a info.method u) ∨
    ((∀ a ∈ mine, a ∉ theirs) ∧ c'.dpopKey = none ∧ Dict.get? info.headers "dpop" = none) := by
  have hk : dpopKeyFor x c = (dpopAlg c.ctx).map (fun o => o.map (fun a => (x.mintKey a, a))) := by
    unfold dpopKeyFor; rw [hnew]
  rcases dpopAlg_common ha with ⟨a, f1, f2⟩ | ⟨f1, f2⟩
  · left
    rw [f2] at hk
    rcases request_proof hs h hd with ⟨h1, _⟩ | ⟨key, alg, u, j, h1, h2, h3, h4, h5⟩
    · rw [hk] at h1; cases h1
    · rw [hk] at h1
      injection h1 with h1
      injection h1 with h1
      injection h1 with h1 h6
      subst h1; subst h6
      exact ⟨a, j, u, f1, by rw [h2], h4, h5⟩
  · right
    rw [f2] at hk
    rcases request_proof hs h hd with ⟨h1, h2, h3⟩ | ⟨key, alg, u, j, h1, _⟩
    · exact ⟨f1, by rw [h2]; exact hnew, h3⟩
    · rw [hk] at h1; cases h1

/-! ## Examples and violations -/

/-- A handler whose clients use DPoP with the given algorithms. -/
def dpopHandler (algs : List Val) : Handler :=
  { World.handler with configs := [("", { World.conf with addOn := [("dpop", .obj [("sign_algs", .list algs)])] })] }

/-- A client of it that has started a session. -/
def dpopClient (x : Ext) (algs : List Val) : Option Client :=
  Dict.get? (begin_ x "https://op.example" "" [] [] (dpopHandler algs)).2.issuer2rp "https://op.example"

/-- Circumstances in which a proof shows what it claims. -/
def proofWorld : Ext :=
  { World.ext 1000 World.s1 "n1" "" with
    dpopSign := fun k cl => .ok (k ++ "|" ++ (match Dict.get? cl "htu" with
      | some (.str u) => u
      | _ => "")) }

/-- Its token request. -/
def tokenAsk (x : Ext) (c : Client) (kwargs : Obj) : Except Exc ReqInfo × Client :=
  getRequestParameters x .accesstoken [("code", .str "code1"), ("state", .str World.s1)] {} kwargs c

set_option maxRecDepth 20000 in
/-- Non-vacuity of C59 and C60: the client has algorithms in common with the provider, the requests go to the
announced endpoint, the proof is made, and there is a key afterwards. -/
example :
    (dpopClient proofWorld [.str "PS256", .str "RS256", .str "ES256"]).map (fun c =>
      (Dict.has c.ctx.addOn "dpop", c.dpopKey, (Discovery.serviceEndpoint c.ctx .accesstoken).toOption,
        Dict.get? c.ctx.providerInfo "token_endpoint")) =
      some (true, none, some (.str "https://op.example/token"), some (.str "https://op.example/token")) ∧
    (dpopClient proofWorld [.str "PS256", .str "RS256", .str "ES256"]).map (fun c =>
      ((tokenAsk proofWorld c []).1.toOption.map (fun i => (i.url, Dict.get? i.headers "dpop")), (tokenAsk proofWorld c []).2.dpopKey)) =
      some (some ("https://op.example/token", some "key-RS256|https://op.example/token"), some ("key-RS256", "RS256")) ∧
    FirstCommon ["PS256", "RS256", "ES256"] ["ES256", "RS256"] "RS256" ∧
    (dpopClient proofWorld [.str "PS256", .str "RS256", .str "ES256"]).map (fun c =>
      (Dict.get? (addOnConf c.ctx "dpop") "sign_algs", Dict.get? c.ctx.providerInfo "dpop_signing_alg_values_supported")) =
      some (some (.list [.str "PS256", .str "RS256", .str "ES256"]), some (.list [.str "ES256", .str "RS256"])) ∧
    (dpopClient proofWorld [.str "PS256"]).map (fun c =>
      ((tokenAsk proofWorld c []).1.toOption.map (fun i => Dict.get? i.headers "dpop"), (tokenAsk proofWorld c []).2.dpopKey)) =
      some (some none, none) := by
  refine ⟨by rfl, by rfl, ⟨["PS256"], ["ES256"], rfl, by decide, by decide⟩, by rfl, by rfl⟩

set_option maxRecDepth 20000 in
/-- **C59** is violated when the caller gives the endpoint: the request goes there, the proof is for the endpoint in the
metadata. -/
theorem C59_other_endpoint_violated :
    (dpopClient proofWorld [.str "RS256"]).map (fun c =>
      (tokenAsk proofWorld c [("endpoint", .str "https://other.example/token")]).1.toOption.map
        (fun i => (i.url, Dict.get? i.headers "dpop"))) =
      some (some ("https://other.example/token", some "key-RS256|https://op.example/token")) := by
  rfl

set_option maxRecDepth 20000 in
/-- **C60** is violated when the provider announces no DPoP algorithms: instead of a request without proof there is a `KeyError`. -/
theorem C60_not_announced_violated :
    (dpopClient proofWorld [.str "RS256"]).map (fun c =>
      (Dict.get? (Dict.del c.ctx.providerInfo "dpop_signing_alg_values_supported") "token_endpoint",
       (tokenAsk proofWorld { c with ctx := { c.ctx with
          providerInfo := Dict.del c.ctx.providerInfo "dpop_signing_alg_values_supported" } } []).1)) =
      some (some (.str "https://op.example/token"), .error .keyError) := by
  rfl

/-! ## C61 -/

/-- The authorization service is used plainly, but for request objects and pushed requests. -/
structure PlainFrontChannel (c : Client) : Prop where
  authn : attr c .authorization "default_authn_method" "" = ""
  method : attr c .authorization "http_method" "GET" = "GET"

/-- No request object is asked for. -/
structure NoRequestObject (c : Client) (behaviourArgs : Obj) : Prop where
  pre : Dict.get? (confOf c .authorization) "pre_construct" = none
  post : Dict.get? (confOf c .authorization) "post_construct" = none
  param : Dict.get? behaviourArgs "request_param" = none

/-- `f` has the parameters `given`, in lax mode the required parameters of `q`, and nothing else. -/
def Replaced (t : MsgType) (lax : Bool) (name : String) (value : Val) (q f : Obj) : Prop :=
  ∀ p, (p ∈ t.required → lax = true → Dict.get? f p = some ((Dict.get? q p).getD .null)) ∧
    (¬ (p ∈ t.required ∧ lax = true) → Dict.get? f p = if p = name then some value else none)

theorem get?_requiredOf (l : List String) (q m : Obj) (p : String) :
    Dict.get? (l.foldl (fun m p => Dict.set m p ((Dict.get? q p).getD .null)) m) p =
      if p ∈ l then some ((Dict.get? q p).getD .null) else Dict.get? m p := by
  induction l generalizing m with
  | nil => simp
  | cons a l ih =>
    simp only [List.foldl_cons]
    rw [ih]
    by_cases h1 : p ∈ l
    · simp [h1]
    · by_cases h2 : p = a
      · subst h2
        simp [h1, Dict.get?_set_self]
      · simp [h1, h2, Dict.get?_set_ne _ _ (Ne.symm h2)]

theorem replaced_lax (t : MsgType) (lax : Bool) (name : String) (value : Val) (q : Obj) :
    Replaced t lax name value q (if lax then requiredOf t q [(name, value)] else [(name, value)]) := by
  intro p
  have h0 : Dict.get? [(name, value)] p = if p = name then some value else none := by
    rw [Dict.get?_cons]
    by_cases h : p = name
    · simp [h]
    · simp [h, Ne.symm h]
  cases lax with
  | false => simpa using h0
  | true =>
    unfold requiredOf
    rw [if_pos rfl, get?_requiredOf, h0]
    by_cases h : p ∈ t.required <;> simp [h]

/-- The merge rule is `lax`. -/
def lax (c : Client) : Bool := decide (Dict.get? (addOnConf c.ctx "pushed_authorization") "merge_rule" = some (.str "lax"))

/-- The request is pushed as a form, or as a JWS (`request`). -/
def PushedForm (x : Ext) (c : Client) (q : Obj) (body : String) : Prop :=
  (Dict.get? (addOnConf c.ctx "pushed_authorization") "body_format" = some (.str "urlencoded") ∧
    body = Util.toUrlencoded (x.ser .authorization) q) ∨
  (Dict.get? (addOnConf c.ctx "pushed_authorization") "body_format" ≠ some (.str "urlencoded") ∧
    ∃ ctx jws m, x.parJws ctx q = .ok jws ∧ Replaced (x.msg .authorization) (lax c) "request" (.str jws) q m ∧
      body = Util.toUrlencoded (x.ser .authorization) m)

theorem no_requestObject {x : Ext} {req b : Obj} {c c' : Client} {url k : String} (t : AuthTrace x req b c url k c')
    (hpl : NoRequestObject c b) : t.q = t.r := by
  have h1 := t.hq
  have h2 : Dict.get? (postKwargs c b t.pre.2) "request_param" = none := by
    have h3 := t.hpre
    have h4 : t.pre.2 = prePostArgs (preKwargs c b) := by
      unfold authorizationPre at h3
      split at h3
      · cases h3
      · split at h3
        · cases h3
        · injection h3 with h3
          exact (congrArg Prod.snd h3).symm
    have h5 : preKwargs c b = [("behaviour_args", .obj b)] := by
      unfold preKwargs methodArgs
      rw [hpl.pre]
    have h6 : prePostArgs [("behaviour_args", .obj b)] = [] := rfl
    unfold postKwargs methodArgs
    rw [hpl.post, h4, h5, h6]
    show Dict.get? (Dict.update [] b) _ = _
    rw [get?_update_none _ hpl.param]
    rfl
  unfold requestObject at h1
  rw [h2] at h1
  injection h1 with h1
  exact h1.symm

theorem front_url {x : Ext} {req b : Obj} {c c' : Client} {url k : String} (t : AuthTrace x req b c url k c')
    (hpl : PlainFrontChannel c) : ∃ u, Discovery.serviceEndpoint c.ctx .authorization = .ok (.str u) ∧
      url = Util.getHttpUrl (x.ser .authorization) u t.f "GET" := by
  have hps := aliasScope_same req c.ctx
  obtain ⟨am, hd, f', i1, i2, i3⟩ := t.hinfo
  rw [hpl.authn] at i1
  subst i1
  have hf' : f' = t.f := by
    unfold authnHeader at i2
    rw [if_neg (by decide), if_pos rfl] at i2
    injection i2 with i2
    injection i2 with _ i2
    exact i2.symm
  rw [hf', hpl.method] at i3
  obtain ⟨u, a1, a2, _⟩ := assemble_ok i3
  refine ⟨u, ?_, t.hurl.trans a2⟩
  have a1' : (match Discovery.serviceEndpoint c'.ctx .authorization with
    | .error e => .error e
    | .ok v => asStr v) = Except.ok u := a1
  have hep : Discovery.serviceEndpoint c'.ctx .authorization = Discovery.serviceEndpoint c.ctx .authorization := by
    unfold Discovery.serviceEndpoint
    rw [t.hctx, hps.2.2.1, hps.2.2.2]
  rw [hep] at a1'
  split at a1'
  · cases a1'
  · next v hv =>
    unfold asStr at a1'
    split at a1'
    · injection a1' with a1'; subst a1'; exact hv
    · cases a1'

/-- **C61** (the part that holds).  When a session is started with pushed authorization requests, one HTTP request is made, to the
PAR endpoint in the metadata, with the whole authorization request `q` as a form or as a JWS; `q` is the request stored in
the session unless a request object is asked for.  If the answer has status 200 and a `request_uri` that is not empty, the
front channel gets that and, in lax mode, the required parameters; with another status it gets `q`. -/
theorem C61_pushed_request_partial {K : String → Prop} (hK : KeySpace K) (x : Ext) (req b : Obj) (c c' : Client) (url k : String)
    (hkx : K (x.rnd "init_state")) (hp : PlainConf c.conf) (h : initAuthorization x req b c = (.ok (url, k), c'))
    (hpar : Dict.has c.ctx.addOn "pushed_authorization" = true) (hpl : PlainFrontChannel c) :
    ∃ r q body par u resp, getItem c'.db "auth_request" k = .ok (withoutEmpty r) ∧
      (NoRequestObject c b → q = r) ∧
      Dict.get? c.ctx.providerInfo "pushed_authorization_request_endpoint" = some (.str par) ∧
      Discovery.serviceEndpoint c.ctx .authorization = .ok (.str u) ∧
      c'.log = c.log ++ [{ srv := .authorization, url := par, method := "GET", body := some (.text body) }] ∧
      PushedForm x c q body ∧
      x.http c.log { srv := .authorization, url := par, method := "GET", body := some (.text body) } = .ok resp ∧
      (resp.status = 200 → ∃ m uri, x.loads resp.text = .ok m ∧ Dict.get? (withoutEmpty m) "request_uri" = some uri ∧
        ∃ f, Replaced (x.msg .authorization) (lax c) "request_uri" uri q f ∧
          url = Util.getHttpUrl (x.ser .authorization) u f "GET") ∧
      (resp.status ≠ 200 → url = Util.getHttpUrl (x.ser .authorization) u q "GET") := by
  obtain ⟨t⟩ := authTrace hK hkx hp h
  have hps := aliasScope_same req c.ctx
  have hao : addOnConf (aliasScope req c.ctx) "pushed_authorization" = addOnConf c.ctx "pushed_authorization" := by
    unfold addOnConf; rw [hps.2.1]
  have hlax : parLax (aliasScope req c.ctx) = lax c := by unfold parLax lax; rw [hao]
  obtain ⟨u, u1, u2⟩ := front_url t hpl
  rcases t.hf with ⟨e, _⟩ | ⟨_, body, par, resp, p1, p2, p3, p4, p5⟩
  · rw [hps.2.1, hpar] at e; cases e
  · refine ⟨t.r, t.q, body, par, u, resp, ?_, no_requestObject t, ?_, u1, p5, ?_, p3, ?_, ?_⟩
    · unfold getItem
      rw [t.hrecord]
      simp only [Dict.get?_set_self, asItem, Msg.ofDict_eq_withoutEmpty]
    · rw [hps.2.2.1] at p2; exact p2
    · unfold parBody at p1
      rw [hlax, hao] at p1
      unfold PushedForm
      split at p1
      · next hb =>
        left
        injection p1 with p1
        exact ⟨hb, p1.symm⟩
      · next hb =>
        right
        refine ⟨hb, ?_⟩
        cases hj : x.parJws (aliasScope req c.ctx) t.q with
        | error e => rw [hj] at p1; cases p1
        | ok j =>
          rw [hj] at p1
          injection p1 with p1
          exact ⟨_, j, _, hj, replaced_lax _ _ _ _ _, p1.symm⟩
    · intro hst
      unfold parAnswer at p4
      rw [if_pos hst] at p4
      split at p4
      · cases p4
      · next m hm =>
        split at p4
        · cases p4
        · next v hv =>
          injection p4 with p4
          have hv' := Dict.getItem_eq_ok.1 hv
          have hne : Msg.emptyVal v = false := Msg.ofDict_noEmpty _ _ (Dict.get?_eq_some_mem hv')
          refine ⟨m, v, hm, by rw [← Msg.ofDict_eq_withoutEmpty]; exact hv', t.f, ?_, u2⟩
          rw [← p4]
          unfold parRequest
          rw [hlax]
          have : Msg.ofDict [("request_uri", v)] = [("request_uri", v)] :=
            Msg.ofDict_of_noEmpty (by intro p hp; simp at hp; subst hp; exact hne)
          rw [this]
          exact replaced_lax _ _ _ _ _
    · intro hst
      unfold parAnswer at p4
      rw [if_neg hst] at p4
      injection p4 with p4
      rw [p4]
      exact u2

/-- A handler whose clients push their requests. -/
def parHandler (merge : String) (body : String) : Handler :=
  { World.handler with configs := [("", { World.conf with addOn := [("pushed_authorization",
      .obj [("body_format", .str body), ("merge_rule", .str merge)])] })] }

/-- What is sent last, and the front channel. -/
def parRun (x : Ext) (merge body : String) : Option String × Option (Option (String × String × Option Util.Body)) :=
  let r := begin_ x "https://op.example" "" [] [] (parHandler merge body)
  (r.1.toOption.map Prod.fst, (Dict.get? r.2.issuer2rp "https://op.example").map (fun c => c.log.getLast?.map (fun s => (s.url, s.method, s.body))))

/-- Circumstances in which the PAR endpoint answers with the given status. -/
def parStatus (n : Nat) : Ext :=
  { World.ext 1000 World.s1 "n1" "" with
    http := fun _ s => .ok (if s.url = "https://op.example/par" then { World.answer s with status := n } else World.answer s) }

set_option maxRecDepth 20000 in
/-- Non-vacuity of C61: the strict and the lax mode and the fall back. -/
example :
    parRun (parStatus 200) "strict" "urlencoded" =
      (some "https://op.example/auth?request_uri=urn%3Apar%3A1", some (some ("https://op.example/par", "GET",
        some (.text ("redirect_uri=https%3A%2F%2Frp.example%2Fcb&scope=openid&response_type=code&nonce=n1&" ++
          "state=abcdefghijklmnopqrstuvwxyzABCDE1&client_id=client1"))))) ∧
    parRun (parStatus 200) "lax" "jws" =
      (some ("https://op.example/auth?request_uri=urn%3Apar%3A1&response_type=code&client_id=client1&scope=openid&" ++
          "redirect_uri=https%3A%2F%2Frp.example%2Fcb"), some (some ("https://op.example/par", "GET",
        some (.text ("request=signed-request&response_type=code&client_id=client1&scope=openid&" ++
          "redirect_uri=https%3A%2F%2Frp.example%2Fcb"))))) ∧
    (parRun (parStatus 400) "strict" "jws").1 =
      some ("https://op.example/auth?redirect_uri=https%3A%2F%2Frp.example%2Fcb&scope=openid&response_type=code&nonce=n1&" ++
        "state=abcdefghijklmnopqrstuvwxyzABCDE1&client_id=client1") ∧
    (Dict.get? (begin_ (parStatus 200) "https://op.example" "" [] [] (parHandler "lax" "jws")).2.issuer2rp "https://op.example").map
      (fun c => (Dict.has c.ctx.addOn "pushed_authorization", attr c .authorization "default_authn_method" "",
        attr c .authorization "http_method" "GET", lax c)) = some (true, "", "GET", true) := by
  refine ⟨by rfl, by rfl, by rfl, by rfl⟩

set_option maxRecDepth 20000 in
/-- **C61** is violated by a provider that follows RFC 9126: the answer to a successful push has the status 201, and then the request is
sent on the front channel all the same. -/
theorem C61_created_violated :
    (parRun (parStatus 201) "strict" "urlencoded").1 =
      some ("https://op.example/auth?redirect_uri=https%3A%2F%2Frp.example%2Fcb&scope=openid&response_type=code&nonce=n1&" ++
        "state=abcdefghijklmnopqrstuvwxyzABCDE1&client_id=client1") := by
  rfl

end Verif.Props
