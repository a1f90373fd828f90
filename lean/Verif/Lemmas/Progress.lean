import Verif.Lemmas.Exchange
/-!
# When requests are made and answers are taken in

The other direction of `Lemmas/Requests.lean` and `Lemmas/Response.lean`: sufficient conditions for the steps of a
request to succeed.
-/

namespace Verif
open Service

namespace StateInterface

theorem extend_progress {db : DB} {k t : String} {st : Obj} (h : getState db k = .ok st)
    (ht : Dict.get? st t = none ∨ ∃ o, Dict.get? st t = some (.obj o)) (args : Obj) (ps : List String) :
    ∃ a, extendRequestArgs db args t k ps = .ok a := by
  unfold extendRequestArgs getItem
  rw [h]
  rcases ht with ht | ⟨o, ht⟩ <;> simp [ht, asItem]

theorem multi_progress {db : DB} {k : String} {st : Obj} (h : getState db k = .ok st) (ps : List String) (orig : Bool) :
    ∀ items args, (∀ t ∈ items, Dict.get? st t = none ∨ ∃ o, Dict.get? st t = some (.obj o)) →
      ∃ a, multipleExtendRequestArgs db args k ps items orig = .ok a := by
  unfold multipleExtendRequestArgs
  rw [h]
  simp only
  intro items
  induction items with
  | nil => intro args _; exact ⟨_, rfl⟩
  | cons t l ih =>
    intro args hl
    unfold multiExtendLoop
    rcases hl t (by simp) with ht | ⟨o, ht⟩ <;> rw [ht] <;> exact ih _ (fun u hu => hl u (by simp [hu]))

theorem storeX2State_progress {db : DB} {v k : String} {t : XTyp}
    (h : ∀ s, Dict.get? db (refKey k) ≠ some (.raw s)) :
    ∃ db', storeX2State v k t db = (.ok (), db') ∧ (∀ s, Dict.get? db' (refKey k) ≠ some (.raw s)) ∧
      (∀ q, q ≠ indexKey t v → q ≠ refKey k → Dict.get? db' q = Dict.get? db q) ∧
      Dict.get? db' (indexKey t v) = some (.raw k) := by
  unfold storeX2State
  have e : Dict.get? (Dict.set db (indexKey t v) (.raw k)) (refKey k) = Dict.get? db (refKey k) :=
    Dict.get?_set_ne _ _ (indexKey_ne_refKey _ _ _)
  simp only [e]
  cases hg : Dict.get? db (refKey k) with
  | none =>
    refine ⟨_, rfl, fun s => by simp [Dict.get?_set_self], fun q h1 h2 => ?_, ?_⟩
    · rw [Dict.get?_set_ne _ _ (Ne.symm h2), Dict.get?_set_ne _ _ (Ne.symm h1)]
    · rw [Dict.get?_set_ne _ _ (refKey_ne_indexKey _ _ _), Dict.get?_set_self]
  | some w =>
    cases w with
    | raw s => exact absurd hg (h s)
    | doc refs =>
      refine ⟨_, rfl, fun s => by simp [Dict.get?_set_self], fun q h1 h2 => ?_, ?_⟩
      · rw [Dict.get?_set_ne _ _ (Ne.symm h2), Dict.get?_set_ne _ _ (Ne.symm h1)]
      · rw [Dict.get?_set_ne _ _ (refKey_ne_indexKey _ _ _), Dict.get?_set_self]

theorem getState_congr {db db' : DB} {k : String} (h : Dict.get? db' k = Dict.get? db k) :
    getState db' k = getState db k := by
  unfold getState; rw [h]

end StateInterface

namespace Util

theorem getHttpBody_progress (ser : Ser) (req : Obj) (bt : String) :
    ∃ b, getHttpBody ser req (contentType bt) = .ok b := by
  have h : contentType bt = URL_ENCODED ∨ contentType bt = JOSE_ENCODED ∨ contentType bt = JSON_ENCODED := by
    unfold contentType
    split
    · simp
    · split <;> simp
  unfold getHttpBody
  rcases h with h | h | h <;> rw [h]
  · rw [if_pos (by decide +kernel)]; exact ⟨_, rfl⟩
  · rw [if_neg (by decide +kernel), if_neg (by decide +kernel), if_pos (by decide +kernel)]; exact ⟨_, rfl⟩
  · rw [if_neg (by decide +kernel), if_pos (by decide +kernel)]; exact ⟨_, rfl⟩

end Util

namespace Service

theorem assemble_progress {x : Ext} {srv : Srv} {kwargs : Obj} {c : Client} {url : String}
    (h : targetOf srv kwargs c = .ok url) (req : Obj) (method bt : String) (hd : Dict String) :
    ∃ info, assemble x srv req method bt hd kwargs c = .ok info := by
  unfold assemble
  rw [h]
  simp only
  split
  · obtain ⟨b, hb⟩ := Util.getHttpBody_progress (x.ser srv) req bt
    rw [hb]
    exact ⟨_, rfl⟩
  · exact ⟨_, rfl⟩

theorem getHeaders_progress {x : Ext} {srv : Srv} {request : Obj} {am m : String} {kwargs : Obj} {c : Client}
    {r : Dict String × Obj} (hd : usesDpop c.ctx srv = false)
    (hm : (if am = "" then getAuthnMethod c srv else .ok am) = .ok m)
    (ha : authnHeader x srv request m (Dict.set kwargs "authn_endpoint" (.str srv.endpointName)) c = .ok r) (hm' : String) :
    getHeaders x srv request hm' am kwargs c = (.ok r, c) := by
  unfold getHeaders
  rw [ask_bind_ok hm, ask_bind_ok ha, Py.read_bind_run, hd]
  rfl

/-- The client does not use DPoP, or it has a DPoP key, can sign with it, and has the provider's metadata for the endpoint. -/
def CanProve (x : Ext) (c : Client) (srv : Srv) : Prop :=
  usesDpop c.ctx srv = false ∨ ∃ key alg htu, c.dpopKey = some (key, alg) ∧
    Dict.get? c.ctx.providerInfo srv.endpointName = some htu ∧ ∀ claims, ∃ jws, x.dpopSign key claims = .ok jws

theorem getHeaders_proving {x : Ext} {srv : Srv} {request : Obj} {am m : String} {kwargs : Obj} {c : Client}
    {r : Dict String × Obj} (hd : CanProve x c srv)
    (hm : (if am = "" then getAuthnMethod c srv else .ok am) = .ok m)
    (ha : authnHeader x srv request m (Dict.set kwargs "authn_endpoint" (.str srv.endpointName)) c = .ok r) (hm' : String) :
    ∃ h, getHeaders x srv request hm' am kwargs c = (.ok (h, r.2), c) := by
  rcases hd with hd | ⟨key, alg, htu, h1, h2, h3⟩
  · exact ⟨r.1, getHeaders_progress hd hm ha hm'⟩
  · unfold getHeaders
    rw [ask_bind_ok hm, ask_bind_ok ha, Py.read_bind_run]
    split
    · obtain ⟨jws, hj⟩ := h3 (dpopClaims x key alg hm' htu)
      refine ⟨Dict.set r.1 "dpop" jws, ?_⟩
      have hk : dpopKeyFor x c = .ok (some (key, alg)) := by unfold dpopKeyFor; rw [h1]
      have hc : { c with dpopKey := some (key, alg) } = c := by rw [← h1]
      have hrun : dpopHeader x srv hm' r.1 c = (.ok (Dict.set r.1 "dpop" jws), c) := by
        unfold dpopHeader
        rw [ask_bind_ok hk]
        dsimp only
        rw [Py.modify_bind_run, hc, ask_bind_ok (Dict.getItem_eq_ok.2 h2), Py.lift_bind_ok hj]
        rfl
      rw [Py.bind_ok hrun]
      rfl
    · exact ⟨r.1, rfl⟩

/-- A request whose message can be made, whose client can authenticate and whose endpoint is known is made. -/
theorem buildRequest_proving {x : Ext} {srv : Srv} {args : Obj} {o : CallOpts} {kwargs : Obj} {c : Client}
    {am m url : String} {req : Obj} {r : Dict String × Obj} (hd : CanProve x c srv)
    (ham : (if o.authnMethod = "" then getAuthnMethod c srv else .ok o.authnMethod) = .ok am)
    (hm : (if am = "" then getAuthnMethod c srv else .ok am) = .ok m)
    (hc : construct x srv args kwargs c = (.ok req, c))
    (ha : authnHeader x srv req m (Dict.set (withIss c kwargs) "authn_endpoint" (.str srv.endpointName)) c = .ok r)
    (ht : targetOf srv kwargs c = .ok url) :
    ∃ info, buildRequest x srv args o kwargs c = (.ok info, c) := by
  unfold buildRequest
  obtain ⟨h, hh⟩ := getHeaders_proving (x := x) hd hm ha (orElse o.method (attr c srv "http_method" (httpMethod srv)))
  rw [Py.read_bind_run, ask_bind_ok ham, Py.bind_ok hc, Py.bind_ok hh]
  obtain ⟨info, h⟩ := assemble_progress (x := x) ht r.2 (orElse o.method (attr c srv "http_method" (httpMethod srv)))
    (orElse o.requestBodyType (attr c srv "request_body_type" (requestBodyType srv))) h
  exact ⟨info, by unfold ask; rw [h]⟩

/-- The same without DPoP. -/
theorem buildRequest_progress {x : Ext} {srv : Srv} {args : Obj} {o : CallOpts} {kwargs : Obj} {c : Client}
    {am m url : String} {req : Obj} {r : Dict String × Obj} (hd : usesDpop c.ctx srv = false)
    (ham : (if o.authnMethod = "" then getAuthnMethod c srv else .ok o.authnMethod) = .ok am)
    (hm : (if am = "" then getAuthnMethod c srv else .ok am) = .ok m)
    (hc : construct x srv args kwargs c = (.ok req, c))
    (ha : authnHeader x srv req m (Dict.set (withIss c kwargs) "authn_endpoint" (.str srv.endpointName)) c = .ok r)
    (ht : targetOf srv kwargs c = .ok url) :
    ∃ info, buildRequest x srv args o kwargs c = (.ok info, c) := by
  unfold buildRequest
  rw [Py.read_bind_run, ask_bind_ok ham, Py.bind_ok hc,
    Py.bind_ok (getHeaders_progress hd hm ha _)]
  obtain ⟨info, h⟩ := assemble_progress (x := x) ht r.2 (orElse o.method (attr c srv "http_method" (httpMethod srv)))
    (orElse o.requestBodyType (attr c srv "request_body_type" (requestBodyType srv))) r.1
  exact ⟨info, by unfold ask; rw [h]⟩

theorem tokenPre_progress {params : List String} {args kwargs : Obj} {c : Client} {k : String} {st : Obj}
    (hs : Dict.get? kwargs "state" = some (.str k)) (hst : StateInterface.getState c.db k = .ok st)
    (h1 : ∃ o, Dict.get? st "auth_request" = some (.obj o)) (h2 : ∃ o, Dict.get? st "auth_response" = some (.obj o)) :
    ∃ a, tokenPre params args kwargs c = .ok a := by
  unfold tokenPre
  rw [getStateParameter_kwargs hs]
  simp only [dbKey]
  obtain ⟨a, ha⟩ := StateInterface.extend_progress hst (Or.inr h1) [] params
  obtain ⟨b, hb⟩ := StateInterface.extend_progress hst (Or.inr h2) a params
  rw [ha]
  simp only [hb]
  exact ⟨_, rfl⟩

/-- The body of the answer `rt` is read as the message `p`, which is no error, and verified with result `v`. -/
def Understood (x : Ext) (c : Client) (srv : Srv) (rt : HttpResp) (p v : Obj) : Prop :=
  let bt := attr c srv "response_body_type" (responseBodyType srv)
  rt.status ∈ SUCCESSFUL ∧ bt ≠ "html" ∧ valueType rt bt ≠ "" ∧ isJose (valueType rt bt) = false ∧
  parseInfo x c.ctx srv (.text rt.text) (valueType rt bt) = .ok p ∧ Msg.isError p = false ∧
  x.verify c.ctx srv p (gatherVerify c.ctx srv) = .ok v

theorem status_lt {n : Int} (h : n ∈ SUCCESSFUL) : n < 300 := by
  simp only [SUCCESSFUL, List.mem_cons, List.not_mem_nil, or_false] at h
  omega

theorem parse_progress {x : Ext} {c : Client} {srv : Srv} {rt : HttpResp} {p v o : Obj} {state : String} {c1 c2 : Client}
    (hu : Understood x c srv rt p v) (hc1 : c1.ctx = c.ctx)
    (hpost : postParse x srv v state c1 = (.ok o, c2)) (ho : o ≠ []) :
    parseResponse x srv (.text rt.text) (valueType rt (attr c srv "response_body_type" (responseBodyType srv))) state c1
      = (.ok (.msg o), c2) := by
  obtain ⟨-, -, hne, hj, hp, he, hv⟩ := hu
  have hf : ∀ f, f ≠ "" → formatOf c1 srv f = f := fun f hf => by unfold formatOf orElse; rw [if_neg hf]
  rw [parseResponse_plain (by rw [hf _ hne]; exact hj), hf _ hne, hc1, hp]
  simp only
  unfold verified checkedResponse
  rw [he]
  simp only [Bool.false_eq_true, if_false]
  rw [Py.bind_ok (a := o) (s' := c2)]
  · cases o with
    | nil => exact absurd rfl ho
    | cons => rfl
  · rw [ask_bind_ok (by rw [hc1]; exact hv)]
    exact hpost

theorem attr_congr {c c' : Client} (h : c'.conf = c.conf) (srv : Srv) (n d : String) : attr c' srv n d = attr c srv n d := by
  unfold attr confOf; rw [h]

theorem getResponse_progress {x : Ext} {c : Client} {srv : Srv} {rt : HttpResp} {p v o : Obj} {info : ReqInfo} {k : String}
    {c2 : Client} (hh : x.http c.log (sentFor srv info) = .ok rt) (hu : Understood x c srv rt p v)
    (hpost : postParse x srv v k { c with log := c.log ++ [sentFor srv info] } = (.ok o, c2)) (ho : o ≠ []) :
    getResponse x srv info (attr c srv "response_body_type" (responseBodyType srv)) k c = (.ok (.msg o), c2) := by
  unfold getResponse
  rw [Py.bind_ok (a := rt) (s' := { c with log := c.log ++ [sentFor srv info] })]
  · rw [Py.read_bind_run]
    have hlt := status_lt hu.1
    have hat : attr { c with log := c.log ++ [sentFor srv info] } srv "response_body_type" (responseBodyType srv)
        = attr c srv "response_body_type" (responseBodyType srv) := attr_congr rfl _ _ _
    have hbt : orElse (attr c srv "response_body_type" (responseBodyType srv))
        (attr c srv "response_body_type" (responseBodyType srv)) = attr c srv "response_body_type" (responseBodyType srv) := by
      unfold orElse; split <;> rfl
    simp only [hat, hbt]
    rw [if_neg (by omega), if_neg (fun h => hu.2.1 h.2), if_pos hlt]
    unfold parseRequestResponse
    rw [if_pos hu.1]
    exact parse_progress hu rfl hpost ho
  · have e : send x (sentFor srv info) c = (.ok rt, { c with log := c.log ++ [sentFor srv info] }) := by
      unfold send; rw [hh]
    exact e

/-- A request that is made, answered and understood is taken in. -/
theorem doRequest_progress {x : Ext} {c : Client} {srv : Srv} {args : Obj} {o : CallOpts} {rt : HttpResp} {p v m : Obj}
    {info : ReqInfo} {k : String} {c2 : Client} (hs : srv ∈ c.services) (ho : o.responseBodyType = "")
    (hg : getRequestParameters x srv args o [("state", .str k)] c = (.ok info, c))
    (hh : x.http c.log (sentFor srv info) = .ok rt) (hu : Understood x c srv rt p v)
    (hpost : postParse x srv v k { c with log := c.log ++ [sentFor srv info] } = (.ok m, c2)) (hm : m ≠ [])
    (he : Msg.isError m = false) :
    doRequest x srv args o [("state", .str k)] c =
      match updateMsg x srv m k c2 with
      | (.ok o', c3) => (.ok (.msg o'), c3)
      | (.error e, c3) => (.error e, c3) := by
  unfold doRequest
  rw [Py.read_bind_run, if_neg (by simpa using hs), Py.bind_ok hg, ho]
  have hk : stateOf [("state", .str k)] = k := by simp [stateOf, Dict.get?]
  rw [hk]
  unfold serviceRequest
  have hor : ∀ t : String, orElse "" t = t := fun _ => rfl
  rw [hor]
  have hgr := getResponse_progress hh hu hpost hm
  rw [Py.bind_ok hgr]
  rw [if_neg (by simp [Resp.isError, he])]
  simp only [update, Py.bind_run]
  rcases updateMsg x srv m k c2 with ⟨r, c3⟩
  cases r <;> rfl

end Service
end Verif
