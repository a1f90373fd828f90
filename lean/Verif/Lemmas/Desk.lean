import Verif.Model.Desk
import Verif.Lemmas.Parallel
/-!
# The pieces of a call, one after the other, are the call
-/

namespace Verif.Desk
open Verif Verif.Service Verif.Handler Pieces

variable {α β : Type}

theorem py_bind_assoc {γ : Type} (m : Py Client α) (f : α → Py Client β) (g : β → Py Client γ) :
    (m >>= f) >>= g = m >>= fun a => f a >>= g := by
  funext c
  simp only [Py.bind_run]
  rcases hm : m c with ⟨r, d⟩
  cases r with
  | ok a => simp only [Py.bind_run]
  | error e => rfl

theorem py_bind_ok (m : Py Client α) : (m >>= fun a => (Py.lift (.ok a) : Py Client α)) = m := by
  funext c
  rw [Py.bind_run]
  rcases hm : m c with ⟨r, d⟩
  cases r <;> rfl

theorem py_pure_bind (a : α) (f : α → Py Client β) : ((Pure.pure a : Py Client α) >>= f) = f a := rfl

theorem whole_pure (a : α) : whole (Pure.pure a : Pieces α) = Pure.pure a := rfl

theorem whole_one (m : Py Client α) : whole (one m) = m := py_bind_ok m

theorem whole_andThen (p : Pieces α) (f : α → Pieces β) : whole (p.andThen f) = whole p >>= fun a => whole (f a) := by
  induction p with
  | done r =>
    cases r with
    | ok a => rfl
    | error e => rfl
  | piece m next ih =>
    show (m >>= fun b => whole ((next b).andThen f)) = (m >>= fun b => whole (next b)) >>= fun a => whole (f a)
    rw [py_bind_assoc]
    congr 1
    funext b
    exact ih b

theorem whole_bind (p : Pieces α) (f : α → Pieces β) : whole (p >>= f) = whole p >>= fun a => whole (f a) :=
  whole_andThen p f

/-- Reading part of the client first, or all of it. -/
theorem ask_as_read {γ : Type} (f : Client → Except Exc γ) (g : γ → Py Client β) (h : Client → Py Client β)
    (e : ∀ c, ((Service.ask f >>= g) c) = h c c) : (Service.ask f >>= g) = (Py.read >>= h) := by
  funext c
  rw [Py.read_bind_run]
  exact e c

theorem whole_headers (x : Ext) (srv : Srv) (req : Obj) (hm am : String) (kwargs : Obj) :
    whole (headers x srv req hm am kwargs) = getHeaders x srv req hm am kwargs := by
  unfold headers getHeaders
  rw [whole_bind, whole_one]
  congr 1
  funext m
  rw [whole_bind, whole_one]
  congr 1
  funext r
  rw [whole_bind, whole_one]
  refine ask_as_read _ _ _ fun c => ?_
  by_cases hu : usesDpop c.ctx srv = true
  · rw [if_pos hu]
    unfold dpopHeader
    cases hk : dpopKeyFor x c with
    | error e =>
      rw [ask_bind_error (e := e) (by unfold lookForKey; rw [if_pos hu, hk]; rfl), py_bind_assoc, ask_bind_error (e := e) hk]
    | ok ko =>
      rw [ask_bind_ok (a := some ko) (by unfold lookForKey; rw [if_pos hu, hk]; rfl), py_bind_assoc, ask_bind_ok (a := ko) hk]
      cases ko with
      | none => rfl
      | some ka =>
        obtain ⟨key, alg⟩ := ka
        simp only [whole_bind, whole_one, whole_pure, py_bind_assoc, py_pure_bind]
  · rw [if_neg hu, ask_bind_ok (a := none) (by unfold lookForKey; rw [if_neg hu])]
    rfl

theorem whole_build (x : Ext) (srv : Srv) (args : Obj) (o : CallOpts) (kwargs : Obj) :
    whole (build x srv args o kwargs) = buildRequest x srv args o kwargs := by
  unfold build buildRequest
  rw [whole_bind, whole_one]
  refine ask_as_read _ _ _ fun c => ?_
  rw [ask_bind_ok (a := requestStyle srv o kwargs c) rfl]
  simp only [whole_bind, whole_one, whole_headers]
  rfl

theorem whole_updating (x : Ext) (srv : Srv) (r : Resp) (key : String) : whole (updating x srv r key) = update x srv r key := by
  unfold updating
  split
  · rw [whole_bind, whole_one]
    simp only [whole_bind, whole_one, whole_pure]
    simp only [update, updateMsg, py_bind_assoc]
  · exact whole_one _

theorem whole_responding (x : Ext) (srv : Srv) (info : ReqInfo) (bt state : String) :
    whole (responding x srv info bt state) = getResponse x srv info bt state := by
  unfold responding getResponse
  rw [whole_bind, whole_one]
  congr 1
  funext r
  rw [whole_bind, whole_one]
  refine ask_as_read _ _ _ fun c => ?_
  rw [ask_bind_ok (a := orElse bt (attr c srv "response_body_type" (responseBodyType srv))) rfl]
  refine congrFun ?_ c
  split
  · rfl
  · split
    · rfl
    · exact whole_one _

theorem whole_request (x : Ext) {srv : Srv} (hr : Running srv) (args : Obj) (o : CallOpts) (kwargs : Obj) :
    whole (request x srv args o kwargs) = doRequest x srv args o kwargs := by
  have hb : getRequestParameters x srv args o kwargs = buildRequest x srv args o kwargs := by
    rcases hr with rfl | rfl | rfl | rfl <;> rfl
  unfold request doRequest
  rw [whole_bind, whole_one]
  refine ask_as_read _ _ _ fun c => ?_
  by_cases hs : srv ∉ c.services
  · rw [ask_bind_error (e := .keyError) (by unfold chosenService; rw [if_pos hs]), if_pos hs]
    rfl
  · rw [ask_bind_ok (a := orElse o.responseBodyType (attr c srv "response_body_type" (responseBodyType srv)))
      (by unfold chosenService; rw [if_neg hs]), if_neg hs, whole_bind, whole_build, hb]
    refine congrFun (congrArg _ ?_) c
    funext info
    unfold serviceRequest
    rw [whole_bind, whole_responding]
    congr 1
    funext r
    split
    · rfl
    · exact whole_updating _ _ _ _

theorem whole_gettingTokens (x : Ext) (state : String) : whole (gettingTokens x state) = Handler.getTokens x state := by
  unfold gettingTokens Handler.getTokens
  simp only [whole_bind, whole_one, whole_pure, whole_request x (srv := .accesstoken) (Or.inl rfl)]

theorem whole_refreshing (x : Ext) (state scope : String) :
    whole (refreshing x state scope) = refreshAccessToken x state scope := by
  unfold refreshing refreshAccessToken
  simp only [whole_bind, whole_one, whole_pure, whole_request x (srv := .refreshToken) (Or.inr (Or.inl rfl))]

theorem whole_gettingUserInfo (x : Ext) (state : String) (t : Val) : whole (gettingUserInfo x state t) = getUserInfo x state t := by
  unfold gettingUserInfo getUserInfo
  simp only [whole_bind, whole_one, whole_pure, whole_request x (srv := .userinfo) (Or.inr (Or.inr (Or.inl rfl)))]

theorem whole_loggingOut (x : Ext) (state uri : String) : whole (loggingOut x state uri) = Handler.logout x state uri := by
  unfold loggingOut Handler.logout
  rw [whole_bind, whole_one]
  refine ask_as_read _ _ _ fun c => ?_
  by_cases hs : Srv.endSession ∉ c.services
  · rw [ask_bind_error (e := .attributeError) (by rw [if_pos hs]), if_pos hs]
    rfl
  · rw [ask_bind_ok (a := ()) (by rw [if_neg hs]), if_neg hs, whole_build]
    rfl

theorem whole_fetchingTokens (x : Ext) (state : String) : whole (fetchingTokens x state) = endpointTokens x state := by
  unfold fetchingTokens endpointTokens
  simp only [whole_bind, whole_one, whole_pure, whole_gettingTokens]

theorem whole_tokensOf (x : Ext) (resp : Obj) (state : String) (b : Obj) :
    whole (tokensOf x resp state b) = getAccessAndIdToken x resp state b := by
  unfold tokensOf getAccessAndIdToken
  rw [whole_bind, whole_one]
  congr 1
  funext rt
  rw [whole_bind, whole_one]
  congr 1
  funext idt
  split
  · rw [whole_bind, whole_one]
    congr 1
    funext tok
    split
    · exact whole_fetchingTokens _ _
    · rfl
  · split
    · exact whole_fetchingTokens _ _
    · rfl

theorem whole_collecting (x : Ext) (state : String) (tok idt : Val) :
    whole (collecting x state tok idt) = collectUserInfo x state tok idt := by
  unfold collecting collectUserInfo
  rw [whole_bind, whole_one]
  refine ask_as_read _ _ _ fun c => ?_
  rw [ask_bind_ok (a := decide (Srv.userinfo ∈ c.services ∧ tok.truthy)) rfl]
  by_cases hs : Srv.userinfo ∈ c.services ∧ tok.truthy = true
  · rw [if_pos (by simpa using hs), if_pos hs, whole_bind, whole_gettingUserInfo]
    rfl
  · rw [if_neg (by simpa using hs), if_neg hs]
    split
    · cases idt <;> first | rfl | exact congrFun (whole_one _) c
    · rfl

theorem whole_completing (x : Ext) (resp : Obj) (state : String) (b : Obj) :
    whole (completing x resp state b) = finalizeTokens x resp state b := by
  unfold completing finalizeTokens
  simp only [whole_bind, whole_one, whole_pure, whole_tokensOf, whole_collecting]

theorem whole_finalizing (x : Ext) (issuer : String) (response b : Obj) :
    whole (finalizing x issuer response b) = finalizeClient x issuer response b := by
  unfold finalizing finalizeClient
  rw [whole_bind, whole_one]
  congr 1
  funext resp
  rw [whole_bind, whole_one]
  congr 1
  funext sv
  split
  · simp only [whole_bind, whole_one, whole_pure]
  · rw [whole_bind, whole_one]
    congr 1
    funext k
    exact whole_completing _ _ _ _

theorem whole_constructing (x : Ext) (args kwargs : Obj) :
    whole (constructing x args kwargs) = construct x .authorization args kwargs := by
  unfold constructing construct
  rw [whole_bind, whole_one]
  refine ask_as_read _ _ _ fun c => ?_
  rw [ask_bind_ok (a := methodArgs (confOf c .authorization) "pre_construct" kwargs) rfl]
  refine congrFun ?_ c
  generalize methodArgs (confOf c .authorization) "pre_construct" kwargs = kw
  simp only [preConstruct]
  rw [whole_bind, whole_one, py_bind_assoc]
  congr 1
  funext a
  rw [whole_bind, whole_one, py_bind_assoc]
  congr 1
  funext a
  rw [whole_bind, whole_one, py_bind_assoc]
  refine ask_as_read _ _ _ fun c => ?_
  rw [py_bind_assoc]
  cases hr : authorizationPre (x.rnd "pre_nonce") c.ctx.behaviour a kw with
  | error e =>
    rw [ask_bind_error (e := e) (by rw [hr]; rfl), Py.lift_bind_error rfl]
  | ok r =>
    rw [ask_bind_ok (a := (r, Dict.has c.ctx.addOn "pkce")) (by rw [hr]; rfl), Py.lift_bind_ok rfl]
    refine congrFun ?_ c
    have rest : ∀ d : Obj, whole (do
        let g ← one (ask (fun c => gatherRequestArgs x c .authorization (stateFromKwargs (x.msg .authorization) d kwargs)))
        let post ← one (ask (fun c => .ok (methodArgs (confOf c .authorization) "post_construct" (withBehaviour kwargs r.2),
          Dict.has c.ctx.addOn "pushed_authorization")))
        one (bindNonce ((x.msg .authorization).make g))
        let q ← one (Py.lift (offlinePrompt (x.msg .authorization) ((x.msg .authorization).make g)))
        let sv ← one (Py.lift (Dict.getItem q "state"))
        let s ← one (Py.lift (dbKey sv))
        one (onDB (StateInterface.storeItem q "auth_request" s))
        let f ← one (ask (fun c => requestObject x c.ctx q post.1))
        if post.2 then one (pushAuthorization x f) else pure f) = (do
        let g ← ask (fun c => gatherRequestArgs x c .authorization (stateFromKwargs (x.msg .authorization) d kwargs))
        postConstruct x .authorization ((x.msg .authorization).make g) (withBehaviour kwargs r.2)) := by
      intro d
      rw [whole_bind, whole_one]
      congr 1
      funext g
      unfold postConstruct
      rw [whole_bind, whole_one]
      refine ask_as_read _ _ _ fun c => ?_
      rw [ask_bind_ok (a := (methodArgs (confOf c .authorization) "post_construct" (withBehaviour kwargs r.2),
          Dict.has c.ctx.addOn "pushed_authorization")) rfl]
      refine congrFun ?_ c
      simp only [authorizationPost, whole_bind, whole_one, py_bind_assoc]
      congr 1
      funext _
      congr 1
      funext q
      congr 1
      funext sv
      congr 1
      funext s
      congr 1
      funext _
      congr 1
      funext f
      split
      · exact whole_one _
      · rfl
    by_cases hp : Dict.has c.ctx.addOn "pkce" = true
    · simp only [hp, if_true]
      rw [whole_bind, whole_one, py_bind_assoc]
      congr 1
      funext d
      exact rest d
    · simp only [hp]
      exact rest r.1

theorem whole_authorizing (x : Ext) (args kwargs : Obj) :
    whole (authorizing x args kwargs) = getRequestParameters x .authorization args {} kwargs := by
  show _ = buildRequest x .authorization args {} kwargs
  unfold authorizing buildRequest
  rw [whole_bind, whole_one]
  refine ask_as_read _ _ _ fun c => ?_
  rw [ask_bind_ok (a := requestStyle .authorization {} kwargs c) rfl]
  simp only [whole_bind, whole_one, whole_headers, whole_constructing]
  rfl

theorem whole_beginning (x : Ext) (req b : Obj) : whole (beginning x req b) = initAuthorization x req b := by
  unfold beginning initAuthorization
  rw [whole_bind, whole_one]
  congr 1
  funext args
  rw [whole_bind, whole_one]
  refine ask_as_read _ _ _ fun c => ?_
  rw [ask_bind_ok (a := c.ctx.issuer) rfl, whole_bind, whole_one, Py.bind_run, Py.bind_run]
  rcases h1 : onDB (StateInterface.createState c.ctx.issuer "" (x.rnd "init_state")) c with ⟨r, c1⟩
  cases r with
  | error e => rfl
  | ok k =>
    simp only
    have e1 : c1.services = c.services := (congrArg (fun p => p.2.services) h1).symm
    rw [whole_bind, whole_one, Py.bind_run, Py.bind_run]
    rcases h2 : onDB (StateInterface.storeX2State (x.rnd "init_nonce") k .nonce) c1 with ⟨r, c2⟩
    cases r with
    | error e => rfl
    | ok u =>
      simp only
      have e2 : c2.services = c1.services := (congrArg (fun p => p.2.services) h2).symm
      rw [whole_bind, whole_one]
      by_cases hs : Srv.authorization ∉ c.services
      · rw [ask_bind_error (e := .attributeError) (by rw [e2, e1, if_pos hs]), if_pos hs]
        rfl
      · rw [ask_bind_ok (a := ()) (by rw [e2, e1, if_neg hs]), if_neg hs]
        simp only [whole_bind, whole_one, whole_authorizing, whole_pure]

/-- The pieces of a call, one after the other, are the call. -/
theorem whole_job (x : Ext) (j : Job) : whole (j.pieces x) = j.call x := by
  cases j <;> simp only [Job.pieces, Job.call, whole_bind, whole_pure, whole_finalizing, whole_gettingTokens, whole_refreshing,
    whole_gettingUserInfo, whole_one, whole_loggingOut, whole_beginning]

end Verif.Desk
