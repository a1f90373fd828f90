import Verif.Lemmas.World
import Verif.Lemmas.Frame
import Verif.Model.Provider
/-!
# C102: what the login URL reveals
-/

namespace Verif.Spec.Secrets
open Verif Verif.Service Verif.Handler

/-- What of a client's set-up is no secret: everything but the client secret, the registration (response and access token)
and the configuration. -/
def visible (ctx : Ctx) : Ctx :=
  { ctx with
    clientSecret := ""
    clientSecretExpiresAt := 0
    registrationResponse := []
    registrationAccessToken := none
    config := [] }

/-- What of an entry of the store is no secret: that it is there and, of an index entry, to which session it leads. -/
def outline : DbVal → Option String
  | .doc _ => none
  | .raw s => some s

/-- Two clients that differ in secrets only: in the client secret, the registration, the configuration apart from
`request_args`, the DPoP key, and in what is kept in the sessions (tokens, ID Tokens, PKCE verifiers, user info, …). -/
structure SameButSecrets (c c' : Client) : Prop where
  setup : visible c.ctx = visible c'.ctx
  requestArgs : confObj c.ctx.config "request_args" = confObj c'.ctx.config "request_args"
  services : c.services = c'.services
  conf : c.conf = c'.conf
  log : c.log = c'.log
  sessions : ∀ k, (Dict.get? c.db k).map outline = (Dict.get? c'.db k).map outline

/-- Two worlds that differ in the PKCE verifier that is drawn; its challenge is the same. -/
structure SameButVerifier (x x' : Ext) : Prop where
  rest : x' = { x with
    rnd := x'.rnd
    challenge := x'.challenge }
  rnd : ∀ p, p ≠ "code_verifier" → x'.rnd p = x.rnd p
  challenge : ∀ m, x'.challenge m (x'.rnd "code_verifier") = x.challenge m (x.rnd "code_verifier")

/-- Request objects and pushed requests are not made with a secret of the client (but, say, with its private key). -/
structure Blind (x : Ext) : Prop where
  requestObject : ∀ ctx ctx', visible ctx = visible ctx' → x.requestParam ctx = x.requestParam ctx'
  pushed : ∀ ctx ctx', visible ctx = visible ctx' → x.parJws ctx = x.parJws ctx'

/-- The class of the authorization request has no parameter by the name of a secret. -/
def NoSecretParameter (x : Ext) : Prop :=
  ∀ p ∈ ["client_secret", "client_secret_expires_at", "registration_response", "registration_access_token", "config"],
    p ∉ (x.msg .authorization).params

/-- The authorization service is not configured to authenticate its requests. -/
def OpenLogin (c : Client) : Prop :=
  ∀ o s, Dict.get? c.conf "authorization" = some o → Dict.get? o "default_authn_method" = some (.str s) → s = ""

end Verif.Spec.Secrets

namespace Verif.Props
open Verif Verif.Service Verif.Handler Verif.StateInterface Verif.Spec.Secrets

/-- The authorization request is not authenticated. -/
def Unauthenticated (c : Client) : Prop := attr c .authorization "default_authn_method" "" = ""

/-- Two clients that differ in secrets only and do not authenticate authorization requests. -/
structure Pair (c c' : Client) : Prop extends SameButSecrets c c' where
  unauth : Unauthenticated c

/-- The same thing is done at clients that differ in secrets. -/
def SameDone {α : Type} (m m' : Py Client α) : Prop :=
  ∀ c c', Pair c c' → (m c).1 = (m' c').1 ∧ Pair (m c).2 (m' c').2

variable {α β : Type}

theorem same_bind {m m' : Py Client α} {f f' : α → Py Client β} (hm : SameDone m m') (hf : ∀ a, SameDone (f a) (f' a)) :
    SameDone (m >>= f) (m' >>= f') := by
  intro c c' h
  obtain ⟨h1, h2⟩ := hm c c' h
  rw [Py.bind_run, Py.bind_run]
  rcases e : m c with ⟨r, d⟩
  rcases e' : m' c' with ⟨r', d'⟩
  rw [e, e'] at h1 h2
  simp only at h1 h2
  subst h1
  cases r with
  | ok a => exact hf a d d' h2
  | error _ => exact ⟨rfl, h2⟩

theorem same_read {f f' : Client → Py Client β} (hf : ∀ d d', Pair d d' → SameDone (f d) (f' d')) :
    SameDone (Py.read >>= f) (Py.read >>= f') := fun c c' h => hf c c' h c c' h

theorem same_ask {f f' : Client → Except Exc α} (hf : ∀ c c', Pair c c' → f c = f' c') :
    SameDone (ask f) (ask f') := fun c c' h => ⟨hf c c' h, h⟩

theorem same_const {r : Except Exc α} : SameDone (fun c => (r, c)) (fun c => (r, c)) := fun _ _ h => ⟨rfl, h⟩

theorem same_lift {r r' : Except Exc α} (h : r = r') : SameDone (Py.lift r) (Py.lift r') := h ▸ same_const
theorem same_pure {a : α} : SameDone (pure a) (pure a) := same_const
theorem same_raise {e : Exc} : SameDone (Py.raise e : Py Client α) (Py.raise e) := same_const

theorem same_if {p : Prop} [Decidable p] {m n m' n' : Py Client α} (h1 : SameDone m m') (h2 : SameDone n n') :
    SameDone (if p then m else n) (if p then m' else n') := by
  split
  · exact h1
  · exact h2

/-- A function of the set-up that looks at no secret. -/
theorem unseen {γ : Type} (f : Ctx → γ) (hf : ∀ ctx, f (visible ctx) = f ctx) {c c' : Client} (h : Pair c c') :
    f c.ctx = f c'.ctx := by rw [← hf c.ctx, ← hf c'.ctx, h.setup]

/-- Store operations. -/
theorem same_onDB {m m' : Py DB α} (hm : ∀ db db', (∀ k, (Dict.get? db k).map outline = (Dict.get? db' k).map outline) →
    (m db).1 = (m' db').1 ∧ ∀ k, (Dict.get? (m db).2 k).map outline = (Dict.get? (m' db').2 k).map outline) :
    SameDone (onDB m) (onDB m') := fun c c' h =>
  ⟨(hm _ _ h.sessions).1, ⟨⟨h.setup, h.requestArgs, h.services, h.conf, h.log, (hm _ _ h.sessions).2⟩, h.unauth⟩⟩

theorem outline_doc {o o' : Obj} : outline (.doc o) = outline (.doc o') := rfl

theorem outline_set {db db' : DB} (h : ∀ k, (Dict.get? db k).map outline = (Dict.get? db' k).map outline) {v v' : DbVal}
    (hv : outline v = outline v') (key k : String) :
    (Dict.get? (Dict.set db key v) k).map outline = (Dict.get? (Dict.set db' key v') k).map outline := by
  rw [Dict.get?_set, Dict.get?_set]
  split
  · simp [hv]
  · exact h k

theorem same_createState (iss key rnd : String) : SameDone (onDB (createState iss key rnd)) (onDB (createState iss key rnd)) := by
  apply same_onDB
  intro db db' h
  unfold createState
  split
  · exact ⟨rfl, outline_set h outline_doc _⟩
  · split
    · exact ⟨rfl, h⟩
    · exact ⟨rfl, outline_set h outline_doc _⟩

theorem same_storeItem (i i' : Obj) (t key : String) : SameDone (onDB (storeItem i t key)) (onDB (storeItem i' t key)) := by
  apply same_onDB
  intro db db' h
  have hk := h key
  unfold storeItem getState
  cases e : Dict.get? db key <;> cases e' : Dict.get? db' key <;> simp [e, e'] at hk
  · exact ⟨rfl, outline_set h outline_doc _⟩
  · next v v' =>
    cases v <;> cases v' <;> simp [outline] at hk
    · exact ⟨rfl, outline_set h outline_doc _⟩
    · next s s' =>
      subst hk
      simp only
      by_cases hs : s = ""
      · rw [if_pos hs]
        exact ⟨rfl, outline_set h outline_doc _⟩
      · rw [if_neg hs]
        exact ⟨rfl, h⟩

theorem same_storeX2State (v s : String) (t : XTyp) : SameDone (onDB (storeX2State v s t)) (onDB (storeX2State v s t)) := by
  apply same_onDB
  intro db db' h
  have h1 := outline_set h (v := .raw s) (v' := .raw s) rfl (indexKey t v)
  have hk := h1 (refKey s)
  unfold storeX2State
  simp only
  cases e : Dict.get? (Dict.set db (indexKey t v) (.raw s)) (refKey s) <;>
    cases e' : Dict.get? (Dict.set db' (indexKey t v) (.raw s)) (refKey s) <;> simp [e, e'] at hk
  · exact ⟨rfl, outline_set h1 outline_doc _⟩
  · next v v' =>
    cases v <;> cases v' <;> simp [outline] at hk
    · exact ⟨rfl, outline_set h1 outline_doc _⟩
    · exact ⟨rfl, h1⟩

variable {x x' : Ext}

theorem same_msg (h : SameButVerifier x x') : x'.msg = x.msg := by rw [h.rest]
theorem same_ser (h : SameButVerifier x x') (srv : Srv) : x'.ser srv = x.ser srv := by
  unfold Ext.ser
  rw [h.rest]

theorem same_setState (hx : SameButVerifier x x') (args kwargs : Obj) : SameDone (setState x args kwargs) (setState x' args kwargs) := by
  unfold setState
  refine same_bind (same_lift rfl) fun s => same_read fun d d' h => ?_
  rw [hx.rnd _ (by decide), unseen Ctx.issuer (fun _ => rfl) h]
  exact same_bind (same_createState _ _ _) fun k => same_pure

theorem same_pickRedirect (args : Obj) : SameDone (pickRedirect args) (pickRedirect args) := by
  unfold pickRedirect
  exact same_bind (same_ask fun c c' h => unseen (fun ctx => Registration.pickRedirectUri ctx args) (fun _ => rfl) h)
    fun v => same_pure

theorem same_addCodeChallenge (hx : SameButVerifier x x') (args : Obj) :
    SameDone (addCodeChallenge x args) (addCodeChallenge x' args) := by
  unfold addCodeChallenge
  refine same_read fun d d' h => ?_
  rw [unseen pkceMethod (fun _ => rfl) h]
  refine same_if same_raise (same_bind (same_lift rfl) fun st => same_bind (same_lift rfl) fun k => ?_)
  simp only
  rw [hx.challenge]
  exact same_bind (same_storeItem _ _ _ _) fun _ => same_pure

theorem same_pre (hx : SameButVerifier x x') (args kwargs : Obj) :
    SameDone (preConstruct x .authorization args kwargs) (preConstruct x' .authorization args kwargs) := by
  unfold preConstruct
  refine same_bind (same_setState hx _ _) fun a => same_bind (same_pickRedirect a) fun b => same_read fun d d' h => ?_
  rw [hx.rnd _ (by decide), unseen Ctx.behaviour (fun _ => rfl) h, unseen Ctx.addOn (fun _ => rfl) h]
  refine same_bind (same_lift rfl) fun r => same_if ?_ same_pure
  exact same_bind (same_addCodeChallenge hx _) fun _ => same_pure

theorem same_bindNonce (req : Obj) : SameDone (bindNonce req) (bindNonce req) := by
  unfold bindNonce
  refine same_bind (same_lift rfl) fun b => same_if ?_ same_pure
  exact same_bind (same_lift rfl) fun nv => same_bind (same_lift rfl) fun n => same_bind (same_lift rfl) fun sv =>
    same_bind (same_lift rfl) fun s => same_storeX2State _ _ _

theorem same_requestObject (hx : SameButVerifier x x') (hb : Blind x) (req kwargs : Obj) {c c' : Client} (h : Pair c c') :
    requestObject x c.ctx req kwargs = requestObject x' c'.ctx req kwargs := by
  unfold requestObject
  rw [same_msg hx, show x'.requestParam = x.requestParam by rw [hx.rest], hb.requestObject _ _ h.setup]

theorem same_authorizationPost (hx : SameButVerifier x x') (hb : Blind x) (req kwargs : Obj) :
    SameDone (authorizationPost x req kwargs) (authorizationPost x' req kwargs) := by
  unfold authorizationPost
  rw [same_msg hx]
  exact same_bind (same_bindNonce _) fun _ => same_bind (same_lift rfl) fun r => same_bind (same_lift rfl) fun sv =>
    same_bind (same_lift rfl) fun s => same_bind (same_storeItem _ _ _ _) fun _ =>
    same_ask fun c c' h => same_requestObject hx hb r kwargs h

theorem same_send (hx : SameButVerifier x x') (s : Sent) : SameDone (send x s) (send x' s) := by
  intro c c' h
  unfold send
  rw [show x'.http = x.http by rw [hx.rest], h.log]
  exact ⟨rfl, ⟨⟨h.setup, h.requestArgs, h.services, h.conf, rfl, h.sessions⟩, h.unauth⟩⟩

theorem same_push (hx : SameButVerifier x x') (hb : Blind x) (req : Obj) :
    SameDone (pushAuthorization x req) (pushAuthorization x' req) := by
  unfold pushAuthorization
  refine same_read fun d d' h => ?_
  have h1 : parBody x d.ctx req = parBody x' d'.ctx req := by
    unfold parBody
    rw [same_msg hx, same_ser hx, show x'.parJws = x.parJws by rw [hx.rest], hb.pushed _ _ h.setup,
      unseen (fun ctx => addOnConf ctx "pushed_authorization") (fun _ => rfl) h, unseen parLax (fun _ => rfl) h]
  have h2 : ∀ r, parAnswer x d.ctx req r = parAnswer x' d'.ctx req r := by
    intro r
    unfold parAnswer parRequest
    rw [same_msg hx, show x'.loads = x.loads by rw [hx.rest], unseen parLax (fun _ => rfl) h]
  rw [h1, unseen Ctx.providerInfo (fun _ => rfl) h]
  exact same_bind (same_lift rfl) fun b => same_bind (same_lift rfl) fun uv => same_bind (same_lift rfl) fun u =>
    same_bind (same_send hx _) fun r => same_lift (h2 r)

theorem confOf_same {c c' : Client} (h : Pair c c') (srv : Srv) : confOf c srv = confOf c' srv := by
  unfold confOf
  rw [h.conf]

theorem attr_same {c c' : Client} (h : Pair c c') (srv : Srv) (n d : String) : attr c srv n d = attr c' srv n d := by
  unfold attr
  rw [confOf_same h]

theorem same_post (hx : SameButVerifier x x') (hb : Blind x) (req post : Obj) :
    SameDone (postConstruct x .authorization req post) (postConstruct x' .authorization req post) := by
  unfold postConstruct
  refine same_read fun d d' h => ?_
  simp only
  rw [confOf_same h, unseen Ctx.addOn (fun _ => rfl) h]
  exact same_bind (same_authorizationPost hx hb _ _) fun r => same_if (same_push hx hb r) same_pure

/-- The values that are read off the set-up for parameters. -/
theorem get_same {c c' : Client} (h : Pair c c') (p : String)
    (hp : p ∉ ["client_secret", "client_secret_expires_at", "registration_response", "registration_access_token", "config"]) :
    c.ctx.get p = c'.ctx.get p := by
  simp only [List.mem_cons, List.not_mem_nil, or_false, not_or] at hp
  obtain ⟨h1, h2, h3, h4, h5⟩ := hp
  refine unseen (fun ctx => ctx.get p) (fun ctx => ?_) h
  simp [Ctx.get, visible, h1, h2, h3, h4, h5]

theorem gatherLoop_same {c c' : Client} (h : Pair c c') (srv : Srv) (ps : List String)
    (hp : ∀ p ∈ ps, p ∉ ["client_secret", "client_secret_expires_at", "registration_response", "registration_access_token", "config"])
    (args : Obj) : gatherLoop c srv ps args = gatherLoop c' srv ps args := by
  induction ps generalizing args with
  | nil => rfl
  | cons p ps ih =>
    have hf : fallback c srv p = fallback c' srv p := by
      unfold fallback confRequestArgs
      rw [get_same h p (hp p (by simp)), confOf_same h, unseen Ctx.registerArgs (fun _ => rfl) h,
        unseen Ctx.behaviour (fun _ => rfl) h]
    unfold gatherLoop
    rw [hf]
    have ih' := fun a => ih (fun q hq => hp q (by simp [hq])) a
    simp only [ih']

theorem gather_same (hx : SameButVerifier x x') (hn : NoSecretParameter x) {c c' : Client} (h : Pair c c') (args : Obj) :
    gatherRequestArgs x c .authorization args = gatherRequestArgs x' c' .authorization args := by
  unfold gatherRequestArgs
  rw [same_msg hx, gatherLoop_same h .authorization (x.msg .authorization).params (fun p hp hm => hn p hm hp) args,
    unseen Ctx.redirectUris (fun _ => rfl) h]

theorem same_construct (hx : SameButVerifier x x') (hb : Blind x) (hn : NoSecretParameter x) (args kwargs : Obj) :
    SameDone (construct x .authorization args kwargs) (construct x' .authorization args kwargs) := by
  unfold construct
  refine same_read fun d d' h => ?_
  rw [confOf_same h, same_msg hx]
  exact same_bind (same_pre hx _ _) fun r => same_bind (same_ask fun c c' h' => gather_same hx hn h' _) fun g =>
    same_post hx hb _ _

theorem getAuthn_eq (c : Client) : getAuthnMethod c .authorization = .ok (attr c .authorization "default_authn_method" "") := rfl

theorem same_getHeaders (req : Obj) (hm : String) (kwargs : Obj) :
    SameDone (getHeaders x .authorization req hm "" kwargs) (getHeaders x' .authorization req hm "" kwargs) := by
  intro c c' h
  have hu' : Unauthenticated c' := by
    have := h.unauth
    unfold Unauthenticated at this ⊢
    rw [← attr_same h, this]
  have e : ∀ (y : Ext) (d : Client), Unauthenticated d → getHeaders y .authorization req hm "" kwargs d = (.ok ([], req), d) := by
    intro y d hd
    unfold getHeaders
    rw [Py.bind_run]
    simp only [ask, if_true, getAuthn_eq]
    rw [show attr d .authorization "default_authn_method" "" = "" from hd]
    simp [Py.bind_run, ask, authnHeader, usesDpop, Srv.name]
  rw [e x c h.unauth, e x' c' hu']
  exact ⟨rfl, h⟩

theorem same_value {f f' : Client → Except Exc α} {a : α} (h : ∀ c c', Pair c c' → f c = .ok a ∧ f' c' = .ok a)
    {k k' : α → Py Client β} (hk : SameDone (k a) (k' a)) : SameDone (ask f >>= k) (ask f' >>= k') := by
  intro c c' hc
  obtain ⟨h1, h2⟩ := h c c' hc
  rw [Py.bind_run, Py.bind_run]
  simp only [ask, h1, h2]
  exact hk c c' hc

theorem same_buildRequest (hx : SameButVerifier x x') (hb : Blind x) (hn : NoSecretParameter x) (args kwargs : Obj) :
    SameDone (buildRequest x .authorization args {} kwargs) (buildRequest x' .authorization args {} kwargs) := by
  unfold buildRequest
  refine same_read fun d d' h => ?_
  have h1 : withIss d kwargs = withIss d' kwargs := by
    unfold withIss
    rw [unseen Ctx.issuer (fun _ => rfl) h]
  simp only [attr_same h, h1]
  refine same_value (a := "") (fun c c' h' => ?_) ?_
  · have e := h'.unauth
    have e' := e
    unfold Unauthenticated at e e'
    rw [attr_same h'] at e'
    simp only [if_true, getAuthn_eq, e, e', and_self]
  · refine same_bind (same_construct hx hb hn _ _) fun r => same_bind (same_getHeaders _ _ _) fun hd => same_ask fun c c' h' => ?_
    unfold assemble targetOf endpointOf
    rw [same_ser hx, unseen (fun ctx => Discovery.serviceEndpoint ctx .authorization) (fun _ => rfl) h']
    rfl

theorem alias_same {c c' : Client} (h : SameButSecrets c c') (req : Obj) :
    visible (aliasScope req c.ctx) = visible (aliasScope req c'.ctx) ∧
      confObj (aliasScope req c.ctx).config "request_args" = confObj (aliasScope req c'.ctx).config "request_args" := by
  have hb : c.ctx.behaviour = c'.ctx.behaviour := by
    have := congrArg (fun ctx : Ctx => ctx.behaviour) h.setup
    exact this
  have e : ∀ b : Obj, visible { c.ctx with behaviour := b } = visible { c'.ctx with behaviour := b } := fun b =>
    congrArg (fun ctx : Ctx => { ctx with behaviour := b }) h.setup
  unfold aliasScope
  rw [h.requestArgs, hb]
  split
  · exact ⟨h.setup, h.requestArgs⟩
  · split
    · split
      · exact ⟨h.setup, h.requestArgs⟩
      · exact ⟨e _, h.requestArgs⟩
    · exact ⟨h.setup, h.requestArgs⟩

theorem same_init (hx : SameButVerifier x x') (hb : Blind x) (hn : NoSecretParameter x) (req ba : Obj) :
    SameDone (initAuthorization x req ba) (initAuthorization x' req ba) := by
  unfold initAuthorization
  refine same_bind (same_ask fun c c' h => ?_) fun args => same_read fun d d' h => ?_
  · unfold initArgs
    rw [unseen Ctx.behaviour (fun _ => rfl) h, h.requestArgs, hx.rnd _ (by decide)]
    have := fun rt => unseen (fun ctx => Registration.pickRedirectUri ctx req (some rt)) (fun _ => rfl) h
    simp only [this]
  · rw [hx.rnd _ (by decide), hx.rnd _ (by decide), h.services, unseen Ctx.issuer (fun _ => rfl) h]
    refine same_bind (same_createState _ _ _) fun k => same_bind (same_storeX2State _ _ _) fun _ => same_if same_raise ?_
    refine same_bind ?_ fun _ => same_bind (same_buildRequest hx hb hn _ _) fun info => same_pure
    intro c c' h'
    obtain ⟨a1, a2⟩ := alias_same h'.toSameButSecrets req
    exact ⟨rfl, ⟨⟨a1, a2, h'.services, h'.conf, h'.log, h'.sessions⟩, h'.unauth⟩⟩

/-- A client whose authorization service is not configured to authenticate its requests. -/
theorem unauth_of {c : Client} (h : OpenLogin c) : Unauthenticated c := by
  unfold Unauthenticated attr
  split
  · next s hs =>
    have : confOf c .authorization = (Dict.get? c.conf "authorization").getD [] := rfl
    rw [this] at hs
    cases hc : Dict.get? c.conf "authorization" with
    | none => rw [hc] at hs; simp at hs
    | some o => rw [hc] at hs; exact h o s hc hs
  · rfl

/-- C102: the URL a user is sent to, and what is pushed to the provider beforehand, tell nothing about the secrets of the
client: they would be the same with any other client secret, registration and DPoP key, with anything else kept in the
sessions, and with any other PKCE verifier that has the same challenge. -/
theorem C102_login_url (x x' : Ext) (hx : SameButVerifier x x') (hb : Blind x) (hn : NoSecretParameter x) (req ba : Obj)
    (c c' : Client) (ho : OpenLogin c) (h : SameButSecrets c c') :
    (initAuthorization x req ba c).1 = (initAuthorization x' req ba c').1 ∧
      (initAuthorization x req ba c).2.log = (initAuthorization x' req ba c').2.log := by
  obtain ⟨h1, h2⟩ := same_init hx hb hn req ba c c' ⟨h, unauth_of ho⟩
  exact ⟨h1, h2.log⟩

/-- C102: the same of `begin` for a provider whose client is set up. -/
theorem C102_begin (x x' : Ext) (hx : SameButVerifier x x') (hb : Blind x) (hn : NoSecretParameter x) (issuer user : String)
    (req ba : Obj) (h h' : Handler) (c c' : Client) (hi : issuer ≠ "") (hc : Dict.get? h.issuer2rp issuer = some c)
    (hc' : Dict.get? h'.issuer2rp issuer = some c') (ho : OpenLogin c) (hs : SameButSecrets c c') :
    (begin_ x issuer user req ba h).1 = (begin_ x' issuer user req ba h').1 := by
  have e : ∀ (y : Ext) (g : Handler) (d : Client), Dict.get? g.issuer2rp issuer = some d →
      (begin_ y issuer user req ba g).1 = (initAuthorization y req ba d).1 := by
    intro y g d hd
    have h1 : clientSetup y issuer user ba g = (.ok issuer, g) := by
      unfold clientSetup
      have : Dict.has g.issuer2rp issuer = true := by rw [Dict.has_eq, hd]; rfl
      simp [hi, this]
    unfold begin_
    rw [Py.bind_ok h1]
    unfold onClient
    rw [hd]
  rw [e x h c hc, e x' h' c' hc', (C102_login_url x x' hx hb hn req ba c c' ho hs).1]

/-! ## Access tokens in user info requests -/

/-- Two sets of parameters that differ in the value of `k`, a text. -/
inductive Swap (k t t' : String) : Obj → Obj → Prop
  | nil : Swap k t t' [] []
  | cons {p p' : String × Val} {l l' : Obj} (h : p.1 = p'.1 ∧ (p.1 ≠ k → p.2 = p'.2) ∧ (p.1 = k → p.2 = .str t ∧ p'.2 = .str t'))
      (hl : Swap k t t' l l') : Swap k t t' (p :: l) (p' :: l')

variable {k t t' : String} {a a' : Obj}

theorem swap_refl (h : Dict.get? a k = none) : Swap k t t' a a := by
  induction a with
  | nil => exact .nil
  | cons p a ih =>
    obtain ⟨q, w⟩ := p
    rw [Dict.get?_cons] at h
    split at h
    · cases h
    · next hq => exact .cons ⟨rfl, fun _ => rfl, fun e => absurd e hq⟩ (ih h)

theorem swap_set (h : Swap k t t' a a') {p : String} (hp : p ≠ k) (v : Val) : Swap k t t' (Dict.set a p v) (Dict.set a' p v) := by
  induction h with
  | nil => exact .cons ⟨rfl, fun _ => rfl, fun e => absurd e hp⟩ .nil
  | @cons x y l l' hxy hl ih =>
    obtain ⟨q, w⟩ := x
    obtain ⟨q', w'⟩ := y
    obtain ⟨h1, h2, h3⟩ := hxy
    simp only at h1
    subst h1
    unfold Dict.set
    split
    · next e => exact .cons ⟨rfl, fun _ => rfl, fun e' => absurd (e.symm.trans e') hp⟩ hl
    · exact .cons ⟨rfl, h2, h3⟩ ih

theorem swap_set_self (h : Swap k t t' a a') : Swap k t t' (Dict.set a k (.str t)) (Dict.set a' k (.str t')) := by
  induction h with
  | nil => exact .cons ⟨rfl, fun e => absurd rfl e, fun _ => ⟨rfl, rfl⟩⟩ .nil
  | @cons x y l l' hxy hl ih =>
    obtain ⟨q, w⟩ := x
    obtain ⟨q', w'⟩ := y
    obtain ⟨h1, h2, h3⟩ := hxy
    simp only at h1
    subst h1
    unfold Dict.set
    split
    · next e => exact .cons ⟨rfl, fun e' => absurd e e', fun _ => ⟨rfl, rfl⟩⟩ hl
    · exact .cons ⟨rfl, h2, h3⟩ ih

theorem swap_get (h : Swap k t t' a a') (p : String) :
    (p ≠ k → Dict.get? a p = Dict.get? a' p) ∧ Dict.has a p = Dict.has a' p ∧
      (p = k → Dict.has a p = true → Dict.get? a p = some (.str t) ∧ Dict.get? a' p = some (.str t')) := by
  simp only [Dict.has_eq]
  induction h with
  | nil => simp
  | @cons x y l l' hxy hl ih =>
    obtain ⟨q, w⟩ := x
    obtain ⟨q', w'⟩ := y
    obtain ⟨h1, h2, h3⟩ := hxy
    simp only at h1 h2 h3
    subst h1
    rw [Dict.get?_cons, Dict.get?_cons]
    split
    · next e =>
      subst e
      exact ⟨fun hp => congrArg some (h2 hp), rfl, fun hp _ => by rw [(h3 hp).1, (h3 hp).2]; exact ⟨rfl, rfl⟩⟩
    · exact ih

theorem swap_del (h : Swap k t t' a a') : Dict.del a k = Dict.del a' k := by
  unfold Dict.del
  induction h with
  | nil => rfl
  | @cons x y l l' hxy hl ih =>
    obtain ⟨q, w⟩ := x
    obtain ⟨q', w'⟩ := y
    obtain ⟨h1, h2, h3⟩ := hxy
    simp only at h1 h2 h3
    subst h1
    by_cases hq : q = k
    · simpa [hq] using ih
    · simpa [hq, h2 hq] using ih

theorem swap_ofDict (h : Swap k t t' a a') (ht : t ≠ "") (ht' : t' ≠ "") : Swap k t t' (Msg.ofDict a) (Msg.ofDict a') := by
  unfold Msg.ofDict
  induction h with
  | nil => exact .nil
  | @cons x y l l' hxy hl ih =>
    obtain ⟨q, w⟩ := x
    obtain ⟨q', w'⟩ := y
    obtain ⟨h1, h2, h3⟩ := hxy
    simp only at h1 h2 h3
    subst h1
    by_cases hq : q = k
    · obtain ⟨rfl, rfl⟩ := h3 hq
      have e1 : Msg.emptyVal (.str t) = false := by simp [Msg.emptyVal, ht]
      have e2 : Msg.emptyVal (.str t') = false := by simp [Msg.emptyVal, ht']
      simp only [List.filter_cons, e1, e2, Bool.not_false, if_true]
      exact .cons ⟨rfl, fun e => absurd hq e, fun _ => ⟨rfl, rfl⟩⟩ ih
    · have := h2 hq
      subst this
      simp only [List.filter_cons]
      split
      · exact .cons ⟨rfl, fun _ => rfl, fun e => absurd e hq⟩ ih
      · exact ih

theorem swap_coerce (h : Swap k t t' a a') {ty : MsgType} (hk : k ∉ ty.spaced) : Swap k t t' (a.map ty.coerce) (a'.map ty.coerce) := by
  induction h with
  | nil => exact .nil
  | @cons x y l l' hxy hl ih =>
    obtain ⟨q, w⟩ := x
    obtain ⟨q', w'⟩ := y
    obtain ⟨h1, h2, h3⟩ := hxy
    simp only at h1 h2 h3
    subst h1
    refine .cons ?_ ih
    by_cases hq : q = k
    · obtain ⟨rfl, rfl⟩ := h3 hq
      subst hq
      simp [MsgType.coerce, hk]
    · have := h2 hq
      subst this
      have : (ty.coerce (q, w)).1 = q := by
        unfold MsgType.coerce
        split
        · split <;> rfl
        · rfl
      exact ⟨rfl, fun _ => rfl, fun e => absurd (this.symm.trans e) hq⟩

theorem swap_update {d d' : Obj} (hd : Swap k t t' d d') (h : Swap k t t' a a') : Swap k t t' (Dict.update d a) (Dict.update d' a') := by
  unfold Dict.update
  induction h generalizing d d' with
  | nil => exact hd
  | @cons x y l l' hxy hl ih =>
    obtain ⟨q, w⟩ := x
    obtain ⟨q', w'⟩ := y
    obtain ⟨h1, h2, h3⟩ := hxy
    simp only at h1 h2 h3
    subst h1
    simp only [List.foldl_cons]
    refine ih ?_
    by_cases hq : q = k
    · obtain ⟨rfl, rfl⟩ := h3 hq
      subst hq
      exact swap_set_self hd
    · have := h2 hq
      subst this
      exact swap_set hd hq w

theorem swap_gather (c : Client) (srv : Srv) (ps : List String) (h : Swap k t t' a a') (hk : Dict.has a k = true) :
    Swap k t t' (gatherLoop c srv ps a) (gatherLoop c srv ps a') ∧ Dict.has (gatherLoop c srv ps a) k = true := by
  induction ps generalizing a a' with
  | nil => exact ⟨h, hk⟩
  | cons p ps ih =>
    unfold gatherLoop
    rw [← (swap_get h p).2.1]
    split
    · exact ih h hk
    · next hp =>
      have hpk : p ≠ k := fun e => hp (e ▸ hk)
      split
      · exact ih (swap_set h hpk _) (by rw [Dict.has_eq, Dict.get?_set_ne _ _ hpk]; exact hk)
      · exact ih h hk

theorem mem_keys_update {d e : Obj} (h : k ∈ Dict.keys d ∨ k ∈ Dict.keys e) : k ∈ Dict.keys (Dict.update d e) := by
  unfold Dict.update
  induction e generalizing d with
  | nil => rcases h with h | h
           · exact h
           · cases h
  | cons p e ih =>
    simp only [List.foldl_cons]
    have hs : ∀ q, q = p.1 ∨ q ∈ Dict.keys d → q ∈ Dict.keys (Dict.set d p.1 p.2) := by
      intro q hq
      rw [← Dict.get?_isSome_iff_mem_keys, Dict.get?_set]
      split
      · rfl
      · next hne => exact (Dict.get?_isSome_iff_mem_keys _ _).2 (hq.resolve_left fun e => hne e.symm)
    rcases h with h | h
    · exact ih (.inl (hs k (.inr h)))
    · rcases List.mem_cons.1 h with h | h
      · exact ih (.inl (hs k (.inl h)))
      · exact ih (.inr h)

theorem has_make (ty : MsgType) {g : Obj} (ht : t ≠ "") (h : Dict.get? g k = some (.str t)) : Dict.has (ty.make g) k = true := by
  rw [Dict.has_eq, Dict.get?_isSome_iff_mem_keys]
  refine mem_keys_update (.inr ?_)
  have hm : (k, Val.str t) ∈ Msg.ofDict g := by
    unfold Msg.ofDict
    rw [List.mem_filter]
    exact ⟨Dict.get?_eq_some_mem h, by simp [Msg.emptyVal, ht]⟩
  have h1 : ty.coerce (k, .str t) ∈ (Msg.ofDict g).map ty.coerce := List.mem_map_of_mem hm
  have h2 : (ty.coerce (k, .str t)).1 = k := by
    unfold MsgType.coerce
    simp only
    split <;> rfl
  exact List.mem_map.2 ⟨_, h1, h2⟩

theorem dpop_shape (x : Ext) (srv : Srv) (m : String) (c : Client) :
    (∃ d, ∀ H, dpopHeader x srv m H c = (.ok H, d)) ∨ (∃ d j, ∀ H, dpopHeader x srv m H c = (.ok (Dict.set H "dpop" j), d)) ∨
      ∃ d e, ∀ H, dpopHeader x srv m H c = (.error e, d) := by
  unfold dpopHeader
  simp only [Py.bind_run, ask]
  cases dpopKeyFor x c with
  | error e => exact .inr (.inr ⟨c, e, fun _ => rfl⟩)
  | ok ko =>
    cases ko with
    | none => exact .inl ⟨c, fun _ => rfl⟩
    | some p =>
      obtain ⟨key, alg⟩ := p
      simp only [Py.bind_run, Py.modify_run]
      cases hi : Dict.getItem c.ctx.providerInfo srv.endpointName with
      | error e => exact .inr (.inr ⟨_, e, fun _ => by simp only [ask, hi]; rfl⟩)
      | ok htu =>
        cases hj : x.dpopSign key (dpopClaims x key alg m htu) with
        | error e => exact .inr (.inr ⟨_, e, fun _ => by simp only [ask, hi, Py.lift_run, hj]; rfl⟩)
        | ok j => exact .inr (.inl ⟨_, j, fun _ => by simp only [ask, hi, Py.lift_run, hj]; rfl⟩)

/-- The headers of a user info request with a bearer token. -/
theorem headers_shape (x : Ext) (m : String) (kw : Obj) (c : Client) :
    (∃ d g, (g = id ∨ ∃ j, g = fun H => Dict.set H "dpop" j) ∧ ∀ r u, u ≠ "" → Dict.get? r "access_token" = some (.str u) →
      getHeaders x .userinfo r m "bearer_header" kw c =
        (.ok (g [("Authorization", "Bearer " ++ u)], Dict.del r "access_token"), d)) ∨
    ∃ d e, ∀ r u, u ≠ "" → Dict.get? r "access_token" = some (.str u) →
      getHeaders x .userinfo r m "bearer_header" kw c = (.error e, d) := by
  have e : ∀ r u, u ≠ "" → Dict.get? r "access_token" = some (.str u) →
      getHeaders x .userinfo r m "bearer_header" kw c =
        if usesDpop c.ctx .userinfo then
          (dpopHeader x .userinfo m [("Authorization", "Bearer " ++ u)] >>= fun h => pure (h, Dict.del r "access_token")) c
        else (.ok ([("Authorization", "Bearer " ++ u)], Dict.del r "access_token"), c) := by
    intro r u hu hr
    have h1 : authnHeader x .userinfo r "bearer_header" (Dict.set kw "authn_endpoint" (.str Srv.userinfo.endpointName)) c =
        .ok ([("Authorization", "Bearer " ++ u)], Dict.del r "access_token") := by
      show ClientAuth.construct (authEnv x c .userinfo) "bearer_header" _ [] r = _
      have : ClientAuth.construct (authEnv x c .userinfo) "bearer_header"
          (Dict.set kw "authn_endpoint" (.str Srv.userinfo.endpointName)) [] r =
          ClientAuth.bearerHeader (authEnv x c .userinfo) (Dict.set kw "authn_endpoint" (.str Srv.userinfo.endpointName)) [] r := by
        simp [ClientAuth.construct]
      rw [this]
      unfold ClientAuth.bearerHeader
      have hn : (authEnv x c .userinfo).serviceName = "userinfo" := rfl
      simp only [hn, show ¬ ("userinfo" = "refresh_token") by decide, if_false, ClientAuth.findToken, hr]
      simp [Val.truthy, hu, ClientAuth.bearer, Dict.set]
    unfold getHeaders
    simp only [Py.bind_run, ask, show ¬ ("bearer_header" = "") by decide, if_false, h1, Py.read_run]
    split <;> rfl
  by_cases hd : usesDpop c.ctx .userinfo = true
  · rcases dpop_shape x .userinfo m c with ⟨d, h⟩ | ⟨d, j, h⟩ | ⟨d, er, h⟩
    · exact .inl ⟨d, id, .inl rfl, fun r u hu hr => by rw [e r u hu hr, if_pos hd, Py.bind_ok (h _)]; rfl⟩
    · exact .inl ⟨d, _, .inr ⟨j, rfl⟩, fun r u hu hr => by rw [e r u hu hr, if_pos hd, Py.bind_ok (h _)]; rfl⟩
    · exact .inr ⟨d, er, fun r u hu hr => by rw [e r u hu hr, if_pos hd, Py.bind_error (h _)]⟩
  · exact .inl ⟨c, id, .inl rfl, fun r u hu hr => by rw [e r u hu hr, if_neg hd]; rfl⟩

theorem set_authorization {g : Dict String → Dict String} (hg : g = id ∨ ∃ j, g = fun H => Dict.set H "dpop" j) (s s' : String) :
    Dict.set (g [("Authorization", s)]) "Authorization" s' = g [("Authorization", s')] ∧
      Dict.get? (g [("Authorization", s)]) "Authorization" = some s := by
  rcases hg with rfl | ⟨j, rfl⟩
  · simp [Dict.set, Dict.get?]
  · simp [Dict.set, Dict.get?]

theorem set_content {g : Dict String → Dict String} (hg : g = id ∨ ∃ j, g = fun H => Dict.set H "dpop" j) (s s' v : String) :
    Dict.set (Dict.set (g [("Authorization", s)]) "Content-Type" v) "Authorization" s' =
      Dict.set (g [("Authorization", s')]) "Content-Type" v ∧
      Dict.get? (Dict.set (g [("Authorization", s)]) "Content-Type" v) "Authorization" = some s := by
  rcases hg with rfl | ⟨j, rfl⟩
  · simp [Dict.set, Dict.get?]
  · simp [Dict.set, Dict.get?]

/-- The request of the user info service before authentication. -/
theorem swap_construct (x : Ext) (args kwargs : Obj) (c : Client) (hargs : Dict.get? args "access_token" = none)
    (hs : "access_token" ∉ (x.msg .userinfo).spaced) (hd : Dict.get? (x.msg .userinfo).defaults "access_token" = none)
    (ht : t ≠ "") (ht' : t' ≠ "") :
    (∃ r r', construct x .userinfo (Dict.set args "access_token" (.str t)) kwargs c = (.ok r, c) ∧
      construct x .userinfo (Dict.set args "access_token" (.str t')) kwargs c = (.ok r', c) ∧
      Swap "access_token" t t' r r' ∧ Dict.get? r "access_token" = some (.str t) ∧ Dict.get? r' "access_token" = some (.str t')) ∨
    (∃ e, construct x .userinfo (Dict.set args "access_token" (.str t)) kwargs c = (.error e, c) ∧
      construct x .userinfo (Dict.set args "access_token" (.str t')) kwargs c = (.error e, c)) := by
  have h0 : Swap "access_token" t t' (Dict.set args "access_token" (.str t)) (Dict.set args "access_token" (.str t')) :=
    swap_set_self (swap_refl hargs)
  have e : ∀ u : String, construct x .userinfo (Dict.set args "access_token" (.str u)) kwargs c =
      match getStateParameter (Dict.set args "access_token" (.str u)) (methodArgs (confOf c .userinfo) "pre_construct" kwargs) with
      | .error e => (.error e, c)
      | .ok _ => (.ok ((x.msg .userinfo).make (gatherLoop c .userinfo (x.msg .userinfo).params
          (stateFromKwargs (x.msg .userinfo) (Dict.set args "access_token" (.str u)) kwargs))), c) := by
    intro u
    have hh : Dict.get? (Dict.set args "access_token" (.str u)) "access_token" = some (.str u) := Dict.get?_set_self _ _ _
    unfold construct
    rw [Py.read_bind_run, Py.bind_run]
    unfold preConstruct
    simp only
    rw [Py.bind_run]
    simp only [ask, userinfoPre, userinfoToken, Dict.has_eq, hh, Option.isSome_some, if_true]
    cases getStateParameter (Dict.set args "access_token" (.str u)) (methodArgs (confOf c .userinfo) "pre_construct" kwargs) with
    | error e => rfl
    | ok v =>
      simp only [Py.pure_run, Py.bind_run, gatherRequestArgs]
      rfl
  have hst : ∀ kw, getStateParameter (Dict.set args "access_token" (.str t)) kw =
      getStateParameter (Dict.set args "access_token" (.str t')) kw := by
    intro kw
    unfold getStateParameter
    rw [(swap_get h0 "state").1 (by decide)]
  rw [e t, e t', ← hst]
  cases hg : getStateParameter (Dict.set args "access_token" (.str t)) (methodArgs (confOf c .userinfo) "pre_construct" kwargs) with
  | error e => exact .inr ⟨e, rfl, rfl⟩
  | ok v =>
    refine .inl ⟨_, _, rfl, rfl, ?_⟩
    have h1 : Swap "access_token" t t' (stateFromKwargs (x.msg .userinfo) (Dict.set args "access_token" (.str t)) kwargs)
        (stateFromKwargs (x.msg .userinfo) (Dict.set args "access_token" (.str t')) kwargs) ∧
        Dict.has (stateFromKwargs (x.msg .userinfo) (Dict.set args "access_token" (.str t)) kwargs) "access_token" = true := by
      have hh : Dict.has (Dict.set args "access_token" (.str t)) "access_token" = true := by
        rw [Dict.has_eq, Dict.get?_set_self]; rfl
      unfold stateFromKwargs
      rw [← (swap_get h0 "state").2.1]
      split
      · split
        · exact ⟨swap_set h0 (by decide) _, by rw [Dict.has_eq, Dict.get?_set_ne _ _ (by decide)]; exact hh⟩
        · exact ⟨h0, hh⟩
      · exact ⟨h0, hh⟩
    obtain ⟨h2, h3⟩ := swap_gather c .userinfo (x.msg .userinfo).params h1.1 h1.2
    have h4 := swap_update (swap_refl hd) (swap_coerce (swap_ofDict h2 ht ht') hs)
    have h5 : Dict.has ((x.msg .userinfo).make (gatherLoop c .userinfo (x.msg .userinfo).params
        (stateFromKwargs (x.msg .userinfo) (Dict.set args "access_token" (.str t)) kwargs))) "access_token" = true :=
      has_make _ ht ((swap_get h2 _).2.2 rfl h3).1
    exact ⟨h4, (swap_get h4 _).2.2 rfl h5⟩

/-- C102: the access token of a user info request is in the header `Authorization` and nowhere else: with another token the
same URL, method and body come out. -/
theorem C102_userinfo_token (x : Ext) (args : Obj) (o : CallOpts) (kwargs : Obj) (c : Client)
    (hargs : Dict.get? args "access_token" = none)
    (hs : "access_token" ∉ (x.msg .userinfo).spaced) (hd : Dict.get? (x.msg .userinfo).defaults "access_token" = none)
    (ht : t ≠ "") (ht' : t' ≠ "")
    (hm : orElse o.authnMethod (attr c .userinfo "default_authn_method" "bearer_header") = "bearer_header") :
    getRequestParameters x .userinfo (Dict.set args "access_token" (.str t')) o kwargs c =
      ((getRequestParameters x .userinfo (Dict.set args "access_token" (.str t)) o kwargs c).1.map (fun info =>
        { info with headers := Dict.set info.headers "Authorization" ("Bearer " ++ t') }),
       (getRequestParameters x .userinfo (Dict.set args "access_token" (.str t)) o kwargs c).2) ∧
    ∀ info, (getRequestParameters x .userinfo (Dict.set args "access_token" (.str t)) o kwargs c).1 = .ok info →
      Dict.get? info.headers "Authorization" = some ("Bearer " ++ t) := by
  have ham : ∀ d : Client, getAuthnMethod d .userinfo = .ok (attr d .userinfo "default_authn_method" "bearer_header") := fun _ => rfl
  have ha : (if o.authnMethod = "" then getAuthnMethod c .userinfo else .ok o.authnMethod) = .ok "bearer_header" := by
    rw [ham]
    unfold orElse at hm
    split at hm
    · next e => rw [if_pos e, hm]
    · next e => rw [if_neg e, hm]
  have e : ∀ u : String, getRequestParameters x .userinfo (Dict.set args "access_token" (.str u)) o kwargs c =
      (construct x .userinfo (Dict.set args "access_token" (.str u)) kwargs >>= fun request =>
        getHeaders x .userinfo request (orElse o.method (attr c .userinfo "http_method" "GET")) "bearer_header" (withIss c kwargs) >>= fun h =>
        ask (assemble x .userinfo h.2 (orElse o.method (attr c .userinfo "http_method" "GET"))
          (orElse o.requestBodyType (attr c .userinfo "request_body_type" "urlencoded")) h.1 kwargs)) c := by
    intro u
    show buildRequest x .userinfo _ o kwargs c = _
    unfold buildRequest
    rw [Py.read_bind_run, Py.bind_run]
    simp only [ask, ha]
    rfl
  rw [e t, e t']
  rcases swap_construct x args kwargs c hargs hs hd ht ht' with ⟨r, r', h1, h2, h3, h4, h5⟩ | ⟨er, h1, h2⟩
  · rw [Py.bind_ok h1, Py.bind_ok h2]
    rcases headers_shape x (orElse o.method (attr c .userinfo "http_method" "GET")) (withIss c kwargs) c with
      ⟨d, g, hg, hh⟩ | ⟨d, er, hh⟩
    · rw [Py.bind_ok (hh r t ht h4), Py.bind_ok (hh r' t' ht' h5), swap_del h3]
      simp only [ask, assemble]
      cases targetOf .userinfo kwargs d with
      | error e => exact ⟨rfl, fun _ he => by cases he⟩
      | ok url =>
        simp only
        split
        · cases Util.getHttpBody (x.ser .userinfo) (Dict.del r' "access_token")
            (contentType (orElse o.requestBodyType (attr c .userinfo "request_body_type" "urlencoded"))) with
          | error e => exact ⟨rfl, fun _ he => by cases he⟩
          | ok b =>
            refine ⟨?_, fun info he => ?_⟩
            · simp only [Except.map]
              rw [(set_content hg _ _ _).1]
            · injection he with he
              rw [← he]
              exact (set_content hg _ "" _).2
        · refine ⟨?_, fun info he => ?_⟩
          · simp only [Except.map]
            rw [(set_authorization hg _ _).1]
          · injection he with he
            rw [← he]
            exact (set_authorization hg _ "").2
    · rw [Py.bind_error (hh r t ht h4), Py.bind_error (hh r' t' ht' h5)]
      exact ⟨rfl, fun _ he => by cases he⟩
  · rw [Py.bind_error h1, Py.bind_error h2]
    exact ⟨rfl, fun _ he => by cases he⟩

/-- C102 does not hold of GitHub's user info service: it does not authenticate the request, the access token is in the query
of the URL. -/
theorem C102_github_violated (x : Ext) (args kwargs : Obj) (c c' : Client) (info : ReqInfo)
    (hc : Dict.get? c.conf "userinfo" = some Provider.githubUserInfo) (hn : Dict.has c.ctx.addOn "dpop" = false)
    (hargs : Dict.get? args "access_token" = none)
    (hs : "access_token" ∉ (x.msg .userinfo).spaced) (hd : Dict.get? (x.msg .userinfo).defaults "access_token" = none)
    (ht : t ≠ "") (h : getRequestParameters x .userinfo (Dict.set args "access_token" (.str t)) {} kwargs c = (.ok info, c')) :
    info.method = "GET" ∧ info.headers = [] ∧ Dict.get? info.request "access_token" = some (.str t) ∧
      ∃ u, info.url = Util.getHttpUrl (x.ser .userinfo) u info.request "GET" := by
  have h : buildRequest x .userinfo (Dict.set args "access_token" (.str t)) {} kwargs c = (.ok info, c') := h
  have a1 : ∀ n d, attr c .userinfo n d = match Dict.get? Provider.githubUserInfo n with
      | some (.str s) => s
      | _ => d := by
    intro n d
    unfold attr confOf
    rw [show Srv.userinfo.name = "userinfo" from rfl, hc]
    rfl
  have a2 : attr c .userinfo "http_method" (httpMethod .userinfo) = "GET" := by rw [a1]; rfl
  have a3 : getAuthnMethod c .userinfo = .ok "" := by
    show Except.ok (attr c .userinfo "default_authn_method" "bearer_header") = _
    rw [a1]
    rfl
  unfold buildRequest at h
  rw [Py.read_bind_run, Py.bind_run] at h
  simp only [ask, if_true, a3] at h
  rcases swap_construct (t' := t) x args kwargs c hargs hs hd ht ht with ⟨r, _, h1, _, _, h4, _⟩ | ⟨er, h1, _⟩
  · rw [Py.bind_ok h1] at h
    have hg : getHeaders x .userinfo r (orElse "" (attr c .userinfo "http_method" (httpMethod .userinfo))) "" (withIss c kwargs) c =
        (.ok ([], r), c) := by
      unfold getHeaders
      rw [Py.bind_run]
      simp only [ask, if_true, a3]
      simp [Py.bind_run, ask, authnHeader, usesDpop, hn]
    rw [Py.bind_ok hg] at h
    have he : (assemble x .userinfo r (orElse "" (attr c .userinfo "http_method" (httpMethod .userinfo)))
      (orElse "" (attr c .userinfo "request_body_type" (requestBodyType .userinfo))) [] kwargs c) = .ok info := congrArg Prod.fst h
    rw [a2] at he
    unfold assemble at he
    split at he
    · cases he
    · next u _ =>
      have hp : ¬ (orElse "" "GET" = "POST") := by decide
      simp only [hp, if_false] at he
      injection he with he
      subst he
      exact ⟨rfl, rfl, h4, u, rfl⟩
  · rw [Py.bind_error h1] at h
    cases h

/-! ## Non-vacuity -/

/-- A client for the examples. -/
def keeper : Client where
  ctx := {
    issuer := "https://op.example"
    clientId := "client1"
    clientSecret := "secret1"
    redirectUris := ["https://rp.example/cb"]
    behaviour := [("response_types", .list [.str "code"]), ("scope", .list [.str "openid"])]
    providerInfo := World.metadata
    addOn := [("pkce", .obj [])] }
  services := [.authorization, .userinfo]
  db := [("old", .doc [("iss", .str "https://op.example"), ("token_response", .obj [("access_token", .str "AT0")])])]

/-- The same client with other secrets. -/
def keeper' : Client :=
  { keeper with
    ctx := {
      issuer := "https://op.example"
      clientId := "client1"
      clientSecret := "another"
      registrationResponse := [("client_secret", .str "another")]
      config := [("client_secret", .str "another")]
      redirectUris := ["https://rp.example/cb"]
      behaviour := [("response_types", .list [.str "code"]), ("scope", .list [.str "openid"])]
      providerInfo := World.metadata
      addOn := [("pkce", .obj [])] }
    db := [("old", .doc [("iss", .str "https://op.example"), ("token_response", .obj [("access_token", .str "AT9")])])]
    dpopKey := some ("k", "ES256") }

/-- The world of the examples, with another PKCE verifier. -/
def otherDraw : Ext :=
  { World.ext 1000 World.s1 "n1" "n1" with
    rnd := fun n => if n = "code_verifier" then "unguessable" else (World.ext 1000 World.s1 "n1" "n1").rnd n
    challenge := fun m _ => m ++ ":" ++ ("verifier-" ++ World.s1) }

example : SameButVerifier (World.ext 1000 World.s1 "n1" "n1") otherDraw :=
  ⟨rfl, fun p hp => by simp [otherDraw, hp], fun m => by simp [otherDraw, World.ext, String.append_assoc]⟩

example : SameButSecrets keeper keeper' ∧ keeper.ctx.clientSecret ≠ keeper'.ctx.clientSecret ∧ keeper.db ≠ keeper'.db ∧ OpenLogin keeper :=
  ⟨⟨rfl, rfl, rfl, rfl, rfl, fun k => by
      show (Dict.get? [("old", DbVal.doc _)] k).map outline = (Dict.get? [("old", DbVal.doc _)] k).map outline
      simp only [Dict.get?_cons]
      split <;> rfl⟩, by decide, by decide, fun o s h => by cases h⟩

example : Blind (World.ext 1000 World.s1 "n1" "n1") ∧ NoSecretParameter (World.ext 1000 World.s1 "n1" "n1") :=
  ⟨⟨fun _ _ _ => rfl, fun _ _ _ => rfl⟩, by unfold NoSecretParameter; decide⟩

/-- The URL is made. -/
example : ((initAuthorization (World.ext 1000 World.s1 "n1" "n1") [] [] keeper).1.toOption.map Prod.fst) =
    some ("https://op.example/auth?redirect_uri=https%3A%2F%2Frp.example%2Fcb&scope=openid&response_type=code&nonce=n1" ++
      "&state=abcdefghijklmnopqrstuvwxyzABCDE1&code_challenge=S256%3Averifier-abcdefghijklmnopqrstuvwxyzABCDE1" ++
      "&code_challenge_method=S256&client_id=client1") := by decide +kernel

/-- User info with the token in the header. -/
example : (getRequestParameters (World.ext 1000 World.s1 "n1" "n1") .userinfo [("access_token", .str "AT")] {} [("state", .str "old")]
    keeper).1.toOption = some { url := "https://op.example/userinfo", headers := [("Authorization", "Bearer AT")] } := by decide +kernel

/-- User info at GitHub: the token is in the URL. -/
example : (getRequestParameters (World.ext 1000 World.s1 "n1" "n1") .userinfo [("access_token", .str "AT")] {} [("state", .str "old")]
    { keeper with conf := [("userinfo", Provider.githubUserInfo)] }).1.toOption.map (fun i => (i.url, i.headers)) =
      some ("https://op.example/userinfo?access_token=AT", []) := by decide +kernel

end Verif.Props
