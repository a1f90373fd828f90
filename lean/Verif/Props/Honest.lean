import Verif.Lemmas.Progress
import Verif.Props.SessionUse
import Verif.Props.RequestObject
/-!
# C81: an honest login succeeds
-/

namespace Verif.Props
open Verif Verif.Service Verif.Handler Verif.StateInterface Verif.Spec.Session Verif.Spec.HandlerView Verif.Spec.Wire

/-! ## Specification -/

/-- Session `k` of the client waits for the provider's response: it was started with `issuer`, its authorization request
`areq` is stored, the nonce `n` is bound to it, and, with PKCE, a code verifier is stored. -/
structure Waiting (c : Client) (issuer k : String) (areq : Obj) (n : String) (ver : Val) : Prop where
  started : StartedWith c k issuer
  request : getItem c.db "auth_request" k = .ok areq
  nonce : getStateByX c.db n .nonce = .ok (.raw k)
  index : ∃ refs, Dict.get? c.db ("ref" ++ k ++ "ref") = some (.doc refs)
  refreshed : getItem c.db "refresh_token_response" k = .error .keyError
  pkce : Dict.has c.ctx.addOn "pkce" = true →
    ∃ item, getItem c.db "pkce" k = .ok item ∧ Dict.get? item "code_verifier" = some ver

/-- The client authenticates itself at the token endpoint: with the method that was negotiated or, without one, that of
the service, every token request can be authenticated. -/
def CanAuthenticate (x : Ext) (c : Client) : Prop :=
  ∃ am m, clientAuthnMethod c.ctx.behaviour = .ok am ∧ (if am = "" then getAuthnMethod c .accesstoken else .ok am) = .ok m ∧
    ∀ db req kw, Dict.get? req "grant_type" = some (.str "authorization_code") →
      (∀ p ∈ ["user", "password", "client_secret"], Dict.get? kw p = none) →
      (c.ctx.clientSecret ≠ "" → Dict.get? req "client_secret" = some (.str c.ctx.clientSecret)) →
      ∃ r, authnHeader x .accesstoken req m kw { c with db := db } = .ok r

/-- The client has what fetching tokens needs: the services, the token endpoint, an id, a way to authenticate itself, with DPoP a
key to sign proofs with. -/
structure Equipped (x : Ext) (c : Client) : Prop where
  accesstoken : .accesstoken ∈ c.services
  tokenEndpoint : ∃ url, Discovery.serviceEndpoint c.ctx .accesstoken = .ok (.str url)
  clientId : c.ctx.clientId ≠ ""
  authenticates : CanAuthenticate x c
  proves : CanProve x c .accesstoken
  message : PlainTokenRequest x ∧ "client_secret" ∉ (x.msg .accesstoken).spaced

/-- The client has what asking for the user's claims needs. -/
structure AsksUserinfo (x : Ext) (c : Client) : Prop where
  userinfo : .userinfo ∈ c.services
  userinfoEndpoint : ∃ url, Discovery.serviceEndpoint c.ctx .userinfo = .ok (.str url)
  header : HeaderToken c
  proves : CanProve x c .userinfo
  message : UserinfoMessage x

/-- The HTTP request `s` is one the provider gives tokens for: it is sent to the token endpoint and has the code, the
redirect URI, the grant type, the client (id or assertion) and, with PKCE, the code verifier. -/
def CodeRequest (x : Ext) (c : Client) (code ru ver : Val) (s : Sent) : Prop :=
  s.srv = .accesstoken ∧ ∃ url req, Discovery.serviceEndpoint c.ctx .accesstoken = .ok (.str url) ∧ Carries x s url req ∧
    Dict.get? req "code" = some code ∧ Dict.get? req "redirect_uri" = some ru ∧
    Dict.get? req "grant_type" = some (.str "authorization_code") ∧
    (Dict.get? req "client_id" = some (.str c.ctx.clientId) ∨
      (Dict.get? req "client_id" = none ∧ (Dict.get? req "client_assertion").isSome)) ∧
    (Dict.has c.ctx.addOn "pkce" = true → Dict.get? req "code_verifier" = some ver)

/-- The ID Token `idt` of a session names a subject; its session id, if any, is a text. -/
structure GoodIdToken (idt : Obj) (sub : String) : Prop where
  subject : Dict.get? idt "sub" = some (.str sub)
  sid : ∀ v, Dict.get? idt "sid" = some v → ∃ s, v = .str s

/-- The provider answers the token request with an access token `t` and an ID Token `idt` that has the session's nonce. -/
structure HonestTokens (x : Ext) (c : Client) (code ru ver : Val) (n t : String) (idt : Obj) : Prop where
  tokens : ∃ rt p v, (∀ log s, CodeRequest x c code ru ver s → x.http log s = .ok rt) ∧ Understood x c .accesstoken rt p v ∧
    Msg.isError v = false ∧ Dict.get? v "access_token" = some (.str t) ∧
    Dict.get? v "__verified_id_token" = some (.obj idt) ∧ ∃ r, withExpiry x v = .ok r
  nonce : Dict.get? idt "nonce" = some (.str n)

/-- The provider answers the userinfo request with the claims `u` about the subject. -/
def HonestClaims (x : Ext) (c : Client) (t sub : String) (u : Obj) : Prop :=
  ∃ ru p, (∀ log s, AsksWith c x t s → x.http log s = .ok ru) ∧ Understood x c .userinfo ru p u ∧
    Msg.isError u = false ∧ Dict.get? u "sub" = some (.str sub) ∧ Dict.get? u "_claim_sources" = none

/-! ## Steps -/

theorem finalizeAuth_progress {x : Ext} {issuer k : String} {response resp resp' st : Obj} {c : Client}
    (hs : .authorization ∈ c.services) (hp : ParsedAs x c response resp) (he : Msg.isError resp = false)
    (hk : Dict.get? resp "state" = some (.str k)) (hst : getState c.db k = .ok st) (hi : StartedWith c k issuer)
    (hw : withExpiry x resp = .ok resp') :
    finalizeAuth x issuer response c =
      (.ok resp', { c with db := Dict.set c.db k (.doc (Dict.set st "auth_response" (.obj resp'))) }) := by
  unfold finalizeAuth
  rw [Py.read_bind_run, if_neg (by simpa using hs), Py.bind_ok (parsedAs_iff.1 hp), Py.lift_bind_ok (show asMsg (.msg resp) = .ok resp from rfl),
    if_neg (by rw [he]; decide)]
  have hci : checkIssuer c.db issuer resp = .ok k := by
    unfold checkIssuer
    rw [Dict.getItem_eq_ok.2 hk]
    simp only [dbKey]
    rw [show getIss c.db k = .ok (.str issuer) from hi]
    simp
  rw [ask_bind_ok (by simpa using hci)]
  simp only [updateMsg]
  have e1 : ∀ (c : Client) (st : Obj), getState c.db k = .ok st → onDB (storeItem resp' "auth_response" k) c =
      (.ok (), { c with db := Dict.set c.db k (.doc (Dict.set st "auth_response" (.obj resp'))) }) := by
    intro c st h; unfold onDB; rw [storeItem_run h]
  have e2 : storeResponse x "auth_response" k resp c =
      (.ok resp', { c with db := Dict.set c.db k (.doc (Dict.set st "auth_response" (.obj resp'))) }) := by
    unfold storeResponse
    rw [Py.lift_bind_ok hw, Py.bind_ok (e1 c st hst)]
    rfl
  rw [Py.bind_ok e2]
  have e3 := e1 { c with db := Dict.set c.db k (.doc (Dict.set st "auth_response" (.obj resp'))) } _
    (getState_set c.db k (set_noEmpty (getState_noEmpty hst) "auth_response" resp'))
  rw [Py.bind_ok e3]
  simp only [Dict.set_set]
  rfl

/-- The token request message of a session with an authorization request and response can be made. -/
theorem token_construct_progress {x : Ext} {c : Client} {k : String} {args st : Obj} {ver : Val}
    (hn : (Dict.keys args).Nodup) (hst : getState c.db k = .ok st)
    (h1 : ∃ o, Dict.get? st "auth_request" = some (.obj o)) (h2 : ∃ o, Dict.get? st "auth_response" = some (.obj o))
    (hs : Dict.get? args "state" = some (.str k)) (hk : k ≠ "") (hsp : "state" ∉ (x.msg .accesstoken).spaced)
    (hpk : Dict.has c.ctx.addOn "pkce" = true →
      ∃ item, getItem c.db "pkce" k = .ok item ∧ Dict.get? item "code_verifier" = some ver) :
    ∃ req, construct x .accesstoken args [("state", .str k)] c = (.ok req, c) := by
  have hkw : Dict.get? (methodArgs (confOf c .accesstoken) "pre_construct" [("state", Val.str k)]) "state" = some (.str k) :=
    methodArgs_given _ _ (by simp [Dict.keys]) rfl
  obtain ⟨a, ha⟩ := tokenPre_progress (params := (x.msg .accesstoken).params) (args := args) hkw hst h1 h2
  obtain ⟨hna, hget⟩ := tokenPre_get ha hkw hn
  have hpre : preConstruct x .accesstoken args (methodArgs (confOf c .accesstoken) "pre_construct" [("state", Val.str k)]) c
      = (.ok (a, []), c) := by
    simp only [preConstruct]
    rw [ask_bind_ok ha, Py.read_bind_run]
    have : (if Dict.has c.ctx.addOn "pkce" = true then
        putState a (methodArgs (confOf c .accesstoken) "pre_construct" [("state", Val.str k)]) else .ok a) = .ok a := by
      split
      · rw [putState, getStateParameter_kwargs hkw]; rfl
      · rfl
    rw [Py.lift_bind_ok this]
    rfl
  have has : Dict.get? a "state" = some (.str k) := by rw [hget, hs]; rfl
  have hsf : stateFromKwargs (x.msg .accesstoken) a [("state", .str k)] = a := by
    unfold stateFromKwargs
    rw [if_neg]
    rintro ⟨-, h⟩
    exact h (by rw [Dict.has_eq, has]; rfl)
  have hg : gatherRequestArgs x c .accesstoken a = .ok (gatherLoop c .accesstoken (x.msg .accesstoken).params a) := by
    unfold gatherRequestArgs; simp
  have hmk : Dict.get? ((x.msg .accesstoken).make (gatherLoop c .accesstoken (x.msg .accesstoken).params a)) "state"
      = some (.str k) :=
    (C38_message _ _ (nodup_gather hg hna) "state" hsp).1 _ (gather_given hg has) (by simpa using hk) (by simp)
  unfold construct
  rw [Py.read_bind_run, Py.bind_ok hpre, ask_bind_ok (by simp only [hsf]; exact hg)]
  unfold postConstruct
  rw [Py.read_bind_run]
  simp only
  split
  · next hp =>
    obtain ⟨item, g1, g2⟩ := hpk hp
    refine ⟨Dict.set ((x.msg .accesstoken).make (gatherLoop c .accesstoken (x.msg .accesstoken).params a)) "code_verifier" ver, ?_⟩
    unfold ask addCodeVerifier
    rw [hmk]
    simp only [Option.or, dbKey, g1, Dict.getItem_eq_ok.2 g2]
  · exact ⟨_, rfl⟩

theorem kw_none (c : Client) (k : String) (e : Val) :
    ∀ p ∈ ["user", "password", "client_secret"], Dict.get? (Dict.set (withIss c [("state", .str k)]) "authn_endpoint" e) p = none := by
  intro p hp
  have h1 : p ≠ "authn_endpoint" ∧ p ≠ "iss" ∧ p ≠ "state" := by
    simp only [List.mem_cons, List.not_mem_nil, or_false] at hp
    rcases hp with rfl | rfl | rfl <;> decide
  rw [Dict.get?_set_ne _ _ (Ne.symm h1.1)]
  unfold withIss
  split
  · simp [Dict.get?, Ne.symm h1.2.2]
  · rw [Dict.get?_set_ne _ _ (Ne.symm h1.2.1)]; simp [Dict.get?, Ne.symm h1.2.2]

/-- The token request of a session whose authorization response is stored is made, and it is one the provider gives
tokens for. -/
theorem token_request_progress {x : Ext} {c : Client} (hq : Equipped x c) {k : String} {st areq resp : Obj} {db : DB}
    {code ru ver : Val} (hst : getState db k = .ok st)
    (h1 : getItem db "auth_request" k = .ok areq) (h2 : getItem db "auth_response" k = .ok resp)
    (hcode : Dict.get? resp "code" = some code) (hru : Dict.get? areq "redirect_uri" = some ru) (hk : k ≠ "")
    (hpk : Dict.has c.ctx.addOn "pkce" = true →
      ∃ item, getItem db "pkce" k = .ok item ∧ Dict.get? item "code_verifier" = some ver) :
    ∃ args am info, tokenArgs k { c with db := db } = .ok args ∧ clientAuthnMethod c.ctx.behaviour = .ok am ∧
      getRequestParameters x .accesstoken args { authnMethod := am } [("state", .str k)] { c with db := db }
        = (.ok info, { c with db := db }) ∧
      CodeRequest x c code ru ver (sentFor .accesstoken info) := by
  obtain ⟨am, m, ha1, ha2, ha3⟩ := hq.authenticates
  obtain ⟨hm, hsec⟩ := hq.message
  have hargs : tokenArgs k { c with db := db } = .ok [("code", code), ("state", .str k), ("redirect_uri", ru),
            ("grant_type", .str "authorization_code"), ("client_id", .str c.ctx.clientId),
            ("client_secret", .str c.ctx.clientSecret)] := by
    unfold tokenArgs
    simp only [h1, h2, Dict.getItem_eq_ok.2 hcode, Dict.getItem_eq_ok.2 hru]
  obtain ⟨args, hargs'⟩ : ∃ args, args = [("code", code), ("state", .str k), ("redirect_uri", ru),
            ("grant_type", .str "authorization_code"), ("client_id", .str c.ctx.clientId),
            ("client_secret", .str c.ctx.clientSecret)] := ⟨_, rfl⟩
  rw [← hargs'] at hargs
  have hn : (Dict.keys args).Nodup := by rw [hargs']; simp [Dict.keys]
  have item_obj : ∀ t o, getItem db t k = .ok o → ∃ o', Dict.get? st t = some (.obj o') := by
    intro t o h
    unfold getItem at h
    rw [hst] at h
    simp only at h
    unfold asItem at h
    split at h <;> first | cases h | skip
    next o' hg => exact ⟨o', hg⟩
  obtain ⟨req, hreq⟩ := token_construct_progress (x := x) (c := { c with db := db }) (args := args) (ver := ver) hn hst
    (item_obj _ _ h1) (item_obj _ _ h2) (by rw [hargs']; rfl) hk (hm.2 _ (by simp)) hpk
  obtain ⟨-, g5, g6⟩ := token_construct hn hreq
  obtain ⟨e1, e2⟩ := stored_nonempty h2 hcode
  obtain ⟨e3, e4⟩ := stored_nonempty h1 hru
  have ecode : Dict.get? req "code" = some code :=
    g5 _ _ (by decide) (hm.2 _ (by simp)) e1 e2 (by rw [hargs']; rfl)
  have eru : Dict.get? req "redirect_uri" = some ru :=
    g5 _ _ (by decide) (hm.2 _ (by simp)) e3 e4 (by rw [hargs']; rfl)
  have egt : Dict.get? req "grant_type" = some (.str "authorization_code") :=
    g5 _ _ (by decide) (hm.2 _ (by simp)) (by decide) (by simp) (by rw [hargs']; rfl)
  have eci : Dict.get? req "client_id" = some (.str c.ctx.clientId) :=
    g5 _ _ (by decide) (hm.2 _ (by simp)) (by simpa using hq.clientId) (by simp) (by rw [hargs']; rfl)
  obtain ⟨r, hr⟩ := ha3 db req (Dict.set (withIss { c with db := db } [("state", .str k)]) "authn_endpoint"
    (.str Srv.accesstoken.endpointName)) egt (kw_none _ _ _)
    (fun hs => g5 _ _ (by decide) hsec (by simpa using hs) (by simp) (by rw [hargs']; rfl))
  obtain ⟨url, hurl⟩ := hq.tokenEndpoint
  have htarget : targetOf .accesstoken [("state", .str k)] { c with db := db } = .ok url := by
    simp [targetOf, Dict.get?, endpointOf, hurl, asStr]
  obtain ⟨info, hinfo⟩ := buildRequest_proving (x := x) (srv := .accesstoken) (args := args) (o := { authnMethod := am })
    (kwargs := [("state", .str k)]) (c := { c with db := db }) (am := m) (m := m) (r := r)
    hq.proves ha2
    (by split
        · next hm0 =>
          rw [hm0] at ha2
          split at ha2
          · rw [hm0]; exact ha2
          · next h => injection ha2 with ha2; exact absurd ha2 h
        · rfl)
    hreq hr htarget
  refine ⟨args, am, info, hargs, ha1, hinfo, rfl, ?_⟩
  obtain ⟨url', req0, m', h0, k1, k2, k3, k4⟩ := token_sent hn hinfo
  rw [hreq] at k1
  simp only [Prod.mk.injEq, Except.ok.injEq, and_true] at k1
  subst k1
  refine ⟨url', info.request, k2, k4, ?_, ?_, ?_, ?_, ?_⟩
  · rw [authnHeader_keeps k3 (by decide)]; exact ecode
  · rw [authnHeader_keeps k3 (by decide)]; exact eru
  · rw [authnHeader_keeps k3 (by decide)]; exact egt
  · rcases authnHeader_clientId k3 with h | h | ⟨h, hmeth⟩
    · left; rw [h, eci]
    · left; exact h
    · rcases hmeth with rfl | rfl | rfl
      · left
        have := (C30_request _ _ _ _ _ _ (by simpa [authnHeader] using k3)).2.1
        rw [this]
        simp [expectedClientId, authEnv, hm.1, egt, eci, Spec.firstOf]
      · right
        obtain ⟨-, -, -, ⟨a, e, -⟩, -⟩ := C33_request _ .clientSecretJwt _ _ _ _ (by simpa [authnHeader, ClientAuth.construct] using k3)
        exact ⟨h, by rw [e]; rfl⟩
      · right
        obtain ⟨-, -, -, ⟨a, e, -⟩, -⟩ := C33_request _ .privateKeyJwt _ _ _ _ (by simpa [authnHeader, ClientAuth.construct] using k3)
        exact ⟨h, by rw [e]; rfl⟩
  · intro hp
    obtain ⟨item, v, i1, i2, i3⟩ := g6 hp hk (hm.2 _ (by simp)) (by rw [hargs']; rfl)
    obtain ⟨item', j1, j2⟩ := hpk hp
    rw [show getItem db "pkce" k = .ok item from i1] at j1
    injection j1 with j1
    subst j1
    rw [i2] at j2
    rw [authnHeader_keeps k3 (by decide), i3, j2]

theorem find_progress {v : Obj} {p : String} {a : Val} (h : Dict.get? v p = some a) :
    Resp.item (.msg v) p = .ok a ∧ Resp.find (.msg v) p = .ok (some a) := by
  constructor
  · unfold Resp.item; simp [Resp.toVal, Dict.getItem_eq_ok.2 h]
  · unfold Resp.find; simp [Resp.toVal, h]

/-- The tokens are fetched and stored. -/
theorem getTokens_progress {K : String → Prop} (hK : Spec.Store.KeySpace K) {x : Ext} {c : Client} (hq : Equipped x c)
    {k n t sub : String} (hk : K k) {st areq resp idt : Obj} {db : DB}
    {code ru ver : Val} (hst : getState db k = .ok st)
    (h1 : getItem db "auth_request" k = .ok areq) (h2 : getItem db "auth_response" k = .ok resp)
    (hcode : Dict.get? resp "code" = some code) (hru : Dict.get? areq "redirect_uri" = some ru)
    (hpk : Dict.has c.ctx.addOn "pkce" = true →
      ∃ item, getItem db "pkce" k = .ok item ∧ Dict.get? item "code_verifier" = some ver)
    (hn : getStateByX db n .nonce = .ok (.raw k)) (href : ∀ s, Dict.get? db (refKey k) ≠ some (.raw s))
    (hh : HonestTokens x c code ru ver n t idt) (hid : GoodIdToken idt sub) :
    ∃ s db2 r, CodeRequest x c code ru ver s ∧
      getTokens x k { c with db := db } = (.ok (.msg r), { c with db := db2, log := c.log ++ [s] }) ∧
      getState db2 k = .ok (Dict.set st "token_response" (.obj r)) ∧
      (∀ s, Dict.get? db2 (refKey k) ≠ some (.raw s)) ∧
      Dict.get? r "access_token" = some (.str t) ∧ Dict.get? r "__verified_id_token" = some (.obj idt) ∧
      ∃ rt p v, x.http c.log s = .ok rt ∧ Understood x c .accesstoken rt p v ∧ withExpiry x v = .ok r := by
  obtain ⟨rt, p, v, a1, a2, a3, a4, a5, r, a6⟩ := hh.tokens
  obtain ⟨args, am, info, b1, b2, b3, b4⟩ := token_request_progress hq hst h1 h2 hcode hru (hK.nonempty k hk) hpk
  have hv : v ≠ [] := by rintro rfl; cases a4
  have hdo := doRequest_progress (x := x) (c := { c with db := db }) (srv := .accesstoken) (m := v)
    (c2 := { c with db := db, log := c.log ++ [sentFor .accesstoken info] }) (o := { authnMethod := am })
    (k := k) hq.accesstoken rfl b3 (a1 _ _ b4) a2 rfl hv a3
  obtain ⟨db', d1, d2, d3, d4⟩ := storeX2State_progress (v := sub) (t := .subjectId) href
  have hgs : getState db' k = .ok st := by
    rw [getState_congr (d3 k (KeySpace.ne_index hK hk _ _) (KeySpace.ne_ref hK hk hk)), hst]
  have hbind : bindIdToken v k { c with db := db, log := c.log ++ [sentFor .accesstoken info] }
      = (.ok (), { c with db := db', log := c.log ++ [sentFor .accesstoken info] }) := by
    unfold bindIdToken
    rw [show Dict.get? v (Msg.verifiedName "id_token") = some (.obj idt) from a5]
    simp only
    have hns : nonceOfSession db idt k = .ok () := by
      unfold nonceOfSession
      rw [hh.nonce]
      simp only [hn, if_true]
    rw [ask_bind_ok hns, Py.lift_bind_ok (Dict.getItem_eq_ok.2 hid.subject), Py.lift_bind_ok (show asStr (.str sub) = .ok sub from rfl)]
    unfold onDB
    simp only [d1]
  have hupd : updateMsg x .accesstoken v k { c with db := db, log := c.log ++ [sentFor .accesstoken info] }
      = (.ok r, { c with db := Dict.set db' k (.doc (Dict.set st "token_response" (.obj r))),
                         log := c.log ++ [sentFor .accesstoken info] }) := by
    simp only [updateMsg]
    rw [Py.bind_ok hbind]
    unfold storeResponse
    rw [Py.lift_bind_ok a6, Py.bind_ok (a := ()) (s' := { c with
      db := Dict.set db' k (.doc (Dict.set st "token_response" (.obj r))), log := c.log ++ [sentFor .accesstoken info] })]
    · rfl
    · unfold onDB
      rw [storeItem_run hgs]
  rw [hupd] at hdo
  simp only at hdo
  refine ⟨sentFor .accesstoken info, Dict.set db' k (.doc (Dict.set st "token_response" (.obj r))), r, b4, ?_, getState_set _ _ (set_noEmpty (getState_noEmpty hst) _ _), ?_, ?_, ?_, rt, p, v, a1 _ _ b4, a2, a6⟩
  · unfold getTokens
    rw [ask_bind_ok b1, ask_bind_ok b2, Py.bind_ok hdo]
    have : refuseError (.msg r) = .ok () := by
      unfold refuseError
      simp [Resp.isError, isError_withExpiry a6, a3]
    rw [Py.lift_bind_ok this]
    rfl
  · intro s
    rw [Dict.get?_set_ne _ _ (KeySpace.ne_ref hK hk hk)]
    exact d2 s
  · rw [withExpiry_get a6 (by decide)]; exact a4
  · rw [withExpiry_get a6 (by decide)]; exact a5

/-- The user information is fetched. -/
theorem getUserInfo_asked {x : Ext} {c : Client} (hq : AsksUserinfo x c)
    {k t sub : String} {st u : Obj} {db : DB} (ht : t ≠ "") (hst : getState db k = .ok st)
    (hitems : ∀ i ∈ RESPONSES, Dict.get? st i = none ∨ ∃ o, Dict.get? st i = some (.obj o))
    (hsame : ∀ a, StateInterface.multipleExtendRequestArgs db [] k ["id_token"] RESPONSES = .ok a → sameSub a u = .ok ())
    (hh : HonestClaims x c t sub u) (log : List Sent) :
    ∃ s, AsksWith c x t s ∧ getUserInfo x k (.str t) { c with db := db, log := log } =
      (.ok (.msg u), { c with db := Dict.set db k (.doc (Dict.set st "user_info" (.obj u))), log := log ++ [s] }) := by
  obtain ⟨rt, p, a1, a2, a3, a4, a5⟩ := hh
  obtain ⟨url, hurl⟩ := hq.userinfoEndpoint
  -- the request is made
  have hga : getAuthnMethod { c with db := db, log := log } .userinfo = .ok "bearer_header" := by
    have hd : attr { c with db := db, log := log } .userinfo "default_authn_method" (defaultAuthn .userinfo) = "bearer_header" := hq.header
    unfold getAuthnMethod
    simp only [reduceCtorEq, or_self, if_false, hd]
  have hkw : Dict.get? (methodArgs (confOf c .userinfo) "pre_construct" [("state", Val.str k)]) "state" = some (.str k) :=
    methodArgs_given _ _ (by simp [Dict.keys]) rfl
  have hcon : ∃ req, construct x .userinfo [("access_token", .str t)] [("state", .str k)] { c with db := db, log := log }
      = (.ok req, { c with db := db, log := log }) ∧ Dict.get? req "access_token" = some (.str t) := by
    have hg : ∀ a, gatherRequestArgs x { c with db := db, log := log } .userinfo a
        = .ok (gatherLoop { c with db := db, log := log } .userinfo (x.msg .userinfo).params a) := by
      intro a; unfold gatherRequestArgs; simp
    refine ⟨(x.msg .userinfo).make (gatherLoop { c with db := db, log := log } .userinfo (x.msg .userinfo).params
      (stateFromKwargs (x.msg .userinfo) [("access_token", .str t)] [("state", .str k)])), ?_, ?_⟩
    · unfold construct
      rw [Py.read_bind_run]
      have hpre : preConstruct x .userinfo [("access_token", .str t)]
          (methodArgs (confOf { c with db := db, log := log } .userinfo) "pre_construct" [("state", Val.str k)]) { c with db := db, log := log }
          = (.ok ([("access_token", .str t)], []), { c with db := db, log := log }) := by
        simp only [preConstruct]
        have hup : userinfoPre [("access_token", .str t)]
          (methodArgs (confOf { c with db := db, log := log } .userinfo) "pre_construct" [("state", Val.str k)]) { c with db := db, log := log }
          = .ok [("access_token", .str t)] := by
          unfold userinfoPre userinfoToken
          rw [if_pos (by rfl)]
          simp only
          rw [show getStateParameter [("access_token", .str t)]
            (methodArgs (confOf { c with db := db, log := log } .userinfo) "pre_construct" [("state", Val.str k)]) = .ok (.str k)
            from getStateParameter_kwargs hkw]
        rw [ask_bind_ok hup]
        rfl
      rw [Py.bind_ok hpre, ask_bind_ok (hg _)]
      rfl
    · rw [MsgType.get?_make _ (nodup_gather (hg _) (stateFromKwargs_nodup (by simp [Dict.keys]))),
        gather_given (hg _) (by rw [stateFromKwargs_get (by decide)]; rfl)]
      simp [Msg.emptyVal, ht, MsgType.coerce_plain _ _ _ hq.message.1]
  obtain ⟨req, hreq, htok⟩ := hcon
  have hauth : ∃ r, authnHeader x .userinfo req "bearer_header" (Dict.set (withIss { c with db := db, log := log } [("state", .str k)])
      "authn_endpoint" (.str Srv.userinfo.endpointName)) { c with db := db, log := log } = .ok r := by
    unfold authnHeader
    rw [if_neg (by decide), if_neg (by decide)]
    show ∃ r, ClientAuth.bearerHeader _ _ _ _ = .ok r
    unfold ClientAuth.bearerHeader
    simp only
    rw [if_neg (by change ¬ ("userinfo" = "refresh_token"); decide)]
    unfold ClientAuth.findToken
    rw [htok]
    simp [Val.truthy, ht]
  obtain ⟨r', hr'⟩ := hauth
  have htarget : targetOf .userinfo [("state", .str k)] { c with db := db, log := log } = .ok url := by
    simp [targetOf, Dict.get?, endpointOf, hurl, asStr]
  obtain ⟨info, hinfo⟩ := buildRequest_proving (x := x) (srv := .userinfo) (args := [("access_token", .str t)]) (o := {})
    (kwargs := [("state", .str k)]) (c := { c with db := db, log := log }) (am := "bearer_header") (m := "bearer_header") (r := r')
    hq.proves (by simpa using hga) (by simp) hreq hr' htarget
  have hinfo' : getRequestParameters x .userinfo [("access_token", .str t)] {} [("state", .str k)] { c with db := db, log := log }
      = (.ok info, { c with db := db, log := log }) := hinfo
  have hasks : AsksWith c x t (sentFor .userinfo info) := by
    have hlog : (getUserInfo x k (.str t) { c with db := db, log := log }).2.log = log ++ [sentFor .userinfo info] := by
      unfold getUserInfo
      rw [ask_bind_ok (show lookedUp k (.str t) _ = .ok () by simp [lookedUp, Val.truthy, ht]), refused_snd]
      unfold doRequest
      rw [Py.read_bind_run, if_neg (by simpa using hq.userinfo), Py.bind_ok hinfo', serviceRequest_log]
    rcases C26_given_token_partial x hq.message k t ht { c with db := db, log := log } hq.header with h | ⟨s, h, hs⟩
    · rw [hlog] at h
      simp at h
    · rw [hlog] at h
      simp only [List.append_cancel_left_eq, List.cons.injEq, and_true] at h
      rw [h]
      exact hs
  -- the answer is taken in
  have hu : u ≠ [] := by rintro rfl; cases a4
  obtain ⟨a, ha⟩ := multi_progress hst ["id_token"] false RESPONSES [] hitems
  have hchk : userinfoChecked x u k { c with db := db, log := log ++ [sentFor .userinfo info] } = .ok u := by
    unfold userinfoChecked
    simp only [ha]
    rw [hsame a ha]
    simp only [allSources, a5]
  have hpost : postParse x .userinfo u k { c with db := db, log := log ++ [sentFor .userinfo info] } =
      (.ok u, { c with db := Dict.set db k (.doc (Dict.set st "user_info" (.obj u))), log := log ++ [sentFor .userinfo info] }) := by
    simp only [postParse]
    rw [ask_bind_ok hchk, Py.bind_ok (a := ()) (s' := { c with
      db := Dict.set db k (.doc (Dict.set st "user_info" (.obj u))), log := log ++ [sentFor .userinfo info] })]
    · rfl
    · unfold onDB
      rw [storeItem_run hst]
  have hdo := doRequest_progress (x := x) (c := { c with db := db, log := log }) (srv := .userinfo) (m := u)
    (k := k) hq.userinfo rfl hinfo' (a1 _ _ hasks) a2 hpost hu a3
  refine ⟨_, hasks, ?_⟩
  unfold getUserInfo
  rw [ask_bind_ok (show lookedUp k (.str t) _ = .ok () by simp [lookedUp, Val.truthy, ht])]
  rw [Py.bind_ok (show doRequest x .userinfo [("access_token", Val.str t)] {} [("state", Val.str k)] { c with db := db, log := log }
    = (.ok (.msg u), { c with db := Dict.set db k (.doc (Dict.set st "user_info" (.obj u))), log := log ++ [sentFor .userinfo info] }) from hdo)]
  have : refuseError (.msg u) = .ok () := by
    unfold refuseError
    simp [Resp.isError, a3]
  rw [Py.lift_bind_ok this]
  rfl

theorem getUserInfo_progress {x : Ext} {c : Client} (hq : AsksUserinfo x c)
    {k t sub : String} {st idt u : Obj} {db : DB} (ht : t ≠ "") (hst : getState db k = .ok st)
    (hitems : ∀ i ∈ RESPONSES, Dict.get? st i = none ∨ ∃ o, Dict.get? st i = some (.obj o)) (hl : LatestIdToken db k idt)
    (hidt : GoodIdToken idt sub) (hh : HonestClaims x c t sub u) (log : List Sent) :
    ∃ s, AsksWith c x t s ∧ getUserInfo x k (.str t) { c with db := db, log := log } =
      (.ok (.msg u), { c with db := Dict.set db k (.doc (Dict.set st "user_info" (.obj u))), log := log ++ [s] }) := by
  refine getUserInfo_asked hq ht hst hitems (fun a ha => ?_) hh log
  obtain ⟨_, _, _, _, _, a4, _⟩ := hh
  unfold sameSub
  rw [latest_found hl ha]
  simp only [hidt.subject, a4, if_true]

/-- The latest ID Token of a session's record is that of the token response. -/
theorem latest_token {db : DB} {k : String} {st r idt : Obj} (hst : getState db k = .ok st)
    (h2 : Dict.get? st "token_response" = some (.obj r)) (h3 : Dict.get? st "refresh_token_response" = none)
    (h4 : Dict.get? r "__verified_id_token" = some (.obj idt)) : LatestIdToken db k idt := by
  refine ⟨["auth_response"], "token_response", ["refresh_token_response"], rfl, ⟨Msg.ofDict r, ?_, Msg.get?_ofDict_some h4 rfl⟩, ?_⟩
  · simp [getItem, hst, h2, asItem]
  · intro later hl r hr
    simp only [List.mem_cons, List.not_mem_nil, or_false] at hl
    subst hl
    simp [getItem, hst, h3, asItem] at hr

/-- The latest ID Token of a session's record is that of the authorization response, if there are no other responses. -/
theorem latest_auth {db : DB} {k : String} {st r idt : Obj} (hst : getState db k = .ok st)
    (h1 : Dict.get? st "auth_response" = some (.obj r)) (h2 : Dict.get? st "token_response" = none)
    (h3 : Dict.get? st "refresh_token_response" = none)
    (h4 : Dict.get? r "__verified_id_token" = some (.obj idt)) : LatestIdToken db k idt := by
  refine ⟨[], "auth_response", ["token_response", "refresh_token_response"], rfl, ⟨Msg.ofDict r, ?_, Msg.get?_ofDict_some h4 rfl⟩, ?_⟩
  · simp [getItem, hst, h1, asItem]
  · intro later hl r hr
    simp only [List.mem_cons, List.not_mem_nil, or_false] at hl
    rcases hl with rfl | rfl
    · simp [getItem, hst, h2, asItem] at hr
    · simp [getItem, hst, h3, asItem] at hr

theorem item_none {db : DB} {k i : String} {st : Obj} (hst : getState db k = .ok st)
    (h : getItem db i k = .error .keyError) : Dict.get? st i = none := by
  unfold getItem at h
  rw [hst] at h
  simp only at h
  unfold asItem at h
  split at h <;> first | cases h | skip
  next hg => exact hg

/-- Once tokens and claims are there, the subject and the session id are bound and everything is returned. -/
theorem finalize_tail {K : String → Prop} (hK : Spec.Store.KeySpace K) {x : Ext} {k sub : String} {tok : Val} {b resp idt : Obj} {c1 c2 : Client} {db3 : DB} {log3 : List Sent} {info : Val}
    (hk : K k) (hid : GoodIdToken idt sub)
    (htok : getAccessAndIdToken x resp k b c1 = (.ok (tok, .obj idt), c2))
    (hcol : collectUserInfo x k tok (.obj idt) c2 = (.ok info, { c2 with db := db3, log := log3 }))
    (href3 : ∀ s, Dict.get? db3 (refKey k) ≠ some (.raw s)) :
    ∃ db5, finalizeTokens x resp k b c1 =
        (.ok (.done info (.str k) tok (.obj idt) ((Dict.get? resp "session_state").getD (.str ""))),
          { c2 with db := db5, log := log3 }) ∧
      getStateByX db5 sub .subjectId = .ok (.raw k) ∧ getState db5 k = getState db3 k := by
  have hsid : ∃ db4, bindSid k (.obj idt) { c2 with db := db3, log := log3 }
      = (.ok (), { c2 with db := db4, log := log3 }) ∧ (∀ s, Dict.get? db4 (refKey k) ≠ some (.raw s)) ∧
        Dict.get? db4 k = Dict.get? db3 k := by
    unfold bindSid
    rw [Py.read_bind_run]
    split
    · cases hsid : Dict.get? idt "sid" with
      | none =>
        refine ⟨db3, ?_, href3, rfl⟩
        simp only [valItem, Dict.getItem, hsid]
        rfl
      | some v =>
        obtain ⟨s, rfl⟩ := hid.sid v hsid
        obtain ⟨db4, e1, e2, e3, -⟩ := storeX2State_progress (v := s) (t := .sessionId) href3
        refine ⟨db4, ?_, e2, e3 k (KeySpace.ne_index hK hk _ _) (KeySpace.ne_ref hK hk hk)⟩
        simp only [valItem, Dict.getItem_eq_ok.2 hsid]
        rw [Py.lift_bind_ok (show asStr (.str s) = .ok s from rfl)]
        unfold onDB
        simp only [e1]
    · exact ⟨db3, rfl, href3, rfl⟩
  obtain ⟨db4, e1, e2, e3⟩ := hsid
  obtain ⟨db5, f1, f2, f3, f4⟩ := storeX2State_progress (v := sub) (t := .subjectId) e2
  have hidt : (Val.obj idt).truthy = true := by
    cases hi : idt with
    | nil => have := hid.subject; rw [hi] at this; cases this
    | cons => rfl
  have hsub : bindSub k (.obj idt) info { c2 with db := db4, log := log3 }
      = (.ok (), { c2 with db := db5, log := log3 }) := by
    unfold bindSub
    rw [Py.lift_bind_ok (a := Val.str sub) (by rw [hidt]; exact Dict.getItem_eq_ok.2 hid.subject),
      Py.lift_bind_ok (show asStr (.str sub) = .ok sub from rfl)]
    unfold onDB
    simp only [f1]
  refine ⟨db5, ?_, ?_, ?_⟩
  · unfold finalizeTokens
    rw [Py.bind_ok htok, Py.bind_ok hcol, Py.bind_ok e1, Py.bind_ok hsub]
    rfl
  · unfold getStateByX
    rw [f4]
    simp [hK.nonempty k hk]
  · exact getState_congr ((f3 k (KeySpace.ne_index hK hk _ _) (KeySpace.ne_ref hK hk hk)).trans e3)

/-- The authorization response is taken in, and the rest of `finalize` runs with it. -/
theorem finalizeClient_head {x : Ext} {issuer k : String} {response resp resp' st b : Obj} {c c' : Client} {f : Final}
    (hs : .authorization ∈ c.services) (hp : ParsedAs x c response resp) (he : Msg.isError resp = false)
    (hk : Dict.get? resp "state" = some (.str k)) (hst : getState c.db k = .ok st) (hi : StartedWith c k issuer)
    (hw : withExpiry x resp = .ok resp')
    (hrest : finalizeTokens x resp' k b { c with db := Dict.set c.db k (.doc (Dict.set st "auth_response" (.obj resp'))) } = (.ok f, c')) :
    finalizeClient x issuer response b c = (.ok f, c') := by
  unfold finalizeClient
  rw [Py.bind_ok (finalizeAuth_progress hs hp he hk hst hi hw),
    Py.lift_bind_ok (Dict.getItem_eq_ok.2 (by rw [withExpiry_get hw (by decide)]; exact hk)),
    if_neg (by rw [isError_withExpiry hw, he]; decide), Py.lift_bind_ok (show dbKey (.str k) = .ok k from rfl), hrest]

theorem finalize_head {x : Ext} {issuer k : String} {response resp resp' st b : Obj} {h : Handler} {c c' : Client} {f : Final}
    (hc : Dict.get? h.issuer2rp issuer = some c)
    (hs : .authorization ∈ c.services) (hp : ParsedAs x c response resp) (he : Msg.isError resp = false)
    (hk : Dict.get? resp "state" = some (.str k)) (hst : getState c.db k = .ok st) (hi : StartedWith c k issuer)
    (hw : withExpiry x resp = .ok resp')
    (hrest : finalizeTokens x resp' k b { c with db := Dict.set c.db k (.doc (Dict.set st "auth_response" (.obj resp'))) } = (.ok f, c')) :
    (finalize x issuer response b h).1 = .ok f ∧ view (finalize x issuer response b h).2 issuer = some (c'.db, c'.log) := by
  have hrun := finalizeClient_head hs hp he hk hst hi hw hrest
  constructor
  · unfold finalize
    rw [fst_onClient hc, hrun]
  · unfold finalize
    rw [view_onClient hc, hrun]
    simp

/-- The session's record after the authorization response was stored. -/
theorem responded {K : String → Prop} (hK : Spec.Store.KeySpace K) {c : Client} {issuer k n : String} {areq resp' st : Obj} {ver : Val} (hk : K k)
    (hw : Waiting c issuer k areq n ver) (hst : getState c.db k = .ok st) :
    let db1 := Dict.set c.db k (.doc (Dict.set st "auth_response" (.obj resp')))
    getState db1 k = .ok (Dict.set st "auth_response" (.obj resp')) ∧ getItem db1 "auth_request" k = .ok areq ∧
    getItem db1 "auth_response" k = .ok (Msg.ofDict resp') ∧
    (Dict.has c.ctx.addOn "pkce" = true → ∃ item, getItem db1 "pkce" k = .ok item ∧ Dict.get? item "code_verifier" = some ver) ∧
    getStateByX db1 n .nonce = .ok (.raw k) ∧ (∀ s, Dict.get? db1 (refKey k) ≠ some (.raw s)) ∧
    Dict.get? st "refresh_token_response" = none := by
  intro db1
  have hs1 : getState db1 k = .ok (Dict.set st "auth_response" (.obj resp')) :=
    getState_set c.db k (set_noEmpty (getState_noEmpty hst) "auth_response" resp')
  have hg1 : ∀ t, t ≠ "auth_response" → getItem db1 t k = getItem c.db t k := by
    intro t ht
    unfold getItem; rw [hs1, hst]; simp only [Dict.get?_set_ne _ _ (Ne.symm ht)]
  refine ⟨hs1, (hg1 _ (by decide)).trans hw.request, ?_, ?_, ?_, ?_, item_none hst hw.refreshed⟩
  · unfold getItem; rw [hs1]; simp [Dict.get?_set_self, asItem]
  · intro hpk
    obtain ⟨item, i1, i2⟩ := hw.pkce hpk
    exact ⟨item, (hg1 _ (by decide)).trans i1, i2⟩
  · have := hw.nonce
    unfold getStateByX at this ⊢
    rw [Dict.get?_set_ne _ _ (KeySpace.ne_index hK hk _ _)]
    exact this
  · intro s
    obtain ⟨refs, href⟩ := hw.index
    rw [Dict.get?_set_ne _ _ (KeySpace.ne_ref hK hk hk), show Dict.get? c.db (refKey k) = some (.doc refs) from href]
    simp

theorem notEmpty {v : Val} (h : v ≠ .str "" ∧ v ≠ .list [.str ""]) : Msg.emptyVal v = false := by
  cases hv : Msg.emptyVal v with
  | false => rfl
  | true =>
    rcases (Msg.emptyVal_iff _).1 hv with e | e
    · exact absurd e h.1
    · exact absurd e h.2

/-- The tokens of the code flow. -/
theorem code_tokens {K : String → Prop} (hK : Spec.Store.KeySpace K) {x : Ext} {issuer : String} {b : Obj} {c : Client}
    (hq : Equipped x c) {k n t sub : String} (hk : K k) {st areq resp resp' idt : Obj} {code ru ver rtv : Val}
    (hw : Waiting c issuer k areq n ver) (hst : getState c.db k = .ok st) (hru : Dict.get? areq "redirect_uri" = some ru)
    (hrt : Dict.get? areq "response_type" = some rtv)
    (hset : IsSet (wordsOf rtv) ["code"] ∨ IsSet (wordsOf rtv) ["code", "id_token"])
    (hcode : Dict.get? resp "code" = some code) (hce : code ≠ .str "" ∧ code ≠ .list [.str ""])
    (hexp : withExpiry x resp = .ok resp') (hid : GoodIdToken idt sub)
    (hh : HonestTokens x c code ru ver n t idt) :
    ∃ s1 db2 r, CodeRequest x c code ru ver s1 ∧
      getAccessAndIdToken x resp' k b { c with db := Dict.set c.db k (.doc (Dict.set st "auth_response" (.obj resp'))) }
        = (.ok (.str t, .obj idt), { c with db := db2, log := c.log ++ [s1] }) ∧
      getState db2 k = .ok (Dict.set (Dict.set st "auth_response" (.obj resp')) "token_response" (.obj r)) ∧
      (∀ s, Dict.get? db2 (refKey k) ≠ some (.raw s)) ∧
      Dict.get? r "__verified_id_token" = some (.obj idt) ∧ Dict.get? r "access_token" = some (.str t) ∧
      ∃ rt p v, x.http c.log s1 = .ok rt ∧ Understood x c .accesstoken rt p v ∧ withExpiry x v = .ok r := by
  obtain ⟨r1, r2, r3, r4, r5, r6, r7⟩ := responded (resp' := resp') hK hk hw hst
  obtain ⟨s1, db2, r, c1, c2, c3, c4, c5, c6, c7⟩ := getTokens_progress hK (c := c) hq hk r1 r2 r3
    (Msg.get?_ofDict_some (by rw [withExpiry_get hexp (by decide)]; exact hcode) (notEmpty hce)) hru r4 r5 r6 hh hid
  have hfront : idTokenInFront (wordsOf rtv) = false ∧ accessTokenInFront (wordsOf rtv) = false ∧
      tokensFromEndpoint (wordsOf rtv) = true := by
    unfold idTokenInFront accessTokenInFront tokensFromEndpoint
    rcases hset with e | e <;> simp only [sameSet_congr e] <;> decide
  have hsrt : storedResponseType k { c with db := Dict.set c.db k (.doc (Dict.set st "auth_response" (.obj resp'))) }
      = .ok (wordsOf rtv) := by
    unfold storedResponseType
    simp only
    rw [r2]
    simp only [Dict.getItem_eq_ok.2 hrt]
    rfl
  refine ⟨s1, db2, r, c1, ?_, c3, c4, c6, c5, c7⟩
  unfold getAccessAndIdToken
  rw [ask_bind_ok hsrt, Py.lift_bind_ok (a := Val.null) (by rw [hfront.1]; rfl)]
  simp only [hfront.2.1, hfront.2.2, Bool.false_eq_true, if_false, if_true]
  unfold endpointTokens
  rw [Py.bind_ok c2, Py.lift_bind_ok (find_progress c5).1,
    Py.lift_bind_ok (show Resp.find (.msg r) (Msg.verifiedName "id_token") = _ from (find_progress c6).2)]
  rfl

/-! ## C81 -/

/-- **C81** (code flow).  Session `k` waits for its response at an equipped client; the response that comes is one the
client can parse and verify, is no error, names the session and has a code; and the provider is honest.  Then `finalize`
succeeds: it returns the user's claims, the session, the access token and the ID Token, after exactly two requests (the
token request and the userinfo request), the subject leads to the session from then on, and the session has the
authorization response and what the provider answered to the token request. -/
theorem C81_code_login {K : String → Prop} (hK : Spec.Store.KeySpace K) (x : Ext) (issuer : String) (response b : Obj)
    (h : Handler) (c : Client) (hc : Dict.get? h.issuer2rp issuer = some c) (ha : .authorization ∈ c.services)
    (hq : Equipped x c) (hu : AsksUserinfo x c)
    (k n t sub : String) (hk : K k) (ht : t ≠ "") (areq resp idt u : Obj) (code ru ver rtv : Val)
    (hw : Waiting c issuer k areq n ver) (hru : Dict.get? areq "redirect_uri" = some ru)
    (hrt : Dict.get? areq "response_type" = some rtv)
    (hset : IsSet (wordsOf rtv) ["code"] ∨ IsSet (wordsOf rtv) ["code", "id_token"])
    (hp : ParsedAs x c response resp) (he : Msg.isError resp = false) (hstate : Dict.get? resp "state" = some (.str k))
    (hcode : Dict.get? resp "code" = some code) (hce : code ≠ .str "" ∧ code ≠ .list [.str ""])
    (hexp : ∃ r, withExpiry x resp = .ok r) (hid : GoodIdToken idt sub)
    (hh : HonestTokens x c code ru ver n t idt) (hcl : HonestClaims x c t sub u) :
    ∃ s1 s2 db', CodeRequest x c code ru ver s1 ∧ AsksWith c x t s2 ∧
      (finalize x issuer response b h).1 =
        .ok (.done (.obj u) (.str k) (.str t) (.obj idt) ((Dict.get? resp "session_state").getD (.str ""))) ∧
      view (finalize x issuer response b h).2 issuer = some (db', c.log ++ [s1, s2]) ∧
      getStateByX db' sub .subjectId = .ok (.raw k) ∧
      ∃ rt p v r, x.http c.log s1 = .ok rt ∧ Understood x c .accesstoken rt p v ∧ withExpiry x v = .ok r ∧
        getItem db' "token_response" k = .ok (Msg.ofDict r) ∧ Dict.get? r "access_token" = some (.str t) ∧
        getItem db' "refresh_token_response" k = .error .keyError ∧
        ∃ resp', withExpiry x resp = .ok resp' ∧ getItem db' "auth_response" k = .ok (Msg.ofDict resp') := by
  obtain ⟨resp', hresp'⟩ := hexp
  obtain ⟨st, hst, hiss⟩ := getIss_ok hw.started
  obtain ⟨s1, db2, r, c1, c2, c3, c4, c5, c6, c7⟩ := code_tokens (b := b) hK hq hk hw hst hru hrt hset hcode hce hresp' hid hh
  have hrf := item_none hst hw.refreshed
  have g1 : Dict.get? (Dict.set (Dict.set st "auth_response" (.obj resp')) "token_response" (.obj r)) "refresh_token_response" = none := by
    rw [Dict.get?_set_ne _ _ (by decide), Dict.get?_set_ne _ _ (by decide)]; exact hrf
  obtain ⟨s2, d1, d2⟩ := getUserInfo_progress hu ht c3 (by
      intro t ht
      simp only [RESPONSES, List.mem_cons, List.not_mem_nil, or_false] at ht
      rcases ht with rfl | rfl | rfl
      · exact Or.inr ⟨resp', by rw [Dict.get?_set_ne _ _ (by decide), Dict.get?_set_self]⟩
      · exact Or.inr ⟨r, Dict.get?_set_self _ _ _⟩
      · exact Or.inl g1)
    (latest_token c3 (Dict.get?_set_self _ _ _) g1 c5) hid hcl (c.log ++ [s1])
  have hcol : collectUserInfo x k (.str t) (.obj idt) { c with db := db2, log := c.log ++ [s1] } =
      (.ok (.obj u), { c with
        db := Dict.set db2 k (.doc (Dict.set (Dict.set (Dict.set st "auth_response" (.obj resp')) "token_response" (.obj r)) "user_info" (.obj u)))
        log := c.log ++ [s1] ++ [s2] }) := by
    unfold collectUserInfo
    rw [Py.read_bind_run, if_pos ⟨hu.userinfo, by simp [Val.truthy, ht]⟩, Py.bind_ok d2]
    rfl
  obtain ⟨db5, e1, e2, e3⟩ := finalize_tail hK hk hid c2 hcol (by
    intro s
    rw [Dict.get?_set_ne _ _ (KeySpace.ne_ref hK hk hk)]
    exact c4 s)
  obtain ⟨f1, f2⟩ := finalize_head hc ha hp he hstate hst hw.started hresp' e1
  refine ⟨s1, s2, db5, c1, d1, ?_, ?_, e2, ?_⟩
  · rw [f1, withExpiry_get hresp' (by decide)]
  · rw [f2]; simp
  · obtain ⟨rt, p, v, g2, g3, g4⟩ := c7
    have hst3 := e3.trans (getState_set db2 k (set_noEmpty (getState_noEmpty c3) "user_info" u))
    refine ⟨rt, p, v, r, g2, g3, g4, ?_, c6, ?_, resp', hresp', ?_⟩
    · unfold getItem
      rw [hst3]
      simp only
      rw [Dict.get?_set_ne _ _ (by decide), Dict.get?_set_self]
      rfl
    · unfold getItem
      rw [hst3]
      simp only
      rw [Dict.get?_set_ne _ _ (by decide), g1]
      rfl
    · unfold getItem
      rw [hst3]
      simp only
      rw [Dict.get?_set_ne _ _ (by decide), Dict.get?_set_ne _ _ (by decide), Dict.get?_set_self]
      rfl

/-- The claims that are taken from an ID Token: those of OpenID Connect's standard claims and those that are not ID Token
claims. -/
theorem claims_of_id_token (x : Ext) (idt : Obj) (hn : (Dict.keys idt).Nodup) (p : String) :
    Dict.get? (userinfoInIdToken x idt) p = if p ∈ x.openidParams ∨ p ∉ x.idTokenParams then Dict.get? idt p else none := by
  have hbase : ∀ l : List String, Dict.get? (l.filterMap (fun p => (Dict.get? idt p).map (fun v => (p, v)))) p
      = if p ∈ l then Dict.get? idt p else none := by
    intro l
    induction l with
    | nil => simp
    | cons q l ih =>
      cases hq : Dict.get? idt q with
      | none =>
        rw [List.filterMap_cons_none (by simp [hq]), ih]
        by_cases e : p = q
        · subst e; simp [hq]
        · simp [e]
      | some v =>
        rw [List.filterMap_cons_some (b := (q, v)) (by simp [hq]), Dict.get?_cons, ih]
        by_cases e : q = p
        · subst e; simp [hq]
        · simp [e, Ne.symm e]
  have hf : (Dict.keys (idt.filter (fun p => decide (p.1 ∉ x.idTokenParams)))).Nodup :=
    List.Nodup.sublist (List.Sublist.map _ List.filter_sublist) hn
  unfold userinfoInIdToken
  rw [Dict.get?_update_nodup _ hf, hbase, get?_filter_keys idt (fun k => decide (k ∉ x.idTokenParams))]
  by_cases h1 : p ∈ x.openidParams <;> by_cases h2 : p ∈ x.idTokenParams <;> simp [h1, h2]

/-- **C81** (code flow, client without a userinfo service): `finalize` succeeds after one request, with the claims of
the ID Token. -/
theorem C81_code_login_without_userinfo {K : String → Prop} (hK : Spec.Store.KeySpace K) (x : Ext) (issuer : String) (response b : Obj)
    (h : Handler) (c : Client) (hc : Dict.get? h.issuer2rp issuer = some c) (ha : .authorization ∈ c.services)
    (hq : Equipped x c) (hu : .userinfo ∉ c.services)
    (k n t sub : String) (hk : K k) (areq resp idt : Obj) (code ru ver rtv : Val)
    (hw : Waiting c issuer k areq n ver) (hru : Dict.get? areq "redirect_uri" = some ru)
    (hrt : Dict.get? areq "response_type" = some rtv)
    (hset : IsSet (wordsOf rtv) ["code"] ∨ IsSet (wordsOf rtv) ["code", "id_token"])
    (hp : ParsedAs x c response resp) (he : Msg.isError resp = false) (hstate : Dict.get? resp "state" = some (.str k))
    (hcode : Dict.get? resp "code" = some code) (hce : code ≠ .str "" ∧ code ≠ .list [.str ""])
    (hexp : ∃ r, withExpiry x resp = .ok r) (hid : GoodIdToken idt sub)
    (hh : HonestTokens x c code ru ver n t idt) :
    ∃ s1 db' claims, CodeRequest x c code ru ver s1 ∧
      (finalize x issuer response b h).1 =
        .ok (.done (.obj claims) (.str k) (.str t) (.obj idt) ((Dict.get? resp "session_state").getD (.str ""))) ∧
      view (finalize x issuer response b h).2 issuer = some (db', c.log ++ [s1]) ∧
      getStateByX db' sub .subjectId = .ok (.raw k) ∧
      ((Dict.keys idt).Nodup → ∀ p, Dict.get? claims p =
        if p ∈ x.openidParams ∨ p ∉ x.idTokenParams then Dict.get? idt p else none) := by
  obtain ⟨resp', hresp'⟩ := hexp
  obtain ⟨st, hst, hiss⟩ := getIss_ok hw.started
  obtain ⟨s1, db2, r, c1, c2, c3, c4, c5, c6, c7⟩ := code_tokens (b := b) hK hq hk hw hst hru hrt hset hcode hce hresp' hid hh
  have hidt : (Val.obj idt).truthy = true := by
    cases hi : idt with
    | nil => have := hid.subject; rw [hi] at this; cases this
    | cons => rfl
  have hcol : collectUserInfo x k (.str t) (.obj idt) { c with db := db2, log := c.log ++ [s1] } =
      (.ok (.obj (userinfoInIdToken x idt)), { c with db := db2, log := c.log ++ [s1] }) := by
    unfold collectUserInfo
    rw [Py.read_bind_run, if_neg (fun e => hu e.1), if_pos hidt]
    rfl
  obtain ⟨db5, e1, e2, e3⟩ := finalize_tail hK hk hid c2 hcol c4
  obtain ⟨f1, f2⟩ := finalize_head hc ha hp he hstate hst hw.started hresp' e1
  refine ⟨s1, db5, userinfoInIdToken x idt, c1, ?_, f2, e2, ?_⟩
  · rw [f1, withExpiry_get hresp' (by decide)]
  · exact claims_of_id_token x idt

/-- **C81** (implicit and hybrid flows, the tokens come with the response).  The response has an access token and a
verified ID Token: `finalize` succeeds after one request, for the user's claims. -/
theorem C81_implicit_login {K : String → Prop} (hK : Spec.Store.KeySpace K) (x : Ext) (issuer : String) (response b : Obj)
    (h : Handler) (c : Client) (hc : Dict.get? h.issuer2rp issuer = some c) (ha : .authorization ∈ c.services)
    (hu : AsksUserinfo x c)
    (k n t sub : String) (hk : K k) (ht : t ≠ "") (areq resp idt u : Obj) (ver rtv : Val)
    (hw : Waiting c issuer k areq n ver) (hrt : Dict.get? areq "response_type" = some rtv)
    (hset : IsSet (wordsOf rtv) ["id_token", "token"] ∨ IsSet (wordsOf rtv) ["code", "id_token", "token"])
    (hb : Dict.get? b "collect_tokens" = none) (htr : getItem c.db "token_response" k = .error .keyError)
    (hp : ParsedAs x c response resp) (he : Msg.isError resp = false) (hstate : Dict.get? resp "state" = some (.str k))
    (htok : Dict.get? resp "access_token" = some (.str t)) (hidt : Dict.get? resp "__verified_id_token" = some (.obj idt))
    (hexp : ∃ r, withExpiry x resp = .ok r) (hid : GoodIdToken idt sub) (hcl : HonestClaims x c t sub u) :
    ∃ s2 db', AsksWith c x t s2 ∧
      (finalize x issuer response b h).1 =
        .ok (.done (.obj u) (.str k) (.str t) (.obj idt) ((Dict.get? resp "session_state").getD (.str ""))) ∧
      view (finalize x issuer response b h).2 issuer = some (db', c.log ++ [s2]) ∧
      getStateByX db' sub .subjectId = .ok (.raw k) := by
  obtain ⟨resp', hresp'⟩ := hexp
  obtain ⟨st, hst, hiss⟩ := getIss_ok hw.started
  obtain ⟨r1, r2, r3, r4, r5, r6, r7⟩ := responded (resp' := resp') hK hk hw hst
  have htok' : Dict.get? resp' "access_token" = some (.str t) := by rw [withExpiry_get hresp' (by decide)]; exact htok
  have hidt' : Dict.get? resp' "__verified_id_token" = some (.obj idt) := by rw [withExpiry_get hresp' (by decide)]; exact hidt
  have hfront : idTokenInFront (wordsOf rtv) = true ∧ accessTokenInFront (wordsOf rtv) = true := by
    unfold idTokenInFront accessTokenInFront
    rcases hset with e | e <;> simp only [sameSet_congr e] <;> decide
  have hsrt : storedResponseType k { c with db := Dict.set c.db k (.doc (Dict.set st "auth_response" (.obj resp'))) }
      = .ok (wordsOf rtv) := by
    unfold storedResponseType
    simp only
    rw [r2]
    simp only [Dict.getItem_eq_ok.2 hrt]
    rfl
  have hget : getAccessAndIdToken x resp' k b { c with db := Dict.set c.db k (.doc (Dict.set st "auth_response" (.obj resp'))) }
      = (.ok (.str t, .obj idt), { c with db := Dict.set c.db k (.doc (Dict.set st "auth_response" (.obj resp'))) }) := by
    unfold getAccessAndIdToken
    rw [ask_bind_ok hsrt, Py.lift_bind_ok (a := Val.obj idt) (by rw [hfront.1]; exact Dict.getItem_eq_ok.2 hidt')]
    simp only [hfront.2, if_true]
    rw [Py.lift_bind_ok (Dict.getItem_eq_ok.2 htok')]
    have : collects b = false := by unfold collects; rw [hb]; rfl
    rw [this]
    rfl
  have g2 : Dict.get? (Dict.set st "auth_response" (.obj resp')) "token_response" = none := by
    rw [Dict.get?_set_ne _ _ (by decide)]; exact item_none hst htr
  have g3 : Dict.get? (Dict.set st "auth_response" (.obj resp')) "refresh_token_response" = none := by
    rw [Dict.get?_set_ne _ _ (by decide)]; exact r7
  obtain ⟨s2, d1, d2⟩ := getUserInfo_progress hu ht r1 (by
      intro t ht
      simp only [RESPONSES, List.mem_cons, List.not_mem_nil, or_false] at ht
      rcases ht with rfl | rfl | rfl
      · exact Or.inr ⟨resp', Dict.get?_set_self _ _ _⟩
      · exact Or.inl g2
      · exact Or.inl g3)
    (latest_auth r1 (Dict.get?_set_self _ _ _) g2 g3 hidt') hid hcl c.log
  have hcol : collectUserInfo x k (.str t) (.obj idt) { c with db := Dict.set c.db k (.doc (Dict.set st "auth_response" (.obj resp'))) } =
      (.ok (.obj u), { c with
        db := Dict.set (Dict.set c.db k (.doc (Dict.set st "auth_response" (.obj resp')))) k
          (.doc (Dict.set (Dict.set st "auth_response" (.obj resp')) "user_info" (.obj u)))
        log := c.log ++ [s2] }) := by
    unfold collectUserInfo
    rw [Py.read_bind_run, if_pos ⟨hu.userinfo, by simp [Val.truthy, ht]⟩, Py.bind_ok d2]
    rfl
  obtain ⟨db5, e1, e2, e3⟩ := finalize_tail hK hk hid hget hcol (by
    intro s
    rw [Dict.get?_set_ne _ _ (KeySpace.ne_ref hK hk hk)]
    exact r6 s)
  obtain ⟨f1, f2⟩ := finalize_head hc ha hp he hstate hst hw.started hresp' e1
  refine ⟨s2, db5, d1, ?_, ?_, e2⟩
  · rw [f1, withExpiry_get hresp' (by decide)]
  · rw [f2]

/-! ## When the hypotheses hold -/

/-- **C81**: a client with a secret whose method at the token endpoint is `client_secret_basic` or `client_secret_post`
can authenticate itself. -/
theorem C81_secret_authenticates (x : Ext) (c : Client) (hm : PlainTokenRequest x) (m : String)
    (hneg : clientAuthnMethod c.ctx.behaviour = .ok m) (hmeth : m = "client_secret_basic" ∨ m = "client_secret_post")
    (hs : c.ctx.clientSecret ≠ "") : CanAuthenticate x c := by
  have hne : m ≠ "" := by rcases hmeth with rfl | rfl <;> decide
  refine ⟨m, m, hneg, if_neg hne, fun db req kw hg hkw hreq => ?_⟩
  unfold authnHeader
  rw [if_neg (by decide), if_neg hne]
  rcases hmeth with rfl | rfl
  · show ∃ r, ClientAuth.clientSecretBasic _ _ _ _ = .ok r
    unfold ClientAuth.clientSecretBasic ClientAuth.getUser ClientAuth.getPasswd
    rw [hkw "user" (by simp), hkw "password" (by simp), hreq hs]
    simp only [asStr]
    unfold ClientAuth.basicModify ClientAuth.withOrWithoutClientId
    have e1 : (authEnv x { c with db := db } .accesstoken).msg.isAccessTokenRequest = true := hm.1
    rw [if_pos e1, Dict.get?_del_ne _ (by decide), hg]
    simp only [if_true]
    split
    · next r hr => exact ⟨_, rfl⟩
    · next e hr => split at hr <;> cases hr
  · show ∃ r, ClientAuth.clientSecretPost _ _ _ _ = .ok r
    unfold ClientAuth.clientSecretPost ClientAuth.postModify
    rw [if_pos (by rw [Dict.has_eq, hreq hs]; rfl)]
    exact ⟨_, rfl⟩

/-- The nonce of the request that was made is bound to the session. -/
def NonceFits (c : Client) (x : Ext) (req areq : Obj) : Prop :=
  (NoNonceGiven c req ∧ x.rnd "init_nonce" ≠ "" ∧ "nonce" ∉ (x.msg .authorization).spaced) ∨ FirstCodeOrIdToken areq

/-- **C81**: after a successful `begin` the session waits for its response, at the client that was set up, with the
request that was made and its nonce. -/
theorem C81_begin_waits {K : String → Prop} (hK : Spec.Store.KeySpace K) (h h1 : Handler) (hp : Spec.InFlight.PlainHandler h)
    (x : Ext) (issuer user : String) (req b : Obj) (url k : String) (hkx : K (x.rnd "init_state"))
    (hv : x.rnd "code_verifier" ≠ "") (hdef : (Dict.keys (x.msg .authorization).defaults).Nodup)
    (hbegin : begin_ x issuer user req b h = (.ok (url, k), h1)) :
    ∃ i c areq, (clientSetup x issuer user b h).1 = .ok i ∧ Dict.get? h1.issuer2rp i = some c ∧
      Dict.get? areq "state" = some (.str k) ∧
      (NoNonceGiven c req → x.rnd "init_nonce" ≠ "" → "nonce" ∉ (x.msg .authorization).spaced →
        Dict.get? areq "nonce" = some (.str (x.rnd "init_nonce"))) ∧
      ∀ n, c.ctx.issuer ≠ "" → NonceFits c x req areq → Dict.get? areq "nonce" = some (.str n) →
        ∃ ver, Waiting c c.ctx.issuer k areq n ver := by
  obtain ⟨i, g, c, b1, b2, b3, b4⟩ := begin_ok hbegin
  have hpg : Spec.InFlight.PlainHandler g := by
    have := (clientSetup_cases x issuer user b hp).1
    rw [b1] at this
    exact this
  have hpc := hpg.clients i c (Dict.get?_eq_some_mem b2)
  have hrun : initAuthorization x req b c = (.ok (url, k), (initAuthorization x req b c).2) := Prod.ext b3 rfl
  generalize (initAuthorization x req b c).2 = c' at hrun
  obtain ⟨t⟩ := authTrace hK hkx hpc hrun
  obtain ⟨bh, o1⟩ := onClient_client (m := initAuthorization x req b) b2
  rw [hrun, b4] at o1
  obtain ⟨r1, r2, r3, r4, r5⟩ := traced_request t
  have hps := aliasScope_same req c.ctx
  have hcfg : c'.ctx.config = c.ctx.config := by
    rw [t.hctx]
    unfold aliasScope
    split
    · rfl
    · split
      · split <;> rfl
      · rfl
  have hkk : k ≠ "" := by rw [t.hk]; exact hK.nonempty _ hkx
  have hrn : (Dict.keys t.r).Nodup := (offlinePrompt_keeps t.hr).2 (by unfold MsgType.make; exact Dict.nodup_update hdef _)
  have hback : ∀ p v, Dict.get? (Spec.Store.withoutEmpty t.r) p = some v → Dict.get? t.r p = some v := by
    intro p v hpv
    rw [← Msg.ofDict_eq_withoutEmpty, Msg.get?_ofDict hrn] at hpv
    cases hr : Dict.get? t.r p with
    | none => rw [hr] at hpv; cases hpv
    | some w =>
      rw [hr] at hpv
      simp only [Option.filter] at hpv
      split at hpv
      · exact hpv
      · cases hpv
  refine ⟨i, reBehaviour bh c', Spec.Store.withoutEmpty t.r, by rw [b1], o1, get?_withoutEmpty hrn r2 hkk, ?_, ?_⟩
  · intro ⟨g1, g2⟩ g3 g4
    exact get?_withoutEmpty hrn (r3 ⟨g1, by rw [← hcfg]; exact g2⟩ g3 g4).1 g3
  intro n hiss hfit hn
  have hiss' : c.ctx.issuer ≠ "" := by
    have h5 : c'.ctx.issuer ≠ "" := hiss
    rw [t.hctx, hps.1] at h5
    exact h5
  have hbound : BoundNonce c'.db n k := by
    rcases hfit with ⟨⟨g1, g2⟩, g3, g4⟩ | ⟨⟨l, g1, g2⟩, w, ws, g3, g4⟩
    · obtain ⟨e1, e2⟩ := r3 ⟨g1, by rw [← hcfg]; exact g2⟩ g3 g4
      rw [hback _ _ hn] at e1
      injection e1 with e1
      injection e1 with e1
      rw [e1]
      exact e2
    · obtain ⟨n', e1, e2⟩ := r4 ⟨⟨l, hback _ _ g1, g2⟩, w, ws, hback _ _ g3, g4⟩
      rw [hback _ _ hn] at e1
      injection e1 with e1
      injection e1 with e1
      rw [e1]
      exact e2
  refine ⟨.str (x.rnd "code_verifier"), ?_, r1, hbound, t.hindex, ?_, ?_⟩
  · show getIss c'.db k = .ok (.str c'.ctx.issuer)
    rw [t.hctx, hps.1]
    unfold getIss
    rw [t.hrecord]
    have hfresh : Dict.get? (freshRecord c.ctx.issuer) "iss" = some (.str c.ctx.issuer) :=
      Msg.get?_ofDict_some rfl (notEmpty ⟨by simpa using hiss', by simp⟩)
    have hget : Dict.get? (Dict.set (if Dict.has (aliasScope req c.ctx).addOn "pkce" then
        Dict.set (freshRecord c.ctx.issuer) "pkce" (.obj (pkceItem x (aliasScope req c.ctx))) else freshRecord c.ctx.issuer)
        "auth_request" (.obj t.r)) "iss" = some (.str c.ctx.issuer) := by
      rw [Dict.get?_set_ne _ _ (by decide)]
      split
      · rw [Dict.get?_set_ne _ _ (by decide), hfresh]
      · exact hfresh
    simp only
    rw [if_neg]
    · exact Dict.getItem_eq_ok.2 hget
    · intro he
      rw [List.isEmpty_iff.1 he] at hget
      cases hget
  · show getItem c'.db "refresh_token_response" k = _
    unfold getItem
    rw [t.hrecord]
    have hfresh : Dict.get? (freshRecord c.ctx.issuer) "refresh_token_response" = none := by
      unfold freshRecord
      rw [Msg.get?_ofDict (by simp [Dict.keys])]
      rfl
    simp only
    rw [Dict.get?_set_ne _ _ (by decide)]
    split
    · rw [Dict.get?_set_ne _ _ (by decide), hfresh]; rfl
    · rw [hfresh]; rfl
  · intro hpk
    have hpk' : Dict.has (aliasScope req c.ctx).addOn "pkce" = true := by rw [← t.hctx]; exact hpk
    refine ⟨Msg.ofDict (pkceItem x (aliasScope req c.ctx)), ?_, Msg.get?_ofDict_some rfl (notEmpty ⟨by simpa using hv, by simp⟩)⟩
    show getItem c'.db "pkce" k = _
    unfold getItem
    rw [t.hrecord, hpk']
    simp only [if_true, Dict.get?_set_ne _ _ (show "auth_request" ≠ "pkce" by decide), Dict.get?_set_self, asItem]

/-- The client of the small world whose session was started. -/
def waitingClient : Client := (Dict.get? started.issuer2rp "https://op.example").getD default

/-- The request it made. -/
def madeRequest : Obj :=
  [("redirect_uri", .str "https://rp.example/cb"), ("scope", .list [.str "openid"]),
   ("response_type", .list [.str "code"]), ("nonce", .str "n1"), ("state", .str World.s1), ("client_id", .str "client1")]

/-- The ID Token of the small world. -/
def aliceToken : Obj := [("sub", .str "alice"), ("nonce", .str "n1"), ("exp", .int 2000), ("sid", .str "sid1")]

theorem world_waits : Waiting waitingClient "https://op.example" World.s1 madeRequest "n1" (.str "") := by
  refine ⟨by rfl, by rfl, by rfl, ⟨_, by rfl⟩, by rfl, fun h => ?_⟩
  cases h

theorem world_equipped : Equipped (World.ext 1001 "" "" "n1") waitingClient := by
  refine ⟨by decide, ⟨"https://op.example/token", by rfl⟩, by decide, ?_, Or.inl (by rfl), ⟨by rfl, by decide⟩, by decide⟩
  exact C81_secret_authenticates _ _ ⟨by rfl, by decide⟩ "client_secret_basic" (by rfl) (Or.inl rfl) (by decide)

/-- Non-vacuity of C81: the login of the small world meets all hypotheses (and so its conclusion holds). -/
example : ∃ s1 s2 db', CodeRequest (World.ext 1001 "" "" "n1") waitingClient (.str "c1") (.str "https://rp.example/cb") (.str "") s1 ∧
    AsksWith waitingClient (World.ext 1001 "" "" "n1") "AT1" s2 ∧
    (finalize (World.ext 1001 "" "" "n1") "https://op.example" codeResponse [] started).1 =
      .ok (.done (.obj [("sub", .str "alice"), ("name", .str "Alice")]) (.str World.s1) (.str "AT1") (.obj aliceToken) (.str "")) ∧
    view (finalize (World.ext 1001 "" "" "n1") "https://op.example" codeResponse [] started).2 "https://op.example" =
      some (db', waitingClient.log ++ [s1, s2]) ∧
    getStateByX db' "alice" .subjectId = .ok (.raw World.s1) := by
  refine (fun ⟨s1, s2, db', h1, h2, h3, h4, h5, _⟩ => ⟨s1, s2, db', h1, h2, h3, h4, h5⟩) <| C81_code_login C10_generated_keys_are_safe (World.ext 1001 "" "" "n1") "https://op.example" codeResponse [] started waitingClient
    (by rfl) (by decide) world_equipped ⟨by decide, ⟨"https://op.example/userinfo", by rfl⟩, by rfl, Or.inl (by rfl), ⟨by decide, by rfl⟩⟩
    World.s1 "n1" "AT1" "alice" gen_s1 (by decide) madeRequest codeResponse aliceToken
    [("sub", .str "alice"), ("name", .str "Alice")] (.str "c1") (.str "https://rp.example/cb") (.str "") (.list [.str "code"])
    world_waits (by rfl) (by rfl) (Or.inl (by intro w; rfl)) (by rfl) (by rfl) (by rfl) (by rfl) ⟨by decide, by decide⟩ ⟨_, rfl⟩
    ⟨by rfl, fun v hv => ⟨"sid1", ?_⟩⟩ ⟨⟨World.answer { srv := .accesstoken, url := "", method := "" },
      [("access_token", .str "AT1"), ("token_type", .str "Bearer"), ("expires_in", .int 300),
        ("refresh_token", .str "RT1"), ("id_token", .str "header.payload.signature")],
      [("access_token", .str "AT1"), ("token_type", .str "Bearer"), ("expires_in", .int 300),
        ("refresh_token", .str "RT1"), ("id_token", .str "header.payload.signature"), ("__verified_id_token", .obj aliceToken)],
      ?_, ?_, by rfl, by rfl, by rfl, _, rfl⟩, by rfl⟩
    ⟨World.answer { srv := .userinfo, url := "", method := "" }, [("sub", .str "alice"), ("name", .str "Alice")], ?_, ?_, by rfl, by rfl, by rfl⟩
  · have e : Dict.get? aliceToken "sid" = some (.str "sid1") := rfl
    rw [e] at hv
    injection hv with hv
    exact hv.symm
  · intro log s hs
    show Except.ok (World.answer s) = _
    unfold World.answer
    rw [hs.1]
  · exact ⟨by decide, by decide, by decide, by rfl, by rfl, by rfl, by rfl⟩
  · intro log s hs
    show Except.ok (World.answer s) = _
    unfold World.answer
    rw [hs.1]
  · exact ⟨by decide, by decide, by decide, by rfl, by rfl, by rfl, by rfl⟩

end Verif.Props
