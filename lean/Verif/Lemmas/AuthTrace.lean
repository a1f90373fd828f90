import Verif.Lemmas.Authorize
import Verif.Props.Store
/-!
# What a successful `init_authorization` did
-/

namespace Verif
open StateInterface Service Handler
open Spec.Store (KeySpace)

/-- The record of a session just after it was created. -/
def freshRecord (issuer : String) : Obj := Msg.ofDict [("iss", .str issuer)]

/-- What the PKCE add-on stores. -/
def pkceItem (x : Ext) (ctx : Ctx) : Obj :=
  [("code_verifier", .str (x.rnd "code_verifier")), ("code_challenge_method", .str (pkceMethod ctx))]

/-- What the PKCE add-on adds to the request arguments. -/
def withChallenge (x : Ext) (ctx : Ctx) (args : Obj) : Obj :=
  Dict.set (Dict.set args "code_challenge" (.str (x.challenge (pkceMethod ctx) (x.rnd "code_verifier"))))
    "code_challenge_method" (.str (pkceMethod ctx))

/-- The keyword arguments of `pre_construct`. -/
def preKwargs (c : Client) (b : Obj) : Obj :=
  methodArgs (confOf c .authorization) "pre_construct" [("behaviour_args", .obj b)]

/-- The keyword arguments of `post_construct`. -/
def postKwargs (c : Client) (b post : Obj) : Obj :=
  methodArgs (confOf c .authorization) "post_construct" (withBehaviour [("behaviour_args", .obj b)] post)

/-- The pushed request, and what is sent instead of it. -/
def PushedAs (x : Ext) (ctx : Ctx) (log : List Sent) (q f : Obj) (log' : List Sent) : Prop :=
  ∃ body u resp, parBody x ctx q = .ok body ∧
    Dict.get? ctx.providerInfo "pushed_authorization_request_endpoint" = some (.str u) ∧
    x.http log { srv := .authorization, url := u, method := "GET", body := some (.text body) } = .ok resp ∧
    parAnswer x ctx q resp = .ok f ∧
    log' = log ++ [{ srv := .authorization, url := u, method := "GET", body := some (.text body) }]

/-- The steps of a successful `init_authorization`. -/
structure AuthTrace (x : Ext) (req b : Obj) (c : Client) (url k : String) (c' : Client) where
  args : Obj
  ru : Val
  pre : Obj × Obj
  given : Obj
  cg : Client
  g : Obj
  r : Obj
  q : Obj
  f : Obj
  info : ReqInfo
  hk : k = x.rnd "init_state"
  hargs : initArgs x c.ctx req = .ok args
  hru : Registration.pickRedirectUri (aliasScope req c.ctx) (Dict.set args "state" (.str k)) = .ok ru
  hpre : authorizationPre (x.rnd "pre_nonce") (aliasScope req c.ctx).behaviour
    (Dict.set (Dict.set args "state" (.str k)) "redirect_uri" ru) (preKwargs c b) = .ok pre
  hpkce : (Dict.has (aliasScope req c.ctx).addOn "pkce" = false ∧ given = pre.1) ∨
    (Dict.has (aliasScope req c.ctx).addOn "pkce" = true ∧ pkceMethod (aliasScope req c.ctx) ∈ CC_METHODS ∧
      given = withChallenge x (aliasScope req c.ctx) pre.1)
  hcg : cg.ctx = aliasScope req c.ctx ∧ cg.conf = c.conf
  hg : gatherRequestArgs x cg .authorization given = .ok g
  hr : offlinePrompt (x.msg .authorization) ((x.msg .authorization).make g) = .ok r
  hq : requestObject x (aliasScope req c.ctx) r (postKwargs c b pre.2) = .ok q
  hf : (Dict.has (aliasScope req c.ctx).addOn "pushed_authorization" = false ∧ f = q ∧ c'.log = c.log) ∨
    (Dict.has (aliasScope req c.ctx).addOn "pushed_authorization" = true ∧
      PushedAs x (aliasScope req c.ctx) c.log q f c'.log)
  hinfo : ∃ am hd f' , attr c .authorization "default_authn_method" "" = am ∧
    authnHeader x .authorization f am
      (Dict.set (withIss cg [("behaviour_args", .obj b)]) "authn_endpoint" (.str Srv.authorization.endpointName)) c' = .ok (hd, f') ∧
    assemble x .authorization f' (attr c .authorization "http_method" "GET")
      (attr c .authorization "request_body_type" "urlencoded") hd [("behaviour_args", .obj b)] c' = .ok info
  hurl : url = info.url
  hctx : c'.ctx = aliasScope req c.ctx
  hconf : c'.conf = c.conf
  hservices : c'.services = c.services
  hcfg : c'.cfg = c.cfg
  hstate : Dict.get? given "state" = some (.str k) ∧ Dict.get? r "state" = some (.str k)
  hnodup : (Dict.keys given).Nodup
  hrecord : getState c'.db k = .ok (Dict.set
    (if Dict.has (aliasScope req c.ctx).addOn "pkce" then
      Dict.set (freshRecord c.ctx.issuer) "pkce" (.obj (pkceItem x (aliasScope req c.ctx))) else freshRecord c.ctx.issuer)
    "auth_request" (.obj r))
  hbinds : ∃ bn, bindsNonce ((x.msg .authorization).make g) = .ok bn ∧
    (bn = true → ∃ n, Dict.get? ((x.msg .authorization).make g) "nonce" = some (.str n) ∧
      getStateByX c'.db n .nonce = .ok (.raw k))
  hnonce : getStateByX c'.db (x.rnd "init_nonce") .nonce = .ok (.raw k)
  hindex : ∃ refs, Dict.get? c'.db (refKey k) = some (.doc refs)

theorem aliasScope_same (req : Obj) (ctx : Ctx) : (aliasScope req ctx).issuer = ctx.issuer ∧
    (aliasScope req ctx).addOn = ctx.addOn ∧ (aliasScope req ctx).providerInfo = ctx.providerInfo ∧
    (aliasScope req ctx).endpoints = ctx.endpoints := by
  unfold aliasScope
  split
  · exact ⟨rfl, rfl, rfl, rfl⟩
  · split
    · split <;> exact ⟨rfl, rfl, rfl, rfl⟩
    · exact ⟨rfl, rfl, rfl, rfl⟩

theorem getStateByX_get {db : DB} {v k : String} {x : XTyp} (hk : k ≠ "") (h : Dict.get? db (indexKey x v) = some (.raw k)) :
    getStateByX db v x = .ok (.raw k) := by
  unfold getStateByX
  rw [h]
  simp [hk]

theorem get?_bind_self (db : DB) (x : XTyp) (v k : String) :
    Dict.get? (storeX2State v k x db).2 (indexKey x v) = some (.raw k) := by
  unfold storeX2State
  simp only
  split
  · rw [Dict.get?_set_ne _ _ (refKey_ne_indexKey x v k), Dict.get?_set_self]
  · rw [Dict.get?_set_ne _ _ (refKey_ne_indexKey x v k), Dict.get?_set_self]
  · rw [Dict.get?_set_self]

theorem get?_bind_index (db : DB) (x y : XTyp) (v w k : String) (h : Dict.get? db (indexKey y w) = some (.raw k)) :
    Dict.get? (storeX2State v k x db).2 (indexKey y w) = some (.raw k) := by
  by_cases e : indexKey x v = indexKey y w
  · rw [← e]; exact get?_bind_self db x v k
  · unfold storeX2State
    simp only
    split
    · rw [Dict.get?_set_ne _ _ (refKey_ne_indexKey y w k), Dict.get?_set_ne _ _ e]; exact h
    · rw [Dict.get?_set_ne _ _ (refKey_ne_indexKey y w k), Dict.get?_set_ne _ _ e]; exact h
    · rw [Dict.get?_set_ne _ _ e]; exact h

/-- The look-ups of a session are recorded. -/
def Indexed (db : DB) (k : String) : Prop := ∃ refs, Dict.get? db (refKey k) = some (.doc refs)

theorem indexed_of_bind {db : DB} {x : XTyp} {v k : String} {u : Unit} (h : (storeX2State v k x db).1 = .ok u) :
    Indexed (storeX2State v k x db).2 k := by
  unfold storeX2State at h ⊢
  simp only at h ⊢
  split at h
  · exact ⟨_, Dict.get?_set_self _ _ _⟩
  · exact ⟨_, Dict.get?_set_self _ _ _⟩
  · cases h

theorem indexed_bind {db : DB} {k : String} (h : Indexed db k) (x : XTyp) (v : String) : Indexed (storeX2State v k x db).2 k := by
  obtain ⟨refs, h⟩ := h
  refine indexed_of_bind (u := ()) ?_
  unfold storeX2State
  simp only [Dict.get?_set_ne _ _ (indexKey_ne_refKey x v k), h]

theorem indexed_store {K : String → Prop} (hK : KeySpace K) {k : String} (hk : K k) (item : Obj) (t : String) {db : DB}
    (h : Indexed db k) : Indexed (storeItem item t k db).2 k := by
  obtain ⟨refs, h⟩ := h
  refine ⟨refs, ?_⟩
  unfold storeItem
  split
  · rw [Dict.get?_set_ne _ _ (KeySpace.ne_ref hK hk hk)]; exact h
  · rw [Dict.get?_set_ne _ _ (KeySpace.ne_ref hK hk hk)]; exact h
  · exact h

theorem get?_storeItem_index {K : String → Prop} (hK : KeySpace K) {k : String} (hk : K k) (item : Obj) (t : String) (db : DB)
    (y : XTyp) (w : String) : Dict.get? (storeItem item t k db).2 (indexKey y w) = Dict.get? db (indexKey y w) := by
  unfold storeItem
  split
  · exact Dict.get?_set_ne _ _ (KeySpace.ne_index hK hk y w)
  · exact Dict.get?_set_ne _ _ (KeySpace.ne_index hK hk y w)
  · rfl

namespace Service

theorem addCodeChallenge_ok {x : Ext} {args d : Obj} {c c' : Client} {k : String} (hs : Dict.get? args "state" = some (.str k))
    (h : addCodeChallenge x args c = (.ok d, c')) :
    pkceMethod c.ctx ∈ CC_METHODS ∧ d = withChallenge x c.ctx args ∧
      c' = { c with db := (storeItem (pkceItem x c.ctx) "pkce" k c.db).2 } := by
  unfold addCodeChallenge at h
  rw [Py.read_bind_run] at h
  simp only at h
  split at h
  · have := congrArg Prod.fst h; cases this
  · next hm =>
    rw [Dict.getItem_eq_ok.2 hs, Py.lift_bind_ok rfl, show dbKey (.str k) = .ok k from rfl, Py.lift_bind_ok rfl] at h
    obtain ⟨_, c1, h1, h2⟩ := Py.bind_eq_ok.1 h
    refine ⟨by simpa using hm, ?_, ?_⟩
    · have h3 := congrArg Prod.fst h2
      injection h3 with h3
      exact h3.symm
    · have h3 := congrArg Prod.snd h2
      have h4 := congrArg Prod.snd h1
      exact h3.symm.trans h4.symm

theorem bindNonce_ok {req : Obj} {c c' : Client} {u : Unit} (h : bindNonce req c = (.ok u, c')) :
    (bindsNonce req = .ok false ∧ c' = c) ∨
    (bindsNonce req = .ok true ∧ ∃ n sv s, Dict.get? req "nonce" = some (.str n) ∧ Dict.getItem req "state" = .ok sv ∧
      dbKey sv = .ok s ∧ c' = { c with db := (storeX2State n s .nonce c.db).2 }) := by
  unfold bindNonce at h
  obtain ⟨b, c1, h1, h⟩ := Py.bind_eq_ok.1 h
  obtain ⟨h1', rfl⟩ := Py.lift_eq_ok.1 h1
  cases b with
  | false =>
    left
    have h2 := congrArg Prod.snd h
    exact ⟨h1', h2.symm⟩
  | true =>
    right
    refine ⟨h1', ?_⟩
    rw [if_pos rfl] at h
    obtain ⟨nv, c2, h2, h⟩ := Py.bind_eq_ok.1 h
    obtain ⟨h2', rfl⟩ := Py.lift_eq_ok.1 h2
    obtain ⟨n, c3, h3, h⟩ := Py.bind_eq_ok.1 h
    obtain ⟨h3', rfl⟩ := Py.lift_eq_ok.1 h3
    obtain ⟨sv, c4, h4, h⟩ := Py.bind_eq_ok.1 h
    obtain ⟨h4', rfl⟩ := Py.lift_eq_ok.1 h4
    obtain ⟨s, c5, h5, h⟩ := Py.bind_eq_ok.1 h
    obtain ⟨h5', rfl⟩ := Py.lift_eq_ok.1 h5
    have h6 := congrArg Prod.snd h
    have hnv : nv = .str n := by
      cases nv <;> simp [asStr] at h3'
      rw [h3']
    rw [Dict.getItem_eq_ok, hnv] at h2'
    exact ⟨n, sv, s, h2', h4', h5', h6.symm⟩

theorem push_ok {x : Ext} {q f : Obj} {c c' : Client} (h : pushAuthorization x q c = (.ok f, c')) :
    PushedAs x c.ctx c.log q f c'.log ∧ c' = { c with log := c'.log } := by
  unfold pushAuthorization at h
  rw [Py.read_bind_run] at h
  obtain ⟨body, c1, h1, h⟩ := Py.bind_eq_ok.1 h
  obtain ⟨h1', rfl⟩ := Py.lift_eq_ok.1 h1
  obtain ⟨uv, c2, h2, h⟩ := Py.bind_eq_ok.1 h
  obtain ⟨h2', rfl⟩ := Py.lift_eq_ok.1 h2
  obtain ⟨u, c3, h3, h⟩ := Py.bind_eq_ok.1 h
  obtain ⟨h3', rfl⟩ := Py.lift_eq_ok.1 h3
  obtain ⟨resp, c4, h4, h⟩ := Py.bind_eq_ok.1 h
  obtain ⟨h5', rfl⟩ := Py.lift_eq_ok.1 h
  have huv : uv = .str u := by
    cases uv <;> simp [asStr] at h3'
    rw [h3']
  rw [Dict.getItem_eq_ok, huv] at h2'
  have h6 := congrArg Prod.fst h4
  have h7 := congrArg Prod.snd h4
  have h8 : c.log ++ _ = c4.log := congrArg Client.log h7
  refine ⟨⟨body, u, resp, h1', h2', h6, h5', h8.symm⟩, ?_⟩
  rw [← h8]
  exact h7.symm

theorem noEmpty_fresh (issuer : String) : ∀ p ∈ freshRecord issuer, Msg.emptyVal p.2 = false := Msg.ofDict_noEmpty _

theorem onDB_snd {α : Type} {m : Py DB α} {c c' : Client} {r : Except Exc α} (h : onDB m c = (r, c')) :
    c' = { c with db := (m c.db).2 } := (congrArg Prod.snd h).symm

end Service

/-- The steps of a successful `init_authorization`. -/
theorem authTrace {K : String → Prop} (hK : KeySpace K) {x : Ext} {req b : Obj} {c c' : Client} {url k : String}
    (hKk : K (x.rnd "init_state")) (hp : PlainConf c.conf) (h : initAuthorization x req b c = (.ok (url, k), c')) :
    Nonempty (AuthTrace x req b c url k c') := by
  unfold initAuthorization at h
  obtain ⟨args, c0, h1, hA⟩ := Py.bind_eq_ok.1 h
  obtain rfl : c0 = c := (congrArg Prod.snd h1).symm
  have hargs : initArgs x c0.ctx req = .ok args := congrArg Prod.fst h1
  rw [Py.read_bind_run] at hA
  obtain ⟨k1, c1, h2, hB⟩ := Py.bind_eq_ok.1 hA
  have hk1 : k1 = x.rnd "init_state" := by
    have h3 : (createState c0.ctx.issuer "" (x.rnd "init_state") c0.db).1 = .ok k1 := congrArg Prod.fst h2
    rw [createState_random] at h3
    injection h3 with h3
    exact h3.symm
  have hc1 := onDB_snd h2
  obtain ⟨_, c2, h3, hC⟩ := Py.bind_eq_ok.1 hB
  have hc2 := onDB_snd h3
  split at hC
  · have := congrArg Prod.fst hC; cases this
  · obtain ⟨_, c3, h4, hD⟩ := Py.bind_eq_ok.1 hC
    have hc3 : c3 = { c2 with ctx := aliasScope req c2.ctx } := (congrArg Prod.snd h4).symm
    obtain ⟨info, c4, h5, hE⟩ := Py.bind_eq_ok.1 hD
    have h6 := congrArg Prod.fst hE
    obtain rfl : c4 = c' := congrArg Prod.snd hE
    clear h h1 hA hB hC hD hE
    injection h6 with h6
    injection h6 with h6 h7
    subst hk1
    subst h7
    have hk := hKk
    generalize hkk : x.rnd "init_state" = k at *
    have hkne : k ≠ "" := hK.nonempty _ hk
    have hctx3 : c3.ctx = aliasScope req c0.ctx := by rw [hc3, hc2, hc1]
    have hconf3 : c3.conf = c0.conf := by rw [hc3, hc2, hc1]
    have hlog3 : c3.log = c0.log := by rw [hc3, hc2, hc1]
    have hsrv3 : c3.services = c0.services := by rw [hc3, hc2, hc1]
    have hcfg3 : c3.cfg = c0.cfg := by rw [hc3, hc2, hc1]
    have hdb3 : c3.db = c2.db := by rw [hc3]
    have hidx3 : Dict.get? c3.db (indexKey .nonce (x.rnd "init_nonce")) = some (.raw k) := by
      rw [hdb3, hc2]
      exact get?_bind_self _ _ _ _
    have hin3 : Indexed c3.db k := by
      rw [hdb3, hc2]
      have h8 : (storeX2State (x.rnd "init_nonce") k .nonce c1.db).1 = .ok _ := congrArg Prod.fst h3
      exact indexed_of_bind h8
    have hconfOf : ∀ c : Client, c.conf = c0.conf → ∀ s, confOf c s = confOf c0 s := by
      intro c hc s; unfold confOf; rw [hc]
    have hattr : ∀ c : Client, c.conf = c0.conf → ∀ s n d, attr c s n d = attr c0 s n d := by
      intro c hc s n d; unfold attr; rw [hconfOf c hc]
    -- the request
    have h5 : buildRequest x .authorization (Dict.set args "state" (.str k)) {} [("behaviour_args", .obj b)] c3 = (.ok info, c4) := h5
    obtain ⟨am, f, c5, hd, f', k1, k2, k3, k4⟩ := buildRequest_ok h5
    obtain ⟨pre, c6, g, m1, m2, m3⟩ := construct_ok k2
    have hkwp : Dict.get? (methodArgs (confOf c3 .authorization) "pre_construct" [("behaviour_args", .obj b)]) "state" = none := by
      refine methodArgs_none (by simp [Dict.keys]) (by simp [Dict.get?]) ?_
      rw [hconfOf c3 hconf3]
      exact hp
    simp only [preConstruct] at m1
    obtain ⟨a1, c7, n1, m1⟩ := Py.bind_eq_ok.1 m1
    rw [setState_run hkne (KeySpace.not_dunder hK hk) (Dict.get?_set_self _ _ _) hkwp] at n1
    injection n1 with n1 n2
    injection n1 with n1
    rw [Dict.set_set] at n1
    subst n1
    obtain ⟨a2, c8, n3, m1⟩ := Py.bind_eq_ok.1 m1
    unfold pickRedirect at n3
    obtain ⟨ru, c9, n4, n5⟩ := Py.bind_eq_ok.1 n3
    have hru : Registration.pickRedirectUri c7.ctx (Dict.set args "state" (.str k)) = .ok ru := congrArg Prod.fst n4
    have e1 : c9 = c7 := (congrArg Prod.snd n4).symm
    have e2 : c8 = c9 := (congrArg Prod.snd n5).symm
    have e3 := congrArg Prod.fst n5
    injection e3 with e3
    subst e1; subst e2; subst e3
    rw [Py.read_bind_run] at m1
    obtain ⟨pr, c10, n6, m1⟩ := Py.bind_eq_ok.1 m1
    obtain ⟨hpre, rfl⟩ := Py.lift_eq_ok.1 n6
    have hctx7 : c8.ctx = aliasScope req c0.ctx := by rw [← n2]; exact hctx3
    have hconf7 : c8.conf = c0.conf := by rw [← n2]; exact hconf3
    have hlog7 : c8.log = c0.log := by rw [← n2]; exact hlog3
    have hsrv7 : c8.services = c0.services := by rw [← n2]; exact hsrv3
    have hcfg7 : c8.cfg = c0.cfg := by rw [← n2]; exact hcfg3
    have hst7 : getState c8.db k = .ok (freshRecord c0.ctx.issuer) := by
      rw [← n2]
      have hi : c3.ctx.issuer = c0.ctx.issuer := by rw [hctx3]; exact (aliasScope_same req c0.ctx).1
      show getState (Dict.set c3.db k _) k = _
      rw [hi]
      exact getState_set _ _ (noEmpty_fresh _)
    have hidx7 : Dict.get? c8.db (indexKey .nonce (x.rnd "init_nonce")) = some (.raw k) := by
      rw [← n2]
      show Dict.get? (Dict.set c3.db k _) _ = _
      rw [Dict.get?_set_ne _ _ (KeySpace.ne_index hK hk _ _)]
      exact hidx3
    have hin7 : Indexed c8.db k := by
      rw [← n2]
      show Indexed (Dict.set c3.db k _) _
      obtain ⟨refs, h8⟩ := hin3
      exact ⟨refs, by rw [Dict.get?_set_ne _ _ (KeySpace.ne_ref hK hk hk)]; exact h8⟩
    obtain ⟨q1, q2, q3⟩ := authorizationPre_state hpre
    have hprst : Dict.get? pr.1 "state" = some (.str k) := by
      rw [q1 _ (by decide) (by decide) (by decide), Dict.get?_set_ne _ _ (by decide), Dict.get?_set_self]
    have hprn : (Dict.keys pr.1).Nodup := q2 (Dict.nodup_set (Dict.nodup_set (initArgs_nodup hargs) _ _) _ _)
    -- PKCE
    have hpk : ∃ given, pre = (given, pr.2) ∧
        ((Dict.has (aliasScope req c0.ctx).addOn "pkce" = false ∧ given = pr.1) ∨
         (Dict.has (aliasScope req c0.ctx).addOn "pkce" = true ∧ pkceMethod (aliasScope req c0.ctx) ∈ CC_METHODS ∧
           given = withChallenge x (aliasScope req c0.ctx) pr.1)) ∧
        c6.ctx = aliasScope req c0.ctx ∧ c6.conf = c0.conf ∧ c6.log = c0.log ∧ c6.services = c0.services ∧ c6.cfg = c0.cfg ∧
        getState c6.db k = .ok (if Dict.has (aliasScope req c0.ctx).addOn "pkce" then
          Dict.set (freshRecord c0.ctx.issuer) "pkce" (.obj (pkceItem x (aliasScope req c0.ctx))) else freshRecord c0.ctx.issuer) ∧
        Dict.get? c6.db (indexKey .nonce (x.rnd "init_nonce")) = some (.raw k) ∧
        Dict.get? given "state" = some (.str k) ∧ (Dict.keys given).Nodup ∧ Indexed c6.db k := by
      rw [hctx7] at m1
      cases hh : Dict.has (aliasScope req c0.ctx).addOn "pkce" with
      | false =>
        rw [hh] at m1
        have e1 := congrArg Prod.fst m1
        injection e1 with e1
        have e2 : c8 = c6 := congrArg Prod.snd m1
        subst e1; subst e2
        exact ⟨pr.1, rfl, Or.inl ⟨rfl, rfl⟩, hctx7, hconf7, hlog7, hsrv7, hcfg7, by simpa using hst7, hidx7, hprst, hprn, hin7⟩
      | true =>
        rw [hh, if_pos rfl] at m1
        obtain ⟨d, c11, w1, w2⟩ := Py.bind_eq_ok.1 m1
        obtain ⟨v1, v2, v3⟩ := addCodeChallenge_ok hprst w1
        have e1 := congrArg Prod.fst w2
        injection e1 with e1
        obtain rfl : c11 = c6 := congrArg Prod.snd w2
        rw [hctx7] at v1 v2 v3
        refine ⟨d, e1.symm, Or.inr ⟨rfl, v1, v2⟩, ?_, ?_, ?_, ?_, ?_, ?_, ?_, ?_, ?_, ?_⟩
        · rw [v3]
        · rw [v3]; exact hconf7
        · rw [v3]; exact hlog7
        · rw [v3]; exact hsrv7
        · rw [v3]; exact hcfg7
        · rw [v3]
          simp only [if_true]
          show getState (storeItem _ "pkce" k c8.db).2 k = _
          rw [storeItem_run hst7]
          exact getState_set _ _ (set_noEmpty (noEmpty_fresh _) _ _)
        · rw [v3]
          show Dict.get? (storeItem _ "pkce" k c8.db).2 _ = _
          rw [get?_storeItem_index hK hk]
          exact hidx7
        · rw [v2]
          unfold withChallenge
          rw [Dict.get?_set_ne _ _ (by decide), Dict.get?_set_ne _ _ (by decide)]
          exact hprst
        · rw [v2]
          exact Dict.nodup_set (Dict.nodup_set hprn _ _) _ _
        · rw [v3]
          exact indexed_store hK hk _ _ hin7
    obtain ⟨given, rfl, hpkce, hctx6, hconf6, hlog6, hsrv6, hcfg6, hst6, hidx6, hgst, hgn, hin6⟩ := hpk
    rw [stateFromKwargs_given hgst] at m2
    have hgn' := nodup_gather m2 hgn
    have hms : ∀ v s, Dict.getItem ((x.msg .authorization).make g) "state" = .ok v → dbKey v = .ok s → s = k ∧ v = .str k :=
      fun v s hv hs => make_state hgn' hkne (gather_given m2 hgst) hv hs
    -- post_construct
    unfold postConstruct at m3
    rw [Py.read_bind_run] at m3
    simp only at m3
    obtain ⟨q, c12, o1, o2⟩ := Py.bind_eq_ok.1 m3
    unfold authorizationPost at o1
    obtain ⟨_, c13, o3, o1⟩ := Py.bind_eq_ok.1 o1
    obtain ⟨r, c14, o4, o1⟩ := Py.bind_eq_ok.1 o1
    obtain ⟨hr, rfl⟩ := Py.lift_eq_ok.1 o4
    obtain ⟨sv, c15, o5, o1⟩ := Py.bind_eq_ok.1 o1
    obtain ⟨hsv, rfl⟩ := Py.lift_eq_ok.1 o5
    obtain ⟨s, c16, o6, o1⟩ := Py.bind_eq_ok.1 o1
    obtain ⟨hs, rfl⟩ := Py.lift_eq_ok.1 o6
    obtain ⟨_, c17, o7, o1⟩ := Py.bind_eq_ok.1 o1
    have hc17 := onDB_snd o7
    have e12 : c17 = c12 := congrArg Prod.snd o1
    have hq : requestObject x c17.ctx r (methodArgs (confOf c6 .authorization) "post_construct"
        (withBehaviour [("behaviour_args", .obj b)] pr.2)) = .ok q := congrArg Prod.fst o1
    have hsv' : Dict.getItem ((x.msg .authorization).make g) "state" = .ok sv := by
      rw [Dict.getItem_eq_ok] at hsv ⊢
      rw [← (offlinePrompt_keeps hr).1 _ (by decide)]
      exact hsv
    obtain ⟨rfl, rfl⟩ := hms _ _ hsv' hs
    rw [Dict.getItem_eq_ok] at hsv
    -- after the nonce
    have hnon : (∃ bn, bindsNonce ((x.msg .authorization).make g) = .ok bn ∧
        (bn = true → ∃ n, Dict.get? ((x.msg .authorization).make g) "nonce" = some (.str n) ∧
          Dict.get? c13.db (indexKey .nonce n) = some (.raw s))) ∧
        c13.ctx = c6.ctx ∧ c13.conf = c6.conf ∧ c13.log = c6.log ∧ c13.services = c6.services ∧ c13.cfg = c6.cfg ∧
        getState c13.db s = getState c6.db s ∧
        Dict.get? c13.db (indexKey .nonce (x.rnd "init_nonce")) = some (.raw s) ∧ Indexed c13.db s := by
      rcases bindNonce_ok o3 with ⟨u1, u2⟩ | ⟨u1, n, sv', s', u2, u3, u4, u5⟩
      · subst u2
        exact ⟨⟨false, u1, by simp⟩, rfl, rfl, rfl, rfl, rfl, rfl, hidx6, hin6⟩
      · obtain ⟨rfl, _⟩ := hms _ _ u3 u4
        rw [u5]
        refine ⟨⟨true, u1, fun _ => ⟨n, u2, get?_bind_self _ _ _ _⟩⟩, rfl, rfl, rfl, rfl, rfl, ?_, get?_bind_index _ _ _ _ _ _ hidx6, indexed_bind hin6 _ _⟩
        exact Kept.getState_storeX2State (fun x v => KeySpace.ne_index hK hk x v) (KeySpace.ne_ref hK hk hk) _ _ _
    obtain ⟨⟨bn, hbn1, hbn2⟩, z1, z2, z3, z4, z5, z6, z7, z8⟩ := hnon
    have hst13 := z6.trans hst6
    have hst17 : getState c17.db s = .ok (Dict.set
        (if Dict.has (aliasScope req c0.ctx).addOn "pkce" then
          Dict.set (freshRecord c0.ctx.issuer) "pkce" (.obj (pkceItem x (aliasScope req c0.ctx))) else freshRecord c0.ctx.issuer)
        "auth_request" (.obj r)) := by
      rw [hc17]
      show getState (storeItem r "auth_request" s c13.db).2 s = _
      rw [storeItem_run hst13]
      exact getState_set _ _ (set_noEmpty (getState_noEmpty hst13) _ _)
    have hidx17 : ∀ n, Dict.get? c13.db (indexKey .nonce n) = some (.raw s) → Dict.get? c17.db (indexKey .nonce n) = some (.raw s) := by
      intro n hn
      rw [hc17]
      show Dict.get? (storeItem r "auth_request" s c13.db).2 _ = _
      rw [get?_storeItem_index hK hk]
      exact hn
    have hin17 : Indexed c17.db s := by
      rw [hc17]
      exact indexed_store hK hk _ _ z8
    subst e12
    have y1 : c17.ctx = aliasScope req c0.ctx := by rw [hc17]; exact z1.trans hctx6
    have y2 : c17.conf = c0.conf := by rw [hc17]; exact z2.trans hconf6
    have y3 : c17.log = c0.log := by rw [hc17]; exact z3.trans hlog6
    have y4 : c17.services = c0.services := by rw [hc17]; exact z4.trans hsrv6
    have y5 : c17.cfg = c0.cfg := by rw [hc17]; exact z5.trans hcfg6
    -- pushed authorization
    have hpar : ((Dict.has (aliasScope req c0.ctx).addOn "pushed_authorization" = false ∧ f = q ∧ c5.log = c0.log) ∨
        (Dict.has (aliasScope req c0.ctx).addOn "pushed_authorization" = true ∧
          PushedAs x (aliasScope req c0.ctx) c0.log q f c5.log)) ∧ c5 = { c17 with log := c5.log } := by
      rw [hctx6] at o2
      cases hh : Dict.has (aliasScope req c0.ctx).addOn "pushed_authorization" with
      | false =>
        rw [hh] at o2
        have e1 := congrArg Prod.fst o2
        injection e1 with e1
        have e2 : c17 = c5 := congrArg Prod.snd o2
        subst e1; subst e2
        exact ⟨Or.inl ⟨rfl, rfl, y3⟩, rfl⟩
      | true =>
        rw [hh, if_pos rfl] at o2
        obtain ⟨w1, w2⟩ := push_ok o2
        rw [y1, y3] at w1
        exact ⟨Or.inr ⟨rfl, w1⟩, w2⟩
    obtain ⟨hf, hc5⟩ := hpar
    obtain ⟨am', h0, k5, k6, k7⟩ := getHeaders_ok k3
    have hnod : usesDpop c5.ctx .authorization = false := by simp [usesDpop, Srv.name]
    rcases k7 with ⟨_, rfl, rfl⟩ | ⟨k7, _⟩
    · have hdb : c4.db = c17.db := by rw [hc5]
      have hc4conf : c4.conf = c0.conf := by rw [hc5]; exact y2
      have ham : am = attr c0 .authorization "default_authn_method" "" := by
        have k1 : getAuthnMethod c3 .authorization = .ok am := k1
        have : getAuthnMethod c3 .authorization = .ok (attr c3 .authorization "default_authn_method" "") := by
          simp [getAuthnMethod, defaultAuthn]
        rw [this] at k1
        injection k1 with k1
        rw [← k1, hattr c3 hconf3]
      have ham' : am' = am := by
        by_cases e : am = ""
        · rw [if_pos e] at k5
          have : getAuthnMethod c4 .authorization = .ok (attr c4 .authorization "default_authn_method" "") := by
            simp [getAuthnMethod, defaultAuthn]
          rw [this] at k5
          injection k5 with k5
          rw [← k5, hattr c4 hc4conf, ← ham]
        · rw [if_neg e] at k5
          injection k5 with k5
          exact k5.symm
      refine ⟨{
        args := args, ru := ru, pre := pr, given := given, cg := c6, g := g, r := r, q := q, f := f, info := info,
        hk := hkk.symm,
        hargs := hargs, hru := (by rw [hctx7] at hru; exact hru), hpre := ?_, hpkce := hpkce, hcg := ⟨hctx6, hconf6⟩,
        hg := m2, hr := hr, hq := ?_, hf := hf, hinfo := ⟨am, hd, f', ham.symm, ?_, ?_⟩, hurl := h6.symm,
        hctx := (by rw [hc5]; exact y1), hconf := hc4conf, hservices := (by rw [hc5]; exact y4), hcfg := (by rw [hc5]; exact y5),
        hstate := ⟨hgst, hsv⟩, hnodup := hgn, hrecord := (by rw [hdb]; exact hst17), hbinds := ?_, hnonce := ?_, hindex := (by rw [hdb]; exact hin17) }⟩
      · rw [hctx7, hconfOf c3 hconf3] at hpre
        exact hpre
      · rw [y1, hconfOf c6 hconf6] at hq
        exact hq
      · rw [ham'] at k6
        have e : withIss c6 [("behaviour_args", .obj b)] = withIss c3 [("behaviour_args", .obj b)] := by
          unfold withIss; rw [hctx6, hctx3]
        rw [e]
        exact k6
      · have k4 := k4
        rw [hattr c3 hconf3, hattr c3 hconf3] at k4
        exact k4
      · refine ⟨bn, hbn1, fun hb => ?_⟩
        obtain ⟨n, hn1, hn2⟩ := hbn2 hb
        refine ⟨n, hn1, getStateByX_get hkne ?_⟩
        rw [hdb]
        exact hidx17 n hn2
      · refine getStateByX_get hkne ?_
        rw [hdb]
        exact hidx17 _ z7
    · rw [hnod] at k7; cases k7

end Verif
