import Verif.Props.Honest
import Verif.Props.Tokens
/-!
# C86: an honest refresh succeeds, as often as needed
-/

namespace Verif.Props
open Verif Verif.Service Verif.Handler Verif.StateInterface Verif.Spec.Session Verif.Spec.HandlerView Verif.Spec.Wire

/-! ## Specification -/

/-- A value that is absent or a text. -/
def TextOrNone (o : Option Val) : Prop := ∀ v, o = some v → ∃ s, v = .str s

/-- Session `k` has the refresh token `rt`: it is in its token response, and nothing was stored as refresh response.
There is no client secret in the token response. -/
structure Refreshable (db : DB) (k rt : String) : Prop where
  token : storedIn db k "token_response" "refresh_token" = some (.str rt)
  newest : getItem db "refresh_token_response" k = .error .keyError
  plain : storedIn db k "token_response" "client_secret" = none

/-- The client has what refreshing needs: the service, the token endpoint, the request message, and a way to authenticate
itself, whatever is stored and whichever refresh request it is. -/
structure CanRefresh (x : Ext) (c : Client) : Prop where
  service : .refreshToken ∈ c.services
  endpoint : ∃ url, Discovery.serviceEndpoint c.ctx .refreshToken = .ok (.str url)
  message : RefreshMessage x ∧ "client_secret" ∉ (x.msg .refreshToken).spaced ∧
    TextOrNone (Dict.get? (x.msg .refreshToken).defaults "client_secret")
  secret : ∀ o ∈ places c .refreshToken "client_secret", TextOrNone o
  authenticates : ∃ am m, clientAuthnMethod c.ctx.behaviour = .ok am ∧
    (if am = "" then getAuthnMethod c .refreshToken else .ok am) = .ok m ∧
    ∀ db log req kw, (∃ t, Dict.get? req "refresh_token" = some (.str t) ∧ t ≠ "") → TextOrNone (Dict.get? req "client_secret") →
      (∀ p ∈ ["user", "password", "client_secret"], Dict.get? kw p = none) →
      ∃ r, authnHeader x .refreshToken req m kw { c with db := db, log := log } = .ok r

/-- The provider answers every refresh request with the refresh token `rt` with `v`, which has the access token `t`. -/
def HonestRefresh (x : Ext) (c : Client) (rt t : String) (v : Obj) : Prop :=
  (∃ a p, (∀ log s, RefreshesWith x c rt s → x.http log s = .ok a) ∧ Understood x c .refreshToken a p v) ∧
  Msg.isError v = false ∧ Dict.get? v "access_token" = some (.str t) ∧ ∃ r, withExpiry x v = .ok r

/-! ## Steps -/

theorem firstTruthy_mem {l : List (Option Val)} {v : Val} (h : Registration.firstTruthy l = some v) : some v ∈ l := by
  induction l with
  | nil => cases h
  | cons o l ih =>
    rw [Registration.firstTruthy_cons] at h
    split at h
    · rw [h]; exact List.mem_cons_self
    · exact List.mem_cons_of_mem _ (ih h)

theorem refreshed_item {db : DB} {k rt : String} (h : Refreshable db k rt) :
    ∃ st o, getState db k = .ok st ∧ Dict.get? st "token_response" = some (.obj o) ∧ Dict.get? st "refresh_token_response" = none ∧
      storedIn db k "refresh_token_response" "refresh_token" = none ∧ storedIn db k "refresh_token_response" "client_secret" = none := by
  have h1 := h.token
  unfold storedIn at h1
  split at h1
  · next r hr =>
    unfold getItem at hr
    cases hst : getState db k with
    | error e => rw [hst] at hr; cases hr
    | ok st =>
      rw [hst] at hr
      simp only at hr
      unfold asItem at hr
      split at hr <;> first | cases hr | skip
      next o ho =>
      refine ⟨st, o, rfl, ho, item_none hst h.newest, ?_, ?_⟩ <;> · unfold storedIn; rw [h.newest]
  · cases h1

/-- The refresh request message can be made; it has the refresh token, and a client secret in it is a text. -/
theorem refresh_construct_progress {x : Ext} {c : Client} {k rt : String} {args : Obj} (hn : (Dict.keys args).Nodup)
    (ha : Dict.get? args "refresh_token" = none ∧ Dict.get? args "client_secret" = none) (hrt : rt ≠ "")
    (hq : CanRefresh x c) (hr : Refreshable c.db k rt) :
    ∃ req, construct x .refreshToken args [("state", .str k)] c = (.ok req, c) ∧
      Dict.get? req "refresh_token" = some (.str rt) ∧ TextOrNone (Dict.get? req "client_secret") := by
  obtain ⟨st, o, h1, h2, h3, h4, h5⟩ := refreshed_item hr
  have hkw : Dict.get? (methodArgs (confOf c .refreshToken) "pre_construct" [("state", Val.str k)]) "state" = some (.str k) :=
    methodArgs_given _ _ (by simp [Dict.keys]) rfl
  obtain ⟨a, hpre⟩ : ∃ a, refreshPre (x.msg .refreshToken).params args
      (methodArgs (confOf c .refreshToken) "pre_construct" [("state", Val.str k)]) c = .ok a := by
    unfold refreshPre
    rw [getStateParameter_kwargs hkw]
    simp only [dbKey]
    obtain ⟨a, ha⟩ := extend_progress h1 (Or.inr ⟨o, h2⟩) [] (x.msg .refreshToken).params
    obtain ⟨b, hb⟩ := extend_progress h1 (Or.inl h3) a (x.msg .refreshToken).params
    rw [ha]
    simp only [hb]
    exact ⟨_, rfl⟩
  obtain ⟨hna, hget⟩ := refreshPre_get hpre hkw hn
  have hg : ∀ a, gatherRequestArgs x c .refreshToken a = .ok (gatherLoop c .refreshToken (x.msg .refreshToken).params a) := by
    intro a; unfold gatherRequestArgs; simp
  have hcon : construct x .refreshToken args [("state", .str k)] c = (.ok ((x.msg .refreshToken).make
      (gatherLoop c .refreshToken (x.msg .refreshToken).params (stateFromKwargs (x.msg .refreshToken) a [("state", .str k)]))), c) := by
    unfold construct
    rw [Py.read_bind_run]
    have hp : preConstruct x .refreshToken args (methodArgs (confOf c .refreshToken) "pre_construct" [("state", Val.str k)]) c
        = (.ok (a, []), c) := by
      simp only [preConstruct]
      rw [ask_bind_ok hpre]
      rfl
    rw [Py.bind_ok hp, ask_bind_ok (hg _)]
    rfl
  refine ⟨_, hcon, ?_, ?_⟩
  · exact C38_refresh_request x c c k args _ hn hcon "refresh_token" (by decide) hq.message.1.2 (.str rt)
      ⟨by simpa using hrt, by simp⟩ (Or.inr (Or.inr (Or.inl ⟨ha.1, hq.message.1.1, h4, hr.token⟩)))
  · rw [MsgType.get?_make _ (nodup_gather (hg _) (stateFromKwargs_nodup hna)), get?_gatherLoop, stateFromKwargs_get (by decide),
      hget, ha.2, h5]
    have hfb : TextOrNone (fallback c .refreshToken "client_secret") := by
      intro v hv
      rw [fallback_places] at hv
      exact hq.secret _ (firstTruthy_mem hv) v rfl
    have hco : ∀ s, ((x.msg .refreshToken).coerce ("client_secret", Val.str s)).2 = .str s := by
      intro s
      rw [MsgType.coerce_plain _ _ _ hq.message.2.1]
    have key : ∀ w : Option Val, TextOrNone w → TextOrNone (match w with
        | some v => if Msg.emptyVal v then Dict.get? (x.msg .refreshToken).defaults "client_secret"
            else some ((x.msg .refreshToken).coerce ("client_secret", v)).2
        | none => Dict.get? (x.msg .refreshToken).defaults "client_secret") := by
      intro w hw
      cases w with
      | none => exact hq.message.2.2
      | some v =>
        obtain ⟨s, rfl⟩ := hw v rfl
        simp only
        split
        · exact hq.message.2.2
        · intro v hv
          rw [hco s] at hv
          injection hv with hv
          exact ⟨s, hv.symm⟩
    refine key _ ?_
    simp only [Option.none_or]
    split
    · next hp =>
      rw [hr.plain]
      simpa using hfb
    · intro v hv; cases hv

/-- The scope argument of a refresh. -/
abbrev scopeArgs (sc : String) : Obj := if sc = "" then [] else [("scope", .str sc)]

/-! ## C86 -/

/-- **C86** (one refresh).  Session `k` has the refresh token `rt`, the client can refresh, and the provider is honest.
Then `refresh_access_token` succeeds: one request with this refresh token is sent, what the provider answered (with its
expiry time) is returned and is the session's token response from then on; nothing else of the session changes. -/
theorem C86_refresh (x : Ext) (k sc rt t : String) (hrt : rt ≠ "") (c : Client) (v : Obj) (hq : CanRefresh x c)
    (hr : Refreshable c.db k rt) (hh : HonestRefresh x c rt t v) :
    ∃ s r db', RefreshesWith x c rt s ∧ withExpiry x v = .ok r ∧
      refreshAccessToken x k sc c = (.ok (.msg r), { c with db := db', log := c.log ++ [s] }) ∧
      getItem db' "token_response" k = .ok (Msg.ofDict r) ∧
      (∀ i, i ≠ "token_response" → getItem db' i k = getItem c.db i k) ∧
      (∀ q, q ≠ k → Dict.get? db' q = Dict.get? c.db q) := by
  obtain ⟨⟨a, p, a1, a2⟩, a3, a4, r, a5⟩ := hh
  obtain ⟨st, o, h1, h2, h3, h4, h5⟩ := refreshed_item hr
  obtain ⟨am, m, b1, b2, b3⟩ := hq.authenticates
  obtain ⟨url, hurl⟩ := hq.endpoint
  have hn : (Dict.keys (scopeArgs sc)).Nodup := by unfold scopeArgs; split <;> simp [Dict.keys]
  have ha : Dict.get? (scopeArgs sc) "refresh_token" = none ∧ Dict.get? (scopeArgs sc) "client_secret" = none := by
    unfold scopeArgs; split <;> simp [Dict.get?_cons]
  obtain ⟨req, hcon, hreq, hsec⟩ := refresh_construct_progress hn ha hrt hq hr
  obtain ⟨au, hau⟩ := b3 c.db c.log req (Dict.set (withIss c [("state", .str k)]) "authn_endpoint"
    (.str Srv.refreshToken.endpointName)) ⟨rt, hreq, hrt⟩ hsec (kw_none _ _ _)
  have htarget : targetOf .refreshToken [("state", .str k)] c = .ok url := by
    simp [targetOf, Dict.get?, endpointOf, hurl, asStr]
  obtain ⟨info, hinfo⟩ := buildRequest_progress (x := x) (srv := .refreshToken) (args := scopeArgs sc) (o := { authnMethod := am })
    (kwargs := [("state", .str k)]) (c := c) (am := m) (m := m) (r := au)
    (by simp [usesDpop, Srv.name]) b2
    (by split
        · next hm0 =>
          rw [hm0] at b2
          split at b2
          · rw [hm0]; exact b2
          · next h => injection b2 with b2; exact absurd b2 h
        · rfl)
    hcon hau htarget
  have hinfo' : getRequestParameters x .refreshToken (scopeArgs sc) { authnMethod := am } [("state", .str k)] c = (.ok info, c) := hinfo
  have hsent : RefreshesWith x c rt (sentFor .refreshToken info) := by
    have hlog : (refreshAccessToken x k sc c).2.log = c.log ++ [sentFor .refreshToken info] := by
      unfold refreshAccessToken
      rw [ask_bind_ok (by simpa using b1), refused_snd]
      unfold doRequest
      rw [Py.read_bind_run, if_neg (by simpa using hq.service), Py.bind_ok hinfo', serviceRequest_log]
    rcases refresh_sends x hq.message.1 k sc rt hrt c h4 hr.token with h | ⟨s, h, hs⟩
    · rw [hlog] at h
      simp at h
    · rw [hlog] at h
      simp only [List.append_cancel_left_eq, List.cons.injEq, and_true] at h
      rw [h]
      exact hs
  have hv : v ≠ [] := by rintro rfl; cases a4
  have hdo := doRequest_progress (x := x) (c := c) (srv := .refreshToken) (m := v)
    (c2 := { c with log := c.log ++ [sentFor .refreshToken info] }) (o := { authnMethod := am })
    (k := k) hq.service rfl hinfo' (a1 _ _ hsent) a2 rfl hv a3
  have hupd : updateMsg x .refreshToken v k { c with log := c.log ++ [sentFor .refreshToken info] }
      = (.ok r, { c with db := Dict.set c.db k (.doc (Dict.set st "token_response" (.obj r))),
                         log := c.log ++ [sentFor .refreshToken info] }) := by
    simp only [updateMsg]
    unfold storeResponse
    rw [Py.lift_bind_ok a5, Py.bind_ok (a := ()) (s' := { c with
      db := Dict.set c.db k (.doc (Dict.set st "token_response" (.obj r))), log := c.log ++ [sentFor .refreshToken info] })]
    · rfl
    · unfold onDB
      rw [storeItem_run h1]
  rw [hupd] at hdo
  simp only at hdo
  have hst' : getState (Dict.set c.db k (.doc (Dict.set st "token_response" (.obj r)))) k = .ok (Dict.set st "token_response" (.obj r)) :=
    getState_set _ _ (set_noEmpty (getState_noEmpty h1) _ _)
  refine ⟨_, r, Dict.set c.db k (.doc (Dict.set st "token_response" (.obj r))), hsent, a5, ?_, ?_, ?_, ?_⟩
  · unfold refreshAccessToken
    rw [ask_bind_ok (by simpa using b1), Py.bind_ok hdo]
    have : refuseError (.msg r) = .ok () := by
      unfold refuseError
      simp [Resp.isError, isError_withExpiry a5, a3]
    rw [Py.lift_bind_ok this]
    rfl
  · unfold getItem
    rw [hst']
    simp [Dict.get?_set_self, asItem]
  · intro i hi
    unfold getItem
    rw [hst', h1]
    simp only [Dict.get?_set_ne _ _ (Ne.symm hi)]
  · intro q hq
    exact Dict.get?_set_ne _ _ (Ne.symm hq)

/-- **C86** (the refreshed token is the valid one).  After a refresh, at any client whose session has the same responses,
`get_valid_access_token` gives the refreshed token as long as it has not expired – if the authorization response had no
access token (code flow). -/
theorem C86_refreshed_token_is_valid (x x' : Ext) (k t : String) (v r : Obj) (i : Int) (hnow : 0 ≤ x'.now) (hlive : x'.now < x.now + i)
    (ht : Dict.get? v "access_token" = some (.str t)) (hte : t ≠ "") (hexp : Dict.get? v "expires_in" = some (.int i))
    (hw : withExpiry x v = .ok r) (c : Client)
    (h1 : getItem c.db "token_response" k = .ok (Msg.ofDict r)) (h2 : getItem c.db "refresh_token_response" k = .error .keyError)
    (h3 : getItem c.db "auth_response" k = .error .keyError ∨
      ∃ a, getItem c.db "auth_response" k = .ok a ∧ Dict.get? a "access_token" = none) :
    validAccessToken x' k c = .ok (.str t, x.now + i) := by
  have e1 : Dict.get? (Msg.ofDict r) "access_token" = some (.str t) :=
    Msg.get?_ofDict_some (by rw [withExpiry_get hw (by decide)]; exact ht) (by simpa [Msg.emptyVal] using hte)
  have e2 : Dict.get? (Msg.ofDict r) "__expires_at" = some (.int (x.now + i)) := by
    unfold withExpiry at hw
    rw [hexp] at hw
    simp only [toInt, Except.map] at hw
    injection hw with hw
    subst hw
    exact Msg.get?_ofDict_some (Dict.get?_set_self _ _ _) rfl
  have hfound : foundIn x'.now (Msg.ofDict r) {} = .ok { best := some (.str t, x.now + i), exp := x.now + i } := by
    unfold foundIn
    rw [e1, e2]
    simp only
    rw [if_pos ⟨by omega, by change x.now + i > 0; omega⟩]
  have hfind : findTokens x'.now c.db k TOKEN_ITEMS {} = .ok { best := some (.str t, x.now + i), exp := x.now + i } := by
    simp only [TOKEN_ITEMS, findTokens, h2, h1, hfound]
    rcases h3 with h3 | ⟨a, h3, h4⟩
    · rw [h3]
    · rw [h3]
      simp only [foundIn, h4]
  unfold validAccessToken
  rw [hfind]

/-- Refreshes of session `k`, one after the other: the circumstances, the scope and what the provider answers. -/
abbrev Refreshes := List (Ext × String × Obj)

/-- The provider is honest in every refresh, and gives a new refresh token every time, which is what the client has to
send the next time. -/
def Rotates (c : Client) : String → Refreshes → Prop
  | _, [] => True
  | rt, (x, _, v) :: l => CanRefresh x c ∧ (∃ t, HonestRefresh x c rt t v) ∧ Dict.get? v "client_secret" = none ∧
    Dict.get? v "__verified_refresh_token" = none ∧ Dict.get? v "__verified_client_secret" = none ∧
    ∃ rt', rt' ≠ "" ∧ Dict.get? v "refresh_token" = some (.str rt') ∧ Rotates c rt' l

/-- The client after the refreshes, and what they returned. -/
def refreshAll (k : String) : Refreshes → Client → List (Except Exc Resp) × Client
  | [], c => ([], c)
  | (x, sc, _) :: l, c =>
    ((refreshAccessToken x k sc c).1 :: (refreshAll k l (refreshAccessToken x k sc c).2).1,
      (refreshAll k l (refreshAccessToken x k sc c).2).2)

theorem canRefresh_congr {x : Ext} {c : Client} (db : DB) (log : List Sent) (h : CanRefresh x c) :
    CanRefresh x { c with db := db, log := log } := by
  obtain ⟨h1, h2, h3, h4, am, m, g1, g2, g3⟩ := h
  exact ⟨h1, h2, h3, h4, am, m, g1, g2, fun db' log' req kw a1 a2 a3 => g3 db' log' req kw a1 a2 a3⟩

theorem honest_congr {x : Ext} {c : Client} {rt t : String} {v : Obj} (db : DB) (log : List Sent) (h : HonestRefresh x c rt t v) :
    HonestRefresh x { c with db := db, log := log } rt t v := by
  obtain ⟨⟨a, p, g1, g2⟩, g3⟩ := h
  exact ⟨⟨a, p, fun log' s hs => g1 log' s hs, g2⟩, g3⟩

theorem rotates_congr {c : Client} (db : DB) (log : List Sent) :
    ∀ (l : Refreshes) (rt : String), Rotates c rt l → Rotates { c with db := db, log := log } rt l := by
  intro l
  induction l with
  | nil => intro rt h; exact h
  | cons e l ih =>
    obtain ⟨x, sc, v⟩ := e
    rintro rt ⟨h1, ⟨t, h2⟩, h3, h4, h5, rt', h6, h7, h8⟩
    exact ⟨canRefresh_congr db log h1, ⟨t, honest_congr db log h2⟩, h3, h4, h5, rt', h6, h7, ih rt' h8⟩

/-- After a refresh whose answer has a refresh token, the session has that refresh token. -/
theorem refreshable_after {x : Ext} {v r : Obj} {db : DB} {k rt' : String} (hw : withExpiry x v = .ok r)
    (hv : Dict.get? v "refresh_token" = some (.str rt')) (hne : rt' ≠ "") (hver : Dict.get? v "__verified_refresh_token" = none)
    (hs : Dict.get? v "client_secret" = none) (hsv : Dict.get? v "__verified_client_secret" = none)
    (h1 : getItem db "token_response" k = .ok (Msg.ofDict r)) (h2 : getItem db "refresh_token_response" k = .error .keyError) :
    Refreshable db k rt' := by
  refine ⟨?_, h2, ?_⟩
  · unfold storedIn
    rw [h1]
    simp only
    rw [show "__verified_" ++ "refresh_token" = "__verified_refresh_token" from rfl,
      Msg.get?_ofDict_none (by rw [withExpiry_get hw (by decide)]; exact hver),
      Msg.get?_ofDict_some (by rw [withExpiry_get hw (by decide)]; exact hv) (by simpa [Msg.emptyVal] using hne)]
    rfl
  · unfold storedIn
    rw [h1]
    simp only
    rw [show "__verified_" ++ "client_secret" = "__verified_client_secret" from rfl,
      Msg.get?_ofDict_none (by rw [withExpiry_get hw (by decide)]; exact hsv),
      Msg.get?_ofDict_none (by rw [withExpiry_get hw (by decide)]; exact hs)]
    rfl

/-- **C86** (any number of refreshes).  With a provider that is honest and gives a new refresh token every time, a session
can be refreshed as often as one likes: every refresh succeeds with the access token the provider gave, and as many requests
are sent as there are refreshes. -/
theorem C86_refreshes_forever (k : String) : ∀ (l : Refreshes) (c : Client) (rt : String), rt ≠ "" →
    Refreshable c.db k rt → Rotates c rt l →
    (refreshAll k l c).1 = l.map (fun e => (withExpiry e.1 e.2.2).map Resp.msg) ∧
    (∀ res ∈ (refreshAll k l c).1, ∃ r, res = .ok r) ∧
    (refreshAll k l c).2.log.length = c.log.length + l.length := by
  intro l
  induction l with
  | nil => intro c rt _ _ _; exact ⟨rfl, by simp [refreshAll], by simp [refreshAll]⟩
  | cons e l ih =>
    obtain ⟨x, sc, v⟩ := e
    rintro c rt hne hr ⟨h1, ⟨t, h2⟩, h3, h4, h5, rt', h6, h7, h8⟩
    obtain ⟨s, r, db', a1, a2, a3, a4, a5, a6⟩ := C86_refresh x k sc rt t hne c v h1 hr h2
    have hr' : Refreshable db' k rt' := refreshable_after a2 h7 h6 h4 h3 h5 a4 ((a5 _ (by decide)).trans hr.newest)
    obtain ⟨g1, g2, g3⟩ := ih { c with db := db', log := c.log ++ [s] } rt' h6 hr' (rotates_congr _ _ l rt' h8)
    simp only [refreshAll, a3]
    refine ⟨?_, ?_, ?_⟩
    · rw [List.map_cons, g1, a2]
      rfl
    · intro res hres
      rcases List.mem_cons.1 hres with rfl | hres
      · exact ⟨_, rfl⟩
      · exact g2 res hres
    · rw [g3]
      simp
      omega

/-! ## When the hypotheses hold -/

/-- **C86**: a client that has negotiated `client_secret_basic` or `client_secret_post` and has a secret can authenticate
every refresh request; so can one that negotiated nothing and uses the service's own default, the refresh token as bearer
token. -/
theorem C86_can_authenticate (x : Ext) (c : Client) (hs : c.ctx.clientSecret ≠ "") (hmsg : (x.msg .refreshToken).isAccessTokenRequest = false)
    (hm : (∃ m, clientAuthnMethod c.ctx.behaviour = .ok m ∧ (m = "client_secret_basic" ∨ m = "client_secret_post")) ∨
      (clientAuthnMethod c.ctx.behaviour = .ok "" ∧ getAuthnMethod c .refreshToken = .ok "bearer_header")) :
    ∃ am m, clientAuthnMethod c.ctx.behaviour = .ok am ∧
    (if am = "" then getAuthnMethod c .refreshToken else .ok am) = .ok m ∧
    ∀ db log req kw, (∃ t, Dict.get? req "refresh_token" = some (.str t) ∧ t ≠ "") → TextOrNone (Dict.get? req "client_secret") →
      (∀ p ∈ ["user", "password", "client_secret"], Dict.get? kw p = none) →
      ∃ r, authnHeader x .refreshToken req m kw { c with db := db, log := log } = .ok r := by
  rcases hm with ⟨m, h1, h2⟩ | ⟨h1, h2⟩
  · have hne : m ≠ "" := by rcases h2 with rfl | rfl <;> decide
    refine ⟨m, m, h1, if_neg hne, fun db log req kw _ hsec hkw => ?_⟩
    unfold authnHeader
    rw [if_neg (by decide), if_neg hne]
    rcases h2 with rfl | rfl
    · show ∃ r, ClientAuth.clientSecretBasic _ _ _ _ = .ok r
      unfold ClientAuth.clientSecretBasic ClientAuth.getUser ClientAuth.getPasswd
      rw [hkw "user" (by simp), hkw "password" (by simp)]
      have e1 : (authEnv x { c with db := db, log := log } .refreshToken).msg.isAccessTokenRequest = false := hmsg
      cases hg : Dict.get? req "client_secret" with
      | none =>
        simp only [asStr, ClientAuth.basicModify, ClientAuth.withOrWithoutClientId, e1]
        exact ⟨_, rfl⟩
      | some v =>
        obtain ⟨s, rfl⟩ := hsec v hg
        simp only [asStr, ClientAuth.basicModify, ClientAuth.withOrWithoutClientId, e1]
        exact ⟨_, rfl⟩
    · show ∃ r, ClientAuth.clientSecretPost _ _ _ _ = .ok r
      unfold ClientAuth.clientSecretPost ClientAuth.postModify
      rw [hkw "client_secret" (by simp)]
      have e1 : (authEnv x { c with db := db, log := log } .refreshToken).ctx.clientSecret ≠ "" := hs
      rw [if_pos e1]
      split <;> exact ⟨_, rfl⟩
  · refine ⟨"", "bearer_header", h1, by rw [if_pos rfl]; exact h2, fun db log req kw ⟨t, ht, hte⟩ _ _ => ?_⟩
    unfold authnHeader
    rw [if_neg (by decide), if_neg (by decide)]
    show ∃ r, ClientAuth.bearerHeader _ _ _ _ = .ok r
    unfold ClientAuth.bearerHeader
    simp only
    rw [if_pos (by rfl)]
    unfold ClientAuth.findToken
    rw [ht]
    simp only
    rw [if_pos (by simpa [Val.truthy] using hte)]
    exact ⟨_, rfl⟩

/-- What the provider gives as token response has the refresh token `rt`, and no client secret. -/
structure GivesRefresh (v : Obj) (rt : String) : Prop where
  token : Dict.get? v "refresh_token" = some (.str rt)
  single : Dict.get? v "__verified_refresh_token" = none
  secret : Dict.get? v "client_secret" = none ∧ Dict.get? v "__verified_client_secret" = none

/-- **C86** (after a login).  In the circumstances of `C81_code_login`, with a provider whose token response has a refresh
token: when `finalize` returned, the session can be refreshed with that token. -/
theorem C86_login_can_be_refreshed {K : String → Prop} (hK : Spec.Store.KeySpace K) (x : Ext) (issuer : String) (response b : Obj)
    (h : Handler) (c : Client) (hc : Dict.get? h.issuer2rp issuer = some c) (ha : .authorization ∈ c.services)
    (hq : Equipped x c) (hu : AsksUserinfo x c)
    (k n t sub : String) (hk : K k) (ht : t ≠ "") (areq resp idt u : Obj) (code ru ver rtv : Val)
    (hw : Waiting c issuer k areq n ver) (hru : Dict.get? areq "redirect_uri" = some ru)
    (hrt : Dict.get? areq "response_type" = some rtv)
    (hset : IsSet (wordsOf rtv) ["code"] ∨ IsSet (wordsOf rtv) ["code", "id_token"])
    (hp : ParsedAs x c response resp) (he : Msg.isError resp = false) (hstate : Dict.get? resp "state" = some (.str k))
    (hcode : Dict.get? resp "code" = some code) (hce : code ≠ .str "" ∧ code ≠ .list [.str ""])
    (hexp : ∃ r, withExpiry x resp = .ok r) (hid : GoodIdToken idt sub)
    (hh : HonestTokens x c code ru ver n t idt) (hcl : HonestClaims x c t sub u)
    (rt : String) (hrne : rt ≠ "")
    (hgives : ∀ s a p v, CodeRequest x c code ru ver s → x.http c.log s = .ok a → Understood x c .accesstoken a p v → GivesRefresh v rt) :
    ∃ db' log', (finalize x issuer response b h).1.isOk = true ∧
      view (finalize x issuer response b h).2 issuer = some (db', log') ∧ Refreshable db' k rt := by
  obtain ⟨s1, s2, db', g1, _, g3, g4, _, a, p, v, r, g6, g7, g8, g9, _, g11, _⟩ := C81_code_login hK x issuer response b h c hc ha hq hu k n t sub hk ht
    areq resp idt u code ru ver rtv hw hru hrt hset hp he hstate hcode hce hexp hid hh hcl
  have hg := hgives s1 a p v g1 g6 g7
  refine ⟨db', _, by rw [g3]; rfl, g4, refreshable_after g8 hg.token hrne hg.single hg.secret.1 hg.secret.2 g9 g11⟩

/-- **C86** (the call).  At the handler: the call finds the client of the session, and what it returns and what is stored is
as in `C86_refresh`. -/
theorem C86_refresh_call (x : Ext) (k sc rt t issuer : String) (hrt : rt ≠ "") (h : Handler) (c : Client) (v : Obj)
    (hs : sessionIssuer h k = .ok issuer) (hc : Dict.get? h.issuer2rp issuer = some c) (hq : CanRefresh x c)
    (hr : Refreshable c.db k rt) (hh : HonestRefresh x c rt t v) :
    ∃ s r db', RefreshesWith x c rt s ∧ withExpiry x v = .ok r ∧ Dict.get? r "access_token" = some (.str t) ∧
      (exec x (.refresh k sc) h).1 = .ok (.resp (.msg r)) ∧
      view (exec x (.refresh k sc) h).2 issuer = some (db', c.log ++ [s]) ∧
      (∀ i, i ≠ issuer → view (exec x (.refresh k sc) h).2 i = view h i) ∧
      getItem db' "token_response" k = .ok (Msg.ofDict r) := by
  obtain ⟨s, r, db', a1, a2, a3, a4, -, -⟩ := C86_refresh x k sc rt t hrt c v hq hr hh
  refine ⟨s, r, db', a1, a2, by rw [withExpiry_get a2 (by decide)]; exact hh.2.2.1, ?_, ?_, ?_, a4⟩
  · simp only [exec, ret, onSession, hs]
    rw [fst_onClient hc, a3]
    rfl
  · simp only [exec, ret, onSession, hs]
    rw [view_onClient hc, a3]
    simp
  · intro i hi
    simp only [exec, ret, onSession, hs]
    rw [view_onClient hc, if_neg hi]

/-! ## Non-vacuity -/

/-- The client of the small world after the login. -/
def loggedIn : Client := (Dict.get? finalized.issuer2rp "https://op.example").getD default

/-- The small world, with a provider that gives a refresh token with every refresh. -/
def rotating (now : Int) : Ext := { World.ext now "" "" "" with http := fun _ _ => .ok { status := 200, headers := [("content-type", "application/json")], text := "cc" } }

/-- Its answer. -/
def rotated : Obj := [("access_token", .str "CC1"), ("token_type", .str "Bearer"), ("expires_in", .int 60), ("refresh_token", .str "CR1")]

theorem world_canRefresh (now : Int) : CanRefresh (rotating now) loggedIn := by
  refine ⟨by decide, ⟨"https://op.example/token", by rfl⟩, ⟨⟨?_, ?_⟩, ?_, ?_⟩, ?_, ?_⟩
  · show "refresh_token" ∈ (World.msgs .refreshToken).params; decide
  · show "refresh_token" ∉ (World.msgs .refreshToken).spaced; decide
  · show "client_secret" ∉ (World.msgs .refreshToken).spaced; decide
  · intro v hv
    have : Dict.get? ((rotating now).msg .refreshToken).defaults "client_secret" = none := by rfl
    rw [this] at hv; cases hv
  · have hp : places loggedIn .refreshToken "client_secret" = [some (.str "secret1"), none, none, none, none] := by rfl
    rw [hp]
    intro o ho v hv
    subst hv
    simp only [List.mem_cons, Option.some.injEq, reduceCtorEq, List.not_mem_nil, or_false] at ho
    exact ⟨_, ho⟩
  · exact C86_can_authenticate _ _ (by decide) (by rfl) (Or.inl ⟨"client_secret_basic", by rfl, Or.inl rfl⟩)

theorem world_rotates (now : Int) (rt : String) : HonestRefresh (rotating now) loggedIn rt "CC1" rotated :=
  ⟨⟨_, rotated, fun _ _ _ => rfl, by decide, by decide, by decide, by decide, by rfl, by rfl, by rfl⟩, by rfl, by rfl, _, rfl⟩

theorem world_refreshable : Refreshable loggedIn.db World.s1 "RT1" := ⟨by rfl, by rfl, by rfl⟩

/-- Non-vacuity of C86: after the login of the small world the session is refreshed three times; the last token is the valid
one. -/
example :
    (refreshAll World.s1 [(rotating 1100, "", rotated), (rotating 1200, "openid", rotated), (rotating 1300, "", rotated)] loggedIn).1
      = [1100, 1200, 1300].map (fun now => .ok (.msg (Dict.set rotated "__expires_at" (.int (now + 60))))) ∧
    sessionIssuer finalized World.s1 = .ok "https://op.example" ∧
    validAccessToken (rotating 1350) World.s1 (refreshAll World.s1 [(rotating 1100, "", rotated), (rotating 1200, "openid", rotated),
      (rotating 1300, "", rotated)] loggedIn).2 = .ok (.str "CC1", 1360) := by
  refine ⟨?_, by rfl, ?_⟩
  · rw [(C86_refreshes_forever World.s1 [(rotating 1100, "", rotated), (rotating 1200, "openid", rotated), (rotating 1300, "", rotated)] loggedIn "RT1" (by decide) world_refreshable
      ⟨world_canRefresh _, ⟨_, world_rotates _ _⟩, by rfl, by rfl, by rfl, "CR1", by decide, by rfl,
       world_canRefresh _, ⟨_, world_rotates _ _⟩, by rfl, by rfl, by rfl, "CR1", by decide, by rfl,
       world_canRefresh _, ⟨_, world_rotates _ _⟩, by rfl, by rfl, by rfl, "CR1", by decide, by rfl, trivial⟩).1]
    rfl
  · rfl

end Verif.Props
