import Verif.Props.Userinfo
import Verif.Props.SessionTokens
/-!
# C26, C28: requests that use what is stored for a session
-/

namespace Verif.Props
open Verif Verif.Service Verif.Handler Verif.StateInterface Verif.Spec.Session Verif.Spec.HandlerView Verif.Spec.Wire

/-! ## The latest value in the stored responses -/

/-- One parameter as `copyParam` sees it. -/
theorem copyParam_get (orig : Bool) (item args : Obj) (p : String) :
    Dict.get? (copyParam orig item args p) p =
      (if orig then Dict.get? item p else (Dict.get? item (Msg.verifiedName p)).or (Dict.get? item p)).or
        (Dict.get? args p) := by
  unfold copyParam
  cases orig
  · simp only [Bool.false_eq_true, if_false]
    cases Dict.get? item (Msg.verifiedName p) with
    | some v => simp [Dict.get?_set_self]
    | none => cases Dict.get? item p <;> simp [Dict.get?_set_self]
  · simp only [if_true]
    cases Dict.get? item p <;> simp [Dict.get?_set_self]

theorem copyParam_other (orig : Bool) (item args : Obj) {p q : String} (h : q ≠ p) :
    Dict.get? (copyParam orig item args p) q = Dict.get? args q := by
  have h' : p ≠ q := fun e => h e.symm
  unfold copyParam
  cases orig
  · simp only [Bool.false_eq_true, if_false]
    split
    · exact Dict.get?_set_ne _ _ h'
    · split
      · exact Dict.get?_set_ne _ _ h'
      · rfl
  · simp only [if_true]
    split
    · exact Dict.get?_set_ne _ _ h'
    · rfl

theorem nodup_copyParam (orig : Bool) (item : Obj) {args : Obj} (p : String) (h : (Dict.keys args).Nodup) :
    (Dict.keys (copyParam orig item args p)).Nodup := by
  unfold copyParam
  cases orig
  · simp only [Bool.false_eq_true, if_false]
    split
    · exact Dict.nodup_set h _ _
    · split
      · exact Dict.nodup_set h _ _
      · exact h
  · simp only [if_true]
    split
    · exact Dict.nodup_set h _ _
    · exact h

/-- A loop over the stored responses: other parameters are kept; if no response has the parameter it is
kept, too; if `i` is the last one that has it, it gets the value there. -/
theorem multiLoop_get (db : DB) (k : String) (st : Obj) (hst : getState db k = .ok st) (p : String) (orig : Bool)
    (items : List String) :
    ∀ args a, multiExtendLoop st [p] orig items args = .ok a →
      (∀ q, q ≠ p → Dict.get? a q = Dict.get? args q) ∧
      ((Dict.keys args).Nodup → (Dict.keys a).Nodup) ∧
      ((∀ i ∈ items, ∀ r, getItem db i k = .ok r → Dict.get? r p = none ∧
          (orig = false → Dict.get? r (Msg.verifiedName p) = none)) → Dict.get? a p = Dict.get? args p) ∧
      ((orig = false → ∀ i ∈ items, ∀ r, getItem db i k = .ok r → Dict.get? r (Msg.verifiedName p) = none) →
        ∀ i v, Latest db k p items i v → Dict.get? a p = some v) := by
  induction items with
  | nil =>
    intro args a h
    injection h with h; subst h
    refine ⟨fun _ _ => rfl, fun h => h, fun _ => rfl, ?_⟩
    rintro - i v ⟨b, af, e, -⟩
    cases b <;> cases e
  | cons j items ih =>
    intro args a h
    unfold multiExtendLoop at h
    cases hg : Dict.get? st j with
    | none =>
      rw [hg] at h
      obtain ⟨h1, h2, h3, h4⟩ := ih _ _ h
      have hno : ∀ r, getItem db j k ≠ .ok r := by
        intro r; simp [getItem, hst, hg, asItem]
      refine ⟨h1, h2, fun hall => h3 fun i hi => hall i (by simp [hi]), ?_⟩
      rintro hver i v ⟨b, af, e, ⟨r, hr, hv⟩, hl⟩
      cases b with
      | nil => injection e with e1 e2; subst e1; exact absurd hr (hno r)
      | cons _ b =>
        injection e with e1 e2; subst e1
        exact h4 (fun ho i hi => hver ho i (by simp [hi])) i v ⟨b, af, e2, ⟨r, hr, hv⟩, hl⟩
    | some w =>
      rw [hg] at h
      cases w <;> simp only [reduceCtorEq] at h
      next o =>
      have hj : getItem db j k = .ok (Msg.ofDict o) := by simp [getItem, hst, hg, asItem]
      obtain ⟨h1, h2, h3, h4⟩ := ih _ _ h
      simp only [List.foldl_cons, List.foldl_nil] at h1 h2 h3 h4
      refine ⟨fun q hq => (h1 q hq).trans (copyParam_other _ _ _ hq), fun hn => h2 (nodup_copyParam _ _ _ hn), ?_, ?_⟩
      · intro hall
        rw [h3 fun i hi => hall i (by simp [hi]), copyParam_get]
        obtain ⟨g1, g2⟩ := hall j (by simp) _ hj
        cases orig
        · simp [g1, g2 rfl]
        · simp [g1]
      · rintro hver i v ⟨b, af, e, ⟨r, hr, hv⟩, hl⟩
        cases b with
        | nil =>
          injection e with e1 e2; subst e1; subst e2
          rw [hj] at hr; injection hr with hr; subst hr
          rw [h3, copyParam_get]
          · cases orig
            · simp [hver rfl j (by simp) _ hj, hv]
            · simp [hv]
          · intro i hi r' hr'
            exact ⟨hl i hi r' hr', fun ho => hver ho i (by simp [hi]) r' hr'⟩
        | cons _ b =>
          injection e with e1 e2; subst e1
          exact h4 (fun ho i hi => hver ho i (by simp [hi])) i v ⟨b, af, e2, ⟨r, hr, hv⟩, hl⟩

theorem multi_get {db : DB} {k p : String} {orig : Bool} {items : List String} {args a : Obj}
    (h : multipleExtendRequestArgs db args k [p] items orig = .ok a) :
      (∀ q, q ≠ p → Dict.get? a q = Dict.get? args q) ∧
      ((Dict.keys args).Nodup → (Dict.keys a).Nodup) ∧
      ((∀ i ∈ items, ∀ r, getItem db i k = .ok r → Dict.get? r p = none ∧
          (orig = false → Dict.get? r (Msg.verifiedName p) = none)) → Dict.get? a p = Dict.get? args p) ∧
      ((orig = false → ∀ i ∈ items, ∀ r, getItem db i k = .ok r → Dict.get? r (Msg.verifiedName p) = none) →
        ∀ i v, Latest db k p items i v → Dict.get? a p = some v) := by
  unfold multipleExtendRequestArgs at h
  cases hst : getState db k with
  | error e => rw [hst] at h; cases h
  | ok st => rw [hst] at h; exact multiLoop_get db k st hst p orig items args a h

/-! ## C26 -/

/-- The userinfo request message takes the access token as it is (oidcmsg `Message`, which has no
parameters of its own). -/
def UserinfoMessage (x : Ext) : Prop :=
  "access_token" ∉ (x.msg .userinfo).spaced ∧ Dict.get? (x.msg .userinfo).defaults "access_token" = none

/-- The client sends its access token to the userinfo endpoint in a header (the default). -/
def HeaderToken (c : Client) : Prop :=
  attr c .userinfo "default_authn_method" (defaultAuthn .userinfo) = "bearer_header"

/-- The HTTP request `s` is a userinfo request with the access token `t`. -/
def AsksWith (c : Client) (x : Ext) (t : String) (s : Sent) : Prop :=
  s.srv = .userinfo ∧ Dict.get? s.headers "Authorization" = some ("Bearer " ++ t) ∧
  ∃ url req, Discovery.serviceEndpoint c.ctx .userinfo = .ok (.str url) ∧ Carries x s url req

theorem dpopHeader_keeps {x : Ext} {srv : Srv} {m : String} {hd h : Dict String} {c c' : Client}
    (hr : dpopHeader x srv m hd c = (.ok h, c')) {p : String} (hp : p ≠ "dpop") : Dict.get? h p = Dict.get? hd p := by
  unfold dpopHeader at hr
  obtain ⟨ko, c1, h1, h2⟩ := Py.bind_eq_ok.1 hr
  cases ko with
  | none =>
    simp only [Py.pure_run, Prod.mk.injEq, Except.ok.injEq] at h2
    rw [h2.1]
  | some ka =>
    obtain ⟨_, c2, _, h3⟩ := Py.bind_eq_ok.1 h2
    obtain ⟨htu, c3, _, h4⟩ := Py.bind_eq_ok.1 h3
    obtain ⟨j, c4, _, h5⟩ := Py.bind_eq_ok.1 h4
    simp only [Py.pure_run, Prod.mk.injEq, Except.ok.injEq] at h5
    rw [← h5.1, Dict.get?_set_ne _ _ (fun e => hp e.symm)]

theorem dpopHeader_ctx {x : Ext} {srv : Srv} {m : String} {hd h : Dict String} {c c' : Client}
    (hr : dpopHeader x srv m hd c = (.ok h, c')) : c'.ctx = c.ctx := by
  have := (DpopRel.dpop (R := OnlyDpop) x srv m hd) c
  rw [hr] at this
  obtain ⟨d, rfl⟩ := this
  rfl

/-- The userinfo request that is made of arguments `args`. -/
theorem userinfo_construct {x : Ext} {c c' : Client} {args req : Obj} {k : String}
    (h : construct x .userinfo args [("state", .str k)] c = (.ok req, c')) :
    c' = c ∧ ∃ a g, (if Dict.has args "access_token" then Except.ok args
        else multipleExtendRequestArgs c.db args k ["access_token"] RESPONSES) = .ok a ∧
      gatherRequestArgs x c .userinfo (stateFromKwargs (x.msg .userinfo) a [("state", .str k)]) = .ok g ∧
      req = (x.msg .userinfo).make g := by
  obtain ⟨r, c1, g, h1, h2, h3⟩ := construct_ok h
  have hkw : Dict.get? (methodArgs (confOf c .userinfo) "pre_construct" [("state", Val.str k)]) "state" = some (.str k) :=
    methodArgs_given _ _ (by simp [Dict.keys]) rfl
  simp only [preConstruct] at h1
  obtain ⟨a, c2, h4, h5⟩ := Py.bind_eq_ok.1 h1
  simp only [ask, Prod.mk.injEq] at h4
  obtain ⟨h4, rfl⟩ := h4
  simp only [Py.pure_run, Prod.mk.injEq, Except.ok.injEq] at h5
  obtain ⟨rfl, rfl⟩ := h5
  unfold postConstruct at h3
  rw [Py.read_bind_run] at h3
  simp only [Py.pure_run, Prod.mk.injEq, Except.ok.injEq] at h3
  obtain ⟨rfl, rfl⟩ := h3
  refine ⟨rfl, a, g, ?_, h2, rfl⟩
  unfold userinfoPre at h4
  cases ht : userinfoToken args (methodArgs (confOf c .userinfo) "pre_construct" [("state", Val.str k)]) c with
  | error e => rw [ht] at h4; cases h4
  | ok a' =>
    rw [ht] at h4
    simp only [getStateParameter_kwargs hkw, Except.ok.injEq] at h4
    subst h4
    unfold userinfoToken at ht
    split at ht
    · next hh => rw [if_pos hh]; exact ht
    · next hh =>
      rw [if_neg hh]
      simpa [stateArg, Dict.getItem, hkw, dbKey] using ht

theorem stateFromKwargs_get {t : MsgType} {args kwargs : Obj} {p : String} (hp : p ≠ "state") :
    Dict.get? (stateFromKwargs t args kwargs) p = Dict.get? args p := by
  unfold stateFromKwargs
  split
  · split
    · exact Dict.get?_set_ne _ _ (fun e => hp e.symm)
    · rfl
  · rfl

theorem stateFromKwargs_nodup {t : MsgType} {args kwargs : Obj} (h : (Dict.keys args).Nodup) :
    (Dict.keys (stateFromKwargs t args kwargs)).Nodup := by
  unfold stateFromKwargs
  split
  · split
    · exact Dict.nodup_set h _ _
    · exact h
  · exact h

theorem bearerHeader_request {env : ClientAuth.Env} {kw : Obj} {req req' : Obj} {hd : Dict String} {t : String}
    (hs : env.serviceName = "userinfo") (h : ClientAuth.bearerHeader env kw [] req = .ok (hd, req'))
    (hreq : Dict.get? req "access_token" = some (.str t)) : Dict.get? hd "Authorization" = some ("Bearer " ++ t) := by
  unfold ClientAuth.bearerHeader at h
  simp only at h
  rw [if_neg (by rw [hs]; decide)] at h
  unfold ClientAuth.findToken at h
  rw [hreq] at h
  simp only at h
  split at h
  · injection h with h
    injection h with h _
    rw [← h, Dict.get?_set_self]; rfl
  · cases h

/-- A userinfo request whose message has the access token `t` is sent with it. -/
theorem userinfo_sends {x : Ext} (hm : UserinfoMessage x) {c : Client} (hh : HeaderToken c) {args : Obj} {k t : String}
    (hargs : (Dict.keys args).Nodup) (ht : t ≠ "")
    (ha : ∀ a, (if Dict.has args "access_token" then Except.ok args
        else multipleExtendRequestArgs c.db args k ["access_token"] RESPONSES) = .ok a →
      Dict.get? a "access_token" = some (.str t)) :
    (doRequest x .userinfo args {} [("state", .str k)] c).2.log = c.log ∨
    ∃ s, (doRequest x .userinfo args {} [("state", .str k)] c).2.log = c.log ++ [s] ∧ AsksWith c x t s := by
  rcases doRequest_log (x := x) (srv := .userinfo) (args := args) (o := {})
    (kwargs := [("state", .str k)]) (frame_request_reading (Or.inr (Or.inr (Or.inl rfl))) _ _ _) c with hlog | ⟨info, c1, hg, hlog⟩
  · exact Or.inl hlog
  right
  refine ⟨_, hlog, rfl, ?_⟩
  change buildRequest x .userinfo args _ _ c = _ at hg
  obtain ⟨am, req0, c2, hd, req', g1, g2, g3, g4⟩ := buildRequest_ok hg
  obtain ⟨m, hd0, g5, g6, g7⟩ := getHeaders_ok g3
  obtain ⟨rfl, a, g, e1, e2, rfl⟩ := userinfo_construct g2
  have hga : getAuthnMethod c2 .userinfo = .ok "bearer_header" := by
    unfold getAuthnMethod
    simp only [reduceCtorEq, or_self, if_false]
    rw [hh]
  simp only [if_true] at g1
  rw [hga] at g1
  injection g1 with g1; subst g1
  simp only [show ("bearer_header" = "") = False from by decide, if_false, Except.ok.injEq] at g5
  subst g5
  have hna : (Dict.keys a).Nodup := by
    split at e1
    · injection e1 with e1; rw [← e1]; exact hargs
    · exact (multi_get e1).2.1 hargs
  have hreq : Dict.get? ((x.msg .userinfo).make g) "access_token" = some (.str t) := by
    rw [MsgType.get?_make _ (nodup_gather e2 (stateFromKwargs_nodup hna)),
      gather_given e2 (by rw [stateFromKwargs_get (by decide)]; exact ha a e1)]
    simp [Msg.emptyVal, ht, MsgType.coerce_plain _ _ _ hm.1]
  have hb : ClientAuth.bearerHeader (authEnv x c2 .userinfo) _ [] ((x.msg .userinfo).make g) = .ok (hd0, req') := g6
  have hauth := bearerHeader_request rfl hb hreq
  have hhd : Dict.get? hd "Authorization" = some ("Bearer " ++ t) ∧ c1.ctx = c2.ctx := by
    rcases g7 with ⟨_, rfl, rfl⟩ | ⟨_, g7⟩
    · exact ⟨hauth, rfl⟩
    · exact ⟨by rw [dpopHeader_keeps g7 (by decide)]; exact hauth, dpopHeader_ctx g7⟩
  constructor
  · obtain ⟨_, _, _, _, _, g8⟩ := assemble_ok g4
    rcases g8 with ⟨_, b, _, _, g9⟩ | ⟨_, _, g9⟩
    · simp only [sentFor, g9]
      rw [Dict.get?_set_ne _ _ (by decide)]; exact hhd.1
    · simp only [sentFor, g9]; exact hhd.1
  · obtain ⟨url, k1, k2, k3, k4⟩ := carries_assembled g4
    refine ⟨url, req', ?_, k4⟩
    simp only [targetOf, Dict.get?, endpointOf] at k1
    simp at k1
    rw [hhd.2] at k1
    cases he : Discovery.serviceEndpoint c2.ctx .userinfo with
    | error e => rw [he] at k1; cases k1
    | ok v =>
      rw [he] at k1
      cases v <;> simp [asStr] at k1
      rw [k1]

/-- **C26**, what holds (a): the access token the caller gives is the one that is sent.  Missing: the call
without a token, see `C26_without_token_violated`. -/
theorem C26_given_token_partial (x : Ext) (hm : UserinfoMessage x) (k t : String) (ht : t ≠ "") (c : Client)
    (hh : HeaderToken c) :
    (getUserInfo x k (.str t) c).2.log = c.log ∨
    ∃ s, (getUserInfo x k (.str t) c).2.log = c.log ++ [s] ∧ AsksWith c x t s := by
  unfold getUserInfo
  cases hl : lookedUp k (.str t) c with
  | error e => rw [ask_bind_error hl]; exact Or.inl rfl
  | ok u =>
  rw [ask_bind_ok hl, refused_snd]
  refine userinfo_sends hm hh (by simp [Dict.keys]) ht ?_
  intro a ha
  rw [if_pos (by rfl)] at ha
  injection ha with ha; subst ha
  rfl

/-- **C26**, what holds (b): the userinfo service of the client, asked without an access token, sends the
latest access token stored for the session. -/
theorem C26_service_uses_latest_partial (x : Ext) (hm : UserinfoMessage x) (k t : String) (ht : t ≠ "") (c : Client)
    (hh : HeaderToken c) (i : String)
    (hl : Latest c.db k "access_token" ["auth_response", "token_response", "refresh_token_response"] i (.str t))
    (hv : ∀ i ∈ ["auth_response", "token_response", "refresh_token_response"], ∀ r, getItem c.db i k = .ok r →
      Dict.get? r "__verified_access_token" = none) :
    (doRequest x .userinfo [] {} [("state", .str k)] c).2.log = c.log ∨
    ∃ s, (doRequest x .userinfo [] {} [("state", .str k)] c).2.log = c.log ++ [s] ∧ AsksWith c x t s := by
  refine userinfo_sends hm hh (by simp [Dict.keys]) ht ?_
  intro a ha
  rw [if_neg (by decide)] at ha
  exact (multi_get ha).2.2.2 (fun _ => hv) i _ hl

/-- **C26** is violated, for every client, store and session: `get_user_info(state)` without access token
raises and sends nothing, whatever token is stored for the session. -/
theorem C26_without_token_violated (x : Ext) (hm : UserinfoMessage x) (k : String) (c : Client) (hh : HeaderToken c) :
    (∃ e, (getUserInfo x k (.str "") c).1 = .error e) ∧ (getUserInfo x k (.str "") c).2.log = c.log := by
  unfold getUserInfo
  cases hl : lookedUp k (.str "") c with
  | error e => rw [ask_bind_error hl]; exact ⟨⟨e, rfl⟩, rfl⟩
  | ok u =>
  rw [ask_bind_ok hl, refused_snd]
  have hno : ∀ info c1, getRequestParameters x .userinfo [("access_token", .str "")] {} [("state", .str k)] c ≠ (.ok info, c1) := by
    intro info c1 hg
    change buildRequest x .userinfo _ _ _ c = _ at hg
    obtain ⟨am, req0, c2, hd, req', g1, g2, g3, g4⟩ := buildRequest_ok hg
    obtain ⟨m, hd0, g5, g6, g7⟩ := getHeaders_ok g3
    obtain ⟨rfl, a, g, e1, e2, rfl⟩ := userinfo_construct g2
    have hga : getAuthnMethod c2 .userinfo = .ok "bearer_header" := by
      unfold getAuthnMethod
      simp only [reduceCtorEq, or_self, if_false]
      rw [hh]
    simp only [if_true] at g1
    rw [hga] at g1
    injection g1 with g1; subst g1
    simp only [show ("bearer_header" = "") = False from by decide, if_false, Except.ok.injEq] at g5
    subst g5
    rw [if_pos (by rfl)] at e1
    injection e1 with e1; subst e1
    have hreq : Dict.get? ((x.msg .userinfo).make g) "access_token" = none := by
      rw [MsgType.get?_make _ (nodup_gather e2 (stateFromKwargs_nodup (by simp [Dict.keys]))),
        gather_given e2 (v := .str "") (by rw [stateFromKwargs_get (by decide)]; rfl)]
      simp [Msg.emptyVal, hm.2]
    have hb : ClientAuth.bearerHeader (authEnv x c2 .userinfo)
      (Dict.set (withIss c2 [("state", .str k)]) "authn_endpoint" (.str Srv.userinfo.endpointName)) []
      ((x.msg .userinfo).make g) = .ok (hd0, req') := g6
    have hkw : ∀ p, p ≠ "state" → p ≠ "iss" → p ≠ "authn_endpoint" →
        Dict.get? (Dict.set (withIss c2 [("state", .str k)]) "authn_endpoint" (.str Srv.userinfo.endpointName)) p = none := by
      intro p p1 p2 p3
      rw [Dict.get?_set_ne _ _ (fun e => p3 e.symm)]
      unfold withIss
      split
      · simp [Dict.get?_cons]
        exact fun e => p1 e.symm
      · rw [Dict.get?_set_ne _ _ (fun e => p2 e.symm)]
        simp [Dict.get?_cons]
        exact fun e => p1 e.symm
    unfold ClientAuth.bearerHeader at hb
    simp only at hb
    rw [if_neg (by simp [authEnv, Srv.name])] at hb
    unfold ClientAuth.findToken ClientAuth.storedToken at hb
    rw [hreq, hkw "access_token" (by decide) (by decide) (by decide),
      hkw "key" (by decide) (by decide) (by decide)] at hb
    cases hb
  have hframe : Frame NoSend (getRequestParameters x .userinfo [("access_token", .str "")] {} [("state", .str k)]) :=
    frame_request_reading (Or.inr (Or.inr (Or.inl rfl))) _ _ _
  have hdo : (∃ e, (doRequest x .userinfo [("access_token", .str "")] {} [("state", .str k)] c).1 = .error e) ∧
      (doRequest x .userinfo [("access_token", .str "")] {} [("state", .str k)] c).2.log = c.log := by
    unfold doRequest
    rw [Py.read_bind_run]
    split
    · exact ⟨⟨_, rfl⟩, rfl⟩
    · rw [Py.bind_run]
      have h0 := hframe c
      rcases hq : getRequestParameters x .userinfo [("access_token", .str "")] {} [("state", .str k)] c with ⟨r, c1⟩
      rw [hq] at h0
      cases r with
      | error e => exact ⟨⟨e, rfl⟩, h0⟩
      | ok info => exact absurd hq (hno info c1)
  refine ⟨?_, hdo.2⟩
  obtain ⟨e, he⟩ := hdo.1
  exact ⟨e, by rw [Py.bind_error (Prod.ext he rfl)]⟩

/-- Non-vacuity of C26: after `finalize` the session has the access token `AT1`, `finalize` asked with it,
a second call with it asks again, and the call without token raises `KeyError`. -/
example :
    UserinfoMessage (World.ext 0 "" "" "") ∧
    atProvider finalized (fun c => decide (attr c .userinfo "default_authn_method" (defaultAuthn .userinfo) = "bearer_header"))
      = some true ∧
    atProvider finalized (fun c => storedIn c.db World.s1 "token_response" "access_token") = some (some (.str "AT1")) ∧
    atProvider finalized (fun c => ((getUserInfo (World.ext 1002 "" "" "") World.s1 (.str "AT1") c).2.log.drop 4).map
      (fun s => (s.url, s.headers))) = some [("https://op.example/userinfo", [("Authorization", "Bearer AT1")])] ∧
    atProvider finalized (fun c => ((doRequest (World.ext 1002 "" "" "") .userinfo [] {} [("state", .str World.s1)] c).2.log.drop 4).map
      (fun s => (s.url, s.headers))) = some [("https://op.example/userinfo", [("Authorization", "Bearer AT1")])] ∧
    atProvider finalized (fun c => (getUserInfo (World.ext 1002 "" "" "") World.s1 (.str "") c).1.isOk) = some false := by
  refine ⟨⟨by decide, by decide⟩, by rfl, by rfl, by rfl, by rfl, by rfl⟩

/-! ## C28 -/

/-- The URI to return to after logout when the caller does not choose one: the first one registered, or
else the first one of the client's own callbacks. -/
def RegisteredLogoutUri (c : Client) (u : Val) : Prop :=
  (∃ us, Dict.get? c.ctx.registerArgs "post_logout_redirect_uris" = some (.list (u :: us))) ∨
  (Dict.get? c.ctx.registerArgs "post_logout_redirect_uris" = none ∧
    ∃ us, Dict.get? c.ctx.callback "post_logout_redirect_uris" = some (.list (u :: us)))

/-- The end-session request message has these parameters, as single values (oidcmsg). -/
def LogoutMessage (x : Ext) : Prop :=
  ∀ p ∈ ["id_token_hint", "post_logout_redirect_uri", "state"],
    p ∉ (x.msg .endSession).spaced ∧ Dict.get? (x.msg .endSession).defaults p = none

theorem addState_ok {x : Ext} {args kwargs a : Obj} {c c' : Client} {k : String} (hk : stateArg kwargs = .ok k)
    (h : addState x args kwargs c = (.ok a, c')) (hn : Dict.get? args "state" = none) :
    a = Dict.set args "state" (.str (x.rnd "logout_state")) ∧
      c' = { c with db := (storeX2State (x.rnd "logout_state") k .logoutState c.db).2 } := by
  unfold addState at h
  rw [show (if Dict.has args "state" = true then args else Dict.set args "state" (Val.str (x.rnd "logout_state")))
    = Dict.set args "state" (Val.str (x.rnd "logout_state")) from by simp [Dict.has_eq, hn]] at h
  obtain ⟨v, c1, h1, h2⟩ := Py.bind_eq_ok.1 h
  obtain ⟨h1', rfl⟩ := Py.lift_eq_ok.1 h1
  obtain ⟨s, c2, h3, h4⟩ := Py.bind_eq_ok.1 h2
  obtain ⟨h3', rfl⟩ := Py.lift_eq_ok.1 h3
  obtain ⟨k', c3, h5, h6⟩ := Py.bind_eq_ok.1 h4
  obtain ⟨h5', rfl⟩ := Py.lift_eq_ok.1 h5
  obtain ⟨u, c4, h7, h8⟩ := Py.bind_eq_ok.1 h6
  rw [hk] at h5'
  obtain rfl : k = k' := by simpa using h5'
  rw [Dict.getItem_eq_ok, Dict.get?_set_self] at h1'
  obtain rfl : Val.str (x.rnd "logout_state") = v := by simpa using h1'
  obtain rfl : x.rnd "logout_state" = s := by simpa [asStr] using h3'
  have h7' := congrArg Prod.snd h7
  simp only [Py.pure_run, Prod.mk.injEq, Except.ok.injEq] at h8
  exact ⟨h8.1.symm, by rw [← h8.2]; exact h7'.symm⟩

theorem postLogoutUri_other {args a : Obj} {c : Client} (h : postLogoutUri args c = .ok a) {p : String}
    (hp : p ≠ "post_logout_redirect_uri") : Dict.get? a p = Dict.get? args p := by
  unfold postLogoutUri at h
  split at h
  · injection h with h; rw [h]
  · split at h
    · next u _ =>
      cases ho : oneUri u with
      | error e => rw [ho] at h; cases h
      | ok v =>
        rw [ho] at h; injection h with h
        rw [← h, Dict.get?_set_ne _ _ (fun e => hp e.symm)]
    · injection h with h; rw [h]

theorem postLogoutUri_given {args a : Obj} {c : Client} (h : postLogoutUri args c = .ok a) {v : Val}
    (hv : Dict.get? args "post_logout_redirect_uri" = some v) : a = args := by
  unfold postLogoutUri at h
  rw [if_pos (by simp [Dict.has_eq, hv])] at h
  injection h with h; exact h.symm

theorem postLogoutUri_registered {args a : Obj} {c : Client} (h : postLogoutUri args c = .ok a)
    (hv : Dict.get? args "post_logout_redirect_uri" = none) {u : Val} (hu : RegisteredLogoutUri c u) :
    Dict.get? a "post_logout_redirect_uri" = some u := by
  unfold postLogoutUri at h
  rw [if_neg (by simp [Dict.has_eq, hv])] at h
  have hf : ∃ us, Registration.firstTruthy [Dict.get? c.ctx.registerArgs "post_logout_redirect_uris",
      Dict.get? c.ctx.callback "post_logout_redirect_uris"] = some (.list (u :: us)) := by
    rcases hu with ⟨us, e⟩ | ⟨e1, us, e2⟩
    · exact ⟨us, by rw [e, Registration.firstTruthy_cons, Registration.truthyO_some]; simp [Val.truthy]⟩
    · exact ⟨us, by
        rw [e1, e2, Registration.firstTruthy_cons, Registration.firstTruthy_cons, Registration.truthyO_some]
        simp [Val.truthy, Util.truthyO]⟩
  obtain ⟨us, hf⟩ := hf
  rw [hf] at h
  simp only [oneUri] at h
  injection h with h
  rw [← h, Dict.get?_set_self]

theorem postLogoutUri_nodup {args a : Obj} {c : Client} (h : postLogoutUri args c = .ok a)
    (hn : (Dict.keys args).Nodup) : (Dict.keys a).Nodup := by
  unfold postLogoutUri at h
  split at h
  · injection h with h; rw [← h]; exact hn
  · split at h
    · next u _ =>
      cases ho : oneUri u with
      | error e => rw [ho] at h; cases h
      | ok v =>
        rw [ho] at h; injection h with h
        rw [← h]; exact Dict.nodup_set hn _ _
    · injection h with h; rw [← h]; exact hn

/-- The raw ID Token of the latest response that has one ends up as `id_token_hint`. -/
theorem idTokenHint_ok {args kwargs a : Obj} {c : Client} {k : String} (hk : stateArg kwargs = .ok k)
    (h : idTokenHint args kwargs c = .ok a) (hn : Dict.get? args "id_token" = none)
    (hnd : (Dict.keys args).Nodup) :
    (∀ i v, Latest c.db k "id_token" RESPONSES i v → Dict.get? a "id_token_hint" = some v) ∧
    ((∀ i ∈ RESPONSES, ∀ r, getItem c.db i k = .ok r → Dict.get? r "id_token" = none) →
      Dict.get? a "id_token_hint" = Dict.get? args "id_token_hint") ∧
    (∀ p, p ≠ "id_token" → p ≠ "id_token_hint" → Dict.get? a p = Dict.get? args p) ∧ (Dict.keys a).Nodup := by
  unfold idTokenHint at h
  rw [hk] at h
  simp only at h
  cases hm : multipleExtendRequestArgs c.db args k ["id_token"] RESPONSES true with
  | error e => rw [hm] at h; cases h
  | ok b =>
    rw [hm] at h
    simp only at h
    obtain ⟨m1, m2, m3, m4⟩ := multi_get hm
    cases hb : Dict.get? b "id_token" with
    | some t =>
      rw [hb] at h
      injection h with h; subst h
      refine ⟨?_, ?_, ?_, Dict.nodup_del (Dict.nodup_set (m2 hnd) _ _) _⟩
      · intro i v hl
        rw [Dict.get?_del_ne _ (by decide), Dict.get?_set_self]
        rw [m4 (by simp) i v hl] at hb
        exact hb.symm
      · intro hall
        rw [m3 (fun i hi r hr => ⟨hall i hi r hr, by simp⟩), hn] at hb
        cases hb
      · intro p p1 p2
        rw [Dict.get?_del_ne _ (fun e => p1 e.symm), Dict.get?_set_ne _ _ (fun e => p2 e.symm), m1 p p1]
    | none =>
      rw [hb] at h
      injection h with h; subst h
      refine ⟨?_, ?_, fun p p1 _ => m1 p p1, m2 hnd⟩
      · intro i v hl
        rw [m4 (by simp) i v hl] at hb
        cases hb
      · intro _; exact m1 _ (by decide)

/-- **C28**.  A logout request of session `k` that is built: it goes to the end-session endpoint; it has as
`id_token_hint` the latest ID Token received for this very session (as it was received), the URI the caller
chose or else the registered one, and a `state` that resolves to this session from then on.  Nothing else
changes in any session, nothing is sent by the client. -/
theorem C28_logout {K : String → Prop} (hK : Spec.Store.KeySpace K) (x : Ext) (hm : LogoutMessage x) (k : String)
    (hk : K k) (hk0 : k ≠ "") (uri : String) (c c' : Client) (info : ReqInfo) (hs0 : x.rnd "logout_state" ≠ "")
    (h : logout x k uri c = (.ok info, c')) :
    (∃ url, Discovery.serviceEndpoint c.ctx .endSession = .ok (.str url) ∧
      Carries x { srv := .endSession, url := info.url, method := info.method, headers := info.headers, body := info.body }
        url info.request) ∧
    (∀ i t, Latest c.db k "id_token" ["auth_response", "token_response", "refresh_token_response"] i (.str t) →
      t ≠ "" → Dict.get? info.request "id_token_hint" = some (.str t)) ∧
    (uri ≠ "" → Dict.get? info.request "post_logout_redirect_uri" = some (.str uri)) ∧
    (uri = "" → ∀ u, u ≠ "" → RegisteredLogoutUri c (.str u) →
      Dict.get? info.request "post_logout_redirect_uri" = some (.str u)) ∧
    (∃ s, Dict.get? info.request "state" = some (.str s) ∧ getStateByX c'.db s .logoutState = .ok (.raw k)) ∧
    (∀ k', K k' → getState c'.db k' = getState c.db k') ∧
    (∀ y v, y ≠ .logoutState → getStateByX c'.db v y = getStateByX c.db v y) ∧
    c'.log = c.log ∧ c'.ctx = c.ctx := by
  unfold logout at h
  rw [Py.read_bind_run] at h
  split at h
  · cases h
  change buildRequest x .endSession _ _ _ c = _ at h
  generalize ha : (if uri = "" then ([] : Obj) else [("post_logout_redirect_uri", .str uri)]) = args at h
  have hand : (Dict.keys args).Nodup := by rw [← ha]; split <;> simp [Dict.keys]
  have hanone : ∀ p, p ≠ "post_logout_redirect_uri" → Dict.get? args p = none := by
    intro p hp
    rw [← ha]; split
    · rfl
    · simp [Dict.get?_cons]; exact fun e => hp e.symm
  obtain ⟨am, req0, c2, hd, req', g1, g2, g3, g4⟩ := buildRequest_ok h
  obtain ⟨m, hd0, g5, g6, g7⟩ := getHeaders_ok g3
  have hdp : usesDpop c2.ctx .endSession = false := by simp [usesDpop, Srv.name]
  obtain ⟨rfl, rfl⟩ : hd = hd0 ∧ c' = c2 := by
    rcases g7 with ⟨-, e, e'⟩ | ⟨g7, -⟩
    · exact ⟨e, e'⟩
    · rw [hdp] at g7; cases g7
  obtain ⟨r, c1, g, e1, e2, e3⟩ := construct_ok g2
  have hkw : Dict.get? (methodArgs (confOf c .endSession) "pre_construct" [("state", Val.str k)]) "state" = some (.str k) :=
    methodArgs_given _ _ (by simp [Dict.keys]) rfl
  have hka : stateArg (methodArgs (confOf c .endSession) "pre_construct" [("state", Val.str k)]) = .ok k := by
    simp [stateArg, Dict.getItem, hkw, dbKey]
  simp only [preConstruct] at e1
  obtain ⟨a1, c3, f1, f2⟩ := Py.bind_eq_ok.1 e1
  simp only [ask, Prod.mk.injEq] at f1
  obtain ⟨f1, rfl⟩ := f1
  obtain ⟨a2, c4, f3, f4⟩ := Py.bind_eq_ok.1 f2
  simp only [ask, Prod.mk.injEq] at f3
  obtain ⟨f3, rfl⟩ := f3
  obtain ⟨a3, c5, f5, f6⟩ := Py.bind_eq_ok.1 f4
  simp only [Py.pure_run, Prod.mk.injEq, Except.ok.injEq] at f6
  obtain ⟨rfl, rfl⟩ := f6
  obtain ⟨i1, i2, i3, i4⟩ := idTokenHint_ok hka f1 (hanone _ (by decide)) hand
  have hst2 : Dict.get? a2 "state" = none := by
    rw [postLogoutUri_other f3 (by decide), i3 _ (by decide) (by decide)]; exact hanone _ (by decide)
  obtain ⟨rfl, rfl⟩ := addState_ok hka f5 hst2
  unfold postConstruct at e3
  rw [Py.read_bind_run] at e3
  simp only [Py.pure_run, Prod.mk.injEq, Except.ok.injEq] at e3
  obtain ⟨rfl, rfl⟩ := e3
  have hn3 : (Dict.keys (stateFromKwargs (x.msg .endSession) (Dict.set a2 "state" (.str (x.rnd "logout_state")))
      [("state", .str k)])).Nodup :=
    stateFromKwargs_nodup (Dict.nodup_set (postLogoutUri_nodup f3 i4) _ _)
  obtain ⟨url, k1, k2, k3, k4⟩ := carries_assembled g4
  -- a value in the arguments arrives
  have hget : ∀ p ∈ ["id_token_hint", "post_logout_redirect_uri", "state"], ∀ v, v ≠ "" →
      Dict.get? (stateFromKwargs (x.msg .endSession) (Dict.set a2 "state" (.str (x.rnd "logout_state")))
        [("state", .str k)]) p = some (.str v) → Dict.get? info.request p = some (.str v) := by
    intro p hp v hv hg
    rw [k3, authnHeader_keeps g6 (by
        intro hc
        simp only [List.mem_cons, List.not_mem_nil, or_false] at hp hc
        rcases hp with rfl | rfl | rfl <;> revert hc <;> decide),
      MsgType.get?_make _ (nodup_gather e2 hn3), gather_given e2 hg]
    simp [Msg.emptyVal, hv, MsgType.coerce_plain _ _ _ (hm p hp).1]
  have hother : ∀ p, p ≠ "state" → Dict.get? (stateFromKwargs (x.msg .endSession)
      (Dict.set a2 "state" (.str (x.rnd "logout_state"))) [("state", .str k)]) p = Dict.get? a2 p := by
    intro p hp
    rw [stateFromKwargs_get hp, Dict.get?_set_ne _ _ (fun e => hp e.symm)]
  refine ⟨⟨url, ?_, by rw [k3]; exact k4⟩, ?_, ?_, ?_, ?_, ?_, ?_, rfl, rfl⟩
  · simp only [targetOf, Dict.get?, endpointOf] at k1
    simp at k1
    cases he : Discovery.serviceEndpoint c.ctx .endSession with
    | error e => rw [he] at k1; cases k1
    | ok v =>
      rw [he] at k1
      cases v <;> simp [asStr] at k1
      rw [k1]
  · intro i t hl ht
    refine hget _ (by simp) t ht ?_
    rw [hother _ (by decide), postLogoutUri_other f3 (by decide)]
    exact i1 i _ hl
  · intro hu
    refine hget _ (by simp) uri hu ?_
    have h1 : Dict.get? a1 "post_logout_redirect_uri" = some (.str uri) := by
      rw [i3 _ (by decide) (by decide), ← ha, if_neg hu]; rfl
    rw [hother _ (by decide), postLogoutUri_given f3 h1]
    exact h1
  · intro hu u hune hreg
    refine hget _ (by simp) u hune ?_
    have h1 : Dict.get? a1 "post_logout_redirect_uri" = none := by
      rw [i3 _ (by decide) (by decide), ← ha, if_pos hu]; rfl
    rw [hother _ (by decide)]
    exact postLogoutUri_registered f3 h1 hreg
  · refine ⟨x.rnd "logout_state", hget _ (by simp) _ hs0 ?_, C04_bound_resolves _ _ _ _ hk0⟩
    unfold stateFromKwargs
    rw [if_neg (by simp [Dict.has_eq, Dict.get?_set_self]), Dict.get?_set_self]
  · intro k' hk'; exact (C01_bind_isolated hK .logoutState _ k hk c.db k' hk').1
  · intro y v hy; exact C04_indexes_independent _ _ _ _ _ _ (fun e => hy e.1.symm)

/-- Non-vacuity of C28: the session of the World after `finalize`, with a chosen and without a URI. -/
example :
    LogoutMessage (World.ext 0 "" "" "") ∧ Spec.History.Generated World.s1 ∧
    atProvider finalized (fun c => storedIn c.db World.s1 "token_response" "id_token" |>.isSome) = some true ∧
    atProvider finalized (fun c => match getItem c.db "token_response" World.s1 with
      | .ok r => Dict.get? r "id_token" | .error _ => none) = some (some (.str "header.payload.signature")) ∧
    atProvider finalized (fun c => (logout (World.ext 1003 "z" "" "") World.s1 "https://rp.example/bye" c).1.toOption.map (fun r => r.request))
      = some (some [("post_logout_redirect_uri", .str "https://rp.example/bye"), ("id_token_hint", .str "header.payload.signature"),
        ("state", .str "logout_state-z")]) ∧
    atProvider finalized (fun c => getStateByX (logout (World.ext 1003 "z" "" "") World.s1 "" c).2.db "logout_state-z" .logoutState
      |>.toOption) = some (some (.raw World.s1)) := by
  refine ⟨by unfold LogoutMessage; decide, by unfold Spec.History.Generated; decide, by rfl, by rfl, by rfl, by rfl⟩

end Verif.Props
