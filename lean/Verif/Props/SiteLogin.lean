import Verif.Props.WebApp
import Verif.Props.Retry
/-!
# C110: a login at the example web application succeeds, whatever others do there (example/flask_rp/views.py)
-/

namespace Verif.Props
open Verif Verif.Service Verif.Handler Verif.StateInterface Verif.Spec.Session Verif.Spec.HandlerView
open Verif.Spec.Store Verif.Spec.InFlight Verif.WebApp

/-! ## Specification -/

/-- The callback address `uri` is one of the client kept as `i`, and of no other client. -/
structure OwnAddress (h : Handler) (i uri : String) : Prop where
  own : ∃ c, Dict.get? h.issuer2rp i = some c ∧ (uri ∈ c.ctx.redirectUris ∨ uri ∈ c.ctx.postLogoutRedirectUris)
  noOther : ∀ j c, (j, c) ∈ h.issuer2rp → (uri ∈ c.ctx.redirectUris ∨ uri ∈ c.ctx.postLogoutRedirectUris) → j = i
  /-- the short names given to issuers are no issuers -/
  name : Dict.get? h.hash2issuer i = none ∨ Dict.get? h.hash2issuer i = some i

/-! ## Steps -/

theorem opByUri_own {i uri : String} : ∀ {l : Dict Client} {c : Client}, Dict.get? l i = some c →
    (uri ∈ c.ctx.redirectUris ∨ uri ∈ c.ctx.postLogoutRedirectUris) →
    (∀ j c, (j, c) ∈ l → (uri ∈ c.ctx.redirectUris ∨ uri ∈ c.ctx.postLogoutRedirectUris) → j = i) → opByUri uri l = some i
  | [], c, h, _, _ => by cases h
  | (j, d) :: l, c, h, hu, ho => by
    unfold opByUri
    by_cases e : uri ∈ d.ctx.redirectUris ∨ uri ∈ d.ctx.postLogoutRedirectUris
    · rw [if_pos e, ho j d List.mem_cons_self e]
    · rw [if_neg e]
      rw [Dict.get?_cons] at h
      by_cases ej : j = i
      · rw [if_pos ej] at h
        injection h with h
        subst h
        exact absurd hu e
      · rw [if_neg ej] at h
        exact opByUri_own h hu fun j c hm => ho j c (List.mem_cons_of_mem _ hm)

theorem getRp_own {h : Handler} {i uri : String} (ha : OwnAddress h i uri) : getRp h (opByUri uri h.issuer2rp) = .ok i := by
  obtain ⟨c, hc, hu⟩ := ha.own
  rw [opByUri_own hc hu ha.noOther]
  have hh : Dict.has h.issuer2rp i = true := by rw [Dict.has_eq, hc]; rfl
  unfold getRp
  dsimp only
  rcases ha.name with hn | hn
  · rw [hn]; simp [hh]
  · rw [hn]; simp [hh]

/-- After `finalize` the client is there with the set-up it had, but for the shared `behaviour`. -/
theorem finalize_client {x : Ext} {i : String} {response b : Obj} {h : Handler} {c : Client} (hc : Dict.get? h.issuer2rp i = some c) :
    ∃ c', Dict.get? (finalize x i response b h).2.issuer2rp i = some c' ∧ c'.ctx = { c.ctx with behaviour := c'.ctx.behaviour } := by
  unfold finalize onClient
  rw [hc]
  dsimp only
  have hctx := finalizeClient_ctx x i response b c
  generalize (finalizeClient x i response b c).2 = d at hctx
  unfold share
  split
  · exact ⟨d, Dict.get?_set_self _ _ _, by rw [hctx]⟩
  · split
    · refine ⟨sharedClient d.cfg d.ctx.behaviour d, ?_, ?_⟩
      · dsimp only
        rw [Dict.get?_map, Dict.get?_set_self]
        rfl
      · unfold sharedClient
        rw [if_pos rfl, hctx]
    · exact ⟨d, Dict.get?_set_self _ _ _, by rw [hctx]⟩

theorem finalizeView_done {x : Ext} {op : Option String} {args : Obj} {a : App} {i k : String} {c : Client} {ui st tok idt ss : Val}
    {chk : Option (Val × Val)} (hg : getRp a.rph op = .ok i) (hc : Dict.get? a.rph.issuer2rp i = some c)
    (hs : Dict.get? args "state" = some (.str k)) (hk : k ≠ "") (hi : getIss c.db k = .ok (.str i))
    (hf : (finalize x i args [] a.rph).1 = .ok (.done ui st tok idt ss)) (hchk : statusCheck c.ctx = .ok chk) :
    (finalizeView x op args a).1 = .ok (.result ui tok idt (endpoints c.ctx.providerInfo) chk (c.ctx.baseUrl ++ "/logout")) ∧
    Dict.get? (finalizeView x op args a).2.session "state" = some (.str k) := by
  obtain ⟨c', hc', hctx⟩ := finalize_client (x := x) (response := args) (b := []) hc
  have hchk' : statusCheck c'.ctx = .ok chk := by rw [hctx]; exact hchk
  have e1 : c'.ctx.providerInfo = c.ctx.providerInfo := by rw [hctx]
  have e2 : c'.ctx.baseUrl = c.ctx.baseUrl := by rw [hctx]
  have hfin : finalize x i args [] a.rph = (.ok (.done ui st tok idt ss), (finalize x i args [] a.rph).2) := Prod.ext hf rfl
  generalize (finalize x i args [] a.rph).2 = h' at hfin hc'
  have hlogin : ∀ s : WebApp.Session, finishLogin x i i args { session := s, rph := a.rph } =
      (.ok (.result ui tok idt (endpoints c.ctx.providerInfo) chk (c.ctx.baseUrl ++ "/logout")), { session := s, rph := h' }) := by
    intro s
    unfold finishLogin
    dsimp only
    rw [hfin]
    dsimp only
    rw [hc']
    dsimp only
    unfold resultPage
    dsimp only
    rw [hchk']
    dsimp only
    rw [e1, e2]
  have hrun : ∃ s : WebApp.Session, Dict.get? s "state" = some (.str k) ∧
      finalizeView x op args a = finishLogin x i i args { session := s, rph := a.rph } := by
    unfold finalizeView
    rw [Py.read_bind_run, hg]
    dsimp only
    rw [hc, hs]
    dsimp only
    refine ⟨Dict.set (Dict.set (Dict.set a.session "client_id" (.str c.ctx.clientId)) "state" (.str k)) "session_state"
      ((Dict.get? args "session_state").getD (.str "")), ?_, ?_⟩
    rotate_left
    · show (if Util.truthyO (some (Val.str k)) then _ else _ : Py App Page) _ = _
      rw [if_pos (by simp [Util.truthyO, Val.truthy, hk])]
      rw [Py.bind_ok (x := Py.lift (dbKey ((some (Val.str k)).getD .null))) (a := k) rfl, hi,
        Py.bind_ok (x := Py.lift (.ok (Val.str i))) (a := .str i) rfl]
      rfl
    · simp [Dict.get?_set]
  obtain ⟨s, hs', hrun⟩ := hrun
  rw [hrun, hlogin]
  exact ⟨rfl, hs'⟩

/-- What the site asks of the library. -/
def SiteCall : Call → Prop
  | .begin .. => True
  | .finalize .. => True
  | .logout .. => True
  | .backchannel .. => True
  | _ => False

theorem callOf_kind {a : App} {r : Request} {c : Call} (h : callOf a r = some c) : SiteCall c := by
  have hf : ∀ {h : Handler} {op : Option String} {args : Obj} {c : Call}, finalizeCall h op args = some c → SiteCall c := by
    intro h op args c he
    unfold finalizeCall at he
    repeat' split at he
    all_goals first | cases he | skip
    all_goals trivial
  cases r with
  | rp form =>
    rw [show callOf a (.rp form) = (loginFor form).map (fun p => .begin p.1 p.2 REQ_ARGS []) from rfl] at h
    cases hl : loginFor form with
    | none => rw [hl] at h; cases h
    | some p => rw [hl] at h; cases h; trivial
  | authzCb url args => exact hf h
  | repostFragment f op =>
    cases f with
    | none => cases h
    | some l =>
      cases op with
      | none => cases h
      | some op => exact hf h
  | logout =>
    rw [show callOf a .logout = (match Dict.get? a.session "state" with
      | some (.str k) => some (.logout k "")
      | _ => none) from rfl] at h
    split at h <;> cases h
    trivial
  | bcLogout op form body =>
    rw [show callOf a (.bcLogout op form body) = (match getRp a.rph (some op) with
      | .ok key => some (.backchannel key (.text (requestData form body)))
      | .error _ => none) from rfl] at h
    split at h <;> cases h
    trivial
  | _ => cases h

theorem siteCalls_kind : ∀ (l : List (Ext × Nat × Request)) (s : Site), ∀ xc ∈ siteCalls l s, SiteCall xc.2
  | [], _, xc, h => by cases h
  | (x, b, r) :: l, s, xc, h => by
    change _ ∈ _ ++ siteCalls l _ at h
    rcases List.mem_append.1 h with h | h
    · obtain ⟨c, hc, rfl⟩ := List.mem_map.1 h
      exact callOf_kind (Option.mem_toList.1 hc)
    · exact siteCalls_kind l _ xc h

theorem siteCalls_ok {K : String → Prop} {k : String} (l : List (Ext × Nat × Request)) (s : Site)
    (hin : ∀ q ∈ l, ∀ k, siteDrawn q = some k → K k) (hk : ∀ q ∈ l, siteDrawn q ≠ some k) :
    ∀ xc ∈ siteCalls l s, CallOk K k xc := by
  intro xc hx
  have h1 := siteCalls_in l s hin xc hx
  obtain ⟨x, c⟩ := xc
  cases c with
  | begin name user req b =>
    refine ⟨h1, fun e => ?_⟩
    have : x.rnd "init_state" ∈ (siteCalls l s).filterMap drawn := List.mem_filterMap.2 ⟨_, hx, rfl⟩
    rw [siteCalls_drawn] at this
    obtain ⟨q, hq, e'⟩ := List.mem_filterMap.1 this
    exact hk q hq (by rw [e', e])
  | close s' i u => exact h1
  | clear s' => exact (siteCalls_kind l s _ hx).elim
  | _ => trivial

/-! ## C110 -/

theorem begun_by_form {x : Ext} {form : Dict String} {a : App} {name user url : String} (hform : loginFor form = some (name, user))
    (h : (rp x form a).1 = .ok (.redirect url)) :
    ∃ k h1, begin_ x name user REQ_ARGS [] a.rph = (.ok (url, k), h1) := by
  have key : ∀ {iss uid : String}, (startLogin x iss uid a).1 = .ok (.redirect url) →
      ∃ k h1, begin_ x iss uid REQ_ARGS [] a.rph = (.ok (url, k), h1) := by
    intro iss uid h
    unfold startLogin at h
    split at h
    · cases h
    · change (beginPage x iss uid _).1 = _ at h
      unfold beginPage at h
      dsimp only at h
      cases hb : begin_ x iss uid REQ_ARGS [] a.rph with
      | mk r g =>
        rw [hb] at h
        cases r with
        | error e => cases h
        | ok p =>
          obtain ⟨u, k⟩ := p
          cases h
          exact ⟨k, g, rfl⟩
  unfold rp at h
  unfold loginFor at hform
  cases hd : Dict.get? form "dyn_iss" with
  | none => rw [hd] at hform; cases hform
  | some d =>
    rw [hd] at h hform
    dsimp only at h hform
    by_cases e : d = ""
    · simp only [e, ne_eq, not_true_eq_false, if_false] at h hform
      cases hs : Dict.get? form "static_iss" with
      | none => rw [hs] at hform; cases hform
      | some st =>
        rw [hs] at h hform
        dsimp only at h hform
        by_cases e2 : st = ""
        · simp only [e2, not_true_eq_false, if_false] at h hform
          cases hu : Dict.get? form "uid" with
          | none => rw [hu] at hform; cases hform
          | some u =>
            rw [hu] at h hform
            dsimp only at h hform
            split at hform
            · cases hform
              exact key h
            · cases hform
        · simp only [e2, not_false_eq_true, if_true] at h hform
          cases hform
          exact key h
    · simp only [e, ne_eq, not_false_eq_true, if_true] at h hform
      cases hform
      exact key h

/-- **C110**.  At a new site, after any requests (`before`), a browser asks for a login with the form `form` and is sent to the
provider of the client `i`.  Then any requests are made, by this and other browsers and by providers (`after`): logins are begun,
callbacks called with any responses, logouts asked for.  If the random values drawn are others and nobody has the client `i` set up
anew, the session still waits, and when the browser comes to the provider's own callback address with an honest response, it is
shown that it is logged in, with the claims and tokens of the user. -/
theorem C110_site_login {K : String → Prop} (hK : KeySpace K) (h0 : Handler) (hnew : NewHandler h0) (sess : Nat → WebApp.Session)
    (before after : List (Ext × Nat × Request)) (x : Ext) (br : Nat) (form : Dict String) (name user url : String) (s1 s2 s3 : Site)
    (hs1 : s1 = serveAll before { sessions := sess, rph := h0 }) (hs2 : s2 = (serve x br (.rp form) s1).2)
    (hs3 : s3 = serveAll after s2)
    (hin : ∀ q ∈ before ++ (x, br, .rp form) :: after, ∀ k, siteDrawn q = some k → K k)
    (hdist : ((before ++ (x, br, .rp form) :: after).filterMap siteDrawn).Nodup)
    (hform : loginFor form = some (name, user)) (hsent : (serve x br (.rp form) s1).1 = .ok (.redirect url))
    (hv : x.rnd "code_verifier" ≠ "") (hn : x.rnd "init_nonce" ≠ "")
    (hmsg : (Dict.keys (x.msg .authorization).defaults).Nodup ∧ "nonce" ∉ (x.msg .authorization).spaced)
    (i : String) (hsetup : (clientSetup x name user [] s1.rph).1 = .ok i) (hne : i ≠ "")
    (hname : NamedAfterIssuer s2.rph i) (hgiven : ∀ c, Dict.get? s2.rph.issuer2rp i = some c → NoNonceGiven c REQ_ARGS)
    (hservice : ∀ c, Dict.get? s2.rph.issuer2rp i = some c → .authorization ∈ c.services)
    (hkeep : NeverReplaced i (siteCalls after s2) s2.rph)
    (hfresh : FreshNonces (x.rnd "init_nonce") (siteCalls before { sessions := sess, rph := h0 }) h0 ∧
      FreshNonces (x.rnd "init_nonce") (siteCalls after s2) s2.rph) :
    ∃ c areq ver, Dict.get? s3.rph.issuer2rp i = some c ∧ getItem c.db "auth_request" (x.rnd "init_state") = .ok areq ∧
      Dict.get? areq "state" = some (.str (x.rnd "init_state")) ∧ Dict.get? areq "nonce" = some (.str (x.rnd "init_nonce")) ∧
      ∀ (y : Ext) (callback : String) (args resp idt u : Obj) (t sub : String) (chk : Option (Val × Val)),
        HonestLogin y c (x.rnd "init_state") (x.rnd "init_nonce") areq ver args resp idt u t sub →
        Dict.get? args "state" = some (.str (x.rnd "init_state")) → OwnAddress s3.rph i (splitQuery callback) →
        statusCheck c.ctx = .ok chk →
        (serve y br (.authzCb callback args) s3).1 =
          .ok (.result (.obj u) (.str t) (.obj idt) (endpoints c.ctx.providerInfo) chk (c.ctx.baseUrl ++ "/logout")) := by
  have hdrawn : siteDrawn (x, br, .rp form) = some (x.rnd "init_state") := by
    rw [show siteDrawn (x, br, .rp form) = (loginFor form).map (fun _ => x.rnd "init_state") from rfl, hform]; rfl
  have hkx : K (x.rnd "init_state") := hin _ (List.mem_append.2 (Or.inr List.mem_cons_self)) _ hdrawn
  have hother : ∀ q ∈ before ++ after, siteDrawn q ≠ some (x.rnd "init_state") := by
    rw [List.filterMap_append, List.filterMap_cons, hdrawn] at hdist
    intro q hq hqk
    obtain ⟨_, d2, d3⟩ := List.nodup_append.1 hdist
    rcases List.mem_append.1 hq with hq | hq
    · exact d3 _ (List.mem_filterMap.2 ⟨q, hq, hqk⟩) _ List.mem_cons_self rfl
    · exact (List.nodup_cons.1 d2).1 (List.mem_filterMap.2 ⟨q, hq, hqk⟩)
  have hrph1 : s1.rph = run (siteCalls before { sessions := sess, rph := h0 }) h0 := by rw [hs1]; exact C107_history _ _
  obtain ⟨k, h1, hbegin⟩ := begun_by_form (a := { session := s1.sessions br, rph := s1.rph }) hform hsent
  dsimp only at hbegin
  have hk : k = x.rnd "init_state" := by
    obtain ⟨_, _, _, _, _, b3, _⟩ := begin_ok hbegin
    exact init_key b3
  subst hk
  have hrph2 : s2.rph = h1 := by
    rw [hs2, serve_rph, show callOf _ (.rp form) = (loginFor form).map (fun p => .begin p.1 p.2 REQ_ARGS []) from rfl, hform]
    show (begin_ x name user REQ_ARGS [] s1.rph).2 = h1
    rw [hbegin]
  have hrph3 : s3.rph = run (siteCalls after s2) h1 := by rw [hs3, C107_history, hrph2]
  rw [hrph2] at hname hgiven hservice hkeep hfresh
  rw [hrph1] at hbegin hsetup
  have hok1 := siteCalls_ok (K := K) (k := x.rnd "init_state") before { sessions := sess, rph := h0 }
    (fun q hq => hin q (List.mem_append.2 (Or.inl hq))) (fun q hq => hother q (List.mem_append.2 (Or.inl hq)))
  have hok2 := siteCalls_ok (K := K) (k := x.rnd "init_state") after s2
    (fun q hq => hin q (List.mem_append.2 (Or.inr (List.mem_cons_of_mem _ hq)))) (fun q hq => hother q (List.mem_append.2 (Or.inr hq)))
  obtain ⟨c0, c, areq, ver, a1, a2, _, a4, _, a6, a7, _, a9⟩ := C81_waits_among_others hK h0 hnew _ x name user REQ_ARGS [] url _ h1
    hok1 hkx hv hn hmsg hbegin i hsetup hne hname hgiven _ hok2 hkeep hfresh
  rw [hrph3]
  refine ⟨c, areq, ver, a2, a9.request, a6, a7, ?_⟩
  intro y callback args resp idt u t sub chk hh hst hown hchk
  have hdone := login_of hK a2 (by rw [a4]; exact hservice c0 a1) hkx a9 hh []
  have hstarted : getIss c.db (x.rnd "init_state") = .ok (.str i) := a9.started
  show (authzCb y callback args _).1 = _
  unfold authzCb
  rw [Py.read_bind_run]
  have hg := getRp_own hown
  rw [← hrph3] at hg a2 hdone
  exact (finalizeView_done (a := { session := s3.sessions br, rph := s3.rph }) hg a2 hst (hK.nonempty _ hkx) hstarted hdone hchk).1

/-! ## Non-vacuity -/

/-- What others do meanwhile: another browser begins a login with the same provider; it calls the callback with the first one's
session value and a code, when the token endpoint cannot be reached; it logs out; a provider asks for a logout. -/
def meanwhile : List (Ext × Nat × Request) :=
  [(World.ext 1001 World.s2 "n2" "n2", 1, .rp typedIn),
   (down (World.ext 1002 "" "" "n1"), 1, .authzCb "https://rp.example/cb?code=other" [("code", .str "other"), ("state", .str World.s1)]),
   (World.ext 1003 "" "" "", 1, .logout),
   (World.ext 1004 "" "" "", 2, .bcLogout "https://op.example" false "logout_token=t")]

/-- The calls behind that. -/
def meanwhileCalls : List (Ext × Call) :=
  [(World.ext 1001 World.s2 "n2" "n2", .begin "https://op.example" "" REQ_ARGS []),
   (down (World.ext 1002 "" "" "n1"), .finalize "https://op.example" [("code", .str "other"), ("state", .str World.s1)] []),
   (World.ext 1003 "" "" "", .logout World.s1 ""),
   (World.ext 1004 "" "" "", .backchannel "https://op.example" (.text "logout_token=t"))]

theorem meanwhile_calls : siteCalls meanwhile begunSite = meanwhileCalls := by rfl

/-- The client after that. -/
def siteClient : Client :=
  (Dict.get? (serveAll meanwhile begunSite).rph.issuer2rp "https://op.example").getD default

/-- The request the browser was sent away with. -/
def siteRequest : Obj :=
  [("redirect_uri", .str "https://rp.example/cb"), ("scope", .list [.str "openid"]),
   ("response_type", .list [.str "code"]), ("nonce", .str "n1"),
   ("claims", .obj [("id_token", .obj [("acr", .obj [("value", .str "https://refeds.org/profile/mfa")])])]),
   ("state", .str World.s1), ("client_id", .str "client1")]

theorem site_honestLogin (ver : Val) : HonestLogin (World.ext 1010 "" "" "n1") siteClient World.s1 "n1" siteRequest ver
    sentBack sentBack aliceToken [("sub", .str "alice"), ("name", .str "Alice")] "AT1" "alice" := by
  refine ⟨?_, ⟨by decide, ⟨"https://op.example/userinfo", by rfl⟩, by rfl, Or.inl (by rfl), ⟨by decide, by rfl⟩⟩, by decide, by rfl, by rfl,
    by rfl, ⟨_, rfl⟩, ⟨by rfl, fun v hv => ⟨"sid1", ?_⟩⟩,
    ⟨.str "c1", .str "https://rp.example/cb", .list [.str "code"], by rfl, ⟨by decide, by decide⟩, by rfl, by rfl, Or.inl (by intro w; rfl),
      ⟨World.answer { srv := .accesstoken, url := "", method := "" },
    [("access_token", .str "AT1"), ("token_type", .str "Bearer"), ("expires_in", .int 300),
      ("refresh_token", .str "RT1"), ("id_token", .str "header.payload.signature")],
    [("access_token", .str "AT1"), ("token_type", .str "Bearer"), ("expires_in", .int 300),
      ("refresh_token", .str "RT1"), ("id_token", .str "header.payload.signature"), ("__verified_id_token", .obj aliceToken)],
    ?_, ?_, by rfl, by rfl, by rfl, _, rfl⟩, by rfl⟩,
    ⟨World.answer { srv := .userinfo, url := "", method := "" }, [("sub", .str "alice"), ("name", .str "Alice")], ?_, ?_, by rfl, by rfl, by rfl⟩⟩
  · refine ⟨by decide, ⟨"https://op.example/token", by rfl⟩, by decide, ?_, Or.inl (by rfl), ⟨by rfl, by decide⟩, by decide⟩
    exact C81_secret_authenticates _ _ ⟨by rfl, by decide⟩ "client_secret_basic" (by rfl) (Or.inl rfl) (by decide)
  · have e : Dict.get? aliceToken "sid" = some (.str "sid1") := rfl
    rw [e] at hv
    injection hv with hv
    exact hv.symm
  · intro log s hs
    show Except.ok (World.answer s) = _
    unfold World.answer
    rw [hs.1]
  · exact ⟨by decide, by decide, by decide, by rfl, by rfl, by rfl, by rfl⟩
  · intro log s hs
    show Except.ok (World.answer s) = _
    unfold World.answer
    rw [hs.1]
  · exact ⟨by decide, by decide, by decide, by rfl, by rfl, by rfl, by rfl⟩

theorem site_ownAddress : OwnAddress (serveAll meanwhile begunSite).rph "https://op.example"
    (splitQuery "https://rp.example/cb?code=c1&state=abc") := by
  refine ⟨⟨siteClient, by rfl, Or.inl (by decide +kernel)⟩, ?_, ?_⟩
  · intro j c hm _
    have h1 : Dict.keys (serveAll meanwhile begunSite).rph.issuer2rp = ["https://op.example"] := by decide +kernel
    have h2 : j ∈ Dict.keys (serveAll meanwhile begunSite).rph.issuer2rp := List.mem_map.2 ⟨_, hm, rfl⟩
    rw [h1] at h2
    simpa using h2
  · decide +kernel

/-- Non-vacuity of C110: after all that the first browser is shown that Alice is logged in. -/
example : ∃ eps chk lo, (serve (World.ext 1010 "" "" "n1") 0 atCallback (serveAll meanwhile begunSite)).1 =
    .ok (.result (.obj [("sub", .str "alice"), ("name", .str "Alice")]) (.str "AT1") (.obj aliceToken) eps chk lo) := by
  have hnonce : ∀ c, Dict.get? begunSite.rph.issuer2rp "https://op.example" = some c → NoNonceGiven c REQ_ARGS := fun c hc => ⟨rfl, by
    have h1 : (Dict.get? begunSite.rph.issuer2rp "https://op.example").map
        (fun c => Dict.get? (confObj c.ctx.config "request_args") "nonce") = some none := by rfl
    rw [hc] at h1
    injection h1⟩
  have hserv : ∀ c, Dict.get? begunSite.rph.issuer2rp "https://op.example" = some c → .authorization ∈ c.services := fun c hc => by
    have h1 : (Dict.get? begunSite.rph.issuer2rp "https://op.example").map (fun c => decide (.authorization ∈ c.services)) = some true := by rfl
    rw [hc] at h1
    injection h1 with h1
    exact of_decide_eq_true h1
  have hnamed : NamedAfterIssuer begunSite.rph "https://op.example" := fun c hc => by
    have h1 : (Dict.get? begunSite.rph.issuer2rp "https://op.example").map (fun c => c.ctx.issuer) = some "https://op.example" := by rfl
    rw [hc] at h1
    injection h1
  have hin : ∀ q ∈ ([] : List (Ext × Nat × Request)) ++ (World.ext 1000 World.s1 "n1" "n1", 0, .rp typedIn) :: meanwhile,
      ∀ k, siteDrawn q = some k → Spec.History.Generated k := by
    intro q hq k hk
    simp only [meanwhile, List.nil_append, List.mem_cons, List.not_mem_nil, or_false] at hq
    rcases hq with rfl | rfl | rfl | rfl | rfl
    · cases hk; exact gen_s1
    · cases hk; exact gen_s2
    all_goals cases hk
  have hfresh2 : FreshNonces "n1" (siteCalls meanwhile begunSite) begunSite.rph := by
    rw [meanwhile_calls]
    exact ⟨fresh_of (j := "https://op.example") (by decide) (by decide) (by rfl) (by rfl), trivial, trivial, trivial, trivial⟩
  obtain ⟨c, areq, ver, a1, a2, _, _, a5⟩ := C110_site_login C10_generated_keys_are_safe World.handler newWorld (fun _ => []) [] meanwhile
    (World.ext 1000 World.s1 "n1" "n1") 0 typedIn "https://op.example" "" _ newSite begunSite (serveAll meanwhile begunSite) rfl rfl rfl
    hin (by decide +kernel) (by decide) (by rfl) (by decide) (by decide) ⟨by decide, by decide⟩ "https://op.example" (by rfl) (by decide)
    hnamed hnonce hserv (by rw [meanwhile_calls]; exact ⟨fun _ => rfl, trivial, trivial, trivial, trivial⟩) ⟨trivial, hfresh2⟩
  have ec : c = siteClient := by unfold siteClient; rw [a1]; rfl
  have er : areq = siteRequest := by
    rw [ec] at a2
    have : getItem siteClient.db "auth_request" World.s1 = .ok siteRequest := by rfl
    have a2' : getItem siteClient.db "auth_request" World.s1 = .ok areq := a2
    rw [this] at a2'
    injection a2' with a2'
    exact a2'.symm
  subst ec er
  exact ⟨_, none, _, a5 _ _ _ _ _ _ _ _ none (site_honestLogin ver) (by rfl) site_ownAddress (by rfl)⟩

end Verif.Props
