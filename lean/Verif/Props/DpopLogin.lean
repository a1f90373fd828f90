import Verif.Props.DpopBound
import Verif.Props.Honest
/-!
# C121: an honest login with DPoP
-/

namespace Verif.Props
open Verif Verif.Service Verif.Handler Verif.StateInterface Verif.Spec.Session Verif.Spec.HandlerView Verif.Spec.Wire

/-! ## The first request -/

/-- The client with its key. -/
abbrev keyed (c : Client) (ka : String × String) : Client := { c with dpopKey := some ka }

theorem getHeaders_keyed {x : Ext} {srv : Srv} {c : Client} {ka : String × String} (hu : usesDpop c.ctx srv = true)
    (hk : dpopKeyFor x c = .ok (some ka)) (request : Obj) (hm am : String) (kwargs : Obj) :
    (getHeaders x srv request hm am kwargs c).1 = (getHeaders x srv request hm am kwargs (keyed c ka)).1 ∧
    ∀ r, (getHeaders x srv request hm am kwargs c).1 = .ok r → (getHeaders x srv request hm am kwargs c).2 = keyed c ka := by
  have hk' : dpopKeyFor x (keyed c ka) = .ok (some ka) := rfl
  have hd : ∀ hd, dpopHeader x srv hm hd c = dpopHeader x srv hm hd (keyed c ka) := by
    intro hd
    unfold dpopHeader
    rw [ask_bind_ok hk, ask_bind_ok hk']
    rfl
  have hs : ∀ hd, (dpopHeader x srv hm hd c).2 = keyed c ka := by
    intro hd
    unfold dpopHeader
    rw [ask_bind_ok hk]
    simp only [Py.modify_bind_run]
    have : Frame (fun a b : Client => a = b) (ask (fun c => Dict.getItem c.ctx.providerInfo srv.endpointName) >>= fun htu =>
        (Py.lift (x.dpopSign ka.1 (dpopClaims x ka.1 ka.2 hm htu)) >>= fun jws => pure (Dict.set hd "dpop" jws) : Py Client (Dict String))) := by
      have hi : FrameRel (fun a b : Client => a = b) := ⟨fun _ => rfl, fun h h' => h.trans h'⟩
      exact Frame.bind (Frame.ask _) fun _ => Frame.bind (Frame.lift _) fun _ => Frame.pure _
    exact (this _).symm
  have e1 : ∀ (c : Client), usesDpop c.ctx srv = true → getHeaders x srv request hm am kwargs c =
      match (if am = "" then getAuthnMethod c srv else .ok am) with
      | .error e => (.error e, c)
      | .ok m => match authnHeader x srv request m (Dict.set kwargs "authn_endpoint" (.str srv.endpointName)) c with
        | .error e => (.error e, c)
        | .ok r => (dpopHeader x srv hm r.1 >>= fun h => pure (h, r.2)) c := by
    intro c hu
    unfold getHeaders
    cases h1 : (if am = "" then getAuthnMethod c srv else .ok am) with
    | error e => rw [ask_bind_error h1]
    | ok m =>
      rw [ask_bind_ok h1]
      simp only
      cases h2 : authnHeader x srv request m (Dict.set kwargs "authn_endpoint" (.str srv.endpointName)) c with
      | error e => rw [ask_bind_error h2]
      | ok r =>
        rw [ask_bind_ok h2, Py.read_bind_run, if_pos hu]
  rw [e1 c hu, e1 (keyed c ka) hu]
  have a1 : getAuthnMethod (keyed c ka) srv = getAuthnMethod c srv := rfl
  have a2 : ∀ m kw, authnHeader x srv request m kw (keyed c ka) = authnHeader x srv request m kw c := fun _ _ => rfl
  rw [a1]
  cases h1 : (if am = "" then getAuthnMethod c srv else .ok am) with
  | error e => exact ⟨rfl, fun r h => by cases h⟩
  | ok m =>
    simp only [a2]
    cases h2 : authnHeader x srv request m (Dict.set kwargs "authn_endpoint" (.str srv.endpointName)) c with
    | error e => exact ⟨rfl, fun r h => by cases h⟩
    | ok r =>
      simp only [Py.bind_run, hd]
      refine ⟨trivial, fun _ _ => ?_⟩
      have := hs r.1
      rw [hd] at this
      rcases h3 : dpopHeader x srv hm r.1 (keyed c ka) with ⟨a, s⟩
      rw [h3] at this
      cases a <;> exact this

/-- The DPoP key is neither looked at nor changed. -/
def Blind {α : Type} (m : Py Client α) : Prop :=
  ∀ (c : Client) d, m { c with dpopKey := d } = ((m c).1, { (m c).2 with dpopKey := d })

theorem Blind.bind {α β : Type} {m : Py Client α} {f : α → Py Client β} (hm : Blind m) (hf : ∀ a, Blind (f a)) : Blind (m >>= f) := by
  intro c d
  rw [Py.bind_run, Py.bind_run, hm c d]
  rcases m c with ⟨r, c'⟩
  cases r with
  | error e => rfl
  | ok a => exact hf a c' d

theorem Blind.ask {α : Type} {f : Client → Except Exc α} (hf : ∀ (c : Client) d, f { c with dpopKey := d } = f c) : Blind (ask f) := by
  intro c d
  unfold Service.ask
  rw [hf]

theorem Blind.read {α : Type} {f : Client → Py Client α} (h1 : ∀ c, Blind (f c)) (h2 : ∀ (c : Client) d, f { c with dpopKey := d } = f c) :
    Blind (Py.read >>= f) := by
  intro c d
  rw [Py.read_bind_run, Py.read_bind_run, h2]
  exact h1 c c d

theorem Blind.lift {α : Type} (r : Except Exc α) : Blind (Py.lift r) := fun _ _ => rfl
theorem Blind.pure {α : Type} (a : α) : Blind (Pure.pure a : Py Client α) := fun _ _ => rfl

theorem gather_keyed (x : Ext) (c : Client) (d : Option (String × String)) (srv : Srv) (a : Obj) :
    gatherRequestArgs x { c with dpopKey := d } srv a = gatherRequestArgs x c srv a := by
  have h : ∀ (ps : List String) (a : Obj), gatherLoop { c with dpopKey := d } srv ps a = gatherLoop c srv ps a := by
    intro ps
    induction ps with
    | nil => intro a; rfl
    | cons p ps ih => intro a; unfold gatherLoop; simp only [ih]; rfl
  unfold gatherRequestArgs
  simp only [h]

theorem blind_construct (x : Ext) (args kwargs : Obj) : Blind (construct x .accesstoken args kwargs) := by
  unfold construct
  refine Blind.read (fun c => ?_) (fun _ _ => rfl)
  refine Blind.bind ?_ fun r => Blind.bind (Blind.ask fun _ _ => gather_keyed _ _ _ _ _) fun g => ?_
  · simp only [preConstruct]
    exact Blind.bind (Blind.ask fun _ _ => rfl) fun a => Blind.read (fun _ => Blind.bind (Blind.lift _) fun _ => Blind.pure _) (fun _ _ => rfl)
  · unfold postConstruct
    refine Blind.read (fun c => ?_) (fun _ _ => rfl)
    simp only
    split
    · exact Blind.ask fun _ _ => rfl
    · exact Blind.pure _

/-- The first DPoP request is the same as with the key made beforehand. -/
theorem tokenRequest_keyed {x : Ext} {c : Client} {ka : String × String} (hu : usesDpop c.ctx .accesstoken = true)
    (hk : dpopKeyFor x c = .ok (some ka)) {args : Obj} {o : CallOpts} {kwargs : Obj} {info : ReqInfo} {c1 : Client}
    (h : getRequestParameters x .accesstoken args o kwargs (keyed c ka) = (.ok info, c1)) :
    getRequestParameters x .accesstoken args o kwargs c = (.ok info, c1) := by
  have h : buildRequest x .accesstoken args o kwargs (keyed c ka) = (.ok info, c1) := h
  show buildRequest x .accesstoken args o kwargs c = (.ok info, c1)
  have hi : FrameRel (fun a b : Client => a = b) := ⟨fun _ => rfl, fun h h' => h.trans h'⟩
  obtain ⟨am, req, c2, hd1, req', a1, a2, a3, a4⟩ := buildRequest_ok h
  have hc2 : keyed c ka = c2 := by
    have := frame_construct_reading (R := fun a b : Client => a = b) (x := x) (srv := .accesstoken) (Or.inl rfl) args kwargs (keyed c ka)
    rw [a2] at this
    exact this
  subst hc2
  have hb := blind_construct x args kwargs c (some ka)
  have hcon : construct x .accesstoken args kwargs c = (.ok req, c) := by
    have h0 := frame_construct_reading (R := fun a b : Client => a = b) (x := x) (srv := .accesstoken) (Or.inl rfl) args kwargs c
    rw [show construct x .accesstoken args kwargs { c with dpopKey := some ka } = _ from a2] at hb
    exact Prod.ext (congrArg Prod.fst hb).symm h0.symm
  obtain ⟨g1, g2⟩ := getHeaders_keyed hu hk req (orElse o.method (attr c .accesstoken "http_method" (httpMethod .accesstoken))) am (withIss c kwargs)
  rw [show (getHeaders x .accesstoken req (orElse o.method (attr c .accesstoken "http_method" (httpMethod .accesstoken))) am (withIss c kwargs)
    (keyed c ka)).1 = .ok (hd1, req') from congrArg Prod.fst a3] at g1
  have hhead := Prod.ext (y := (.ok (hd1, req'), keyed c ka)) g1 (g2 _ g1)
  have hc1 : c1 = keyed c ka := by
    have := (getHeaders_keyed (c := keyed c ka) (ka := ka) hu rfl req (orElse o.method (attr c .accesstoken "http_method" (httpMethod .accesstoken)))
      am (withIss c kwargs)).2 _ (congrArg Prod.fst a3)
    exact (congrArg Prod.snd a3).symm.trans this
  subst hc1
  unfold buildRequest
  rw [Py.read_bind_run, ask_bind_ok (a := am) a1, Py.bind_ok hcon, Py.bind_ok hhead]
  exact Prod.ext a4 rfl

theorem getTokens_keyed {x : Ext} {c : Client} {ka : String × String} (hu : usesDpop c.ctx .accesstoken = true)
    (hk : dpopKeyFor x c = .ok (some ka)) {k : String} {r : Resp} {s : Client} (h : getTokens x k (keyed c ka) = (.ok r, s)) :
    getTokens x k c = (.ok r, s) := by
  unfold getTokens at h ⊢
  obtain ⟨args, c1, h1, h2⟩ := Py.bind_eq_ok.1 h
  obtain ⟨am, c2, h3, h4⟩ := Py.bind_eq_ok.1 h2
  obtain ⟨r', c3, h5, h6⟩ := Py.bind_eq_ok.1 h4
  obtain rfl : c1 = keyed c ka := (congrArg Prod.snd h1).symm
  obtain rfl : c2 = keyed c ka := (congrArg Prod.snd h3).symm
  have e1 : tokenArgs k c = .ok args := congrArg Prod.fst h1
  have e2 : clientAuthnMethod c.ctx.behaviour = .ok am := congrArg Prod.fst h3
  rw [ask_bind_ok e1, ask_bind_ok e2]
  have e3 : doRequest x .accesstoken args { authnMethod := am } [("state", .str k)] c = (.ok r', c3) := by
    unfold doRequest at h5 ⊢
    rw [Py.read_bind_run] at h5 ⊢
    split at h5
    · cases h5
    · next hn =>
      rw [if_neg hn]
      obtain ⟨info, c4, g1, g2⟩ := Py.bind_eq_ok.1 h5
      rw [Py.bind_ok (tokenRequest_keyed hu hk g1)]
      exact g2
  rw [Py.bind_ok e3]
  exact h6

theorem endpointTokens_keyed {x : Ext} {c : Client} {ka : String × String} (hu : usesDpop c.ctx .accesstoken = true)
    (hk : dpopKeyFor x c = .ok (some ka)) {k : String} {r : Val × Val} {s : Client} (h : endpointTokens x k (keyed c ka) = (.ok r, s)) :
    endpointTokens x k c = (.ok r, s) := by
  unfold endpointTokens at h ⊢
  obtain ⟨r', c1, h1, h2⟩ := Py.bind_eq_ok.1 h
  rw [Py.bind_ok (getTokens_keyed hu hk h1)]
  exact h2

/-- The tokens are got as with the key made beforehand, if a request is sent for them. -/
theorem tokens_keyed {x : Ext} {c : Client} {ka : String × String} (hu : usesDpop c.ctx .accesstoken = true)
    (hk : dpopKeyFor x c = .ok (some ka)) {k : String} {resp b : Obj} {r : Val × Val} {s : Client}
    (h : getAccessAndIdToken x resp k b (keyed c ka) = (.ok r, s)) (hl : s.log ≠ c.log) :
    getAccessAndIdToken x resp k b c = (.ok r, s) := by
  have hno : ∀ {a : Val × Val} {s : Client}, (pure a : Py Client (Val × Val)) (keyed c ka) = (.ok r, s) → s.log = c.log := by
    intro a s h
    rw [Py.pure_run, Prod.mk.injEq] at h
    rw [← h.2]
  unfold getAccessAndIdToken at h ⊢
  obtain ⟨rt, c1, h1, h2⟩ := Py.bind_eq_ok.1 h
  obtain ⟨idt, c2, h3, h4⟩ := Py.bind_eq_ok.1 h2
  obtain rfl : c1 = keyed c ka := (congrArg Prod.snd h1).symm
  obtain ⟨h3', rfl⟩ := Py.lift_eq_ok.1 h3
  have e1 : storedResponseType k c = .ok rt := congrArg Prod.fst h1
  rw [ask_bind_ok e1, Py.lift_bind_ok h3']
  split at h4
  · next hf =>
    rw [if_pos hf]
    obtain ⟨at', c3, h5, h6⟩ := Py.bind_eq_ok.1 h4
    obtain ⟨h5', rfl⟩ := Py.lift_eq_ok.1 h5
    rw [Py.lift_bind_ok h5']
    split at h6
    · next hcol =>
      rw [if_pos hcol]
      exact endpointTokens_keyed hu hk h6
    · exact absurd (hno h6) hl
  · next hf =>
    rw [if_neg hf]
    split at h4
    · next ht =>
      rw [if_pos ht]
      exact endpointTokens_keyed hu hk h4
    · exact absurd (hno h4) hl

/-! ## Specification -/

/-- The key and algorithm the client proves possession with: those it has; without, a new key for the first of its algorithms that
the provider announces. -/
inductive KeyToUse (x : Ext) (c : Client) (ka : String × String) : Prop
  | kept (h : c.dpopKey = some ka)
  | made (h : c.dpopKey = none) (mine theirs : List String) (a : String) (ha : Algorithms c mine theirs)
      (hf : FirstCommon mine theirs a) (hk : ka = (x.mintKey a, a))

theorem first_unique {mine theirs : List String} {a b : String} (ha : FirstCommon mine theirs a) (hb : FirstCommon mine theirs b) : a = b := by
  obtain ⟨p, q, e1, e2, e3⟩ := ha
  obtain ⟨p', q', f1, f2, f3⟩ := hb
  rw [e1] at f1
  rcases List.append_eq_append_iff.1 f1 with ⟨l, h1, h2⟩ | ⟨l, h1, h2⟩
  · cases l with
    | nil => simp at h2; exact h2.1
    | cons d l =>
      simp only [List.cons_append, List.cons.injEq] at h2
      exact absurd e2 (f3 a (by rw [h1, ← h2.1]; simp))
  · cases l with
    | nil => simp at h2; exact h2.1.symm
    | cons d l =>
      simp only [List.cons_append, List.cons.injEq] at h2
      exact absurd f2 (e3 b (by rw [h1, ← h2.1]; simp))

theorem KeyToUse.keyFor {x : Ext} {c : Client} {ka : String × String} (h : KeyToUse x c ka) : dpopKeyFor x c = .ok (some ka) := by
  unfold dpopKeyFor
  cases h with
  | kept h => rw [h]
  | made h mine theirs a ha hf hk =>
    rw [h]
    rcases dpopAlg_common ha with ⟨a', h1, h2⟩ | ⟨h1, _⟩
    · rw [h2, hk, first_unique hf h1]; rfl
    · obtain ⟨p, q, e1, e2, e3⟩ := hf
      exact absurd e2 (h1 a (by rw [e1]; simp))

/-! ## C121 -/

/-- **C121** (code flow with DPoP).  A client with DPoP, with a key or about to make one, is equipped for C81 with that key.  Then the
login succeeds as in C81 after exactly two requests; both have a proof of possession of the key, for their method and
their URL; and the client has the key from then on. -/
theorem C121_dpop_login {K : String → Prop} (hK : Spec.Store.KeySpace K) (x : Ext) (issuer : String) (response b : Obj)
    (h : Handler) (c : Client) (hc : Dict.get? h.issuer2rp issuer = some c) (ha : .authorization ∈ c.services)
    (hb : Binds c) (ka : String × String) (hka : KeyToUse x c ka)
    (hq : Equipped x (keyed c ka)) (hu : AsksUserinfo x (keyed c ka))
    (k n t sub : String) (hk : K k) (ht : t ≠ "") (areq resp idt u : Obj) (code ru ver rtv : Val)
    (hw : Waiting c issuer k areq n ver) (hru : Dict.get? areq "redirect_uri" = some ru)
    (hrt : Dict.get? areq "response_type" = some rtv)
    (hset : IsSet (wordsOf rtv) ["code"] ∨ IsSet (wordsOf rtv) ["code", "id_token"])
    (hp : ParsedAs x c response resp) (he : Msg.isError resp = false) (hstate : Dict.get? resp "state" = some (.str k))
    (hcode : Dict.get? resp "code" = some code) (hce : code ≠ .str "" ∧ code ≠ .list [.str ""])
    (hexp : ∃ r, withExpiry x resp = .ok r) (hid : GoodIdToken idt sub)
    (hh : HonestTokens x c code ru ver n t idt) (hcl : HonestClaims x c t sub u) :
    ∃ s1 s2 c', CodeRequest x c code ru ver s1 ∧ AsksWith c x t s2 ∧
      (finalize x issuer response b h).1 =
        .ok (.done (.obj u) (.str k) (.str t) (.obj idt) ((Dict.get? resp "session_state").getD (.str ""))) ∧
      (finalizeClient x issuer response b c).2 = c' ∧ view (finalize x issuer response b h).2 issuer = some (c'.db, c'.log) ∧
      c'.log = c.log ++ [s1, s2] ∧ c'.dpopKey = some ka ∧
      Proved (· = x) ka.1 ka.2 s1 ∧ Proved (· = x) ka.1 ka.2 s2 ∧
      getStateByX c'.db sub .subjectId = .ok (.raw k) := by
  obtain ⟨resp', hresp'⟩ := hexp
  obtain ⟨st, hst, hiss⟩ := getIss_ok hw.started
  have hw' : Waiting (keyed c ka) issuer k areq n ver := ⟨hw.started, hw.request, hw.nonce, hw.index, hw.refreshed, hw.pkce⟩
  have hh' : HonestTokens x (keyed c ka) code ru ver n t idt := ⟨hh.tokens, hh.nonce⟩
  obtain ⟨s1, db2, r, c1, c2, c3, c4, c5, c6, c7⟩ := code_tokens (b := b) hK hq hk hw' hst hru hrt hset hcode hce hresp' hid hh'
  have hud : usesDpop c.ctx .accesstoken = true := by
    unfold usesDpop
    rw [show Dict.has c.ctx.addOn "dpop" = true from hb.dpop]
    rfl
  have c2' : getAccessAndIdToken x resp' k b { c with db := Dict.set c.db k (.doc (Dict.set st "auth_response" (.obj resp'))) }
        = (.ok (.str t, .obj idt), { c with dpopKey := some ka, db := db2, log := c.log ++ [s1] }) :=
    tokens_keyed (c := { c with db := Dict.set c.db k (.doc (Dict.set st "auth_response" (.obj resp'))) }) hud hka.keyFor c2 (by simp)
  have hrf := item_none hst hw.refreshed
  have g1 : Dict.get? (Dict.set (Dict.set st "auth_response" (.obj resp')) "token_response" (.obj r)) "refresh_token_response" = none := by
    rw [Dict.get?_set_ne _ _ (by decide), Dict.get?_set_ne _ _ (by decide)]; exact hrf
  obtain ⟨s2, d1, d2⟩ := getUserInfo_progress hu ht c3 (by
      intro t ht
      simp only [RESPONSES, List.mem_cons, List.not_mem_nil, or_false] at ht
      rcases ht with rfl | rfl | rfl
      · exact Or.inr ⟨resp', by rw [Dict.get?_set_ne _ _ (by decide), Dict.get?_set_self]⟩
      · exact Or.inr ⟨r, Dict.get?_set_self _ _ _⟩
      · exact Or.inl g1)
    (latest_token c3 (Dict.get?_set_self _ _ _) g1 c5) hid hcl (c.log ++ [s1])
  have hcol : collectUserInfo x k (.str t) (.obj idt) { c with dpopKey := some ka, db := db2, log := c.log ++ [s1] } =
      (.ok (.obj u), { c with
        dpopKey := some ka
        db := Dict.set db2 k (.doc (Dict.set (Dict.set (Dict.set st "auth_response" (.obj resp')) "token_response" (.obj r)) "user_info" (.obj u)))
        log := c.log ++ [s1] ++ [s2] }) := by
    unfold collectUserInfo
    rw [Py.read_bind_run, if_pos ⟨hu.userinfo, by simp [Val.truthy, ht]⟩, Py.bind_ok d2]
    rfl
  obtain ⟨db5, e1, e2, e3⟩ := finalize_tail hK hk hid c2' hcol (by
    intro s
    rw [Dict.get?_set_ne _ _ (KeySpace.ne_ref hK hk hk)]
    exact c4 s)
  have hrun := finalizeClient_head ha hp he hstate hst hw.started hresp' e1
  obtain ⟨f1, f2⟩ := finalize_head hc ha hp he hstate hst hw.started hresp' e1
  have hpr := proving_finalizeClient (X := (· = x)) (x := x) rfl issuer response b c
  rw [hrun] at hpr
  obtain ⟨l, l1, l2⟩ := hpr.log
  have hl : l = [s1, s2] := by
    have : c.log ++ [s1] ++ [s2] = c.log ++ l := l1
    rw [List.append_assoc, List.append_cancel_left_eq] at this
    exact this.symm
  subst hl
  have hpv : ∀ s ∈ [s1, s2], s.srv = .accesstoken ∨ s.srv = .userinfo → Proved (· = x) ka.1 ka.2 s := by
    intro s hs ht
    obtain ⟨key, alg, k1, k2⟩ := l2 hb s hs ht
    have : some ka = some (key, alg) := k1
    injection this with this
    rw [this]
    exact k2
  refine ⟨s1, s2, _, c1, d1, ?_, congrArg Prod.snd hrun, f2, ?_, rfl, hpv s1 (by simp) (Or.inl c1.1), hpv s2 (by simp) (Or.inr d1.1), e2⟩
  · rw [f1, withExpiry_get hresp' (by decide)]
  · simp

/-! ## Example -/

set_option maxRecDepth 100000 in
theorem bound_equipped : Equipped (boundWorld 1001) (keyed (boundClient boundStart) ("key-RS256", "RS256")) := by
  refine ⟨by decide +kernel, ⟨"https://op.example/token", by rfl⟩, by decide +kernel, ?_,
    Or.inr ⟨"key-RS256", "RS256", .str "https://op.example/token", rfl, by rfl, fun _ => ⟨_, rfl⟩⟩, ⟨by rfl, by decide⟩, by decide⟩
  exact C81_secret_authenticates _ _ ⟨by rfl, by decide⟩ "client_secret_basic" (by rfl) (Or.inl rfl) (by decide +kernel)

set_option maxRecDepth 100000 in
/-- Non-vacuity of C121: the first login of a client with DPoP that has no key yet meets all hypotheses (and so its conclusion holds). -/
example : (boundClient boundStart).dpopKey = none ∧ ∃ s1 s2 c',
    (finalize (boundWorld 1001) "https://op.example" codeResponse [] boundStart).1 =
      .ok (.done (.obj [("sub", .str "alice"), ("name", .str "Alice")]) (.str World.s1) (.str "AT1") (.obj aliceToken) (.str "")) ∧
    (finalizeClient (boundWorld 1001) "https://op.example" codeResponse [] (boundClient boundStart)).2 = c' ∧
    c'.log = (boundClient boundStart).log ++ [s1, s2] ∧ c'.dpopKey = some ("key-RS256", "RS256") ∧
    Proved (· = boundWorld 1001) "key-RS256" "RS256" s1 ∧ Proved (· = boundWorld 1001) "key-RS256" "RS256" s2 := by
  refine ⟨by rfl, (fun ⟨s1, s2, c', h1, h2, h3, h4, h5, h6, h7, h8, h9, _⟩ => ⟨s1, s2, c', h3, h4, h6, h7, h8, h9⟩) <|
    C121_dpop_login C10_generated_keys_are_safe (boundWorld 1001) "https://op.example" codeResponse [] boundStart (boundClient boundStart)
    (by rfl) (by decide +kernel) bound_binds ("key-RS256", "RS256")
    (.made (by rfl) ["PS256", "RS256", "ES256"] ["ES256", "RS256"] "RS256" ⟨by rfl, by decide, by rfl⟩
      ⟨["PS256"], ["ES256"], rfl, by decide, by decide⟩ rfl)
    bound_equipped ⟨by decide +kernel, ⟨"https://op.example/userinfo", by rfl⟩, by rfl,
      Or.inr ⟨"key-RS256", "RS256", .str "https://op.example/userinfo", rfl, by rfl, fun _ => ⟨_, rfl⟩⟩, ⟨by decide, by rfl⟩⟩
    World.s1 "n1" "AT1" "alice" gen_s1 (by decide) madeRequest codeResponse aliceToken
    [("sub", .str "alice"), ("name", .str "Alice")] (.str "c1") (.str "https://rp.example/cb") (.str "") (.list [.str "code"])
    ⟨by rfl, by rfl, by rfl, ⟨_, by rfl⟩, by rfl, fun h => ?_⟩ (by rfl) (by rfl) (Or.inl (by intro w; rfl)) (by rfl) (by rfl) (by rfl) (by rfl) ⟨by decide, by decide⟩ ⟨_, rfl⟩
    ⟨by rfl, fun v hv => ⟨"sid1", ?_⟩⟩ ⟨⟨World.answer { srv := .accesstoken, url := "", method := "" },
      [("access_token", .str "AT1"), ("token_type", .str "Bearer"), ("expires_in", .int 300),
        ("refresh_token", .str "RT1"), ("id_token", .str "header.payload.signature")],
      [("access_token", .str "AT1"), ("token_type", .str "Bearer"), ("expires_in", .int 300),
        ("refresh_token", .str "RT1"), ("id_token", .str "header.payload.signature"), ("__verified_id_token", .obj aliceToken)],
      ?_, ?_, by rfl, by rfl, by rfl, _, rfl⟩, by rfl⟩
    ⟨World.answer { srv := .userinfo, url := "", method := "" }, [("sub", .str "alice"), ("name", .str "Alice")], ?_, ?_, by rfl, by rfl, by rfl⟩⟩
  · have h0 : Dict.has (boundClient boundStart).ctx.addOn "pkce" = false := by decide +kernel
    rw [h0] at h; cases h
  · have e : Dict.get? aliceToken "sid" = some (.str "sid1") := rfl
    rw [e] at hv
    injection hv with hv
    exact hv.symm
  · intro log s hs
    show Except.ok (World.answer s) = _
    unfold World.answer
    rw [hs.1]
  · exact ⟨by decide, by decide +kernel, by decide +kernel, by rfl, by rfl, by rfl, by rfl⟩
  · intro log s hs
    show Except.ok (World.answer s) = _
    unfold World.answer
    rw [hs.1]
  · exact ⟨by decide, by decide +kernel, by decide +kernel, by rfl, by rfl, by rfl, by rfl⟩

end Verif.Props
