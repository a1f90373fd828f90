import Verif.Props.InFlight
import Verif.Lemmas.Setup
import Verif.Props.TokenRequest
/-!
# C67 and C21: what `begin` sends and stores
-/

namespace Verif.Props
open Verif Verif.Service Verif.Handler Verif.StateInterface Verif.Spec.InFlight
open Verif.Spec.Store (KeySpace withoutEmpty)

/-- The authorization service of a client is used without request objects, pushed authorization requests and
client authentication: the request is sent as it was made. -/
structure PlainAuthorization (c : Client) (behaviourArgs : Obj) : Prop where
  pre : Dict.get? (confOf c .authorization) "pre_construct" = none
  post : Dict.get? (confOf c .authorization) "post_construct" = none
  param : Dict.get? behaviourArgs "request_param" = none
  authn : attr c .authorization "default_authn_method" "" = ""
  method : attr c .authorization "http_method" "GET" = "GET"
  push : Dict.has c.ctx.addOn "pushed_authorization" = false

/-- Neither the caller nor the configuration gave a nonce. -/
def NoNonceGiven (c : Client) (req : Obj) : Prop :=
  Dict.get? req "nonce" = none ∧ Dict.get? (confObj c.ctx.config "request_args") "nonce" = none

/-- An OpenID Connect request whose first response type is `code` or `id_token`. -/
def FirstCodeOrIdToken (r : Obj) : Prop :=
  (∃ l, Dict.get? r "scope" = some (.list l) ∧ .str "openid" ∈ l) ∧
  ∃ w ws, Dict.get? r "response_type" = some (.list (.str w :: ws)) ∧ (w = "code" ∨ w = "id_token")

/-- `n` is bound to session `k`. -/
def BoundNonce (db : DB) (n k : String) : Prop := getStateByX db n .nonce = .ok (.raw k)

theorem get?_update_none {α : Type} (d : Dict α) {e : Dict α} {k : String} (h : Dict.get? e k = none) :
    Dict.get? (Dict.update d e) k = Dict.get? d k := by
  rw [Dict.get?_update]
  cases hf : e.reverse.find? (fun p => p.1 = k) with
  | none => rfl
  | some p =>
    exfalso
    have h1 := List.mem_of_find?_eq_some hf
    have h2 := List.find?_some hf
    rw [Dict.get?_eq_none_iff] at h
    apply h
    have h2 : p.1 = k := by simpa using h2
    rw [← h2]
    exact List.mem_map_of_mem (List.mem_reverse.1 h1)

theorem serviceEndpoint_congr {a b : Ctx} (h1 : a.endpoints = b.endpoints) (h2 : a.providerInfo = b.providerInfo) (s : Srv) :
    Discovery.serviceEndpoint a s = Discovery.serviceEndpoint b s := by
  unfold Discovery.serviceEndpoint
  rw [h1, h2]

/-- The parameters of `initArgs`. -/
theorem initArgs_nonce {x : Ext} {ctx : Ctx} {req args : Obj} (h : initArgs x ctx req = .ok args)
    (h1 : Dict.get? req "nonce" = none) (h2 : Dict.get? (confObj ctx.config "request_args") "nonce" = none) :
    Dict.get? args "nonce" = some (.str (x.rnd "init_nonce")) := by
  unfold initArgs at h
  split at h
  · cases h
  · split at h
    · cases h
    · split at h
      · cases h
      · injection h with h
        subst h
        rw [get?_update_none _ h1, get?_update_none _ h2]
        rfl

/-- Where a plain authorization request goes. -/
theorem plain_url {x : Ext} {req b : Obj} {c c' : Client} {url k : String} (t : AuthTrace x req b c url k c')
    (hpl : PlainAuthorization c b) :
    ∃ u, Discovery.serviceEndpoint c.ctx .authorization = .ok (.str u) ∧
      url = Util.getHttpUrl (x.ser .authorization) u t.r "GET" := by
  have hps := (aliasScope_same req c.ctx)
  have hq : t.q = t.r := by
    have h1 := t.hq
    have h2 : Dict.get? (postKwargs c b t.pre.2) "request_param" = none := by
      have h3 := t.hpre
      have h4 : t.pre.2 = prePostArgs (preKwargs c b) := by
        unfold authorizationPre at h3
        split at h3
        · cases h3
        · split at h3
          · cases h3
          · injection h3 with h3
            exact (congrArg Prod.snd h3).symm
      have h5 : preKwargs c b = [("behaviour_args", .obj b)] := by
        unfold preKwargs methodArgs
        rw [hpl.pre]
      have h6 : prePostArgs [("behaviour_args", .obj b)] = [] := rfl
      unfold postKwargs methodArgs
      rw [hpl.post, h4, h5, h6]
      show Dict.get? (Dict.update [] b) _ = _
      rw [get?_update_none _ hpl.param]
      rfl
    unfold requestObject at h1
    rw [h2] at h1
    injection h1 with h1
    exact h1.symm
  have hf : t.f = t.r := by
    rcases t.hf with ⟨_, e, _⟩ | ⟨e, _⟩
    · rw [e, hq]
    · rw [hps.2.1, hpl.push] at e; cases e
  obtain ⟨am, hd, f', i1, i2, i3⟩ := t.hinfo
  rw [hpl.authn] at i1
  subst i1
  have hf' : f' = t.r := by
    unfold authnHeader at i2
    rw [if_neg (by decide), if_pos rfl] at i2
    injection i2 with i2
    injection i2 with _ i2
    rw [← i2, hf]
  rw [hf', hpl.method] at i3
  obtain ⟨u, a1, a2, a3, a4, a5⟩ := assemble_ok i3
  refine ⟨u, ?_, t.hurl.trans a2⟩
  have a1' : (match Discovery.serviceEndpoint c'.ctx .authorization with
    | .error e => .error e
    | .ok v => asStr v) = Except.ok u := a1
  have hep : Discovery.serviceEndpoint c'.ctx .authorization = Discovery.serviceEndpoint c.ctx .authorization := by
    unfold Discovery.serviceEndpoint
    rw [t.hctx, hps.2.2.1, hps.2.2.2]
  rw [hep] at a1'
  split at a1'
  · cases a1'
  · next v hv =>
    unfold asStr at a1'
    split at a1'
    · injection a1' with a1'; subst a1'; exact hv
    · cases a1'

/-- What a successful `init_authorization` sent and stored. -/
theorem traced_request {x : Ext} {req b : Obj} {c c' : Client} {url k : String} (t : AuthTrace x req b c url k c') :
    getItem c'.db "auth_request" k = .ok (withoutEmpty t.r) ∧ Dict.get? t.r "state" = some (.str k) ∧
      (NoNonceGiven c req → x.rnd "init_nonce" ≠ "" → "nonce" ∉ (x.msg .authorization).spaced →
        Dict.get? t.r "nonce" = some (.str (x.rnd "init_nonce")) ∧ BoundNonce c'.db (x.rnd "init_nonce") k) ∧
      (FirstCodeOrIdToken t.r → ∃ n, Dict.get? t.r "nonce" = some (.str n) ∧ BoundNonce c'.db n k) ∧
      (PlainAuthorization c b → ∃ u, Discovery.serviceEndpoint c.ctx .authorization = .ok (.str u) ∧
        url = Util.getHttpUrl (x.ser .authorization) u t.r "GET") := by
  obtain ⟨hsame, hnd⟩ := offlinePrompt_keeps t.hr
  refine ⟨?_, t.hstate.2, ?_, ?_, ?_⟩
  · unfold getItem
    rw [t.hrecord]
    simp only [Dict.get?_set_self, asItem, Msg.ofDict_eq_withoutEmpty]
  · intro ⟨h1, h2⟩ hne hsp
    refine ⟨?_, t.hnonce⟩
    have ha := initArgs_nonce t.hargs h1 h2
    obtain ⟨_, _, q3⟩ := authorizationPre_state t.hpre
    have hpre := q3 _ (by rw [Dict.get?_set_ne _ _ (by decide), Dict.get?_set_ne _ _ (by decide)]; exact ha)
    have hgiven : Dict.get? t.given "nonce" = some (.str (x.rnd "init_nonce")) := by
      rcases t.hpkce with ⟨_, e⟩ | ⟨_, _, e⟩
      · rw [e]; exact hpre
      · rw [e]
        unfold withChallenge
        rw [Dict.get?_set_ne _ _ (by decide), Dict.get?_set_ne _ _ (by decide)]
        exact hpre
    rw [hsame _ (by decide)]
    refine (C38_message _ t.g (nodup_gather t.hg t.hnodup) "nonce" hsp).1 _ (gather_given t.hg hgiven) ?_ (by simp)
    simpa using hne
  · intro ⟨⟨l, hl1, hl2⟩, w, ws, hw1, hw2⟩
    obtain ⟨bn, hb1, hb2⟩ := t.hbinds
    have hbn : bn = true := by
      unfold bindsNonce at hb1
      rw [← hsame "scope" (by decide), ← hsame "response_type" (by decide), hl1, hw1] at hb1
      simp only [Discovery.inVal, hl2, decide_true] at hb1
      rcases hw2 with rfl | rfl <;> injection hb1 with hb1 <;> rw [← hb1] <;> decide
    obtain ⟨n, hn1, hn2⟩ := hb2 hbn
    exact ⟨n, by rw [hsame _ (by decide)]; exact hn1, hn2⟩
  · exact plain_url t

/-- **C67** for a client: what a successful `init_authorization` sent and stored. -/
theorem begun_request {K : String → Prop} (hK : KeySpace K) {x : Ext} {req b : Obj} {c c' : Client} {url k : String}
    (hkx : K (x.rnd "init_state")) (hp : PlainConf c.conf) (h : initAuthorization x req b c = (.ok (url, k), c')) :
    ∃ r, getItem c'.db "auth_request" k = .ok (withoutEmpty r) ∧ Dict.get? r "state" = some (.str k) ∧
      (NoNonceGiven c req → x.rnd "init_nonce" ≠ "" → "nonce" ∉ (x.msg .authorization).spaced →
        Dict.get? r "nonce" = some (.str (x.rnd "init_nonce")) ∧ BoundNonce c'.db (x.rnd "init_nonce") k) ∧
      (FirstCodeOrIdToken r → ∃ n, Dict.get? r "nonce" = some (.str n) ∧ BoundNonce c'.db n k) ∧
      (PlainAuthorization c b → ∃ u, Discovery.serviceEndpoint c.ctx .authorization = .ok (.str u) ∧
        url = Util.getHttpUrl (x.ser .authorization) u r "GET") := by
  obtain ⟨t⟩ := authTrace hK hkx hp h
  exact ⟨t.r, traced_request t⟩

/-- **C67**, what holds.  After a successful `begin` that returned `url` and `k`, the client it ended at has
stored an authorization request `r` (without empty parameters) for `k` such that: `r` has the state `k`; if
no nonce was given, `r` has the random nonce and that is bound to `k`; if the first response type is `code`
or `id_token`, `r` has a nonce, given or not, and that is bound to `k`; and if the authorization service is
used plainly, `url` is the authorization endpoint with the parameters of exactly `r`.  (What becomes of `r`
in request objects and in pushed authorization requests is the subject of C61.)
Missing: a given nonce with another order of response types, see `C67_given_nonce_violated`. -/
theorem C67_sent_and_stored_partial {K : String → Prop} (hK : KeySpace K) (h h1 : Handler) (hp : PlainHandler h)
    (x : Ext) (issuer user : String) (req b : Obj) (url k : String) (hkx : K (x.rnd "init_state"))
    (hbegin : begin_ x issuer user req b h = (.ok (url, k), h1)) :
    ∃ i c r, (clientSetup x issuer user b h).1 = .ok i ∧ Dict.get? h1.issuer2rp i = some c ∧
      getItem c.db "auth_request" k = .ok (withoutEmpty r) ∧ Dict.get? r "state" = some (.str k) ∧
      (NoNonceGiven c req → x.rnd "init_nonce" ≠ "" → "nonce" ∉ (x.msg .authorization).spaced →
        Dict.get? r "nonce" = some (.str (x.rnd "init_nonce")) ∧ BoundNonce c.db (x.rnd "init_nonce") k) ∧
      (FirstCodeOrIdToken r → ∃ n, Dict.get? r "nonce" = some (.str n) ∧ BoundNonce c.db n k) ∧
      (PlainAuthorization c b → ∃ u, Discovery.serviceEndpoint c.ctx .authorization = .ok (.str u) ∧
        url = Util.getHttpUrl (x.ser .authorization) u r "GET") := by
  obtain ⟨i, g, c, b1, b2, b3, b4⟩ := begin_ok hbegin
  have hpg : PlainHandler g := by
    have := (clientSetup_cases x issuer user b hp).1
    rw [b1] at this
    exact this
  have hpc := hpg.clients i c (Dict.get?_eq_some_mem b2)
  have hrun : initAuthorization x req b c = (.ok (url, k), (initAuthorization x req b c).2) := Prod.ext b3 rfl
  generalize (initAuthorization x req b c).2 = c' at hrun
  obtain ⟨t⟩ := authTrace hK hkx hpc hrun
  obtain ⟨bh, o1⟩ := onClient_client (m := initAuthorization x req b) b2
  rw [hrun, b4] at o1
  obtain ⟨r, r1, r2, r3, r4, r5⟩ := begun_request hK hkx hpc hrun
  have hps := aliasScope_same req c.ctx
  have hcfg : c'.ctx.config = c.ctx.config := by
    rw [t.hctx]
    unfold aliasScope
    split
    · rfl
    · split
      · split <;> rfl
      · rfl
  have hco : confOf (reBehaviour bh c') .authorization = confOf c .authorization := by
    unfold confOf
    show (Dict.get? c'.conf _).getD [] = _
    rw [t.hconf]
  have hat : ∀ n d, attr (reBehaviour bh c') .authorization n d = attr c .authorization n d := by
    intro n d
    unfold attr
    rw [hco]
  refine ⟨i, reBehaviour bh c', r, by rw [b1], o1, r1, r2, ?_, r4, ?_⟩
  · intro ⟨n1, n2⟩
    refine r3 ⟨n1, ?_⟩
    rw [← hcfg]
    exact n2
  · intro hpl
    have hpush : Dict.has c.ctx.addOn "pushed_authorization" = false := by
      have h5 : Dict.has c'.ctx.addOn "pushed_authorization" = false := hpl.push
      rw [t.hctx, hps.2.1] at h5
      exact h5
    obtain ⟨u, u1, u2⟩ := r5 ⟨hco ▸ hpl.pre, hco ▸ hpl.post, hpl.param, (hat _ _) ▸ hpl.authn, (hat _ _) ▸ hpl.method, hpush⟩
    refine ⟨u, ?_, u2⟩
    rw [← u1]
    refine serviceEndpoint_congr ?_ ?_ _
    · show c'.ctx.endpoints = _
      rw [t.hctx]; exact hps.2.2.2
    · show c'.ctx.providerInfo = _
      rw [t.hctx]; exact hps.2.2.1

/-- Non-vacuity of C67: the URL, the stored request and the binding in the small world. -/
example :
    Spec.History.Generated ((World.ext 1000 World.s1 "n1" "").rnd "init_state") ∧ PlainHandler World.handler ∧
    (begin_ (World.ext 1000 World.s1 "n1" "") "https://op.example" "" [] [] World.handler).1.toOption.map Prod.snd =
      some World.s1 ∧
    (Dict.get? inFlight.issuer2rp "https://op.example").map (fun c => (getItem c.db "auth_request" World.s1).toOption) =
      some (some [("redirect_uri", .str "https://rp.example/cb"), ("scope", .list [.str "openid"]),
        ("response_type", .list [.str "code"]), ("nonce", .str "n1"), ("state", .str World.s1), ("client_id", .str "client1")]) ∧
    (∀ c, Dict.get? inFlight.issuer2rp "https://op.example" = some c → PlainAuthorization c []) := by
  refine ⟨gen_s1, newWorld.plain, by rfl, by rfl, ?_⟩
  intro c hc
  have h1 : (Dict.get? inFlight.issuer2rp "https://op.example").map (fun c => (c.conf, c.ctx.addOn)) = some ([], []) := by rfl
  rw [hc] at h1
  injection h1 with h1
  injection h1 with h1 h2
  constructor
  · unfold confOf; rw [h1]; rfl
  · unfold confOf; rw [h1]; rfl
  · rfl
  · unfold attr confOf; rw [h1]; rfl
  · unfold attr confOf; rw [h1]; rfl
  · rw [h2]; rfl

/-- The handler after a `begin` for a hybrid flow with a nonce given by the caller. -/
def givenNonce : Handler :=
  (begin_ (World.ext 1000 World.s1 "n1" "") "https://op.example" ""
    [("response_type", .str "token id_token"), ("nonce", .str "mine")] [] World.handler).2

/-- **C67** is violated for a given nonce: with the response type `token id_token` the nonce that is sent is not
bound to the session (`id_token token` would do). -/
theorem C67_given_nonce_violated :
    (begin_ (World.ext 1000 World.s1 "n1" "") "https://op.example" ""
      [("response_type", .str "token id_token"), ("nonce", .str "mine")] [] World.handler).1.toOption.map Prod.snd =
      some World.s1 ∧
    (Dict.get? givenNonce.issuer2rp "https://op.example").map
      (fun c => (getItem c.db "auth_request" World.s1).toOption.map (fun r => Dict.get? r "nonce")) =
      some (some (some (.str "mine"))) ∧
    (Dict.get? givenNonce.issuer2rp "https://op.example").map (fun c => (getStateByX c.db "mine" .nonce).toOption) =
      some none := by
  refine ⟨by rfl, by rfl, by rfl⟩

/-! ## C21: PKCE -/

/-- PKCE is enabled for a client. -/
def Pkce (c : Client) : Prop := Dict.has c.ctx.addOn "pkce" = true

/-- The request message keeps the parameters of PKCE as they are. -/
def PlainChallenge (x : Ext) : Prop :=
  "code_challenge" ∉ (x.msg .authorization).spaced ∧ "code_challenge_method" ∉ (x.msg .authorization).spaced

/-- What is stored of session `k` about PKCE: the request sent has the challenge of the verifier `v` by the method `m`,
and the session has `v`. -/
structure Challenged (x : Ext) (db : DB) (k m v : String) : Prop where
  supported : m ∈ ["S256", "S384", "S512"]
  request : ∃ r, getItem db "auth_request" k = .ok r ∧ Dict.get? r "code_challenge" = some (.str (x.challenge m v)) ∧
    Dict.get? r "code_challenge_method" = some (.str m)
  verifier : ∃ o, getItem db "pkce" k = .ok o ∧ Dict.get? o "code_verifier" = some (.str v)

theorem get?_withoutEmpty {r : Obj} (hn : (Dict.keys r).Nodup) {p s : String} (h : Dict.get? r p = some (.str s)) (hs : s ≠ "") :
    Dict.get? (withoutEmpty r) p = some (.str s) := by
  rw [← Msg.ofDict_eq_withoutEmpty, Msg.get?_ofDict hn, h]
  have : Msg.emptyVal (.str s) = false := by
    rw [← Bool.not_eq_true, Msg.emptyVal_iff]; simp [hs]
  simp [Option.filter, this]

/-- Starting a session with PKCE. -/
theorem begun_challenged {K : String → Prop} (hK : KeySpace K) {x : Ext} {req b : Obj} {c c' : Client} {url k : String}
    (hkx : K (x.rnd "init_state")) (hp : PlainConf c.conf) (h : initAuthorization x req b c = (.ok (url, k), c'))
    (hpk : Pkce c) (hx : PlainChallenge x) (hdef : (Dict.keys (x.msg .authorization).defaults).Nodup)
    (hv : x.rnd "code_verifier" ≠ "") (hch : ∀ m, x.challenge m (x.rnd "code_verifier") ≠ "") :
    Challenged x c'.db k (pkceMethod c.ctx) (x.rnd "code_verifier") := by
  obtain ⟨t⟩ := authTrace hK hkx hp h
  have hps := aliasScope_same req c.ctx
  have hm : pkceMethod (aliasScope req c.ctx) = pkceMethod c.ctx := by
    unfold pkceMethod addOnConf
    rw [hps.2.1]
  have hpk' : Dict.has (aliasScope req c.ctx).addOn "pkce" = true := by rw [hps.2.1]; exact hpk
  obtain ⟨hsame, hnd⟩ := offlinePrompt_keeps t.hr
  have hgn := nodup_gather t.hg t.hnodup
  have hrn : (Dict.keys t.r).Nodup := hnd (by unfold MsgType.make; exact Dict.nodup_update hdef _)
  rcases t.hpkce with ⟨e, _⟩ | ⟨_, hcc, hgiven⟩
  · rw [hpk'] at e; cases e
  · rw [hm] at hcc
    have hmne : pkceMethod c.ctx ≠ "" := by
      intro e
      rw [e] at hcc
      revert hcc
      decide
    have hreq : ∀ p s, p ∉ (x.msg .authorization).spaced → p ≠ "prompt" → s ≠ "" → Dict.get? t.given p = some (.str s) →
        Dict.get? (withoutEmpty t.r) p = some (.str s) := by
      intro p s hsp hpr hs hg
      refine get?_withoutEmpty hrn ?_ hs
      rw [hsame _ hpr]
      exact (C38_message _ t.g hgn p hsp).1 _ (gather_given t.hg hg) (by simpa using hs) (by simp)
    refine ⟨hcc, ⟨withoutEmpty t.r, ?_, ?_, ?_⟩, ⟨Msg.ofDict (pkceItem x (aliasScope req c.ctx)), ?_, ?_⟩⟩
    · unfold getItem
      rw [t.hrecord]
      simp only [Dict.get?_set_self, asItem, Msg.ofDict_eq_withoutEmpty]
    · refine hreq _ _ hx.1 (by decide) (hch _) ?_
      rw [hgiven]
      unfold withChallenge
      rw [Dict.get?_set_ne _ _ (by decide), Dict.get?_set_self, hm]
    · refine hreq _ _ hx.2 (by decide) hmne ?_
      rw [hgiven]
      unfold withChallenge
      rw [Dict.get?_set_self, hm]
    · unfold getItem
      rw [t.hrecord, hpk', if_pos rfl]
      simp only [Dict.get?_set_ne _ _ (show "auth_request" ≠ "pkce" by decide), Dict.get?_set_self, asItem]
    · refine Msg.get?_ofDict_some rfl ?_
      rw [← Bool.not_eq_true, Msg.emptyVal_iff]
      simp [hv]

/-- The token request of a client with PKCE carries the stored verifier of the session. -/
theorem token_verifier (x : Ext) (c : Client) (k v : String) (hk : k ≠ "") (hm : PlainTokenRequest x) (hpk : Pkce c)
    (hv : ∃ o, getItem c.db "pkce" k = .ok o ∧ Dict.get? o "code_verifier" = some (.str v)) :
    (getTokens x k c).2.log = c.log ∨
    ∃ s url req, (getTokens x k c).2.log = c.log ++ [s] ∧ s.srv = .accesstoken ∧
      Discovery.serviceEndpoint c.ctx .accesstoken = .ok (.str url) ∧ Spec.Wire.Carries x s url req ∧
      Dict.get? req "code_verifier" = some (.str v) := by
  unfold getTokens
  cases ha : tokenArgs k c with
  | error e => left; rw [ask_bind_error ha]
  | ok args =>
  rw [ask_bind_ok ha]
  cases hb : clientAuthnMethod c.ctx.behaviour with
  | error e => left; rw [ask_bind_error (by simpa using hb)]
  | ok am =>
  rw [ask_bind_ok (by simpa using hb)]
  have hlog := doRequest_log (x := x) (srv := .accesstoken) (args := args) (o := { authnMethod := am })
    (kwargs := [("state", .str k)]) (frame_request_reading (Or.inl rfl) _ _ _) c
  rw [refused_snd]
  rcases hlog with hlog | ⟨info, c1, hg, hlog⟩
  · exact Or.inl hlog
  · right
    have hargs : (Dict.keys args).Nodup ∧ Dict.get? args "state" = some (.str k) := by
      unfold tokenArgs at ha
      repeat (split at ha; · cases ha)
      injection ha with ha
      subst ha
      exact ⟨by simp [Dict.keys], rfl⟩
    obtain ⟨url, req0, m, h0, g1, g2, g3, g4⟩ := token_sent hargs.1 hg
    obtain ⟨-, -, g5⟩ := token_construct hargs.1 g1
    obtain ⟨item, w, i1, i2, i3⟩ := g5 hpk hk (hm.2 _ (by simp)) hargs.2
    obtain ⟨o, o1, o2⟩ := hv
    rw [o1] at i1
    injection i1 with i1
    subst i1
    rw [o2] at i2
    injection i2 with i2
    subst i2
    refine ⟨_, url, info.request, hlog, rfl, g2, g4, ?_⟩
    rw [authnHeader_keeps g3 (by decide)]
    exact i3

/-- **C21** (the verifier sent matches the challenge of the same session).  A handler is made; any calls are
made; `begin` returns `k` for a client with PKCE; any calls are made, for this and other sessions and
providers.  Then the client kept for the session has the authorization request that was made for `k`, with the
challenge of a verifier `v` by the method of the client, a supported one, and if fetching the tokens of `k` sends anything, it is a
token request that carries `v`. -/
theorem C21_verifier_matches {K : String → Prop} (hK : KeySpace K) (h0 : Handler) (hnew : NewHandler h0)
    (before : List (Ext × Call)) (x : Ext) (issuer user : String) (req b : Obj) (url k : String) (h1 : Handler)
    (hbefore : ∀ xc ∈ before, CallOk K k xc) (hkx : K (x.rnd "init_state"))
    (hbegin : begin_ x issuer user req b (run before h0) = (.ok (url, k), h1))
    (i : String) (hsetup : (clientSetup x issuer user b (run before h0)).1 = .ok i) (hne : i ≠ "")
    (hname : NamedAfterIssuer h1 i)
    (c1 : Client) (hc1 : Dict.get? h1.issuer2rp i = some c1) (hpk1 : Pkce c1)
    (hx : PlainChallenge x) (hdef : (Dict.keys (x.msg .authorization).defaults).Nodup)
    (hv : x.rnd "code_verifier" ≠ "") (hch : ∀ m, x.challenge m (x.rnd "code_verifier") ≠ "")
    (after : List (Ext × Call)) (hafter : ∀ xc ∈ after, CallOk K k xc) (hkeep : NeverReplaced i after h1) :
    ∃ c2 m v, Dict.get? (run after h1).issuer2rp i = some c2 ∧ m = pkceMethod c2.ctx ∧ Challenged x c2.db k m v ∧
      ∀ y, PlainTokenRequest y →
        (getTokens y k c2).2.log = c2.log ∨
        ∃ s u r, (getTokens y k c2).2.log = c2.log ++ [s] ∧ s.srv = .accesstoken ∧
          Discovery.serviceEndpoint c2.ctx .accesstoken = .ok (.str u) ∧ Spec.Wire.Carries y s u r ∧
          Dict.get? r "code_verifier" = some (.str v) := by
  have hk : K k := by
    obtain ⟨_, _, _, _, _, b3, _⟩ := begin_ok hbegin
    exact init_key b3 ▸ hkx
  have hi0 : Inv K k none (run before h0) :=
    inv_run hK hk before (inv_new hnew.empty hnew.plain) hbefore (fun _ _ _ hw => by cases hw)
  obtain ⟨c, c', a1, a2, a3, ⟨bh, a4⟩, a5⟩ := inv_begun hK hkx hi0 hbegin hsetup hne hname
  have hi2 := inv_run hK hk after a5 hafter (fun i' p q hw => by
    injection hw with hw
    injection hw with hw _
    subst hw
    exact hkeep)
  have hpkc : Pkce c := by
    rw [hc1] at a4
    injection a4 with a4
    subst a4
    obtain ⟨t⟩ := authTrace hK hkx a3 a1
    have h5 : Dict.has c'.ctx.addOn "pkce" = true := hpk1
    rw [t.hctx, (aliasScope_same req c.ctx).2.1] at h5
    exact h5
  obtain ⟨d1, ⟨r, d2, d3, d4⟩, ⟨o, d5, d6⟩⟩ := begun_challenged hK hkx a3 a1 hpkc hx hdef hv hch
  obtain ⟨db, e1, _, e3, e4⟩ := hi2.here i _ _ rfl
  obtain ⟨c2', hc2, hsame⟩ := hasClient_run after a5.plain ⟨c1, hc1, FrameRel.refl _⟩ (fun xc hx => drawn_of_ok hK (hafter xc hx)) hkeep
  have hpk2 : Pkce c2' := by
    obtain ⟨bh, hbh⟩ := hsame.ctx
    unfold Pkce
    rw [hbh]
    exact hpk1
  rw [get?_stores] at e1
  cases hc : Dict.get? (run after h1).issuer2rp i with
  | none => rw [hc] at e1; cases e1
  | some c2 =>
    rw [hc] at e1
    injection e1 with e1
    subst e1
    have hmeth : pkceMethod c.ctx = pkceMethod c2.ctx := by
      have h5 : c2.ctx.addOn = c.ctx.addOn := by
        rw [hc] at hc2
        injection hc2 with hc2
        subst hc2
        obtain ⟨bh, hbh⟩ := hsame.ctx
        obtain ⟨t⟩ := authTrace hK hkx a3 a1
        have h6 : c1.ctx.addOn = c'.ctx.addOn := by
          rw [hc1] at a4
          injection a4 with a4
          subst a4
          rfl
        rw [hbh]
        show c1.ctx.addOn = _
        rw [h6, t.hctx, (aliasScope_same req c.ctx).2.1]
      unfold pkceMethod addOnConf
      rw [h5]
    refine ⟨c2, _, _, rfl, hmeth, ⟨d1, ⟨r, e3.trans d2, d3, d4⟩, ⟨o, e4.trans d5, d6⟩⟩, fun y hy => ?_⟩
    rw [hc] at hc2
    injection hc2 with hc2
    subst hc2
    exact token_verifier y c2 k _ (hK.nonempty _ hk) hy hpk2 ⟨o, e4.trans d5, d6⟩

/-- A handler whose clients use PKCE with the given method. -/
def pkceHandler (method : String) : Handler :=
  { World.handler with configs := [("", { World.conf with
      addOn := [("pkce", .obj [("code_challenge_length", .int 64), ("code_challenge_method", .str method)])] })] }

/-- It after a `begin`. -/
def pkceInFlight : Handler :=
  (begin_ (World.ext 1000 World.s1 "n1" "") "https://op.example" "" [] [] (run earlier (pkceHandler "S256"))).2

theorem newPkce (m : String) : NewHandler (pkceHandler m) := by
  refine ⟨rfl, ⟨?_, ?_⟩⟩
  · intro n cc hm
    have : (n, cc) = ("", { World.conf with
      addOn := [("pkce", .obj [("code_challenge_length", .int 64), ("code_challenge_method", .str m)])] }) := by
      simpa [pkceHandler] using hm
    injection this with _ h2
    subst h2
    intro o ho
    cases ho
  · intro i c hm
    simp [pkceHandler, World.handler] at hm

set_option maxRecDepth 20000 in
/-- Non-vacuity of C21: in the small world the session is started with PKCE, another session is started and
finalized, and the token request for the first session carries the first session's verifier. -/
example :
    (begin_ (World.ext 1000 World.s1 "n1" "") "https://op.example" "" [] [] (run earlier (pkceHandler "S256"))).1.toOption.map Prod.snd =
      some World.s1 ∧
    (∀ c, Dict.get? pkceInFlight.issuer2rp "https://op.example" = some c → Pkce c ∧ c.ctx.issuer = "https://op.example") ∧
    PlainChallenge (World.ext 1000 World.s1 "n1" "") ∧ PlainTokenRequest (World.ext 1003 "" "" "n1") ∧
    (Dict.get? (run later pkceInFlight).issuer2rp "https://op.example").bind (fun c => (c.log[6]?).map (fun s => (s.url, s.body))) =
      some ("https://op.example/token", some (.text ("redirect_uri=https%3A%2F%2Frp.example%2Fcb&client_id=client1&" ++
        "state=abcdefghijklmnopqrstuvwxyzABCDE1&code=code1&grant_type=authorization_code&" ++
        "code_verifier=verifier-abcdefghijklmnopqrstuvwxyzABCDE1"))) := by
  refine ⟨by rfl, ?_, by unfold PlainChallenge; decide, by unfold PlainTokenRequest; decide, ?_⟩
  · intro c hc
    have h1 : (Dict.get? pkceInFlight.issuer2rp "https://op.example").map
      (fun c => (Dict.has c.ctx.addOn "pkce", c.ctx.issuer)) = some (true, "https://op.example") := by rfl
    rw [hc] at h1
    injection h1 with h1
    injection h1 with h1 h2
    exact ⟨h1, h2⟩
  · rfl

/-- **C21** (an unsupported method is refused).  With any other method `begin` does not succeed, whatever
else happens. -/
theorem C21_unsupported_refused {K : String → Prop} (hK : KeySpace K) (x : Ext) (req b : Obj) (c : Client)
    (hkx : K (x.rnd "init_state")) (hp : PlainConf c.conf) (hpk : Pkce c)
    (hm : pkceMethod c.ctx ∉ ["S256", "S384", "S512"]) :
    ∃ e, (initAuthorization x req b c).1 = .error e := by
  cases hr : (initAuthorization x req b c).1 with
  | error e => exact ⟨e, rfl⟩
  | ok r =>
    exfalso
    obtain ⟨url, k⟩ := r
    obtain ⟨t⟩ := authTrace hK hkx hp (Prod.ext hr rfl)
    have hps := aliasScope_same req c.ctx
    have hm' : pkceMethod (aliasScope req c.ctx) = pkceMethod c.ctx := by
      unfold pkceMethod addOnConf
      rw [hps.2.1]
    rcases t.hpkce with ⟨e, _⟩ | ⟨_, hcc, _⟩
    · rw [hps.2.1, hpk] at e; cases e
    · rw [hm'] at hcc; exact hm hcc

/-- The same circumstances with another random verifier. -/
def withVerifier (x : Ext) (v : String) : Ext := { x with rnd := fun n => if n = "code_verifier" then v else x.rnd n }

theorem gather_congr {x : Ext} {a b : Client} (h1 : a.ctx = b.ctx) (h2 : a.conf = b.conf) (srv : Srv) (args : Obj) :
    gatherRequestArgs x a srv args = gatherRequestArgs x b srv args := by
  have hf : ∀ p, fallback a srv p = fallback b srv p := by
    intro p
    unfold fallback confRequestArgs confOf
    rw [h1, h2]
  have hl : ∀ ps args, gatherLoop a srv ps args = gatherLoop b srv ps args := by
    intro ps
    induction ps with
    | nil => intro args; rfl
    | cons p ps ih =>
      intro args
      unfold gatherLoop
      rw [hf p]
      split
      · exact ih _
      · split
        · exact ih _
        · exact ih _
  unfold gatherRequestArgs
  rw [hl, h1]

theorem withVerifier_rnd (x : Ext) (v n : String) (h : n ≠ "code_verifier") : (withVerifier x v).rnd n = x.rnd n := by
  simp [withVerifier, h]

/-- **C21** (the verifier is not part of the authorization request).  Two runs in the same circumstances, with
different verifiers that have the same challenge, send the same: the URL of the front channel does not depend
on the verifier but through its challenge, and neither do the HTTP requests (pushed authorization). -/
theorem C21_verifier_not_sent {K : String → Prop} (hK : KeySpace K) (x : Ext) (v : String) (req b : Obj) (c c1 c2 : Client)
    (url1 url2 k1 k2 : String) (hkx : K (x.rnd "init_state")) (hp : PlainConf c.conf)
    (hau : attr c .authorization "default_authn_method" "" = "")
    (hch : x.challenge (pkceMethod c.ctx) v = x.challenge (pkceMethod c.ctx) (x.rnd "code_verifier"))
    (h1 : initAuthorization x req b c = (.ok (url1, k1), c1))
    (h2 : initAuthorization (withVerifier x v) req b c = (.ok (url2, k2), c2)) :
    url1 = url2 ∧ k1 = k2 ∧ c1.log = c2.log := by
  obtain ⟨t⟩ := authTrace hK hkx hp h1
  obtain ⟨u⟩ := authTrace (x := withVerifier x v) hK (by simpa [withVerifier] using hkx) hp h2
  have hk : k1 = k2 := by
    rw [t.hk, u.hk, withVerifier_rnd _ _ _ (by decide)]
  subst hk
  have ha : t.args = u.args := by
    have h3 := u.hargs
    unfold initArgs at h3
    rw [withVerifier_rnd _ _ _ (by decide)] at h3
    have h4 : initArgs x c.ctx req = .ok u.args := h3
    rw [t.hargs] at h4
    injection h4
  have hru : t.ru = u.ru := by
    have h3 := u.hru
    rw [← ha, t.hru] at h3
    injection h3
  have hpre : t.pre = u.pre := by
    have h3 := u.hpre
    rw [← ha, ← hru, withVerifier_rnd _ _ _ (by decide), t.hpre] at h3
    injection h3
  have hm' : pkceMethod (aliasScope req c.ctx) = pkceMethod c.ctx := by
    unfold pkceMethod addOnConf
    rw [(aliasScope_same req c.ctx).2.1]
  have hgv : t.given = u.given := by
    rcases t.hpkce with ⟨e1, e2⟩ | ⟨e1, _, e2⟩ <;> rcases u.hpkce with ⟨f1, f2⟩ | ⟨f1, _, f2⟩
    · rw [e2, f2, hpre]
    · rw [e1] at f1; cases f1
    · rw [e1] at f1; cases f1
    · rw [e2, f2, hpre]
      unfold withChallenge
      have h3 : (withVerifier x v).rnd "code_verifier" = v := by simp [withVerifier]
      have h4 : (withVerifier x v).challenge = x.challenge := rfl
      rw [h3, h4, hm', hch]
  have hg : t.g = u.g := by
    have h3 := u.hg
    have h4 : gatherRequestArgs x u.cg .authorization u.given = .ok u.g := h3
    rw [← hgv, gather_congr (u.hcg.1.trans t.hcg.1.symm) (u.hcg.2.trans t.hcg.2.symm), t.hg] at h4
    injection h4
  have hr : t.r = u.r := by
    have h3 := u.hr
    have h4 : offlinePrompt (x.msg .authorization) ((x.msg .authorization).make u.g) = .ok u.r := h3
    rw [← hg, t.hr] at h4
    injection h4
  have hq : t.q = u.q := by
    have h3 := u.hq
    have h4 : requestObject x (aliasScope req c.ctx) u.r (postKwargs c b u.pre.2) = .ok u.q := h3
    rw [← hr, ← hpre, t.hq] at h4
    injection h4
  have hf : t.f = u.f ∧ c1.log = c2.log := by
    rcases t.hf with ⟨e1, e2, e3⟩ | ⟨e1, body, ur, resp, e2, e3, e4, e5, e6⟩ <;>
      rcases u.hf with ⟨f1, f2, f3⟩ | ⟨f1, body', ur', resp', f2, f3, f4, f5, f6⟩
    · exact ⟨by rw [e2, f2, hq], by rw [e3, f3]⟩
    · rw [e1] at f1; cases f1
    · rw [e1] at f1; cases f1
    · have f2 : parBody x (aliasScope req c.ctx) u.q = .ok body' := f2
      rw [← hq, e2] at f2
      injection f2 with f2
      subst f2
      rw [e3] at f3
      injection f3 with f3
      injection f3 with f3
      subst f3
      have f4 : x.http c.log _ = .ok resp' := f4
      rw [e4] at f4
      injection f4 with f4
      subst f4
      have f5 : parAnswer x (aliasScope req c.ctx) u.q resp = .ok u.f := f5
      rw [← hq, e5] at f5
      injection f5 with f5
      exact ⟨f5, by rw [e6, f6]⟩
  refine ⟨?_, rfl, hf.2⟩
  obtain ⟨am, hd, f', i1, i2, i3⟩ := t.hinfo
  obtain ⟨am', hd', f'', j1, j2, j3⟩ := u.hinfo
  rw [hau] at i1 j1
  subst i1; subst j1
  have hf1 : f' = t.f := by
    simp [authnHeader] at i2
    exact i2.2.symm
  have hf2 : f'' = u.f := by
    simp [authnHeader] at j2
    exact j2.2.symm
  obtain ⟨w1, g1, g2, _⟩ := assemble_ok i3
  obtain ⟨w2, g3, g4, _⟩ := assemble_ok j3
  have hw : w1 = w2 := by
    unfold targetOf endpointOf at g1 g3
    rw [t.hctx] at g1
    rw [u.hctx] at g3
    rw [g1] at g3
    injection g3
  refine t.hurl.trans (Eq.trans ?_ u.hurl.symm)
  rw [g2, g4, hf1, hf2, hw, hf.1]
  rfl

/-- Non-vacuity: a client that was set up with the method `plain` is refused; with equal challenges two different
verifiers give the same URL. -/
example :
    (begin_ (World.ext 1000 World.s1 "n1" "") "https://op.example" "" [] [] (pkceHandler "plain")).1.toOption = none ∧
    (Dict.get? (begin_ (World.ext 1000 World.s1 "n1" "") "https://op.example" "" [] [] (pkceHandler "plain")).2.issuer2rp
      "https://op.example").map (fun c => (Dict.has c.ctx.addOn "pkce", pkceMethod c.ctx)) = some (true, "plain") := by
  refine ⟨by rfl, by rfl⟩

/-- Circumstances in which all verifiers have the same challenge. -/
def sameChallenge : Ext := { World.ext 1000 World.s1 "n1" "" with challenge := fun _ _ => "c" }

example : (begin_ sameChallenge "https://op.example" "" [] [] (pkceHandler "S256")).1.toOption.isSome = true ∧
    (begin_ (withVerifier sameChallenge "other") "https://op.example" "" [] [] (pkceHandler "S256")).1.toOption.isSome = true := by
  refine ⟨by rfl, by rfl⟩

end Verif.Props
