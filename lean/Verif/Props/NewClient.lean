import Verif.Lemmas.Answer
import Verif.Props.Discovery
import Verif.Props.Registration
import Verif.Props.Finalize
import Verif.Props.Requests
import Verif.Props.InFlight
/-!
# C83: setting up a client for a provider
-/

namespace Verif.Props
open Verif Verif.Service Verif.Handler Verif.StateInterface Verif.Spec.Wire Verif.Spec.Discovery

/-! ## Specification -/

/-- The configuration a new client for `issId` is made of: its own, or the default one with the issuer filled in. -/
def ConfiguredFor (h : Handler) (issId : String) (cc : ClientConf) : Prop :=
  Dict.get? h.configs issId = some cc ∨
  (Dict.get? h.configs issId = none ∧ ∃ cc0, Dict.get? h.configs "" = some cc0 ∧
    cc = { cc0 with config := Dict.set cc0.config "issuer" (.str issId) })

/-- The text configured as `k`, or nothing. -/
def Configured (cc : ClientConf) (k s : String) : Prop :=
  Dict.get? cc.config k = some (.str s) ∨ (s = "" ∧ ∀ t, Dict.get? cc.config k ≠ some (.str t))

/-- The metadata is looked up at `iss`: a configured discovery URL, otherwise the issuer. -/
def LooksAt (cc : ClientConf) (issuer iss : String) : Prop :=
  Dict.get? cc.config "srv_discovery_url" = some (.str iss) ∨
  (iss = issuer ∧ ∀ t, Dict.get? cc.config "srv_discovery_url" ≠ some (.str t))

/-- The HTTP request `s` asks `iss` for its metadata. -/
def AsksMetadata (iss : String) (s : Sent) : Prop :=
  s.srv = .providerInfo ∧ s.method = "GET" ∧ s.body = none ∧
  ∃ base, ((iss = base ∧ ¬ ∃ t, base = t ++ "/") ∨ iss = base ++ "/") ∧ s.url = base ++ "/.well-known/openid-configuration"

/-- How the client `c` got the metadata of its provider, kept as `i`: from the configuration, without a request, or from
the answer to exactly one request to the issuer `issuer` (or the configured discovery URL). -/
inductive GotMetadata (x : Ext) (cc : ClientConf) (issuer : String) (before : List Sent) (c : Client) (i : String) :
    List Sent → Prop
  | configured (pi : Obj) : Dict.get? cc.config "provider_info" = some (.obj pi) → pi ≠ [] → c.ctx.providerInfo = pi →
      (Dict.get? pi "issuer" = some (.str i) ∨ (Dict.get? pi "issuer" = none ∧ i = issuer)) →
      GotMetadata x cc issuer before c i []
  | asked (iss : String) (s : Sent) (rt : HttpResp) :
      (∀ pi, Dict.get? cc.config "provider_info" = some (.obj pi) → pi = []) →
      LooksAt cc issuer iss → AsksMetadata iss s → x.http before s = .ok rt →
      Dict.get? c.ctx.providerInfo "issuer" = some (.str i) →
      ((∀ al, Dict.get? cc.config "allow" = some (.obj al) → Dict.get? al "issuer_mismatch" = none) →
        SameIssuer i iss ∧ c.ctx.issuer = i) →
      (rt.status ∈ SUCCESSFUL → ∃ d p, Read x d .providerInfo rt p c.ctx.providerInfo) →
      GotMetadata x cc issuer before c i [s]

/-- The issuer the configuration names: directly, otherwise in the configured metadata. -/
def NamedIssuer (cc : ClientConf) (iss : String) : Prop :=
  (iss ≠ "" ∧ Dict.get? cc.config "issuer" = some (.str iss)) ∨
  ((∀ t, Dict.get? cc.config "issuer" = some (.str t) → t = "") ∧
    ((∃ pi, Dict.get? cc.config "provider_info" = some (.obj pi) ∧ Dict.get? pi "issuer" = some (.str iss)) ∨
     (iss = "" ∧ ∀ pi, Dict.get? cc.config "provider_info" = some (.obj pi) → ∀ t, Dict.get? pi "issuer" ≠ some (.str t))))

/-- The attributes of a client that are looked at before the configured registration parameters. -/
def attributeNames : List String :=
  ["client_id", "client_secret", "client_secret_expires_at", "issuer", "redirect_uris", "post_logout_redirect_uris", "provider_info",
   "behaviour", "callback", "register_args", "registration_response", "registration_access_token", "client_preferences", "allow",
   "jwks_uri", "base_url", "config", "state"]

/-- What the configuration says about the registration service. -/
def registrationConf (cc : ClientConf) : Obj := (Dict.get? cc.srvConf "registration").getD []

/-- The registration request `req` of the client `c`: what the caller gave is registered, if it is a registration parameter;
so is what is configured for the client; nothing else of the caller's is sent. -/
structure RegistrationRequest (x : Ext) (cc : ClientConf) (b : Obj) (c : Client) (req : Obj) : Prop where
  given : (Dict.keys b).Nodup → ∀ p v, Dict.get? b p = some v → p ∈ (x.msg .registration).params →
    v.truthy = true → v ≠ .list [.str ""] → p ∉ ["jwks", "grant_types"] → p ∉ (x.msg .registration).spaced →
    Dict.get? req p = some v
  unknown : (Dict.keys b).Nodup → ∀ p, p ∉ (x.msg .registration).params → p ∉ (x.msg .registration).spaced →
    p ∉ Registration.CALLBACK_URIS → p ∉ ["jwks", "jwks_uri", "grant_types"] →
    Dict.get? req p = Dict.get? (x.msg .registration).defaults p
  configured : (Dict.keys b).Nodup → ∀ p v, Dict.get? b p = none → Dict.get? c.ctx.behaviour p = none →
    Dict.get? c.ctx.clientPreferences p = none → Dict.get? cc.config p = some v → p ∈ (x.msg .registration).params →
    v.truthy = true → v ≠ .list [.str ""] → p ∉ (x.msg .registration).spaced →
    (p ∈ Registration.CALLBACK_URIS ∨ (p ∉ attributeNames ∧ p ∉ ["jwks", "grant_types"] ∧
      ∀ o, Dict.get? (registrationConf cc) "request_args" = some (.obj o) → Dict.get? o p = none)) →
    Dict.get? req p = some v

/-- How the client `c` got its identity: from the configuration, without a request, or from the answer to exactly one
registration request. -/
inductive GotIdentity (x : Ext) (cc : ClientConf) (b : Obj) (before : List Sent) (c : Client) : List Sent → Prop
  | configured (cid sec : String) : cid ≠ "" → Configured cc "client_id" cid → Configured cc "client_secret" sec →
      c.ctx.clientId = cid → c.ctx.clientSecret = sec → GotIdentity x cc b before c []
  | registered (s : Sent) (url : String) (req : Obj) (rt : HttpResp) (v : Obj) : Configured cc "client_id" "" →
      s.srv = .registration → Carries x s url req → Discovery.serviceEndpoint c.ctx .registration = .ok (.str url) →
      x.http before s = .ok rt → (rt.status ∈ SUCCESSFUL → ∃ d p, Read x d .registration rt p v) →
      (∀ cid, Dict.get? v "client_id" = some (.str cid) → cid ≠ "" → c.ctx.clientId = cid ∧
        ∀ sec, Dict.get? v "client_secret" = some (.str sec) → sec ≠ "" → c.ctx.clientSecret = sec) →
      ((∀ t, Dict.get? (registrationConf cc) "default_authn_method" ≠ some (.str t)) → RegistrationRequest x cc b c req) →
      GotIdentity x cc b before c [s]

/-- The relation of a link to the issuer of a user (OpenID Connect Discovery 1.0, section 2). -/
def issuerRelation : String := "http://openid.net/specs/connect/1.0/issuer"

/-- The issuer of a user, given the answer `rt` to the WebFinger request: that of the first link with the issuer relation; the one
the configuration names if the answer has no such link, or is none that could be read. -/
inductive UsersIssuer (x : Ext) (cc : ClientConf) (rt : HttpResp) (iss : String) : Prop
  | linked (before after : List Val) (v link : Obj) : (rt.status ∈ SUCCESSFUL → ∃ d p, Read x d .webfinger rt p v) →
      Dict.get? v "links" = some (.list (before ++ .obj link :: after)) →
      (∀ l ∈ before, ∃ o, l = .obj o ∧ Dict.get? o "rel" ≠ some (.str issuerRelation)) →
      Dict.get? link "rel" = some (.str issuerRelation) → Dict.get? link "href" = some (.str iss) → UsersIssuer x cc rt iss
  | unlinked (v : Obj) (links : List Val) : (rt.status ∈ SUCCESSFUL → ∃ d p, Read x d .webfinger rt p v) →
      Dict.get? v "links" = some (.list links) →
      (∀ l ∈ links, ∃ o, l = .obj o ∧ Dict.get? o "rel" ≠ some (.str issuerRelation)) → NamedIssuer cc iss → UsersIssuer x cc rt iss
  | refused (d : Client) : NamedIssuer cc iss → d.ctx.config = cc.config → d.conf = cc.srvConf →
      ((∀ t, Dict.get? ((Dict.get? cc.srvConf "webfinger").getD []) "response_body_type" ≠ some (.str t)) →
        ∀ p v, Read x d .webfinger rt p v → Msg.isError v = true) → UsersIssuer x cc rt iss

/-- Every service sends its requests to the endpoint the metadata names for it. -/
def AsMetadata (ctx : Ctx) : Prop :=
  ∀ srv : Srv, Discovery.serviceEndpoint ctx srv = Dict.getItem ctx.providerInfo srv.endpointName

/-! ## Proof -/

theorem endpointName_of_name : ∀ s t : Srv, s.name = t.name → s.endpointName = t.endpointName := by
  intro s t h
  cases s <;> cases t <;> first | rfl | (exact absurd h (by decide))

/-- Endpoints that are those of the metadata. -/
def NamedIn (pi : Obj) (e : Dict Val) : Prop :=
  ∀ n v, Dict.get? e n = some v → ∃ s : Srv, s.name = n ∧ Dict.get? pi s.endpointName = some v

theorem namedIn_set {pi : Obj} {e : Dict Val} (h : NamedIn pi e) {s : Srv} {v : Val} (hv : Dict.get? pi s.endpointName = some v) :
    NamedIn pi (Dict.set e s.name v) := by
  intro n w hw
  by_cases hn : s.name = n
  · subst hn
    rw [Dict.get?_set_self] at hw
    cases hw
    exact ⟨s, rfl, hv⟩
  · rw [Dict.get?_set_ne _ _ hn] at hw
    exact h n w hw

theorem namedIn_setEndpoints {pi : Obj} (services : List Srv) (hn : (Dict.keys pi).Nodup) :
    ∀ (l : Obj) {e : Dict Val}, (∀ k v, (k, v) ∈ l → (k, v) ∈ pi) → NamedIn pi e →
      NamedIn pi (Discovery.setEndpoints services l e) := by
  intro l
  induction l with
  | nil => intro e _ h; exact h
  | cons p l ih =>
    intro e hl h
    obtain ⟨k, v⟩ := p
    unfold Discovery.setEndpoints
    refine ih (fun k v hm => hl k v (List.mem_cons_of_mem _ hm)) ?_
    unfold Discovery.setEndpoint
    split
    · split
      · next s hs =>
        have : s.endpointName = k := by
          have := List.find?_some hs
          simpa using this
        exact namedIn_set h (by rw [this]; exact Dict.get?_of_mem_nodup hn (hl k v (List.mem_cons_self ..)))
      · exact h
    · exact h

theorem namedIn_setAll {pi : Obj} (services : List Srv) (hn : (Dict.keys pi).Nodup) :
    ∀ (l : Obj) {e : Dict Val}, (∀ k v, (k, v) ∈ l → (k, v) ∈ pi) → NamedIn pi e →
      NamedIn pi (setAllEndpoints services l e) := by
  intro l
  induction l with
  | nil => intro e _ h; exact h
  | cons p l ih =>
    intro e hl h
    obtain ⟨k, v⟩ := p
    unfold setAllEndpoints
    refine ih (fun k v hm => hl k v (List.mem_cons_of_mem _ hm)) ?_
    split
    · have hk := Dict.get?_of_mem_nodup hn (hl k v (List.mem_cons_self ..))
      clear hl ih
      induction services generalizing e with
      | nil => exact h
      | cons s ss ihs =>
        refine ihs ?_
        show NamedIn pi (if s.endpointName = k then Dict.set e s.name v else e)
        split
        · next hs => exact namedIn_set h (by rw [hs]; exact hk)
        · exact h
    · exact h

theorem asMetadata_of {ctx : Ctx} (h : NamedIn ctx.providerInfo ctx.endpoints) : AsMetadata ctx := by
  intro srv
  unfold Discovery.serviceEndpoint
  split
  · next v hv =>
    obtain ⟨s, hs, hp⟩ := h _ _ hv
    rw [endpointName_of_name s srv hs] at hp
    split
    · unfold Dict.getItem; rw [hp]
    · rfl
  · rfl


theorem configured_confStr (cc : ClientConf) (k : String) : Configured cc k (confStr cc.config k) := by
  unfold Configured confStr
  cases h : Dict.get? cc.config k with
  | none => right; exact ⟨rfl, fun t e => by cases e⟩
  | some v => cases v <;> first | exact Or.inl rfl | (right; exact ⟨rfl, fun t e => by cases e⟩)

theorem looksAt_discoveryUrl {ctx : Ctx} {cc : ClientConf} (h : ctx.config = cc.config) :
    LooksAt cc ctx.issuer (discoveryUrl ctx).issuer ∧ ∃ iss, discoveryUrl ctx = { ctx with issuer := iss } := by
  refine ⟨?_, ?_⟩
  · unfold LooksAt discoveryUrl
    rw [h]
    cases hd : Dict.get? cc.config "srv_discovery_url" with
    | none => exact Or.inr ⟨rfl, fun t e => by cases e⟩
    | some v =>
      cases v with
      | str t => exact Or.inl rfl
      | _ => exact Or.inr ⟨rfl, fun t e => by cases e⟩
  · unfold discoveryUrl
    split
    · exact ⟨_, rfl⟩
    · exact ⟨ctx.issuer, rfl⟩

theorem asksMetadata_endpoint (ctx : Ctx) (s : Sent) (h1 : s.srv = .providerInfo) (h2 : s.method = "GET") (h3 : s.body = none)
    (h4 : s.url = Discovery.getEndpoint ctx) : AsksMetadata ctx.issuer s := by
  refine ⟨h1, h2, h3, ?_⟩
  by_cases hsl : ∃ t, ctx.issuer = t ++ "/"
  · obtain ⟨t, ht⟩ := hsl
    exact ⟨t, Or.inr ht, by rw [h4, C43_discovery_url ctx t (Or.inr ht)]⟩
  · exact ⟨ctx.issuer, Or.inl ⟨rfl, hsl⟩, by rw [h4, C43_discovery_url ctx ctx.issuer (Or.inl ⟨rfl, hsl⟩)]⟩

/-- What the setup steps leave alone. -/
def KeepsConf (c c' : Client) : Prop :=
  c'.db = c.db ∧ c'.services = c.services ∧ c'.conf = c.conf ∧ c'.cfg = c.cfg ∧ c'.ctx.config = c.ctx.config ∧
    c'.ctx.allow = c.ctx.allow

theorem refuse_ok {r : Resp} (h : refuseError r = .ok ()) : r.isError = false := by
  unfold refuseError at h
  cases hr : r.isError with
  | false => rfl
  | true => rw [hr] at h; simp only [if_true] at h; split at h <;> cases h

/-- The message an answer to a setup request is taken for. -/
theorem taken_update {x : Ext} {srv : Srv} (hs : srv = .providerInfo ∨ srv = .registration ∨ srv = .webfinger) {d c' : Client} {rt : HttpResp}
    {r0 r : Resp} {k : String} (ht : Taken x d srv rt r0) (he : r0.isError = false) (hu : update x srv r0 k d = (.ok r, c')) :
    ∃ o r', updateMsg x srv o k d = (.ok r', c') ∧
      ((o = Resp.httpObj ∧ 300 ≤ rt.status ∧ rt.status < 400) ∨
       (¬ (300 ≤ rt.status ∧ rt.status < 400) ∧ (rt.status ∈ SUCCESSFUL → ∃ p, Read x d srv rt p o))) := by
  cases ht with
  | redirect a1 a2 =>
    unfold update at hu
    have : (updateMsg x srv Resp.httpObj k >>= fun _ => (Pure.pure (Resp.http rt) : Py Client Resp)) d = (.ok r, c') := by
      rcases hs with rfl | rfl | rfl <;> exact hu
    obtain ⟨r', c4, e4, hu⟩ := Py.bind_eq_ok.1 this
    have h6 : c4 = c' := congrArg Prod.snd hu
    subst h6
    exact ⟨_, r', e4, Or.inl ⟨rfl, a1, a2⟩⟩
  | text s _ => unfold update at hu; rcases hs with rfl | rfl | rfl <;> cases hu
  | error p _ h => rw [show Resp.isError (.msg p) = Msg.isError p from rfl, h] at he; cases he
  | message p v h =>
    unfold update at hu
    obtain ⟨r', c4, e4, hu⟩ := Py.bind_eq_ok.1 hu
    have h6 : c4 = c' := congrArg Prod.snd hu
    subst h6
    exact ⟨_, r', e4, Or.inr ⟨(by have := status_lt h.1; omega), fun _ => ⟨p, h⟩⟩⟩
  | failure o h1 h2 =>
    unfold update at hu
    obtain ⟨r', c4, e4, hu⟩ := Py.bind_eq_ok.1 hu
    have h6 : c4 = c' := congrArg Prod.snd hu
    subst h6
    refine ⟨_, r', e4, Or.inr ⟨by omega, fun h => ?_⟩⟩
    have := status_lt h
    omega

theorem dynamic_spec {x : Ext} {c c' : Client} (h : dynamicDiscovery x c = (.ok (), c')) (v : Val)
    (hv : Dict.get? c'.ctx.providerInfo "issuer" = some v) (hempty : c.ctx.providerInfo = []) :
    ∃ s rt, c'.log = c.log ++ [s] ∧ AsksMetadata (discoveryUrl c.ctx).issuer s ∧ x.http c.log s = .ok rt ∧
      (Dict.get? c.ctx.allow "issuer_mismatch" = none → ∀ i, v = .str i →
        SameIssuer i (discoveryUrl c.ctx).issuer ∧ c'.ctx.issuer = i) ∧
      (rt.status ∈ SUCCESSFUL → ∃ d p, Read x d .providerInfo rt p c'.ctx.providerInfo) ∧
      c'.ctx.clientId = c.ctx.clientId ∧ c'.ctx.clientSecret = c.ctx.clientSecret ∧ c'.ctx.config = c.ctx.config ∧
      c'.ctx.registerArgs = c.ctx.registerArgs ∧ c'.ctx.clientPreferences = c.ctx.clientPreferences ∧
      c'.db = c.db ∧ c'.services = c.services ∧ c'.conf = c.conf ∧
      c'.ctx.endpoints = Discovery.setEndpoints c.services c'.ctx.providerInfo c.ctx.endpoints ∧
      c'.ctx.keyLoads = Discovery.loadKeys c'.ctx.issuer c'.ctx.providerInfo c.ctx.keyLoads ∧
      c'.ctx.registrationResponse = c.ctx.registrationResponse ∧ c'.cfg = c.cfg := by
  unfold dynamicDiscovery at h
  obtain ⟨_, c1, e1, h⟩ := Py.bind_eq_ok.1 h
  have hc1 : c1 = { c with ctx := discoveryUrl c.ctx } := (congrArg Prod.snd e1).symm
  subst hc1
  obtain ⟨r, c2, e2, h⟩ := Py.bind_eq_ok.1 h
  obtain ⟨hok, rfl⟩ := Py.lift_eq_ok.1 h
  obtain ⟨hin, info, c3, e3, rt, r0, hh, ht, hu⟩ := doRequest_taken ⟨by decide, by decide, by decide⟩ rfl e2
    (fun info c1 e => by
      have : c1 = { c with ctx := discoveryUrl c.ctx } := (congrArg Prod.snd e).symm
      rw [this])
  have hc3 : c3 = { c with ctx := discoveryUrl c.ctx } := (congrArg Prod.snd e3).symm
  have hinfo : info = { url := Discovery.getEndpoint (discoveryUrl c.ctx), method := "GET" } := by
    have := congrArg Prod.fst e3
    injection this with this
    exact this.symm
  subst hc3
  obtain ⟨iss, hiss⟩ := (looksAt_discoveryUrl (ctx := c.ctx) (cc := { config := c.ctx.config }) rfl).2
  rcases hu with ⟨he, rfl, _⟩ | ⟨_, hu⟩
  · rw [refuse_ok hok] at he; cases he
  · refine ⟨sentFor .providerInfo info, rt, ?_⟩
    have upd : ∀ (o : Obj) (d d' : Client), onCtx (Discovery.update x.regKind d.services o) d = (.ok (), d') →
        d'.log = d.log ∧ (∃ i b, d'.ctx = { d.ctx with
          issuer := i, providerInfo := o, endpoints := Discovery.setEndpoints d.services o d.ctx.endpoints,
          keyLoads := Discovery.loadKeys i o d.ctx.keyLoads, behaviour := b }) ∧
        Discovery.acceptedIssuer d.ctx o = .ok d'.ctx.issuer ∧ d'.db = d.db ∧ d'.services = d.services ∧ d'.conf = d.conf ∧
        d'.cfg = d.cfg := by
      intro o d d' hd
      unfold onCtx at hd
      have h2 := congrArg Prod.snd hd
      have h1 := congrArg Prod.fst hd
      simp only at h1 h2
      subst h2
      cases ha : Discovery.acceptedIssuer d.ctx o with
      | error e =>
        unfold Discovery.update Discovery.updateBase at h1
        rw [ha] at h1; cases h1
      | ok i =>
        obtain ⟨b, hb⟩ := Discovery.matchPreferences_frame x.regKind o { d.ctx with
          issuer := i, providerInfo := o, endpoints := Discovery.setEndpoints d.services o d.ctx.endpoints,
          keyLoads := Discovery.loadKeys i o d.ctx.keyLoads }
        have hctx : (Discovery.update x.regKind d.services o d.ctx).2 = { d.ctx with
          issuer := i, providerInfo := o, endpoints := Discovery.setEndpoints d.services o d.ctx.endpoints,
          keyLoads := Discovery.loadKeys i o d.ctx.keyLoads, behaviour := b } := by
          unfold Discovery.update Discovery.updateBase
          rw [ha]
          exact hb
        refine ⟨rfl, ⟨_, _, hctx⟩, by rw [hctx], rfl, rfl, rfl, rfl⟩
    obtain ⟨o, r', hup, ho⟩ := taken_update (Or.inl rfl) ht ‹_› hu
    simp only [updateMsg] at hup
    rw [Py.read_bind_run] at hup
    obtain ⟨_, c5, e5, hup⟩ := Py.bind_eq_ok.1 hup
    have h5 : c5 = c2 := congrArg Prod.snd hup
    subst h5
    obtain ⟨u1, ⟨i, b, hctx⟩, u2, u3, u4, u5, u6⟩ := upd _ _ _ e5
    have hpi : c5.ctx.providerInfo = o := by rw [hctx]
    rcases ho with ⟨rfl, _⟩ | ⟨_, ho⟩
    · rw [hpi] at hv
      simp [Resp.httpObj, Dict.get?] at hv
    · refine ⟨u1, ?_, hh, ?_, ?_, ?_, ?_, ?_, ?_, ?_, u3, u4, u5, ?_, ?_, ?_, u6⟩
      · exact asksMetadata_endpoint (discoveryUrl c.ctx) _ rfl (by rw [hinfo]; rfl) (by rw [hinfo]; rfl) (by rw [hinfo]; rfl)
      · rintro hal j rfl
        rw [hpi] at hv
        unfold Discovery.acceptedIssuer at u2
        rw [hv] at u2
        simp only [Discovery.verifyIssuer] at u2
        have hm : Dict.has (discoveryUrl c.ctx).allow "issuer_mismatch" = false := by
          rw [hiss, Dict.has_eq]; simp only [hal]; rfl
        rw [hm] at u2
        simp only [Bool.false_eq_true, if_false] at u2
        split at u2
        · cases u2
        · next hne =>
          injection u2 with u2
          have hsame := (Discovery.adaptIssuer_eq_iff j (discoveryUrl c.ctx).issuer).1 (by simpa using hne)
          exact ⟨hsame, by rw [← u2]; simpa using hne⟩
      · intro hst
        obtain ⟨p, hp⟩ := ho hst
        exact ⟨_, p, hpi ▸ hp⟩
      · rw [hctx, hiss]
      · rw [hctx, hiss]
      · rw [hctx, hiss]
      · rw [hctx, hiss]
      · rw [hctx, hiss]
      · rw [hctx, hiss]
      · rw [hctx, hiss]
      · rw [hctx, hiss]

theorem nodup_preferences (ctx : Ctx) : ∀ (ps : List String) {req : Obj}, (Dict.keys req).Nodup →
    (Dict.keys (Registration.addPreferences ctx ps req)).Nodup := by
  intro ps
  induction ps with
  | nil => intro req h; exact h
  | cons p ps ih =>
    intro req h
    unfold Registration.addPreferences
    split
    · exact ih h
    · split
      · exact ih (Dict.nodup_set h _ _)
      · exact ih h

theorem nodup_fill (ctx : Ctx) : ∀ (ps : List String) {req : Obj}, (Dict.keys req).Nodup →
    (Dict.keys (Registration.fillCallbackUris ctx ps req)).Nodup := by
  intro ps
  induction ps with
  | nil => intro req h; exact h
  | cons p ps ih =>
    intro req h
    unfold Registration.fillCallbackUris
    split
    · exact ih h
    · split
      · exact ih (Dict.nodup_set h _ _)
      · exact ih h

theorem nodup_jwks (ctx : Ctx) {req : Obj} (h : (Dict.keys req).Nodup) : (Dict.keys (Registration.addJwks ctx req)).Nodup := by
  unfold Registration.addJwks
  split
  · exact Dict.nodup_del h _
  · split
    · exact h
    · split
      · exact Dict.nodup_set h _ _
      · split
        · exact Dict.nodup_set h _ _
        · split
          · exact Dict.nodup_set h _ _
          · exact h

theorem jwks_other (ctx : Ctx) (req : Obj) {p : String} (hp : p ≠ "jwks" ∧ p ≠ "jwks_uri") :
    Dict.get? (Registration.addJwks ctx req) p = Dict.get? req p := by
  unfold Registration.addJwks
  split
  · exact Dict.get?_del_ne _ (Ne.symm hp.1)
  · split
    · rfl
    · split
      · exact Dict.get?_set_ne _ _ (Ne.symm hp.2)
      · split
        · exact Dict.get?_set_ne _ _ (Ne.symm hp.2)
        · split
          · exact Dict.get?_set_ne _ _ (Ne.symm hp.1)
          · rfl

theorem jwks_uri_kept (ctx : Ctx) (req : Obj) {v : Val} (h : Dict.get? req "jwks_uri" = some v) :
    Dict.get? (Registration.addJwks ctx req) "jwks_uri" = some v := by
  unfold Registration.addJwks
  rw [if_pos (by rw [Dict.has_eq, h]; rfl), Dict.get?_del_ne _ (by decide)]
  exact h

theorem post_other (req : Obj) {p : String} (hp : p ≠ "jwks" ∧ p ≠ "grant_types") :
    Dict.get? (Registration.postConstruct req) p = Dict.get? req p := by
  have h1 : Dict.get? (Registration.setGrantTypes req) p = Dict.get? req p := by
    unfold Registration.setGrantTypes
    split
    · exact Dict.get?_set_ne _ _ (Ne.symm hp.2)
    · rfl
  unfold Registration.postConstruct
  split
  · rw [Dict.get?_del_ne _ (Ne.symm hp.1), h1]
  · exact h1

theorem attribute_none (ctx : Ctx) {p : String} (h : p ∉ attributeNames) : ctx.get p = none := by
  simp only [attributeNames, List.mem_cons, List.not_mem_nil, or_false, not_or] at h
  obtain ⟨h1, h2, h3, h4, h5, h6, h7, h8, h9, h10, h11, h12, h13, h14, h15, h16, h17, h18⟩ := h
  simp [Ctx.get, *]

theorem get?_confRegister (params : List String) (config : Obj) (p : String) :
    Dict.get? (confRegister params config) p = if p ∈ params then Dict.get? config p else none := by
  induction params with
  | nil => rfl
  | cons q ps ih =>
    unfold confRegister at ih ⊢
    rw [List.filterMap_cons]
    cases hq : Dict.get? config q with
    | none =>
      simp only [Option.map_none]
      rw [ih]
      by_cases hpq : p = q
      · subst hpq; simp [hq]
      · simp [hpq]
    | some v =>
      simp only [Option.map_some]
      rw [Dict.get?_cons, ih]
      by_cases hpq : q = p
      · subst hpq; simp [hq]
      · rw [if_neg hpq]; simp [Ne.symm hpq]

theorem get?_filterKeys (f : String → Bool) (b : Obj) (p : String) :
    Dict.get? (b.filter (fun q => f q.1)) p = if f p then Dict.get? b p else none := by
  induction b with
  | nil => simp [Dict.get?]
  | cons q b ih =>
    obtain ⟨k, v⟩ := q
    rw [List.filter_cons]
    by_cases hk : f k = true
    · simp only [hk, if_true]
      rw [Dict.get?_cons, Dict.get?_cons, ih]
      by_cases hp : k = p
      · subst hp; simp [hk]
      · simp [hp]
    · simp only [hk]
      rw [if_neg (by simp), ih, Dict.get?_cons]
      by_cases hp : k = p
      · subst hp; simp [hk]
      · simp [hp]

theorem nodup_filterKeys (f : String → Bool) {b : Obj} (h : (Dict.keys b).Nodup) :
    (Dict.keys (b.filter (fun q => f q.1))).Nodup :=
  List.Nodup.sublist (List.Sublist.map _ (List.filter_sublist ..)) h

theorem pref_none (ctx : Ctx) (k : String) (h1 : Dict.get? ctx.behaviour k = none)
    (h2 : Dict.get? ctx.clientPreferences k = none) : ∀ (ps : List String) (req : Obj),
    Dict.get? req k = none → Dict.get? (Registration.addPreferences ctx ps req) k = none := by
  intro ps
  induction ps with
  | nil => intro req h; exact h
  | cons p ps ih =>
    intro req h
    rw [Registration.addPreferences]
    split
    · exact ih req h
    · split
      · next v hv =>
        refine ih _ ?_
        by_cases hpk : p = k
        · subst hpk
          rw [h1, h2] at hv
          cases hv
        · rw [Dict.get?_set_ne _ _ hpk]; exact h
      · exact ih req h

theorem pref_absent (ctx : Ctx) (k : String) : ∀ (ps : List String) (req : Obj), k ∉ ps →
    Dict.get? (Registration.addPreferences ctx ps req) k = Dict.get? req k := by
  intro ps
  induction ps with
  | nil => intro req _; rfl
  | cons p ps ih =>
    intro req h
    simp only [List.mem_cons, not_or] at h
    rw [Registration.addPreferences]
    split
    · exact ih req h.2
    · split
      · rw [ih _ h.2, Dict.get?_set_ne _ _ (Ne.symm h.1)]
      · exact ih req h.2

/-- Making the registration request changes the callbacks only. -/
theorem construct_registration {x : Ext} {args req : Obj} {c c' : Client}
    (h : construct x .registration args [] c = (.ok req, c')) :
    (∃ ca h2, c' = { c with ctx := { c.ctx with callback := ca, hash2issuer := h2 } }) ∧
    ∃ b, b = Registration.addJwks c'.ctx (Registration.fillCallbackUris c'.ctx Registration.CALLBACK_URIS
        (Registration.addPreferences c.ctx (x.msg .registration).params args)) ∧
      ∃ g, gatherRequestArgs x c' .registration b = .ok g ∧
        req = Registration.postConstruct ((x.msg .registration).make g) := by
  obtain ⟨r, c1, g, h1, h2, h3⟩ := construct_ok h
  have e3 : c1 = c' := congrArg Prod.snd h3
  subst e3
  simp only [preConstruct] at h1
  rw [Py.read_bind_run] at h1
  obtain ⟨b, c2, e1, h1⟩ := Py.bind_eq_ok.1 h1
  rw [Py.read_bind_run] at h1
  have e2 : c2 = c1 := congrArg Prod.snd h1
  subst e2
  have e4 := congrArg Prod.snd e1
  have e5 := congrArg Prod.fst e1
  have e6 := congrArg Prod.fst h1
  injection e5 with e5
  injection e6 with e6
  refine ⟨⟨_, _, e4.symm⟩, r.1, ?_, g, ?_, ?_⟩
  · have e4 : c2.ctx = Registration.addCallbacks x.hash ((Dict.keys (Registration.addPreferences c.ctx (x.msg .registration).params args)).filter
        (fun k => decide (k ∈ Registration.CALLBACK_URIS))) c.ctx := by
      rw [← (show _ = c2 from e4)]; rfl
    rw [← e6, ← e5, e4]
  · have : stateFromKwargs (x.msg .registration) r.1 [] = r.1 := by
      unfold stateFromKwargs; split <;> rfl
    rw [this] at h2
    exact h2
  · have := congrArg Prod.fst h3
    injection this with this
    exact this.symm

/-- What is given is registered. -/
theorem registration_given {x : Ext} {args req : Obj} {c c' : Client} (hn : (Dict.keys args).Nodup)
    (h : construct x .registration args [] c = (.ok req, c')) {p : String} {v : Val} (hv : Dict.get? args p = some v)
    (ht : v.truthy = true) (hne : v ≠ .list [.str ""]) (hp : p ≠ "jwks" ∧ p ≠ "grant_types") (hsp : p ∉ (x.msg .registration).spaced) :
    Dict.get? req p = some v := by
  obtain ⟨_, b, rfl, g, hg, rfl⟩ := construct_registration h
  rw [post_other _ hp]
  have h1 := Registration.pref_keep c.ctx p v (x.msg .registration).params args hv
  have h2 := Registration.fill_keep c'.ctx p Registration.CALLBACK_URIS _ (by rw [h1]; exact ht)
  rw [h1] at h2
  have h3 := show Dict.get? (Registration.addJwks c'.ctx (Registration.fillCallbackUris c'.ctx Registration.CALLBACK_URIS
      (Registration.addPreferences c.ctx (x.msg .registration).params args))) p = some v by
    by_cases hu : p = "jwks_uri"
    · subst hu; exact jwks_uri_kept _ _ h2
    · rw [jwks_other _ _ ⟨hp.1, hu⟩]; exact h2
  have hnb := nodup_jwks c'.ctx (nodup_fill c'.ctx Registration.CALLBACK_URIS (nodup_preferences c.ctx (x.msg .registration).params hn))
  refine (C38_message _ g (nodup_gather hg hnb) p hsp).1 v (gather_given hg h3) ?_ hne
  rintro rfl
  simp [Val.truthy] at ht

theorem registration_unknown {x : Ext} {args req : Obj} {c c' : Client} (hn : (Dict.keys args).Nodup)
    (h : construct x .registration args [] c = (.ok req, c')) {p : String} (hv : Dict.get? args p = none)
    (hpar : p ∉ (x.msg .registration).params) (hsp : p ∉ (x.msg .registration).spaced) (hcb : p ∉ Registration.CALLBACK_URIS)
    (hp : p ∉ ["jwks", "jwks_uri", "grant_types"]) :
    Dict.get? req p = Dict.get? (x.msg .registration).defaults p := by
  simp only [List.mem_cons, List.not_mem_nil, or_false, not_or] at hp
  obtain ⟨_, b, rfl, g, hg, rfl⟩ := construct_registration h
  rw [post_other _ ⟨hp.1, hp.2.2⟩]
  have h3 := show Dict.get? (Registration.addJwks c'.ctx (Registration.fillCallbackUris c'.ctx Registration.CALLBACK_URIS
      (Registration.addPreferences c.ctx (x.msg .registration).params args))) p = none by
    rw [jwks_other _ _ ⟨hp.1, hp.2.1⟩, Registration.fill_other _ _ _ _ hcb, pref_absent _ _ _ _ hpar]
    exact hv
  have hnb := nodup_jwks c'.ctx (nodup_fill c'.ctx Registration.CALLBACK_URIS (nodup_preferences c.ctx (x.msg .registration).params hn))
  refine (C38_message _ g (nodup_gather hg hnb) p hsp).2 (Or.inl ?_)
  exact (C38_precedence x c' .registration _ g hg p).2.2.1 h3 hpar (by rintro ⟨h | h, _⟩ <;> cases h)

theorem registration_configured {x : Ext} {args req : Obj} {c c' : Client} (hn : (Dict.keys args).Nodup)
    (h : construct x .registration args [] c = (.ok req, c')) {p : String} {v : Val} (hv : Dict.get? args p = none)
    (hb : Dict.get? c.ctx.behaviour p = none) (hcp : Dict.get? c.ctx.clientPreferences p = none)
    (hr : Dict.get? c.ctx.registerArgs p = some v) (hpar : p ∈ (x.msg .registration).params)
    (ht : v.truthy = true) (hne : v ≠ .list [.str ""]) (hsp : p ∉ (x.msg .registration).spaced)
    (hwhere : p ∈ Registration.CALLBACK_URIS ∨ (p ∉ attributeNames ∧ p ∉ ["jwks", "grant_types"] ∧
      ∀ o, Dict.get? ((Dict.get? c.conf "registration").getD []) "request_args" = some (.obj o) → Dict.get? o p = none)) :
    Dict.get? req p = some v := by
  obtain ⟨⟨ca, h2, hc'⟩, b, rfl, g, hg, rfl⟩ := construct_registration h
  have hp : p ≠ "jwks" ∧ p ≠ "grant_types" := by
    rcases hwhere with hw | ⟨_, hw, _⟩
    · constructor <;> (rintro rfl; simp [Registration.CALLBACK_URIS] at hw)
    · simpa using hw
  have hju : p ≠ "jwks_uri" := by
    rcases hwhere with hw | ⟨hw, _, _⟩
    · rintro rfl; simp [Registration.CALLBACK_URIS] at hw
    · rintro rfl; simp [attributeNames] at hw
  rw [post_other _ hp]
  have hnb := nodup_jwks c'.ctx (nodup_fill c'.ctx Registration.CALLBACK_URIS (nodup_preferences c.ctx (x.msg .registration).params hn))
  refine (C38_message _ g (nodup_gather hg hnb) p hsp).1 v ?_ (by rintro rfl; simp [Val.truthy] at ht) hne
  have h1 := pref_none c.ctx p hb hcp (x.msg .registration).params args hv
  have hr' : Dict.get? c'.ctx.registerArgs p = some v := by rw [hc']; exact hr
  by_cases hw : p ∈ Registration.CALLBACK_URIS
  · have h3 := Registration.fill_get c'.ctx p Registration.CALLBACK_URIS
      (Registration.addPreferences c.ctx (x.msg .registration).params args) (by decide) hw (by rw [h1]; rfl) v
      (by rw [hr']; simp [Registration.firstTruthy, Util.truthyO, ht])
    exact gather_given hg (by rw [jwks_other _ _ ⟨hp.1, hju⟩]; exact h3)
  · obtain ⟨hat, _, hra⟩ := hwhere.resolve_left hw
    refine ((C38_precedence x c' .registration _ g hg p).2.1 ?_ hpar).1 v ?_
    · rw [jwks_other _ _ ⟨hp.1, hju⟩, Registration.fill_other _ _ _ _ hw]
      exact h1
    · have hconf : c'.conf = c.conf := by rw [hc']
      refine ⟨_, _, (by unfold places; rw [hr']; exact rfl :
        places c' .registration p = [c'.ctx.get p, _] ++ some v :: _), ht, ?_⟩
      rw [attribute_none _ hat, hconf]
      intro o ho w hw'
      simp only [List.mem_cons, List.not_mem_nil, or_false] at ho
      rcases ho with rfl | rfl
      · cases hw'
      · change (match Dict.get? ((Dict.get? c.conf "registration").getD []) "request_args" with
          | some (.obj o) => Dict.get? o p
          | _ => none) = some w at hw'
        split at hw'
        · next o ho => rw [hra o ho] at hw'; cases hw'
        · cases hw'

theorem update_ctx (v : Obj) (ctx : Ctx) : ∃ cid sec ex rr rt kl, Registration.update v ctx =
    { ctx with clientId := cid, clientSecret := sec, clientSecretExpiresAt := ex, registrationResponse := rr, registrationAccessToken := rt, keyLoads := kl } := by
  unfold Registration.update Registration.applyClientId Registration.applySecret
  simp only
  generalize (if Dict.has v "token_endpoint_auth_method" then v
        else Dict.set v "token_endpoint_auth_method" (.str "client_secret_basic")) = r
  split <;> split <;> (try split) <;> (try split) <;> (try split) <;> exact ⟨_, _, _, _, _, _, rfl⟩

theorem update_serviceEndpoint (v : Obj) (ctx : Ctx) (s : Srv) :
    Discovery.serviceEndpoint (Registration.update v ctx) s = Discovery.serviceEndpoint ctx s := by
  obtain ⟨_, _, _, _, _, _, h⟩ := update_ctx v ctx
  rw [h]
  rfl

theorem register_spec {x : Ext} {b : Obj} {c c' : Client} (h : register x b c = (.ok (), c')) :
    (c.ctx.clientId ≠ "" ∧ c' = c) ∨
    (c.ctx.clientId = "" ∧ ∃ s url req rt v, c'.log = c.log ++ [s] ∧ s.srv = .registration ∧ Carries x s url req ∧
      Discovery.serviceEndpoint c'.ctx .registration = .ok (.str url) ∧ x.http c.log s = .ok rt ∧
      (rt.status ∈ SUCCESSFUL → ∃ d p, Read x d .registration rt p v) ∧
      (∃ ca h2, c'.ctx = Registration.update v { c.ctx with callback := ca, hash2issuer := h2 }) ∧
      (300 ≤ rt.status → rt.status < 400 → c'.ctx.clientId = "") ∧
      (∃ req0 c0, construct x .registration (b.filter (fun p => decide (p.1 ∈ (x.msg .registration).params))) [] c = (.ok req0, c0) ∧
        (getAuthnMethod c .registration = .ok "" → req = req0)) ∧
      c'.db = c.db ∧ c'.services = c.services ∧ c'.conf = c.conf) := by
  unfold register at h
  rw [Py.read_bind_run] at h
  split at h
  · next hid =>
    right
    refine ⟨hid, ?_⟩
    unfold loadRegistration at h
    obtain ⟨r, c2, e2, h⟩ := Py.bind_eq_ok.1 h
    obtain ⟨hok, rfl⟩ := Py.lift_eq_ok.1 h
    have e2 : doRequest x .registration (b.filter (fun p => decide (p.1 ∈ (x.msg .registration).params))) {} [] c = (.ok r, c2) := by
      unfold Py.try_ at e2
      split at e2
      · next a s' heq => rw [heq]; exact e2
      · next e s' heq =>
        split at e2
        · next k hk =>
          simp only at hk
          split at hk
          · injection hk with hk; subst hk; cases e2
          · cases hk
        · cases e2
    have hbuild : ∀ info c1, getRequestParameters x .registration (b.filter (fun p => decide (p.1 ∈ (x.msg .registration).params))) {} [] c = (.ok info, c1) →
        ∃ ca h2 url req req0, c1 = { c with ctx := { c.ctx with callback := ca, hash2issuer := h2 } } ∧
          Discovery.serviceEndpoint c1.ctx .registration = .ok (.str url) ∧ Carries x (sentFor .registration info) url req ∧
          construct x .registration (b.filter (fun p => decide (p.1 ∈ (x.msg .registration).params))) [] c = (.ok req0, c1) ∧
          (getAuthnMethod c .registration = .ok "" → req = req0) := by
      intro info c1 hg
      obtain ⟨am, req0, c3, hd, req', g1, g2, g3, g4⟩ := buildRequest_ok hg
      obtain ⟨⟨ca, h2, rfl⟩, -⟩ := construct_registration g2
      obtain ⟨m, h0, g5, g6, g7⟩ := getHeaders_ok g3
      obtain ⟨url, k1, k2, k3, k4⟩ := carries_assembled g4
      have hc1 : c1 = { c with ctx := { c.ctx with callback := ca, hash2issuer := h2 } } := by
        rcases g7 with ⟨_, _, g7⟩ | ⟨g7, _⟩
        · exact g7
        · simp [usesDpop, Srv.name] at g7
      subst hc1
      refine ⟨ca, h2, url, req', req0, rfl, ?_, k4, g2, fun hau => ?_⟩
      · unfold targetOf at k1
        simp only [Dict.get?, endpointOf] at k1
        split at k1
        · cases k1
        · next v hv =>
          rw [if_neg (by decide)] at hv
          unfold asStr at k1
          split at k1
          · injection k1 with k1; subst k1; exact hv
          · cases k1
      · rw [if_pos rfl, hau] at g1
        injection g1 with g1
        subst g1
        rw [if_pos rfl] at g5
        have : getAuthnMethod { c with ctx := { c.ctx with callback := ca, hash2issuer := h2 } } .registration = .ok "" := hau
        rw [this] at g5
        injection g5 with g5
        subst g5
        unfold authnHeader at g6
        rw [if_neg (by decide), if_pos rfl] at g6
        injection g6 with g6
        injection g6 with _ g6
        exact g6.symm
    obtain ⟨hin, info, c3, e3, rt, r0, hh, ht, hu⟩ := doRequest_taken ⟨by decide, by decide, by decide⟩ rfl e2
      (fun info c1 e => by obtain ⟨_, _, _, _, _, rfl, _⟩ := hbuild info c1 e; rfl)
    obtain ⟨ca, h2, url, req, req0, rfl, f1, f2, f3, f4⟩ := hbuild _ _ e3
    rcases hu with ⟨he, rfl, _⟩ | ⟨he, hu⟩
    · rw [refuse_ok hok] at he; cases he
    · obtain ⟨v, r', hup, hv⟩ := taken_update (Or.inr (Or.inl rfl)) ht he hu
      have hc2 : c2 = { c with
          ctx := Registration.update v { c.ctx with callback := ca, hash2issuer := h2 }
          log := c.log ++ [sentFor .registration info] } := (congrArg Prod.snd hup).symm
      subst hc2
      refine ⟨sentFor .registration info, url, req, rt, v, rfl, rfl, f2, ?_, hh, ?_, ⟨ca, h2, rfl⟩, ?_, ⟨req0, _, f3, f4⟩, rfl, rfl, rfl⟩
      · exact (update_serviceEndpoint v _ _).trans f1
      · intro hst
        rcases hv with ⟨_, h1, h2⟩ | ⟨_, hv⟩
        · have := status_lt hst; omega
        · obtain ⟨p, hp⟩ := hv hst
          exact ⟨_, p, hp⟩
      · intro h1 h2
        rcases hv with ⟨rfl, _, _⟩ | ⟨hv, _⟩
        · exact ((C49_no_client_id _ _ (by rfl)).1).trans hid
        · exact absurd ⟨h1, h2⟩ hv
  · next hid =>
    left
    exact ⟨hid, (congrArg Prod.snd h).symm⟩

theorem providerInfo_spec {x : Ext} {cc : ClientConf} {c c' : Client} {i : String}
    (hcfg : c.ctx.config = cc.config) (hpi : c.ctx.providerInfo = confObj cc.config "provider_info")
    (hal : c.ctx.allow = confObj cc.config "allow") (h : doProviderInfo x c = (.ok i, c')) :
    ∃ disc, c'.log = c.log ++ disc ∧
      (∀ d : Client, d.ctx.providerInfo = c'.ctx.providerInfo → d.ctx.issuer = c'.ctx.issuer →
        GotMetadata x cc c.ctx.issuer c.log d i disc) ∧
      c'.ctx.clientId = c.ctx.clientId ∧ c'.ctx.clientSecret = c.ctx.clientSecret ∧ c'.ctx.config = c.ctx.config ∧
      c'.ctx.registerArgs = c.ctx.registerArgs ∧ c'.ctx.clientPreferences = c.ctx.clientPreferences ∧
      c'.db = c.db ∧ c'.services = c.services ∧ c'.conf = c.conf ∧
      (c.ctx.endpoints = [] → (Dict.keys c'.ctx.providerInfo).Nodup → AsMetadata c'.ctx) := by
  unfold doProviderInfo at h
  rw [Py.read_bind_run] at h
  split at h
  · next he =>
    have he : c.ctx.providerInfo = [] := by simpa using he
    obtain ⟨u, c1, e1, h⟩ := Py.bind_eq_ok.1 h
    cases hv : Dict.get? c1.ctx.providerInfo "issuer" with
    | none =>
      rw [ask_bind_error (e := .keyError) (by unfold Dict.getItem; rw [hv])] at h
      cases h
    | some v =>
    rw [ask_bind_ok (by simpa using Dict.getItem_eq_ok.2 hv)] at h
    obtain ⟨hl, rfl⟩ := Py.lift_eq_ok.1 h
    have hvi : v = .str i := by
      unfold asStr at hl
      split at hl
      · exact congrArg Val.str (Except.ok.inj hl)
      · cases hl
    subst hvi
    obtain ⟨s, rt, a1, a2, a3, a4, a5, a6, a7, a8, a9, a10, a11, a12, a13, a14, -, -, -⟩ := dynamic_spec e1 _ hv he
    refine ⟨[s], a1, fun d d1 d2 => ?_, a6, a7, a8, a9, a10, a11, a12, a13, fun he hn => ?_⟩
    rotate_left
    · exact asMetadata_of (by rw [a14, he]; exact namedIn_setEndpoints _ hn _ (fun _ _ h => h) (by intro n v h; cases h))
    refine .asked (discoveryUrl c.ctx).issuer s rt (fun pi hp => ?_) (looksAt_discoveryUrl hcfg).1 a2 a3 (by rw [d1]; exact hv) (fun hal' => ?_)
      (by rw [d1]; exact a5)
    · rw [he] at hpi
      unfold confObj at hpi
      rw [hp] at hpi
      exact hpi.symm
    · rw [d2]
      refine a4 ?_ i rfl
      rw [hal]
      unfold confObj
      split
      · next al ha => exact hal' al ha
      · rfl
  · next he =>
    obtain ⟨_, c1, e1, h⟩ := Py.bind_eq_ok.1 h
    obtain ⟨_, c2, e2, h⟩ := Py.bind_eq_ok.1 h
    obtain ⟨hl, rfl⟩ := Py.lift_eq_ok.1 h
    obtain ⟨_, rfl⟩ := Py.lift_eq_ok.1 e2
    have hc1 := (congrArg Prod.snd e1).symm
    simp only at hc1
    subst hc1
    refine ⟨[], (List.append_nil _).symm, fun d d1 d2 => ?_, rfl, rfl, rfl, rfl, rfl, rfl, rfl, rfl, fun he hn => ?_⟩
    rotate_left
    · exact asMetadata_of (by
        show NamedIn c.ctx.providerInfo (setAllEndpoints c.services c.ctx.providerInfo c.ctx.endpoints)
        rw [he]; exact namedIn_setAll _ hn _ (fun _ _ h => h) (by intro n v h; cases h))
    have hne : confObj cc.config "provider_info" ≠ [] := by rw [← hpi]; simpa using he
    refine .configured c.ctx.providerInfo ?_ (by rw [hpi]; exact hne) d1 ?_
    · rw [hpi]
      unfold confObj at hne ⊢
      split
      · next o ho => exact ho
      · next hno => split at hne
                    · next o ho => exact absurd ho (hno o)
                    · exact absurd rfl hne
    · unfold staticIssuer at hl
      split at hl
      · next v hv =>
        left
        unfold asStr at hl
        split at hl
        · rw [hv, Except.ok.inj hl]
        · cases hl
      · next hv =>
        right
        exact ⟨hv, (Except.ok.inj hl).symm⟩

theorem onNew_run {α : Type} {c : Client} {m : Py Client α} {h h' : Handler} {a : α} {d : Client}
    (hr : onNew c m h = (.ok (a, d), h')) :
    m c = (.ok a, d) ∧ h' = share d.cfg d.ctx.behaviour h := by
  unfold onNew at hr
  have h1 := congrArg Prod.fst hr
  have h2 := congrArg Prod.snd hr
  simp only at h1 h2
  cases h3 : (m c).1 with
  | error e => rw [h3] at h1; cases h1
  | ok a' =>
    rw [h3] at h1
    have h1 := Except.ok.inj h1
    injection h1 with h1 h4
    subst h1; subst h4
    exact ⟨Prod.ext h3 rfl, h2.symm⟩

/-- The credentials of a registration response. -/
theorem credentials (v : Obj) (ctx : Ctx) (cid : String) (h : Dict.get? v "client_id" = some (.str cid)) (hc : cid ≠ "") :
    (Registration.update v ctx).clientId = cid ∧
      ∀ sec, Dict.get? v "client_secret" = some (.str sec) → sec ≠ "" → (Registration.update v ctx).clientSecret = sec := by
  refine ⟨?_, fun sec hs hne => (C49_credentials v ctx cid sec hc hne h hs).2.1⟩
  have hg : ∀ k, k ≠ "token_endpoint_auth_method" →
      Dict.get? (if Dict.has v "token_endpoint_auth_method" then v
        else Dict.set v "token_endpoint_auth_method" (.str "client_secret_basic")) k = Dict.get? v k := by
    intro k hk
    split
    · rfl
    · exact Dict.get?_set_ne _ _ (Ne.symm hk)
  unfold Registration.update Registration.applyClientId Registration.applySecret
  simp only
  rw [hg "client_id" (by decide), h]
  simp only [if_neg hc]
  repeat' split
  all_goals rfl

theorem adopt_spec {x : Ext} {cc : ClientConf} {c : Client} {issId i : String} {b : Obj} {h h' : Handler}
    (hcfg : c.ctx.config = cc.config) (hpi : c.ctx.providerInfo = confObj cc.config "provider_info")
    (hal : c.ctx.allow = confObj cc.config "allow") (hid : c.ctx.clientId = confStr cc.config "client_id")
    (hsec : c.ctx.clientSecret = confStr cc.config "client_secret")
    (hra : c.ctx.registerArgs = confRegister (x.msg .registration).params cc.config) (hconf : c.conf = cc.srvConf)
    (hend : c.ctx.endpoints = []) (hr : adopt x c issId b h = (.ok i, h')) :
    ∃ d disc reg, Dict.get? h'.issuer2rp i = some d ∧ d.db = c.db ∧ d.services = c.services ∧
      d.log = c.log ++ disc ++ reg ∧ GotMetadata x cc c.ctx.issuer c.log d i disc ∧
      GotIdentity x cc b (c.log ++ disc) d reg ∧
      ((Dict.keys d.ctx.providerInfo).Nodup → AsMetadata d.ctx) := by
  unfold adopt at hr
  obtain ⟨⟨i', d1⟩, g1, e1, hr⟩ := Py.bind_eq_ok.1 hr
  obtain ⟨f1, rfl⟩ := onNew_run e1
  obtain ⟨_, g2, e2, hr⟩ := Py.bind_eq_ok.1 hr
  obtain ⟨⟨⟨⟩, d2⟩, g3, e3, hr⟩ := Py.bind_eq_ok.1 hr
  obtain ⟨f3, rfl⟩ := onNew_run e3
  obtain ⟨_, g4, e4, hr⟩ := Py.bind_eq_ok.1 hr
  have hg4 := (congrArg Prod.snd e4).symm
  have hi : i' = i := Except.ok.inj (congrArg Prod.fst hr)
  have hh : g4 = h' := congrArg Prod.snd hr
  subst hi; subst hh
  simp only at f3 hg4
  obtain ⟨disc, a1, a2, a3, a4, a5, a6, a7, a8, a9, a10, a11⟩ := providerInfo_spec hcfg hpi hal f1
  refine ⟨d2, disc, ?_⟩
  have hget : Dict.get? g4.issuer2rp i' = some d2 := by rw [hg4]; exact Dict.get?_set_self _ _ _
  rcases register_spec f3 with ⟨hne, rfl⟩ | ⟨hemp, s, url, req, rt, v, b1, b2, b3, b4, b5, b6, ⟨ca, h2, b7⟩, _, ⟨req0, c0, b9, b10⟩, b11, b12, b13⟩
  · refine ⟨[], hget, a8, a9, (by rw [a1, List.append_nil]), a2 _ rfl rfl, ?_, a11 hend⟩
    refine .configured _ (confStr cc.config "client_secret") ?_ (configured_confStr _ _) (configured_confStr _ _)
      (a3.trans hid) (a4.trans hsec)
    rw [← hid, ← a3]
    exact hne
  · obtain ⟨cid, sec, ex, rr, rat, kl, hup⟩ := update_ctx v { d1.ctx with callback := ca, hash2issuer := h2 }
    rw [hup] at b7
    refine ⟨[s], hget, b11.trans a8, b12.trans a9, (by rw [b1, a1]), a2 _ (by rw [b7]) (by rw [b7]), ?_, ?_⟩
    · refine .registered s url req rt v ?_ b2 b3 b4 (by rw [← a1]; exact b5) b6 ?_ ?_
      · have := configured_confStr cc "client_id"
        rw [← hid, ← a3, hemp] at this
        exact this
      · intro cid' hc hne
        rw [b7, ← hup]
        exact credentials v _ cid' hc hne
      · intro hno
        have hau : getAuthnMethod d1 .registration = .ok "" := by
          unfold getAuthnMethod
          rw [if_neg (by decide)]
          unfold attr confOf
          rw [a10, hconf]
          split
          · next t ht => exact absurd ht (hno t)
          · rfl
        have := b10 hau
        subst this
        have hf : ∀ p, Dict.get? (b.filter (fun p => decide (p.1 ∈ (x.msg .registration).params))) p =
            if decide (p ∈ (x.msg .registration).params) then Dict.get? b p else none :=
          fun p => get?_filterKeys (fun k => decide (k ∈ (x.msg .registration).params)) b p
        have hnf : (Dict.keys b).Nodup → (Dict.keys (b.filter (fun p => decide (p.1 ∈ (x.msg .registration).params)))).Nodup :=
          fun h => nodup_filterKeys (fun k => decide (k ∈ (x.msg .registration).params)) h
        have hbe : d2.ctx.behaviour = d1.ctx.behaviour := by rw [b7]
        have hcp : d2.ctx.clientPreferences = d1.ctx.clientPreferences := by rw [b7]
        refine ⟨fun hn p w hw hpar ht hne hp hsp => ?_, fun hn p hpar hsp hcb hp => ?_,
          fun hn p w hw hbp hcpp hcc hpar ht hne hsp hwhere => ?_⟩
        · refine registration_given (hnf hn) b9 (by rw [hf, if_pos (by simpa using hpar)]; exact hw) ht hne (by simpa using hp) hsp
        · exact registration_unknown (hnf hn) b9 (by rw [hf, if_neg (by simpa using hpar)]) hpar hsp hcb hp
        · refine registration_configured (hnf hn) b9 (by rw [hf, if_pos (by simpa using hpar)]; exact hw) (hbe ▸ hbp) (hcp ▸ hcpp)
            (by rw [a6, hra, get?_confRegister, if_pos hpar]; exact hcc) hpar ht hne hsp ?_
          rw [a10, hconf]
          exact hwhere
    · intro hn
      have hpi2 : d2.ctx.providerInfo = d1.ctx.providerInfo := by rw [b7]
      have hen2 : d2.ctx.endpoints = d1.ctx.endpoints := by rw [b7]
      intro srv
      have := a11 hend (hpi2 ▸ hn) srv
      unfold Discovery.serviceEndpoint at this ⊢
      rw [hpi2, hen2]
      exact this

theorem namedIssuer_confIssuer (cc : ClientConf) : NamedIssuer cc (confIssuer cc.config) := by
  have hpi : (∃ pi, Dict.get? cc.config "provider_info" = some (.obj pi) ∧
        Dict.get? pi "issuer" = some (.str (confStr (confObj cc.config "provider_info") "issuer"))) ∨
      (confStr (confObj cc.config "provider_info") "issuer" = "" ∧
        ∀ pi, Dict.get? cc.config "provider_info" = some (.obj pi) → ∀ t, Dict.get? pi "issuer" ≠ some (.str t)) := by
    unfold confObj
    cases hp : Dict.get? cc.config "provider_info" with
    | none => right; exact ⟨rfl, fun pi h => by cases h⟩
    | some v =>
      cases v with
      | obj pi =>
        rcases configured_confStr { config := pi } "issuer" with h | ⟨h, hn⟩
        · left; exact ⟨pi, rfl, h⟩
        · right; refine ⟨h, fun pi' h' t => ?_⟩
          cases h'
          exact hn t
      | _ => right; exact ⟨rfl, fun pi h => by cases h⟩
  unfold confIssuer orElse
  rcases configured_confStr cc "issuer" with h | ⟨h, hn⟩
  · split
    · next he =>
      right
      refine ⟨fun t ht => ?_, hpi⟩
      rw [h] at ht; cases ht; exact he
    · next hne => exact Or.inl ⟨hne, h⟩
  · rw [if_pos h]
    exact Or.inr ⟨fun t ht => absurd ht (hn t), hpi⟩

/-! ## C83 -/

/-- Setting up a client for a provider named by `issId` that the handler does not know: the client is made of the configuration
for that provider, or of the default configuration with the issuer filled in.  It is kept as `i` without sessions.  Nothing was
sent but at most one request for the metadata, to the provider named, and at most one registration request. -/
theorem C83_new_client (x : Ext) (issId user : String) (b : Obj) (h h' : Handler) (i : String) (hne : issId ≠ "")
    (hnew : Dict.get? h.issuer2rp issId = none) (hs : clientSetup x issId user b h = (.ok i, h')) :
    ∃ cc iss d disc reg, ConfiguredFor h issId cc ∧ NamedIssuer cc iss ∧ Dict.get? h'.issuer2rp i = some d ∧
      d.db = [] ∧ d.services = cc.services ∧ d.log = disc ++ reg ∧ GotMetadata x cc iss [] d i disc ∧ GotIdentity x cc b disc d reg ∧
      ((Dict.keys d.ctx.providerInfo).Nodup → AsMetadata d.ctx) := by
  unfold clientSetup at hs
  rw [if_neg (fun hh => hne hh.1), if_neg hne, Py.read_bind_run, if_neg (by rw [Dict.has_eq, hnew]; simp)] at hs
  obtain ⟨c, g, e, hs⟩ := Py.bind_eq_ok.1 hs
  have key : ∃ cc cfg, ConfiguredFor h issId cc ∧ c = newClient x h cfg cc := by
    unfold initClient at e
    split at e
    · next cc hcc =>
      exact ⟨cc, _, Or.inl hcc, (Except.ok.inj (congrArg Prod.fst e)).symm⟩
    · next hno =>
      split at e
      · cases e
      · next cc hcc =>
        exact ⟨_, _, Or.inr ⟨hno, cc, hcc, rfl⟩, (Except.ok.inj (congrArg Prod.fst e)).symm⟩
  obtain ⟨cc, cfg, hcc, rfl⟩ := key
  obtain ⟨d, disc, reg, a1, a2, a3, a4, a5, a6, a7⟩ := adopt_spec (cc := cc) rfl rfl rfl rfl rfl rfl rfl rfl hs
  exact ⟨cc, _, d, disc, reg, hcc, namedIssuer_confIssuer cc, a1, a2, a3, a4, a5, a6, a7⟩

theorem pickIssuer_none (conf : Obj) (rel : String) : ∀ links : List Val, WebFinger.pickIssuer conf rel links = .ok none →
    ∀ l ∈ links, ∃ o, l = .obj o ∧ Dict.get? o "rel" ≠ some (.str rel) := by
  intro links
  induction links with
  | nil => intro _ l hl; cases hl
  | cons l links ih =>
    intro h
    cases l with
    | obj link =>
      rw [WebFinger.pickIssuer] at h
      cases hr : Dict.get? link "rel" with
      | none => rw [hr] at h; cases h
      | some r =>
        rw [hr] at h
        simp only at h
        by_cases hrel : r = .str rel
        · rw [if_pos hrel] at h
          split at h
          · cases h
          · split at h <;> cases h
          · cases h
        · rw [if_neg hrel] at h
          intro l hl
          rcases List.mem_cons.1 hl with rfl | hl
          · exact ⟨link, rfl, by rw [hr]; simpa using hrel⟩
          · exact ih h l hl
    | _ => cases h

theorem pickIssuer_some (conf : Obj) (rel : String) {href : String} : ∀ links : List Val, WebFinger.pickIssuer conf rel links = .ok (some href) →
    ∃ (before after : List Val) (link : Obj), links = before ++ .obj link :: after ∧
      Dict.get? link "rel" = some (.str rel) ∧ Dict.get? link "href" = some (.str href) ∧
      (∀ l ∈ before, ∃ o, l = .obj o ∧ Dict.get? o "rel" ≠ some (.str rel)) := by
  intro links
  induction links with
  | nil => intro h; cases h
  | cons l links ih =>
    intro h
    cases l with
    | obj link =>
      rw [WebFinger.pickIssuer] at h
      cases hr : Dict.get? link "rel" with
      | none => rw [hr] at h; cases h
      | some r =>
        rw [hr] at h
        simp only at h
        by_cases hrel : r = .str rel
        · rw [if_pos hrel] at h
          split at h
          · cases h
          · next s hh =>
            split at h
            · cases h
            · have := Option.some.inj (Except.ok.inj h)
              subst this
              exact ⟨[], links, link, rfl, by rw [hr, hrel], hh, by intro l hl; cases hl⟩
          · cases h
        · rw [if_neg hrel] at h
          obtain ⟨b, a, lk, h1, h2, h3, h4⟩ := ih h
          refine ⟨.obj link :: b, a, lk, by rw [h1]; rfl, h2, h3, ?_⟩
          intro l hl
          rcases List.mem_cons.1 hl with rfl | hl
          · exact ⟨link, rfl, by rw [hr]; simpa using hrel⟩
          · exact h4 l hl
    | _ => cases h

/-- Setting up a client for a user: one WebFinger request is sent, for the identifier given; the provider is the one the answer
names, which is then set up as in `C83_new_client`. -/
theorem C83_user_partial (x : Ext) (user : String) (b : Obj) (h h' : Handler) (i : String) (hu : user ≠ "")
    (hnew : Dict.get? h.issuer2rp "" = none) (hs : clientSetup x "" user b h = (.ok i, h')) :
    ∃ cc w rt iss d disc reg, Dict.get? h.configs "" = some cc ∧ w.srv = .webfinger ∧ w.method = "GET" ∧ w.body = none ∧
      WebFinger.query user = .ok w.url ∧ x.http [] w = .ok rt ∧ UsersIssuer x cc rt iss ∧
      Dict.get? h'.issuer2rp i = some d ∧ d.db = [] ∧ d.services = cc.services ∧ d.log = w :: disc ++ reg ∧
      GotMetadata x cc iss [w] d i disc ∧ GotIdentity x cc b (w :: disc) d reg ∧
      ((Dict.keys d.ctx.providerInfo).Nodup → AsMetadata d.ctx) := by
  unfold clientSetup at hs
  rw [if_neg (fun hh => hu hh.2), if_pos rfl] at hs
  obtain ⟨c, g, e, hs2⟩ := Py.bind_eq_ok.1 hs
  clear hs
  rw [Py.read_bind_run] at hs2
  unfold doWebfinger at e
  obtain ⟨c0, g0, e0, e⟩ := Py.bind_eq_ok.1 e
  obtain ⟨⟨r, c1⟩, g1, e1, e⟩ := Py.bind_eq_ok.1 e
  have hc1 : c1 = c := Except.ok.inj (congrArg Prod.fst e)
  have hg1 : g1 = g := congrArg Prod.snd e
  subst hc1; subst hg1
  obtain ⟨f1, rfl⟩ := onNew_run e1
  have key : ∃ cc, Dict.get? h.configs "" = some cc ∧ c0 = newClient x h "" cc ∧ g0 = h := by
    unfold initClient at e0
    split at e0
    · next cc hcc =>
      exact ⟨cc, hcc, (Except.ok.inj (congrArg Prod.fst e0)).symm, (congrArg Prod.snd e0).symm⟩
    · next hno =>
      rw [hno] at e0
      cases e0
  obtain ⟨cc, hcc, rfl, rfl⟩ := key
  have hnone : Dict.get? (share c1.cfg c1.ctx.behaviour g0).issuer2rp "" = none := by
    unfold share
    split
    · exact hnew
    · split
      · simp only [Dict.get?_map, hnew, Option.map_none]
      · exact hnew
  rw [if_neg (by rw [Dict.has_eq, hnone]; simp)] at hs2
  have hask : ∀ info c2, getRequestParameters x .webfinger [] {} [("resource", .str user)] (newClient x g0 "" cc) = (.ok info, c2) →
      c2 = newClient x g0 "" cc ∧ ∃ u, WebFinger.query user = .ok u ∧ info = { url := u, method := "GET" } := by
    intro info c2 hh
    refine ⟨(congrArg Prod.snd hh).symm, ?_⟩
    have := congrArg Prod.fst hh
    change (WebFinger.query user).map _ = _ at this
    cases hq : WebFinger.query user with
    | error e => rw [hq] at this; cases this
    | ok u => rw [hq] at this; exact ⟨u, rfl, (Except.ok.inj this).symm⟩
  obtain ⟨hin, info, c2, e2, rt, r0, hh, ht, hup⟩ := doRequest_taken ⟨by decide, by decide, by decide⟩ rfl f1
    (fun info c2 e => by rw [(hask info c2 e).1])
  obtain ⟨rfl, u, hq, rfl⟩ := hask _ _ e2
  generalize hw : sentFor .webfinger { url := u, method := "GET" } = w at hh ht hup
  have hres : ∃ iss, c1 = { newClient x g0 "" cc with log := [w], ctx := { newContext x g0 cc with issuer := iss } } ∧ UsersIssuer x cc rt iss := by
    rcases hup with ⟨he, _, rfl⟩ | ⟨he, hup⟩
    · refine ⟨confIssuer cc.config, rfl, .refused { newClient x g0 "" cc with log := [w] } (namedIssuer_confIssuer cc) rfl rfl fun hb p v hr => ?_⟩
      refine taken_error ht he ?_ p v hr
      unfold attr confOf
      split
      · next t ht' => exact absurd ht' (hb t)
      · decide
    · obtain ⟨v, r', hup, hv⟩ := taken_update (Or.inr (Or.inr rfl)) ht he hup
      simp only [updateMsg] at hup
      rw [Py.read_bind_run] at hup
      obtain ⟨_, c5, e5, hup⟩ := Py.bind_eq_ok.1 hup
      have h5 : c5 = c1 := congrArg Prod.snd hup
      subst h5
      have hread : rt.status ∈ SUCCESSFUL → ∃ d p, Read x d .webfinger rt p v := by
        rcases hv with ⟨_, h1, h2⟩ | ⟨_, hv⟩
        · intro hst; have := status_lt hst; omega
        · intro hst
          obtain ⟨p, hp⟩ := hv hst
          exact ⟨_, p, hp⟩
      unfold onCtx at e5
      have e6 := congrArg Prod.snd e5
      have e7 := congrArg Prod.fst e5
      simp only at e6 e7
      have hlinks : ∃ links, Dict.get? v "links" = some (.list links) := by
        unfold WebFinger.update at e7
        split at e7
        · cases e7
        · next links hl => exact ⟨links, hl⟩
        · cases e7
      obtain ⟨links, hl⟩ := hlinks
      unfold WebFinger.update at e6 e7
      rw [hl] at e6 e7
      simp only at e6 e7
      cases hp : WebFinger.pickIssuer (confOf { newClient x g0 "" cc with log := (newClient x g0 "" cc).log ++ [w] } .webfinger)
          WebFinger.OIC_ISSUER links with
      | error e => rw [hp] at e7; cases e7
      | ok o =>
        rw [hp] at e6
        cases o with
        | none =>
          exact ⟨confIssuer cc.config, e6.symm, .unlinked v links hread hl (pickIssuer_none _ _ _ hp) (namedIssuer_confIssuer cc)⟩
        | some href =>
          obtain ⟨bef, aft, link, rfl, k3, k4, k5⟩ := pickIssuer_some _ _ _ hp
          exact ⟨href, e6.symm, .linked bef aft v link hread hl k5 k3 k4⟩
  obtain ⟨iss, rfl, hui⟩ := hres
  obtain ⟨d, disc, reg, a1, a2, a3, a4, a5, a6, a7⟩ := adopt_spec (cc := cc) rfl rfl rfl rfl rfl rfl rfl rfl hs2
  exact ⟨cc, w, rt, iss, d, disc, reg, hcc, by rw [← hw]; rfl, by rw [← hw]; rfl, by rw [← hw]; rfl, by rw [← hw]; exact hq, hh, hui,
    a1, a2, a3, a4, a5, a6, a7⟩

/-- A provider the handler knows by the name given is not set up again: nothing is sent, nothing changes. -/
theorem C83_known_provider (x : Ext) (issId user : String) (b : Obj) (h : Handler) (hne : issId ≠ "") (c : Client)
    (hk : Dict.get? h.issuer2rp issId = some c) : clientSetup x issId user b h = (.ok issId, h) := by
  unfold clientSetup
  rw [if_neg (fun hh => hne hh.1), if_neg hne, Py.read_bind_run, if_pos (by rw [Dict.has_eq, hk]; rfl)]
  rfl

/-- A setup that fails keeps no client, and leaves the sessions of all others as they are. -/
theorem C83_failed_setup (x : Ext) (issId user : String) (b : Obj) (h : Handler) (hp : Verif.Spec.InFlight.PlainHandler h) (e : Exc)
    (hf : (clientSetup x issId user b h).1 = .error e) :
    h.issuer2rp.map (fun p => (p.1, p.2.db)) = (clientSetup x issId user b h).2.issuer2rp.map (fun p => (p.1, p.2.db)) := by
  rcases (clientSetup_cases x issId user b hp).2 with ⟨_, _, h1⟩ | ⟨h1, _⟩ | ⟨i, h1, _⟩
  · exact h1.symm
  · rw [h1] at hf; cases hf
  · rw [h1] at hf; cases hf

/-! ### Examples, and what the full claims miss -/

/-- The circumstances of a setup. -/
def settingUp : Ext := World.ext 1000 World.s1 "n1" "n1"

/-- A client is set up by discovery and registration: two requests; it is registered as the answer says. -/
example : (clientSetup settingUp "https://op.example" "" [("response_types", .list [.str "code"]), ("ui", .str "x")] World.handler).1
      = .ok "https://op.example" ∧
    ((Dict.get? (clientSetup settingUp "https://op.example" "" [("response_types", .list [.str "code"]), ("ui", .str "x")]
      World.handler).2.issuer2rp "https://op.example").map
        (fun c => (c.log.map Sent.srv, c.log.map Sent.url, c.ctx.clientId))) =
      some ([.providerInfo, .registration],
        ["https://op.example/.well-known/openid-configuration", "https://op.example/reg"], "client1") := ⟨rfl, rfl⟩

/-- The same for a user, whose provider is found by WebFinger. -/
example : (clientSetup settingUp "" "joe@example.com" [] World.handler).1 = .ok "https://op.example" ∧
    ((Dict.get? (clientSetup settingUp "" "joe@example.com" [] World.handler).2.issuer2rp "https://op.example").map
        (fun c => (c.log.map Sent.srv, c.ctx.clientId))) =
      some ([.webfinger, .providerInfo, .registration], "client1") := ⟨rfl, rfl⟩

/-- A provider with configured metadata and credentials: no request. -/
def configured : Handler where
  configs := [("op", { World.conf with config := [("issuer", .str "https://op.example"), ("client_id", .str "me"), ("client_secret", .str "sec"),
    ("provider_info", .obj World.metadata)] })]

example : (clientSetup settingUp "op" "" [] configured).1 = .ok "https://op.example" ∧
    ((Dict.get? (clientSetup settingUp "op" "" [] configured).2.issuer2rp "https://op.example").map
        (fun c => (c.log, c.ctx.clientId, c.ctx.clientSecret))) = some ([], "me", "sec") := ⟨rfl, rfl⟩

/-- Circumstances in which the answers `f` differ. -/
def answeredBy (f : Sent → Option HttpResp) : Ext := { settingUp with http := fun _ s => .ok ((f s).getD (World.answer s)) }

/-- Full claim fails: a client whose registration was answered with a redirect is kept, without an identity, and the setup
succeeds. -/
theorem C83_redirected_registration_violated :
    let x := answeredBy (fun s => if s.srv = .registration then some { status := 302, headers := [("location", "https://op.example/r")], text := "" } else none)
    (clientSetup x "https://op.example" "" [] World.handler).1 = .ok "https://op.example" ∧
    (Dict.get? (clientSetup x "https://op.example" "" [] World.handler).2.issuer2rp "https://op.example").map
      (fun c => c.ctx.clientId) = some "" := ⟨rfl, rfl⟩

/-- Full claim fails: after a setup for one provider, a user whose WebFinger request is refused is sent to that provider, which
has nothing to do with the user. -/
theorem C83_leftover_issuer_violated :
    let x := answeredBy (fun s => if s.srv = .webfinger then some { status := 404, headers := [("content-type", "application/json")], text := "bad" } else none)
    let h := (clientSetup x "https://op.example" "" [] World.handler).2
    (clientSetup x "" "joe@other.example" [] h).1 = .ok "https://op.example" := by
  rfl

/-! ## C44: endpoints of configured metadata -/

theorem get?_setServices (services : List Srv) (key : String) (val : Val) (s : Srv) : ∀ (e : Dict Val),
    Dict.get? (services.foldl (fun e t => if t.endpointName = key then Dict.set e t.name val else e) e) s.name =
      if s.endpointName = key ∧ ∃ t ∈ services, t.name = s.name then some val else Dict.get? e s.name := by
  induction services with
  | nil => intro e; simp
  | cons t ts ih =>
    intro e
    rw [List.foldl_cons, ih]
    by_cases hk : s.endpointName = key
    · by_cases ht : t.name = s.name
      · have : t.endpointName = key := by rw [endpointName_of_name t s ht]; exact hk
        simp [hk, ht, this, Dict.get?_set_self]
      · have hg : Dict.get? (if t.endpointName = key then Dict.set e t.name val else e) s.name = Dict.get? e s.name := by
          split
          · rw [Dict.get?_set_ne _ _ ht]
          · rfl
        rw [hg]
        simp [hk, ht]
    · have hg : Dict.get? (if t.endpointName = key then Dict.set e t.name val else e) s.name = Dict.get? e s.name := by
        split
        · next h =>
          rw [Dict.get?_set_ne]
          intro ht
          exact hk (by rw [← endpointName_of_name t s ht]; exact h)
        · rfl
      rw [hg]
      simp [hk]

theorem get?_setAllEndpoints (services : List Srv) (s : Srv) (hs : s ∈ services)
    (hend : Str.endsWith s.endpointName "_endpoint" = true) : ∀ (l : Obj), (Dict.keys l).Nodup → ∀ (e : Dict Val),
    Dict.get? (setAllEndpoints services l e) s.name = (Dict.get? l s.endpointName).or (Dict.get? e s.name) := by
  intro l
  induction l with
  | nil => intro _ e; rfl
  | cons p l ih =>
    intro hn e
    obtain ⟨key, val⟩ := p
    have hn' : key ∉ Dict.keys l ∧ (Dict.keys l).Nodup := by
      simpa only [Dict.keys, List.map_cons, List.nodup_cons] using hn
    unfold setAllEndpoints
    rw [ih hn'.2, Dict.get?_cons]
    by_cases hk : key = s.endpointName
    · subst hk
      rw [(Dict.get?_eq_none_iff l _).2 hn'.1]
      simp only [hend, if_true, get?_setServices]
      rw [if_pos ⟨trivial, s, hs, rfl⟩]
      simp
    · have : Dict.get? (if Str.endsWith key "_endpoint" = true then
          services.foldl (fun e t => if t.endpointName = key then Dict.set e t.name val else e) e else e) s.name = Dict.get? e s.name := by
        split
        · rw [get?_setServices, if_neg (fun h => hk h.1.symm)]
        · rfl
      rw [this]
      simp [hk]

/-- **C44** (configured metadata).  When the metadata of the provider is configured rather than fetched, each service of the
client - also the second one with an endpoint of that name - uses the endpoint the metadata has for it, whatever endpoint
it had before; a service the metadata has no endpoint for keeps its own. -/
theorem C44_configured_metadata (x : Ext) (c c' : Client) (iss : String) (s : Srv) (hs : s ∈ c.services)
    (hend : ∃ t, s.endpointName = t ++ "_endpoint") (hpi : c.ctx.providerInfo ≠ []) (hn : (Dict.keys c.ctx.providerInfo).Nodup)
    (h : doProviderInfo x c = (.ok iss, c')) :
    (∀ v, Dict.get? c.ctx.providerInfo s.endpointName = some v → Discovery.serviceEndpoint c'.ctx s = .ok v) ∧
    (Dict.get? c.ctx.providerInfo s.endpointName = none → Discovery.serviceEndpoint c'.ctx s = Discovery.serviceEndpoint c.ctx s) := by
  have hemp : c.ctx.providerInfo.isEmpty = false := by
    cases h : c.ctx.providerInfo with
    | nil => exact absurd h hpi
    | cons => rfl
  have hc : c' = { c with ctx := { c.ctx with endpoints := setAllEndpoints c.services c.ctx.providerInfo c.ctx.endpoints, keyLoads := c.ctx.keyLoads ++ configuredKeys c.ctx.issuer c.ctx.providerInfo } } := by
    unfold doProviderInfo at h
    rw [Py.read_bind_run, if_neg (by simp [hemp])] at h
    rw [Py.bind_ok (a := ()) (s' := { c with ctx := { c.ctx with endpoints := setAllEndpoints c.services c.ctx.providerInfo c.ctx.endpoints, keyLoads := c.ctx.keyLoads ++ configuredKeys c.ctx.issuer c.ctx.providerInfo } })
      (by unfold onCtx; rfl)] at h
    obtain ⟨_, _, h1, h2⟩ := Py.bind_eq_ok.1 h
    obtain ⟨_, rfl⟩ := Py.lift_eq_ok.1 h1
    obtain ⟨_, rfl⟩ := Py.lift_eq_ok.1 h2
    rfl
  have hg := get?_setAllEndpoints c.services s hs ((Str.endsWith_iff _ _).2 hend) c.ctx.providerInfo hn c.ctx.endpoints
  subst hc
  unfold Discovery.serviceEndpoint
  simp only [hg]
  refine ⟨fun v hv => ?_, fun hv => ?_⟩
  · rw [hv]
    simp only [Option.some_or, Dict.getItem, hv]
    split <;> rfl
  · rw [hv]
    simp

/-- The hypotheses can be met: both services with a token endpoint get the one configured. -/
example :
    let c : Client := {
      services := [.accesstoken, .refreshToken]
      ctx := { providerInfo := World.metadata, endpoints := [("refresh_token", .str "https://old.example/token")] } }
    (doProviderInfo (World.ext 0 "" "" "") c).1.isOk = true ∧
    (Discovery.serviceEndpoint (doProviderInfo (World.ext 0 "" "" "") c).2.ctx .refreshToken).toOption =
      Dict.get? World.metadata "token_endpoint" := by
  decide +kernel

end Verif.Props
