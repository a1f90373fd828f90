import Verif.Props.Defaults
import Verif.Props.FirstUse
/-!
# C128: the addresses of a client when its handler is made anew
-/

namespace Verif.Props
open Verif Verif.Service Verif.Handler Verif.Defaults Verif.Spec.Wire Verif.Spec.Discovery

/-! ## Specification -/

/-- The circumstances of two calls differ only in the time, the random values and what the providers answer. -/
def SameButTime (x1 x2 : Ext) : Prop := ∃ now rnd http, x2 = { x1 with now := now, rnd := rnd, http := http }

/-- Two handlers have the same configurations, address and keys; they may know different clients. -/
structure MadeAlike (h1 h2 : Handler) : Prop where
  configs : h1.configs = h2.configs
  baseUrl : h1.baseUrl = h2.baseUrl
  jwksUri : h1.jwksUri = h2.jwksUri
  keys : h1.keyLoads = h2.keyLoads

/-- The registration requests a client has sent. -/
def registrations (c : Client) : List Sent := c.log.filter (fun s => decide (s.srv = .registration))

/-! ## What a client is made of -/

theorem alike_client {x1 x2 : Ext} (hx : SameButTime x1 x2) {h1 h2 : Handler} (hh : MadeAlike h1 h2) (cfg : String) {cc : ClientConf} {seed : String}
    (hs : Dict.get? cc.config "hash_seed" = some (.str seed)) (hne : seed ≠ "") : newClient x1 h1 cfg cc = newClient x2 h2 cfg cc := by
  obtain ⟨now, rnd, http, rfl⟩ := hx
  have hseed : confStr cc.config "hash_seed" = seed := by unfold confStr; rw [hs]
  unfold newClient newContext newKeys
  rw [hh.baseUrl, hh.jwksUri, hh.keys, hseed]
  unfold orElse
  rw [if_neg hne, if_neg hne]

/-- Looking up the metadata, by what was found. -/
theorem discovered {x : Ext} {c c' : Client} (h : dynamicDiscovery x c = (.ok (), c')) :
    ∃ s o, s.srv = .providerInfo ∧ c'.log = c.log ++ [s] ∧ c'.services = c.services ∧ c'.conf = c.conf ∧
      Discovery.update x.regKind c.services o (discoveryUrl c.ctx) = (.ok (), c'.ctx) ∧ c'.ctx.providerInfo = o := by
  unfold dynamicDiscovery at h
  obtain ⟨_, c1, e1, h⟩ := Py.bind_eq_ok.1 h
  have hc1 : c1 = { c with ctx := discoveryUrl c.ctx } := (congrArg Prod.snd e1).symm
  subst hc1
  obtain ⟨r, c2, e2, h⟩ := Py.bind_eq_ok.1 h
  obtain ⟨hok, rfl⟩ := Py.lift_eq_ok.1 h
  obtain ⟨_, info, c3, e3, rt, r0, _, ht, hu⟩ := doRequest_taken ⟨by decide, by decide, by decide⟩ rfl e2
    (fun info c1 e => by
      have : c1 = { c with ctx := discoveryUrl c.ctx } := (congrArg Prod.snd e).symm
      rw [this])
  have hc3 : c3 = { c with ctx := discoveryUrl c.ctx } := (congrArg Prod.snd e3).symm
  subst hc3
  rcases hu with ⟨he, rfl, _⟩ | ⟨_, hu⟩
  · rw [refuse_ok hok] at he; cases he
  obtain ⟨o, r', hup, _⟩ := taken_update (Or.inl rfl) ht ‹_› hu
  simp only [updateMsg] at hup
  rw [Py.read_bind_run] at hup
  obtain ⟨_, c5, e5, hup⟩ := Py.bind_eq_ok.1 hup
  have h5 : c5 = c2 := congrArg Prod.snd hup
  subst h5
  unfold onCtx at e5
  have h2 := congrArg Prod.snd e5
  have h1 := congrArg Prod.fst e5
  simp only at h1 h2
  subst h2
  refine ⟨sentFor .providerInfo info, o, rfl, rfl, rfl, rfl, Prod.ext h1 rfl, ?_⟩
  show (Discovery.update x.regKind c.services o (discoveryUrl c.ctx)).2.providerInfo = o
  have h1 : (Discovery.update x.regKind c.services o (discoveryUrl c.ctx)).1 = .ok () := h1
  unfold Discovery.update Discovery.updateBase at h1 ⊢
  cases ha : Discovery.acceptedIssuer (discoveryUrl c.ctx) o with
  | error e => rw [ha] at h1; cases h1
  | ok i =>
    simp only
    obtain ⟨b, hb⟩ := Discovery.matchPreferences_frame x.regKind o { discoveryUrl c.ctx with
      issuer := i, providerInfo := o, endpoints := Discovery.setEndpoints c.services o (discoveryUrl c.ctx).endpoints,
      keyLoads := Discovery.loadKeys i o (discoveryUrl c.ctx).keyLoads }
    rw [hb]

/-- Metadata makes the same of a client in alike circumstances. -/
theorem alike_metadata {x1 x2 : Ext} (hx : SameButTime x1 x2) {c c1 c2 : Client} {i1 i2 : String} (h1 : doProviderInfo x1 c = (.ok i1, c1))
    (h2 : doProviderInfo x2 c = (.ok i2, c2)) (hm : c1.ctx.providerInfo = c2.ctx.providerInfo) :
    i1 = i2 ∧ c1.ctx = c2.ctx ∧ c1.services = c2.services ∧ c1.conf = c2.conf ∧ c1.conf = c.conf ∧
      ∃ disc1 disc2, c1.log = c.log ++ disc1 ∧ c2.log = c.log ++ disc2 ∧
        (∀ s ∈ disc1, s.srv = .providerInfo) ∧ ∀ s ∈ disc2, s.srv = .providerInfo := by
  obtain ⟨now, rnd, http, rfl⟩ := hx
  unfold doProviderInfo at h1 h2
  rw [Py.read_bind_run] at h1 h2
  split at h1
  · next he =>
    rw [if_pos he] at h2
    have key : ∀ {x : Ext} {d : Client} {i : String},
        (dynamicDiscovery x >>= fun _ => ask (fun c => Dict.getItem c.ctx.providerInfo "issuer") >>= fun v => Py.lift (asStr v)) c = (.ok i, d) →
        dynamicDiscovery x c = (.ok (), d) ∧ Dict.get? d.ctx.providerInfo "issuer" = some (.str i) := by
      intro x d i h
      obtain ⟨u, g, e, h⟩ := Py.bind_eq_ok.1 h
      cases hv : Dict.get? g.ctx.providerInfo "issuer" with
      | none =>
        rw [ask_bind_error (e := .keyError) (by unfold Dict.getItem; rw [hv])] at h
        cases h
      | some v =>
        rw [ask_bind_ok (by simpa using Dict.getItem_eq_ok.2 hv)] at h
        obtain ⟨hl, rfl⟩ := Py.lift_eq_ok.1 h
        refine ⟨e, ?_⟩
        rw [hv]
        unfold asStr at hl
        split at hl
        · exact congrArg (fun s => some (Val.str s)) (Except.ok.inj hl)
        · cases hl
    obtain ⟨e1, g1⟩ := key h1
    obtain ⟨e2, g2⟩ := key h2
    obtain ⟨s1, o1, a1, a2, a3, a4, a5, a6⟩ := discovered e1
    obtain ⟨s2, o2, b1, b2, b3, b4, b5, b6⟩ := discovered e2
    have ho : o1 = o2 := by rw [← a6, ← b6, hm]
    subst ho
    refine ⟨?_, ?_, a3.trans b3.symm, a4.trans b4.symm, a4, [s1], [s2], a2, b2, ?_, ?_⟩
    · rw [hm, g2] at g1
      injection g1 with g1
      injection g1 with g1
      exact g1.symm
    · exact congrArg Prod.snd (a5.symm.trans b5)
    · intro s hs; rw [List.mem_singleton.1 hs]; exact a1
    · intro s hs; rw [List.mem_singleton.1 hs]; exact b1
  · next he =>
    rw [if_neg he] at h2
    have e : ((.ok i1, c1) : Except Exc String × Client) = (.ok i2, c2) := h1.symm.trans h2
    have e1 := Except.ok.inj (congrArg Prod.fst e)
    have e2 := congrArg Prod.snd e
    simp only at e2
    subst e2
    obtain ⟨_, g1, f1, h1⟩ := Py.bind_eq_ok.1 h1
    obtain ⟨_, g2, f2, h1⟩ := Py.bind_eq_ok.1 h1
    obtain ⟨_, rfl⟩ := Py.lift_eq_ok.1 h1
    obtain ⟨_, rfl⟩ := Py.lift_eq_ok.1 f2
    have hg := (congrArg Prod.snd f1).symm
    simp only at hg
    subst hg
    exact ⟨e1, rfl, rfl, rfl, rfl, [], [], (List.append_nil _).symm, (List.append_nil _).symm, (fun _ h => by cases h), fun _ h => by cases h⟩

/-- Registering, by what was sent and what was answered. -/
theorem registered {x : Ext} {b : Obj} {c c' : Client} (h : register x b c = (.ok (), c')) :
    (c.ctx.clientId ≠ "" ∧ c' = c) ∨
    (c.ctx.clientId = "" ∧ ∃ info req0 c1 v,
      getRequestParameters x .registration (b.filter (fun p => decide (p.1 ∈ (x.msg .registration).params))) {} [] c = (.ok info, c1) ∧
      construct x .registration (b.filter (fun p => decide (p.1 ∈ (x.msg .registration).params))) [] c = (.ok req0, c1) ∧
      c'.log = c.log ++ [sentFor .registration info] ∧ c'.ctx = Registration.update v c1.ctx) := by
  unfold register at h
  rw [Py.read_bind_run] at h
  split at h
  · next hid =>
    right
    refine ⟨hid, ?_⟩
    unfold loadRegistration at h
    obtain ⟨r, c2, e2, h⟩ := Py.bind_eq_ok.1 h
    obtain ⟨hok, rfl⟩ := Py.lift_eq_ok.1 h
    have e2 : doRequest x .registration (b.filter (fun p => decide (p.1 ∈ (x.msg .registration).params))) {} [] c = (.ok r, c2) := by
      unfold Py.try_ at e2
      split at e2
      · next a s' heq => rw [heq]; exact e2
      · next e s' heq =>
        split at e2
        · next k hk =>
          simp only at hk
          split at hk
          · injection hk with hk; subst hk; cases e2
          · cases hk
        · cases e2
    have hbuild : ∀ info c1, getRequestParameters x .registration (b.filter (fun p => decide (p.1 ∈ (x.msg .registration).params))) {} [] c = (.ok info, c1) →
        ∃ req0, c1.log = c.log ∧ c1.conf = c.conf ∧
          construct x .registration (b.filter (fun p => decide (p.1 ∈ (x.msg .registration).params))) [] c = (.ok req0, c1) := by
      intro info c1 hg
      obtain ⟨am, req0, c3, hd, req', g1, g2, g3, g4⟩ := buildRequest_ok hg
      obtain ⟨⟨ca, h2, rfl⟩, -⟩ := construct_registration g2
      obtain ⟨m, h0, g5, g6, g7⟩ := getHeaders_ok g3
      have hc1 : c1 = { c with ctx := { c.ctx with callback := ca, hash2issuer := h2 } } := by
        rcases g7 with ⟨_, _, g7⟩ | ⟨g7, _⟩
        · exact g7
        · simp [usesDpop, Srv.name] at g7
      subst hc1
      exact ⟨req0, rfl, rfl, g2⟩
    obtain ⟨_, info, c3, e3, rt, r0, _, ht, hu⟩ := doRequest_taken ⟨by decide, by decide, by decide⟩ rfl e2
      (fun info c1 e => by obtain ⟨_, _, f, _⟩ := hbuild info c1 e; exact f)
    obtain ⟨req0, f1, f2, f3⟩ := hbuild _ _ e3
    rcases hu with ⟨he, rfl, _⟩ | ⟨he, hu⟩
    · rw [refuse_ok hok] at he; cases he
    · obtain ⟨v, r', hup, _⟩ := taken_update (Or.inr (Or.inl rfl)) ht he hu
      have hc2 : c2 = { c3 with ctx := Registration.update v c3.ctx, log := c3.log ++ [sentFor .registration info] } :=
        (congrArg Prod.snd hup).symm
      subst hc2
      exact ⟨info, req0, c3, v, e3, f3, by rw [← f1], rfl⟩
  · next hid =>
    left
    exact ⟨hid, (congrArg Prod.snd h).symm⟩

/-- A registration request is made of what the client is, in alike circumstances. -/
theorem alike_construct {x1 x2 : Ext} (hx : SameButTime x1 x2) (args : Obj) (c d : Client) (h : c.ctx = d.ctx) (hc : c.conf = d.conf) :
    ((construct x1 .registration args [] c).2).ctx = ((construct x2 .registration args [] d).2).ctx := by
  obtain ⟨now, rnd, http, rfl⟩ := hx
  obtain ⟨r1, e1⟩ := construct_registration_progress x1 args c
  obtain ⟨r2, e2⟩ := construct_registration_progress { x1 with now := now, rnd := rnd, http := http } args d
  rw [e1, e2, h]
  rfl

theorem gather_alike {c d : Client} (h : c.ctx = d.ctx) (hc : c.conf = d.conf) : ∀ (ps : List String) (args : Obj),
    gatherLoop c .registration ps args = gatherLoop d .registration ps args := by
  intro ps
  induction ps with
  | nil => intro args; rfl
  | cons p ps ih =>
    intro args
    have hf : fallback c .registration p = fallback d .registration p := by
      unfold fallback confRequestArgs confOf
      rw [h, hc]
    unfold gatherLoop
    rw [hf]
    split
    · exact ih _
    · split <;> exact ih _

theorem construct_eq (x : Ext) (args : Obj) (c : Client) : ∃ c0 : Client,
    c0 = { c with ctx := Registration.addCallbacks x.hash (givenCallbacks x c.ctx args) c.ctx } ∧
    construct x .registration args [] c = (.ok (Registration.postConstruct ((x.msg .registration).make
      (gatherLoop c0 .registration (x.msg .registration).params (stateFromKwargs (x.msg .registration)
        (Registration.addJwks c0.ctx (Registration.fillCallbackUris c0.ctx Registration.CALLBACK_URIS
          (Registration.addPreferences c.ctx (x.msg .registration).params args))) [])))), c0) := by
  refine ⟨_, rfl, ?_⟩
  let c0 : Client := { c with ctx := Registration.addCallbacks x.hash (givenCallbacks x c.ctx args) c.ctx }
  have hpre : preConstruct x .registration args (methodArgs (confOf c .registration) "pre_construct" []) c =
    (.ok (Registration.addJwks c0.ctx (Registration.fillCallbackUris c0.ctx Registration.CALLBACK_URIS
      (Registration.addPreferences c.ctx (x.msg .registration).params args)), []), c0) := rfl
  unfold construct
  rw [Py.read_bind_run, Py.bind_ok hpre, ask_bind_ok (a := gatherLoop c0 .registration (x.msg .registration).params
    (stateFromKwargs (x.msg .registration) (Registration.addJwks c0.ctx (Registration.fillCallbackUris c0.ctx Registration.CALLBACK_URIS
      (Registration.addPreferences c.ctx (x.msg .registration).params args))) []))
    (by unfold gatherRequestArgs; rw [if_neg (by rintro ⟨h | h, _⟩ <;> cases h)])]
  rfl

theorem alike_request {x1 x2 : Ext} (hx : SameButTime x1 x2) {args : Obj} {c d : Client} (h : c.ctx = d.ctx)
    (hc : c.conf = d.conf) (ha : getAuthnMethod c .registration = .ok "") :
    (getRequestParameters x1 .registration args {} [] c).1 = (getRequestParameters x2 .registration args {} [] d).1 := by
  obtain ⟨now, rnd, http, rfl⟩ := hx
  obtain ⟨c0, hc0, e1⟩ := construct_eq x1 args c
  obtain ⟨d0, hd0, e2⟩ := construct_eq { x1 with now := now, rnd := rnd, http := http } args d
  have hctx : c0.ctx = d0.ctx := by rw [hc0, hd0, h]; rfl
  have hconf : c0.conf = d0.conf := by rw [hc0, hd0]; exact hc
  have ha0 : getAuthnMethod c0 .registration = .ok "" := by rw [hc0]; exact ha
  have hau : ∀ e e' : Client, e.conf = e'.conf → e.ctx = e'.ctx → getAuthnMethod e .registration = getAuthnMethod e' .registration := by
    intro e e' h1 h2
    unfold getAuthnMethod attr confOf
    rw [h1, h2]
  have ha1 : getAuthnMethod d .registration = .ok "" := (hau d c hc.symm h.symm).trans ha
  have ha2 : getAuthnMethod d0 .registration = .ok "" := (hau d0 c0 hconf.symm hctx.symm).trans ha0
  rw [gather_alike hctx hconf, h, hctx] at e1
  have hu : ∀ ctx : Ctx, usesDpop ctx .registration = false := fun ctx => by simp [usesDpop, Srv.name]
  show (buildRequest x1 .registration args {} [] c).1 = (buildRequest { x1 with now := now, rnd := rnd, http := http } .registration args {} [] d).1
  unfold buildRequest
  rw [Py.read_bind_run, Py.read_bind_run, ask_bind_ok (a := "") (by rw [if_pos rfl]; exact ha), ask_bind_ok (a := "") (by rw [if_pos rfl]; exact ha1),
    Py.bind_ok e1, Py.bind_ok e2]
  rw [Py.bind_ok (getHeaders_progress (m := "") (hu _) (by rw [if_pos rfl]; exact ha0) (by unfold authnHeader; rfl) _),
    Py.bind_ok (getHeaders_progress (m := "") (hu _) (by rw [if_pos rfl]; exact ha2) (by unfold authnHeader; rfl) _)]
  unfold ask assemble targetOf endpointOf attr confOf
  rw [hctx, hc]
  rfl

/-! ## C128 -/

theorem setup_steps {x : Ext} {issId user i : String} {b : Obj} {h h' : Handler} {cc : ClientConf} {d : Client} (hne : issId ≠ "")
    (hnew : Dict.get? h.issuer2rp issId = none) (hcc : ConfiguredFor h issId cc) (hs : clientSetup x issId user b h = (.ok i, h'))
    (hd : Dict.get? h'.issuer2rp i = some d) :
    ∃ d1, doProviderInfo x (newClient x h (configFor h issId) cc) = (.ok i, d1) ∧ register x b d1 = (.ok (), d) := by
  unfold clientSetup at hs
  rw [if_neg (fun hh => hne hh.1), if_neg hne, Py.read_bind_run, if_neg (by rw [Dict.has_eq, hnew]; simp)] at hs
  have hi : ∃ g, initClient x issId h = (.ok (newClient x h (configFor h issId) cc), g) := by
    unfold initClient configFor
    rw [Dict.has_eq]
    rcases hcc with hc | ⟨hno, cc0, h0, rfl⟩
    · rw [hc]; exact ⟨_, rfl⟩
    · rw [hno]; simp only [h0]; exact ⟨_, rfl⟩
  obtain ⟨g, hi⟩ := hi
  rw [Py.bind_ok hi] at hs
  unfold adopt at hs
  obtain ⟨⟨i', d1⟩, g1, e1, hs⟩ := Py.bind_eq_ok.1 hs
  obtain ⟨f1, rfl⟩ := onNew_run e1
  obtain ⟨_, g2, e2, hs⟩ := Py.bind_eq_ok.1 hs
  obtain ⟨⟨⟨⟩, d2⟩, g3, e3, hs⟩ := Py.bind_eq_ok.1 hs
  obtain ⟨f3, rfl⟩ := onNew_run e3
  obtain ⟨_, g4, e4, hs⟩ := Py.bind_eq_ok.1 hs
  have hg4 := (congrArg Prod.snd e4).symm
  have hi : i' = i := Except.ok.inj (congrArg Prod.fst hs)
  have hh : g4 = h' := congrArg Prod.snd hs
  subst hi hh
  simp only at f3 hg4
  rw [hg4] at hd
  have hd : some d2 = some d := (Dict.get?_set_self _ _ _).symm.trans hd
  injection hd with hd
  subst hd
  exact ⟨d1, f1, f3⟩

/-- A handler that is made anew, with the same arguments, and a seed in the configuration of the client: whatever the random values, the
time and the answers of the provider, as long as it has the same metadata, the client has the same addresses as it had, and what it asks
to be registered is the same, to the letter. -/
theorem C128_same_addresses_partial (x1 x2 : Ext) (hx : SameButTime x1 x2) (h1 h2 h1' h2' : Handler) (hh : MadeAlike h1 h2)
    (issId user1 user2 i1 i2 : String) (b : Obj) (hne : issId ≠ "") (hn1 : Dict.get? h1.issuer2rp issId = none)
    (hn2 : Dict.get? h2.issuer2rp issId = none) (cc : ClientConf) (hcc : ConfiguredFor h1 issId cc) (seed : String) (hse : seed ≠ "")
    (hseed : Dict.get? cc.config "hash_seed" = some (.str seed)) (hs1 : clientSetup x1 issId user1 b h1 = (.ok i1, h1'))
    (hs2 : clientSetup x2 issId user2 b h2 = (.ok i2, h2')) (d1 d2 : Client) (hd1 : Dict.get? h1'.issuer2rp i1 = some d1)
    (hd2 : Dict.get? h2'.issuer2rp i2 = some d2) (hm : d1.ctx.providerInfo = d2.ctx.providerInfo) :
    i1 = i2 ∧ d1.ctx.callback = d2.ctx.callback ∧ d1.ctx.redirectUris = d2.ctx.redirectUris ∧ d1.ctx.issuer = d2.ctx.issuer ∧
      d1.ctx.behaviour = d2.ctx.behaviour ∧
      ((∀ t, Dict.get? (registrationConf cc) "default_authn_method" ≠ some (.str t)) → registrations d1 = registrations d2) := by
  have hcc2 : ConfiguredFor h2 issId cc := by unfold ConfiguredFor at hcc ⊢; rw [← hh.configs]; exact hcc
  obtain ⟨e1, a1, r1⟩ := setup_steps hne hn1 hcc hs1 hd1
  obtain ⟨e2, a2, r2⟩ := setup_steps hne hn2 hcc2 hs2 hd2
  have hcfg : configFor h2 issId = configFor h1 issId := by unfold configFor; rw [hh.configs]
  rw [hcfg, ← alike_client hx hh (configFor h1 issId) hseed hse] at a2
  have hpi : ∀ {x : Ext} {e d : Client}, register x b e = (.ok (), d) → d.ctx.providerInfo = e.ctx.providerInfo := by
    intro x e d h
    rcases registered h with ⟨_, rfl⟩ | ⟨_, info, req0, c1, v, _, hc, _, hctx⟩
    · rfl
    · obtain ⟨⟨ca, h2, rfl⟩, _⟩ := construct_registration hc
      obtain ⟨_, _, _, _, _, _, hup⟩ := update_ctx v { e.ctx with callback := ca, hash2issuer := h2 }
      rw [hctx, hup]
  obtain ⟨hi, hctx, hsv, hcf, hcf0, disc1, disc2, l1, l2, q1, q2⟩ := alike_metadata hx a1 a2 (by rw [← hpi r1, ← hpi r2]; exact hm)
  have hl : (newClient x1 h1 (configFor h1 issId) cc).log = [] := rfl
  rw [hl, List.nil_append] at l1 l2
  have hq : ∀ l : List Sent, (∀ s ∈ l, s.srv = .providerInfo) → l.filter (fun s => decide (s.srv = .registration)) = [] := by
    intro l h
    rw [List.filter_eq_nil_iff]
    intro s hs
    rw [h s hs]
    decide
  have hmsg : x2.msg = x1.msg := by obtain ⟨_, _, _, rfl⟩ := hx; rfl
  rcases registered r1 with ⟨hid, rfl⟩ | ⟨hid, info1, req1, c1, v1, g1, k1, m1, n1⟩
  · rcases registered r2 with ⟨_, rfl⟩ | ⟨hid2, _⟩
    · refine ⟨hi, by rw [hctx], by rw [hctx], by rw [hctx], by rw [hctx], fun _ => ?_⟩
      unfold registrations
      rw [l1, l2, hq _ q1, hq _ q2]
    · exact absurd (hctx ▸ hid2) hid
  · rcases registered r2 with ⟨hid2, _⟩ | ⟨_, info2, req2, c2, v2, g2, k2, m2, n2⟩
    · exact absurd hid (hctx ▸ hid2)
    · rw [hmsg] at g2 k2
      have hcc12 := alike_construct hx (b.filter (fun p => decide (p.1 ∈ (x1.msg .registration).params))) e1 e2 hctx hcf
      rw [k1, k2] at hcc12
      simp only at hcc12
      obtain ⟨_, _, _, _, _, _, up1⟩ := update_ctx v1 c1.ctx
      obtain ⟨_, _, _, _, _, _, up2⟩ := update_ctx v2 c2.ctx
      rw [up1] at n1
      rw [up2] at n2
      refine ⟨hi, by rw [n1, n2, hcc12], by rw [n1, n2, hcc12], by rw [n1, n2, hcc12], by rw [n1, n2, hcc12], fun hno => ?_⟩
      have hau : getAuthnMethod e1 .registration = .ok "" := by
        unfold getAuthnMethod
        rw [if_neg (by decide)]
        unfold attr confOf
        rw [hcf0]
        split
        · next t ht => exact absurd ht (hno t)
        · rfl
      have := alike_request hx (args := b.filter (fun p => decide (p.1 ∈ (x1.msg .registration).params))) hctx hcf hau
      rw [g1, g2] at this
      injection this with this
      subst this
      unfold registrations
      rw [m1, m2, l1, l2, List.filter_append, List.filter_append, hq _ q1, hq _ q2]

/-- The same for two handlers that are made with the same arguments, one after the other or in two processes: they know no clients yet. -/
theorem C128_made_again (shared : Obj) (g : Given) (issId : String) : MadeAlike (newHandler shared g) (newHandler shared g) ∧
    Dict.get? (newHandler shared g).issuer2rp issId = none := ⟨⟨rfl, rfl, rfl, rfl⟩, rfl⟩

/-- The case of two handlers with a seed in the configuration of their clients, at different times, with different random values. -/
example : ∃ h1 h2 d1 d2,
    clientSetup (World.ext 1000 World.s1 "n1" "n1") "https://op.example" "" [] World.handler = (.ok "https://op.example", h1) ∧
    clientSetup (World.ext 5000 World.s2 "n2" "n1") "https://op.example" "joe" [] World.handler = (.ok "https://op.example", h2) ∧
    Dict.get? h1.issuer2rp "https://op.example" = some d1 ∧ Dict.get? h2.issuer2rp "https://op.example" = some d2 ∧
    d1.ctx.providerInfo = d2.ctx.providerInfo ∧ (registrations d1).length = 1 ∧
    Dict.get? d1.ctx.callback "code" = some (.str "https://rp.example/authz_cb/h(seedhttps://op.example)") :=
  ⟨_, _, _, _, rfl, rfl, rfl, rfl, rfl, rfl, rfl⟩

example : SameButTime (World.ext 1000 World.s1 "n1" "n1") (World.ext 5000 World.s2 "n2" "n1") ∧ MadeAlike World.handler World.handler ∧
    Dict.get? World.handler.issuer2rp "https://op.example" = none ∧
    ∃ cc, ConfiguredFor World.handler "https://op.example" cc ∧ Dict.get? cc.config "hash_seed" = some (.str "seed") ∧
      ∀ t, Dict.get? (registrationConf cc) "default_authn_method" ≠ some (.str t) :=
  ⟨⟨_, _, _, rfl⟩, ⟨rfl, rfl, rfl, rfl⟩, rfl, _, Or.inr ⟨rfl, _, rfl, rfl⟩, rfl, fun _ h => by cases h⟩

/-! ## What the code does not do -/

/-- The arguments of a handler with a seed of its own, and no configuration of clients. -/
def seeded (seed : String) : Given := { bare with hashSeed := seed }

/-- The address for the codes of the provider, of a handler made with these arguments. -/
def codeAddress (x : Ext) (g : Given) : Option Val :=
  (Dict.get? (clientSetup x "https://op.example" "" [] (newHandler DEFAULT_CLIENT_CONFIG g)).2.issuer2rp "https://op.example").bind
    fun c => Dict.get? c.ctx.callback "code"

/-- Full claim fails: the seed given to the handler is not used.  Two handlers with the same seed have different addresses, and whatever the
seed, the handler is the same. -/
theorem C128_given_seed_violated :
    codeAddress (World.ext 1000 World.s1 "n1" "n1") (seeded "seed") =
      some (.str ("https://rp.example/authz_cb/h(hash_seed-" ++ World.s1 ++ "https://op.example)")) ∧
    codeAddress (World.ext 1000 World.s2 "n1" "n1") (seeded "seed") =
      some (.str ("https://rp.example/authz_cb/h(hash_seed-" ++ World.s2 ++ "https://op.example)")) ∧
    World.s1 ≠ World.s2 ∧ ∀ seed, newHandler DEFAULT_CLIENT_CONFIG (seeded seed) = newHandler DEFAULT_CLIENT_CONFIG bare := by
  refine ⟨?_, ?_, by decide, fun _ => rfl⟩ <;> rfl

/-- Full claim fails: the sessions given to the handler as `state_db` are not used.  A handler that is given those of another one does not know
a login that has begun there. -/
theorem C128_given_sessions_violated :
    ∃ db : DB,
      db = ((Dict.get? (begin_ (World.ext 1000 World.s1 "n1" "n1") "https://op.example" "" [] []
        (newHandler DEFAULT_CLIENT_CONFIG bare)).2.issuer2rp "https://op.example").map (·.db)).getD [] ∧
      (Dict.get? db World.s1).isSome = true ∧
      (begin_ (World.ext 1000 World.s2 "n2" "n1") "https://op.example" "" [] []
        (newHandler DEFAULT_CLIENT_CONFIG { bare with stateDb := db })).1.isOk = true ∧
      (sessionInformation (begin_ (World.ext 1000 World.s2 "n2" "n1") "https://op.example" "" [] []
        (newHandler DEFAULT_CLIENT_CONFIG { bare with stateDb := db })).2 World.s1).isOk = false := by
  refine ⟨_, rfl, ?_, ?_, ?_⟩ <;> rfl

end Verif.Props
