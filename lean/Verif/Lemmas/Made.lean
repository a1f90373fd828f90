import Verif.Lemmas.Setup
import Verif.Props.Target
/-!
# What a client is made of stays
-/

namespace Verif
open StateInterface Service Handler

/-- What a client is made of stays: its services, their configuration, its add-ons, where its
keys are published and the name of its configuration. -/
structure AsMade (c c' : Client) : Prop where
  services : c'.services = c.services
  conf : c'.conf = c.conf
  cfg : c'.cfg = c.cfg
  addOn : c'.ctx.addOn = c.ctx.addOn
  jwksUri : c'.ctx.jwksUri = c.ctx.jwksUri

instance : FrameRel AsMade where
  refl _ := ⟨rfl, rfl, rfl, rfl, rfl⟩
  trans h h' := ⟨h'.services.trans h.services, h'.conf.trans h.conf, h'.cfg.trans h.cfg, h'.addOn.trans h.addOn,
    h'.jwksUri.trans h.jwksUri⟩

instance : ClientRel AsMade where
  send _ _ _ := ⟨rfl, rfl, rfl, rfl, rfl⟩
  dpop := frame_dpopKey fun _ _ _ => ⟨rfl, rfl, rfl, rfl, rfl⟩

theorem Local.asMade {k : String} {c c' : Client} (h : Local k c c') : AsMade c c' :=
  ⟨h.services, h.conf, h.cfg, by rw [h.ctx], by rw [h.ctx]⟩

theorem SameClient.asMade {c c' : Client} (h : SameClient c c') : AsMade c c' :=
  ⟨h.services, h.conf, h.cfg, by obtain ⟨b, e⟩ := h.ctx; rw [e], by obtain ⟨b, e⟩ := h.ctx; rw [e]⟩

theorem made_onDB {α : Type} (m : Py DB α) : Frame AsMade (onDB m) := fun _ => ⟨rfl, rfl, rfl, rfl, rfl⟩

theorem made_onCtx {α : Type} {m : Py Ctx α} (h : ∀ ctx, (m ctx).2.addOn = ctx.addOn ∧ (m ctx).2.jwksUri = ctx.jwksUri) :
    Frame AsMade (onCtx m) :=
  fun c => ⟨rfl, rfl, rfl, (h c.ctx).1, (h c.ctx).2⟩

namespace Service

theorem made_push (x : Ext) (r : Obj) : Frame AsMade (pushAuthorization x r) := by
  unfold pushAuthorization
  refine Frame.bind Frame.read fun c => ?_
  refine Frame.bind (Frame.lift _) fun b => Frame.bind (Frame.lift _) fun uv => Frame.bind (Frame.lift _) fun u => ?_
  exact Frame.bind (ClientRel.send _ _) fun _ => Frame.lift _

theorem made_postConstruct (x : Ext) (srv : Srv) (req post : Obj) : Frame AsMade (postConstruct x srv req post) := by
  unfold postConstruct
  refine Frame.bind Frame.read fun c => ?_
  have ha : ∀ req kwargs, Frame AsMade (authorizationPost x req kwargs) := by
    intro req kwargs
    unfold authorizationPost bindNonce
    refine Frame.bind ?_ fun _ => ?_
    · refine Frame.bind (Frame.lift _) fun b => ?_
      refine Frame.ite (fun _ => ?_) (fun _ => Frame.pure _)
      exact Frame.bind (Frame.lift _) fun _ => Frame.bind (Frame.lift _) fun _ => Frame.bind (Frame.lift _) fun _ =>
        Frame.bind (Frame.lift _) fun _ => made_onDB _
    · exact Frame.bind (Frame.lift _) fun _ => Frame.bind (Frame.lift _) fun _ => Frame.bind (Frame.lift _) fun _ =>
        Frame.bind (made_onDB _) fun _ => Frame.ask _
  have hs : ∀ req kwargs, Frame AsMade (storeAuthRequest req kwargs) := by
    intro req kwargs
    unfold storeAuthRequest
    exact Frame.bind (Frame.lift _) fun _ => Frame.bind (Frame.lift _) fun _ => Frame.bind (made_onDB _) fun _ => Frame.pure _
  cases srv <;> simp only <;> first
    | exact Frame.pure _
    | exact Frame.ite (fun _ => Frame.ask _) (fun _ => Frame.pure _)
    | exact Frame.bind (ha _ _) fun _ => Frame.ite (fun _ => made_push _ _) (fun _ => Frame.pure _)
    | exact Frame.bind (hs _ _) fun _ => Frame.ite (fun _ => made_push _ _) (fun _ => Frame.pure _)

theorem made_preConstruct (x : Ext) (srv : Srv) (args kwargs : Obj) : Frame AsMade (preConstruct x srv args kwargs) := by
  have hc : ∀ a, Frame AsMade (addCodeChallenge x a) := by
    intro a
    unfold addCodeChallenge
    refine Frame.bind Frame.read fun c => ?_
    refine Frame.ite (fun _ => Frame.raise _) (fun _ => ?_)
    exact Frame.bind (Frame.lift _) fun _ => Frame.bind (Frame.lift _) fun _ => Frame.bind (made_onDB _) fun _ => Frame.pure _
  have hr : ∀ a, Frame AsMade (pickRedirect a) := by
    intro a
    unfold pickRedirect
    exact Frame.bind (Frame.ask _) fun _ => Frame.pure _
  cases srv <;> simp only [preConstruct] <;> first
    | exact Frame.pure _
    | exact Frame.bind (Frame.ask _) fun _ => Frame.pure _
    | exact Frame.bind (Frame.ask _) fun _ => Frame.bind (Frame.ask _) fun _ => Frame.pure _
    | exact Frame.bind (Frame.ask _) fun _ => Frame.bind Frame.read fun _ => Frame.bind (Frame.lift _) fun _ => Frame.pure _
    | skip
  · refine Frame.bind ?_ fun _ => Frame.bind (hr _) fun _ => Frame.bind Frame.read fun _ =>
      Frame.bind (Frame.lift _) fun _ => Frame.ite (fun _ => Frame.bind (hc _) fun _ => Frame.pure _) (fun _ => Frame.pure _)
    unfold setState
    exact Frame.bind (Frame.lift _) fun _ => Frame.bind Frame.read fun _ => Frame.bind (made_onDB _) fun _ => Frame.pure _
  · refine Frame.bind (Frame.ask _) fun _ => Frame.bind (Frame.ask _) fun _ => Frame.bind ?_ fun _ => Frame.pure _
    unfold addState
    exact Frame.bind (Frame.lift _) fun _ => Frame.bind (Frame.lift _) fun _ => Frame.bind (Frame.lift _) fun _ =>
      Frame.bind (made_onDB _) fun _ => Frame.pure _
  · refine Frame.bind Frame.read fun _ => Frame.bind (made_onCtx fun ctx => ?_) fun _ => Frame.bind Frame.read fun _ => Frame.pure _
    exact ⟨rfl, rfl⟩
  · exact Frame.bind (hr _) fun _ => Frame.bind (Frame.lift _) fun _ => Frame.bind Frame.read fun _ =>
      Frame.ite (fun _ => Frame.bind (hc _) fun _ => Frame.pure _) (fun _ => Frame.pure _)

theorem made_request (x : Ext) (srv : Srv) (args : Obj) (o : CallOpts) (kwargs : Obj) :
    Frame AsMade (getRequestParameters x srv args o kwargs) := by
  have hb : Frame AsMade (buildRequest x srv args o kwargs) :=
    frame_buildRequest o (frame_construct args kwargs (fun _ => made_preConstruct _ _ _ _) (fun _ _ => made_postConstruct _ _ _ _))
  unfold getRequestParameters
  split
  · exact Frame.ask _
  · exact Frame.ask _
  · exact Frame.ask _
  · exact hb

theorem addOn_updateBase (services : List Srv) (resp : Obj) (ctx : Ctx) :
    (Discovery.updateBase services resp ctx).2.addOn = ctx.addOn ∧
    (Discovery.updateBase services resp ctx).2.jwksUri = ctx.jwksUri := by
  unfold Discovery.updateBase
  split <;> exact ⟨rfl, rfl⟩

theorem addOn_update (kind : String → Option Bool) (services : List Srv) (resp : Obj) (ctx : Ctx) :
    (Discovery.update kind services resp ctx).2.addOn = ctx.addOn ∧
    (Discovery.update kind services resp ctx).2.jwksUri = ctx.jwksUri := by
  have h := addOn_updateBase services resp ctx
  unfold Discovery.update
  rcases hu : Discovery.updateBase services resp ctx with ⟨r, c⟩
  rw [hu] at h
  cases r with
  | error e => exact h
  | ok _ =>
    simp only at h ⊢
    rw [← h.1, ← h.2]
    unfold Discovery.matchPreferences
    simp only
    split
    · exact ⟨rfl, rfl⟩
    · split <;> exact ⟨rfl, rfl⟩

theorem addOn_registration (resp : Obj) (ctx : Ctx) :
    (Registration.update resp ctx).addOn = ctx.addOn ∧ (Registration.update resp ctx).jwksUri = ctx.jwksUri := by
  have ha : ∀ r (c : Ctx), (Registration.applyClientId r c).addOn = c.addOn ∧ (Registration.applyClientId r c).jwksUri = c.jwksUri := by
    intro r c
    unfold Registration.applyClientId
    split
    · split
      · exact ⟨rfl, rfl⟩
      · unfold Registration.applySecret
        repeat' (first | exact ⟨rfl, rfl⟩ | split)
    · exact ⟨rfl, rfl⟩
  unfold Registration.update
  simp only
  split
  · exact ha _ _
  · exact ha _ _

theorem addOn_webfinger (conf : Obj) (rel : String) (resp : Obj) (ctx : Ctx) :
    (WebFinger.update conf rel resp ctx).2.addOn = ctx.addOn ∧ (WebFinger.update conf rel resp ctx).2.jwksUri = ctx.jwksUri := by
  unfold WebFinger.update
  repeat' (first | exact ⟨rfl, rfl⟩ | split)

theorem made_updateMsg {x : Ext} {srv : Srv} (hs : srv = .providerInfo ∨ srv = .registration ∨ srv = .webfinger)
    (resp : Obj) (k : String) : Frame AsMade (updateMsg x srv resp k) := by
  rcases hs with rfl | rfl | rfl <;> simp only [updateMsg]
  · exact Frame.bind Frame.read fun c => Frame.bind (made_onCtx (addOn_update _ _ _)) fun _ => Frame.pure _
  · exact Frame.bind (made_onCtx (fun ctx => addOn_registration _ ctx)) fun _ => Frame.pure _
  · exact Frame.bind Frame.read fun c => Frame.bind (made_onCtx (addOn_webfinger _ _ _)) fun _ => Frame.pure _

theorem made_doRequest {x : Ext} {srv : Srv} (hs : srv = .providerInfo ∨ srv = .registration ∨ srv = .webfinger)
    (args : Obj) (o : CallOpts) (kwargs : Obj) : Frame AsMade (doRequest x srv args o kwargs) := by
  have hp : ∀ r s, Frame AsMade (postParse x srv r s) := by
    intro r s
    rcases hs with rfl | rfl | rfl <;> exact Frame.pure _
  exact frame_doRequest (made_request x srv args o kwargs) (fun r => hp _ _) (fun r => hp _ _) (fun m => made_updateMsg hs _ _)

end Service

namespace Handler

theorem made_providerInfo (x : Ext) : Frame AsMade (doProviderInfo x) := by
  unfold doProviderInfo
  refine Frame.bind Frame.read fun c => ?_
  refine Frame.ite (fun _ => ?_) (fun _ => ?_)
  · refine Frame.bind ?_ fun _ => ?_
    · unfold dynamicDiscovery
      refine Frame.bind (made_onCtx fun ctx => ?_) fun _ => ?_
      · show (discoveryUrl ctx).addOn = ctx.addOn ∧ (discoveryUrl ctx).jwksUri = ctx.jwksUri
        unfold discoveryUrl
        split <;> exact ⟨rfl, rfl⟩
      exact Frame.bind (made_doRequest (Or.inl rfl) _ _ _) fun _ => Frame.lift _
    · exact Frame.bind (Frame.ask _) fun _ => Frame.lift _
  · refine Frame.bind (made_onCtx fun ctx => ⟨rfl, rfl⟩) fun _ => ?_
    exact Frame.bind (Frame.lift _) fun _ => Frame.lift _

theorem made_register (x : Ext) (b : Obj) : Frame AsMade (register x b) := by
  unfold register
  refine Frame.bind Frame.read fun c => ?_
  refine Frame.ite (fun _ => ?_) (fun _ => Frame.pure _)
  unfold loadRegistration
  refine Frame.bind (Frame.try_ (made_doRequest (Or.inr (Or.inl rfl)) _ _ _) fun e k hk => ?_) fun _ => Frame.lift _
  split at hk
  · injection hk with hk; subst hk; exact Frame.raise _
  · cases hk

theorem aliasScope_jwks (req : Obj) (ctx : Ctx) : (aliasScope req ctx).jwksUri = ctx.jwksUri := by
  unfold aliasScope
  repeat' (first | rfl | split)

theorem made_initAuthorization (x : Ext) (req b : Obj) : Frame AsMade (initAuthorization x req b) := by
  unfold initAuthorization
  refine Frame.bind (Frame.ask _) fun args => Frame.bind Frame.read fun c => Frame.bind (made_onDB _) fun k =>
    Frame.bind (made_onDB _) fun _ => Frame.ite (fun _ => Frame.raise _) fun _ => ?_
  refine Frame.bind (made_onCtx fun ctx => ⟨(aliasScope_same req ctx).2.1, aliasScope_jwks req ctx⟩) fun _ => ?_
  exact Frame.bind (made_request _ _ _ _ _) fun _ => Frame.pure _

/-- The clients and configurations of a handler are made of the configurations `C`, with the keys published at `J`. -/
structure MadeOf (C : Dict ClientConf) (J : String) (h : Handler) : Prop where
  clients : ∀ i c, Dict.get? h.issuer2rp i = some c → ∃ cc, Dict.get? C c.cfg = some cc ∧ c.services = cc.services ∧
    c.conf = cc.srvConf ∧ c.ctx.addOn = cc.addOn ∧ c.ctx.jwksUri = J
  configs : ∀ n cc, Dict.get? h.configs n = some cc → ∃ cc0, Dict.get? C n = some cc0 ∧ cc.services = cc0.services ∧
    cc.srvConf = cc0.srvConf ∧ cc.addOn = cc0.addOn
  jwksUri : h.jwksUri = J

variable {C : Dict ClientConf} {J : String} {h : Handler}

/-- A client made of the configurations `C`. -/
def MadeClient (C : Dict ClientConf) (J : String) (c : Client) : Prop :=
  ∃ cc, Dict.get? C c.cfg = some cc ∧ c.services = cc.services ∧ c.conf = cc.srvConf ∧ c.ctx.addOn = cc.addOn ∧
    c.ctx.jwksUri = J

theorem MadeClient.of {c c' : Client} (hm : MadeClient C J c) (h : AsMade c c') : MadeClient C J c' := by
  obtain ⟨cc, e1, e2, e3, e4, e5⟩ := hm
  exact ⟨cc, by rw [h.cfg]; exact e1, h.services.trans e2, h.conf.trans e3, h.addOn.trans e4, h.jwksUri.trans e5⟩

theorem madeOf_share (hm : MadeOf C J h) (cfg : String) (b : Obj) : MadeOf C J (share cfg b h) := by
  unfold share
  split
  · exact hm
  · next cc hcc =>
    split
    · refine ⟨fun i c hc => ?_, fun n cc' hc => ?_, hm.jwksUri⟩
      · have hmap : ∀ l : Dict Client, Dict.get? (l.map (fun p => (p.1, sharedClient cfg b p.2))) i =
            (Dict.get? l i).map (sharedClient cfg b) := fun l => Dict.get?_map _ _ _
        simp only [hmap, Option.map_eq_some_iff] at hc
        obtain ⟨d, hd, rfl⟩ := hc
        refine MadeClient.of (c := d) (hm.clients i d hd) ?_
        unfold sharedClient
        split
        · exact ⟨rfl, rfl, rfl, rfl, rfl⟩
        · exact FrameRel.refl _
      · simp only [Dict.get?_set] at hc
        split at hc
        · next e =>
          subst e
          injection hc with hc
          subst hc
          exact hm.configs _ cc hcc
        · exact hm.configs n cc' hc
    · exact hm

theorem madeOf_set (hm : MadeOf C J h) {j : String} {d : Client} (hd : MadeClient C J d) :
    MadeOf C J { h with issuer2rp := Dict.set h.issuer2rp j d } := by
  refine ⟨fun i c hc => ?_, hm.configs, hm.jwksUri⟩
  simp only [Dict.get?_set] at hc
  split at hc
  · injection hc with hc; subst hc; exact hd
  · exact hm.clients i c hc

theorem madeOf_onClient {α : Type} {j : String} {m : Py Client α} (hm : MadeOf C J h)
    (hf : ∀ d, AsMade d (m d).2) : MadeOf C J (onClient j m h).2 := by
  unfold onClient
  cases hj : Dict.get? h.issuer2rp j with
  | none => exact hm
  | some d => exact madeOf_share (madeOf_set hm (MadeClient.of (hm.clients j d hj) (hf d))) _ _

theorem madeOf_onNew {α : Type} {d : Client} {m : Py Client α} (hm : MadeOf C J h) (hd : MadeClient C J d) (hf : ∀ d, AsMade d (m d).2) :
    MadeOf C J (onNew d m h).2 ∧ ∀ p, (onNew d m h).1 = .ok p → MadeClient C J p.2 := by
  refine ⟨madeOf_share hm _ _, fun p hp => ?_⟩
  unfold onNew at hp
  simp only at hp
  cases h3 : (m d).1 with
  | error e => rw [h3] at hp; cases hp
  | ok a =>
    rw [h3] at hp
    injection hp with hp
    subst hp
    exact hd.of (hf d)

theorem madeOf_initClient (x : Ext) (issuer : String) (hm : MadeOf C J h) :
    MadeOf C J (initClient x issuer h).2 ∧ ∀ c, (initClient x issuer h).1 = .ok c → MadeClient C J c := by
  unfold initClient
  split
  · next cc hcc =>
    refine ⟨hm, fun c hc => ?_⟩
    injection hc with hc
    subst hc
    obtain ⟨c0, e1, e2, e3, e4⟩ := hm.configs _ cc hcc
    exact ⟨c0, e1, e2, e3, e4, hm.jwksUri⟩
  · split
    · exact ⟨hm, fun c hc => by cases hc⟩
    · next cc hcc =>
      refine ⟨⟨hm.clients, fun n cc' hc => ?_, hm.jwksUri⟩, fun c hc => ?_⟩
      · simp only [Dict.get?_set] at hc
        split at hc
        · next e =>
          subst e
          injection hc with hc
          subst hc
          exact hm.configs _ cc hcc
        · exact hm.configs n cc' hc
      · injection hc with hc
        subst hc
        obtain ⟨c0, e1, e2, e3, e4⟩ := hm.configs _ cc hcc
        exact ⟨c0, e1, e2, e3, e4, hm.jwksUri⟩

theorem madeOf_adopt (x : Ext) (d : Client) (issId : String) (b : Obj) (hm : MadeOf C J h) (hd : MadeClient C J d) :
    MadeOf C J (adopt x d issId b h).2 := by
  unfold adopt
  rw [Py.bind_run]
  obtain ⟨h1, q1⟩ := madeOf_onNew hm hd (made_providerInfo x)
  rcases hr : onNew d (doProviderInfo x) h with ⟨r, g1⟩
  rw [hr] at h1 q1
  cases r with
  | error e => exact h1
  | ok r =>
    simp only [Py.modify_bind_run]
    rw [Py.bind_run]
    have h2 : MadeOf C J { g1 with hash2issuer := Dict.set g1.hash2issuer issId r.2.ctx.issuer } := ⟨h1.clients, h1.configs, h1.jwksUri⟩
    obtain ⟨h3, q3⟩ := madeOf_onNew h2 (q1 r rfl) (made_register x b)
    rcases hs : onNew r.2 (register x b) { g1 with hash2issuer := Dict.set g1.hash2issuer issId r.2.ctx.issuer } with ⟨s, g2⟩
    rw [hs] at h3 q3
    cases s with
    | error e => exact h3
    | ok s =>
      simp only [Py.modify_bind_run, Py.pure_run]
      exact madeOf_set h3 (q3 s rfl)

theorem madeOf_setup (x : Ext) (issId user : String) (b : Obj) (hm : MadeOf C J h) : MadeOf C J (clientSetup x issId user b h).2 := by
  unfold clientSetup
  split
  · exact hm
  · split
    · unfold doWebfinger
      rw [Py.bind_run, Py.bind_run]
      obtain ⟨h1, q1⟩ := madeOf_initClient x "" hm
      rcases hr : initClient x "" h with ⟨r, g1⟩
      rw [hr] at h1 q1
      cases r with
      | error e => exact h1
      | ok d =>
        simp only
        rw [Py.bind_run]
        obtain ⟨h2, q2⟩ := madeOf_onNew h1 (q1 d rfl) (made_doRequest (x := x) (srv := .webfinger) (Or.inr (Or.inr rfl)) [] {} [("resource", .str user)])
        rcases hr2 : onNew d (doRequest x .webfinger [] {} [("resource", .str user)]) g1 with ⟨r2, g2⟩
        rw [hr2] at h2 q2
        cases r2 with
        | error e => exact h2
        | ok r2 =>
          simp only [Py.pure_run, Py.read_bind_run]
          split
          · exact h2
          · exact madeOf_adopt _ _ _ _ h2 (q2 r2 rfl)
    · rw [Py.read_bind_run]
      split
      · exact hm
      · rw [Py.bind_run]
        obtain ⟨h1, q1⟩ := madeOf_initClient x issId hm
        rcases hr : initClient x issId h with ⟨r, g1⟩
        rw [hr] at h1 q1
        cases r with
        | error e => exact h1
        | ok d => exact madeOf_adopt _ _ _ _ h1 (q1 d rfl)

theorem madeOf_session {α : Type} (hm : MadeOf C J h) {s k : String} {m : Py Client α} (hf : Frame (Local k) m) :
    MadeOf C J (onSession s m h).2 := by
  unfold onSession
  cases hr : sessionIssuer h s with
  | error e => exact hm
  | ok j => exact madeOf_onClient hm fun d => (hf d).asMade

/-- Every call keeps it. -/
theorem madeOf_exec (hm : MadeOf C J h) (xc : Ext × Call) : MadeOf C J (exec xc.1 xc.2 h).2 := by
  obtain ⟨x, call⟩ := xc
  cases call with
  | begin issId user req b =>
    show MadeOf C J (begin_ x issId user req b h).2
    unfold begin_
    rw [Py.bind_run]
    have h0 := madeOf_setup x issId user b hm
    rcases hs : clientSetup x issId user b h with ⟨r, h1⟩
    rw [hs] at h0
    cases r with
    | error e => exact h0
    | ok j => exact madeOf_onClient h0 (made_initAuthorization x req b)
  | finalize j r b =>
    exact madeOf_onClient hm (j := j) (m := finalizeClient x j r b) fun d => (finalizeClient_setup x j r b d).asMade
  | getTokens s => exact madeOf_session hm (local_getTokens x s)
  | refresh s sc => exact madeOf_session hm (local_refresh x s sc)
  | userInfo s t => exact madeOf_session hm (local_userInfo x s t)
  | hasActive s => exact madeOf_session hm (s := s) (k := s) (m := ask (hasActive x s)) (Frame.ask _)
  | validToken s => exact madeOf_session hm (s := s) (k := s) (m := ask (validAccessToken x s)) (Frame.ask _)
  | logout s u => exact madeOf_session hm (local_logout x s u)
  | close s j u =>
    show MadeOf C J (close x s j u h).2
    unfold close
    split
    · exact madeOf_onClient hm fun d => (local_logout x s u d).asMade
    · exact madeOf_session hm (local_logout x s u)
  | clear s =>
    show MadeOf C J (clearSession s h).2
    unfold clearSession onSession
    cases hr : sessionIssuer h s with
    | error e => exact hm
    | ok j => exact madeOf_onClient hm fun d => ⟨rfl, rfl, rfl, rfl, rfl⟩
  | backchannel j info => exact madeOf_onClient hm (j := j) (m := ask (backchannelLogout x info)) fun d => FrameRel.refl _

/-- Every history keeps it. -/
theorem madeOf_run (l : List (Ext × Call)) : ∀ {h : Handler}, MadeOf C J h → MadeOf C J (run l h) := by
  induction l with
  | nil => intro h hm; exact hm
  | cons xc l ih => intro h hm; exact ih (madeOf_exec hm xc)

theorem madeOf_new (hn : h.issuer2rp = []) : MadeOf h.configs h.jwksUri h :=
  ⟨fun i c hc => (by rw [hn] at hc; cases hc), fun n cc hc => ⟨cc, hc, rfl, rfl, rfl⟩, rfl⟩

end Handler
end Verif
