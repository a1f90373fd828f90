import Verif.Lemmas.InFlight
import Verif.Lemmas.Discovery
/-!
# The name under which a client is kept is the issuer it works for
-/

namespace Verif
open StateInterface Service Handler
open Spec.InFlight

/-- The issuer of the context stays. -/
def KeepIss (c c' : Client) : Prop := c'.ctx.issuer = c.ctx.issuer

instance : FrameRel KeepIss where
  refl _ := rfl
  trans h h' := Eq.trans h' h

instance : ClientRel KeepIss where
  send := fun _ _ _ => rfl
  dpop := frame_dpopKey fun _ _ _ => rfl

/-- The context stays. -/
def KeepCtx (c c' : Client) : Prop := c'.ctx = c.ctx

instance : FrameRel KeepCtx where
  refl _ := rfl
  trans h h' := Eq.trans h' h

/-- What is tolerated, and the metadata, stay. -/
def KeepMeta (c c' : Client) : Prop := c'.ctx.allow = c.ctx.allow ∧ c'.ctx.providerInfo = c.ctx.providerInfo

instance : FrameRel KeepMeta where
  refl _ := ⟨rfl, rfl⟩
  trans h h' := ⟨h'.1.trans h.1, h'.2.trans h.2⟩

instance : ClientRel KeepMeta where
  send := fun _ _ _ => ⟨rfl, rfl⟩
  dpop := frame_dpopKey fun _ _ _ => ⟨rfl, rfl⟩

/-- Metadata that name an issuer name that of the context; other issuers are not tolerated. -/
def StrictlyNamed (ctx : Ctx) : Prop :=
  Dict.has ctx.allow "issuer_mismatch" = false ∧ ∀ s, Dict.get? ctx.providerInfo "issuer" = some (.str s) → ctx.issuer = s

/-- That is kept. -/
def KeepNamed (c c' : Client) : Prop := StrictlyNamed c.ctx → StrictlyNamed c'.ctx

instance : FrameRel KeepNamed where
  refl _ := id
  trans h h' := h' ∘ h

instance : ClientRel KeepNamed where
  send := fun _ _ _ => id
  dpop := frame_dpopKey fun _ _ _ => id

namespace Service

theorem keepNamed_discovery (kind : String → Option Bool) (services : List Srv) (resp : Obj) (ctx : Ctx)
    (h : StrictlyNamed ctx) : StrictlyNamed (Discovery.update kind services resp ctx).2 := by
  unfold Discovery.update
  have hb : StrictlyNamed (Discovery.updateBase services resp ctx).2 := by
    unfold Discovery.updateBase
    cases ha : Discovery.acceptedIssuer ctx resp with
    | error e => exact h
    | ok iss =>
      refine ⟨h.1, fun s hs => ?_⟩
      simp only at hs ⊢
      unfold Discovery.acceptedIssuer at ha
      rw [hs] at ha
      simp only [Discovery.verifyIssuer, h.1, Bool.false_eq_true, if_false] at ha
      split at ha
      · cases ha
      · next hne =>
        injection ha with ha
        subst ha
        exact Decidable.not_not.1 hne
  rcases hu : Discovery.updateBase services resp ctx with ⟨r, c⟩
  rw [hu] at hb
  cases r with
  | error e => exact hb
  | ok u =>
    obtain ⟨b, hb'⟩ := Discovery.matchPreferences_frame kind resp c
    simp only
    rw [hb']
    exact hb

theorem keepNamed_providerInfo (x : Ext) (args : Obj) (o : CallOpts) (kwargs : Obj) :
    Frame KeepNamed (doRequest x .providerInfo args o kwargs) := by
  refine frame_doRequest (Frame.ask _) (fun r => Frame.pure _) (fun r => Frame.pure _) (fun m => ?_)
  simp only [updateMsg]
  refine Frame.bind Frame.read fun c => ?_
  refine Frame.bind ?_ fun _ => Frame.pure _
  intro c'
  exact keepNamed_discovery _ _ _ _

theorem keepMeta_webfinger (x : Ext) (args : Obj) (o : CallOpts) (kwargs : Obj) :
    Frame KeepMeta (doRequest x .webfinger args o kwargs) := by
  refine frame_doRequest (Frame.ask _) (fun r => Frame.pure _) (fun r => Frame.pure _) (fun m => ?_)
  simp only [updateMsg]
  refine Frame.bind Frame.read fun c => ?_
  refine Frame.bind ?_ fun _ => Frame.pure _
  intro c'
  show _ ∧ _
  simp only [onCtx, WebFinger.update]
  split
  · exact ⟨rfl, rfl⟩
  · split <;> exact ⟨rfl, rfl⟩
  · exact ⟨rfl, rfl⟩

theorem issuer_addCallbacks (hash : String → String) (l : List String) (ctx : Ctx) :
    (Registration.addCallbacks hash l ctx).issuer = ctx.issuer := rfl

theorem issuer_registration (resp : Obj) (ctx : Ctx) : (Registration.update resp ctx).issuer = ctx.issuer := by
  have hs : ∀ (resp : Obj) (ctx : Ctx), (Registration.applySecret resp ctx).issuer = ctx.issuer := by
    intro resp ctx
    unfold Registration.applySecret
    split
    · split <;> rfl
    · rfl
  have hc : ∀ (resp : Obj) (ctx : Ctx), (Registration.applyClientId resp ctx).issuer = ctx.issuer := by
    intro resp ctx
    unfold Registration.applyClientId
    split
    · split
      · rfl
      · exact hs _ _
    · rfl
  unfold Registration.update
  simp only
  split
  · exact hc _ _
  · exact hc _ _

theorem keepIss_registration (x : Ext) (args : Obj) (o : CallOpts) (kwargs : Obj) :
    Frame KeepIss (doRequest x .registration args o kwargs) := by
  refine frame_doRequest ?_ (fun r => Frame.pure _) (fun r => Frame.pure _) (fun m => ?_)
  · refine frame_buildRequest o (frame_construct args kwargs (fun kw => ?_) (fun req post => ?_))
    · simp only [preConstruct]
      refine Frame.bind Frame.read fun c => ?_
      refine Frame.bind (fun c' => ?_) fun b => ?_
      · exact issuer_addCallbacks _ _ _
      · exact Frame.bind Frame.read fun c' => Frame.pure _
    · unfold postConstruct
      exact Frame.bind Frame.read fun c => Frame.pure _
  · simp only [updateMsg]
    refine Frame.bind (fun c' => ?_) fun _ => Frame.pure _
    exact issuer_registration _ _

end Service

namespace Handler

/-- A context whose provider has one name. -/
def OneNamed (ctx : Ctx) : Prop :=
  Dict.has ctx.allow "issuer_mismatch" = false ∧
  (ctx.providerInfo = [] ∨ ∀ v, Dict.get? ctx.providerInfo "issuer" = some v → v = .str ctx.issuer)

/-- `do_provider_info` returns the issuer of the context. -/
theorem doProviderInfo_named {x : Ext} {c c' : Client} {i : String} (h : OneNamed c.ctx)
    (hr : doProviderInfo x c = (.ok i, c')) : c'.ctx.issuer = i := by
  unfold doProviderInfo at hr
  rw [Py.read_bind_run] at hr
  split at hr
  · next he =>
    obtain ⟨_, c1, h1, h2⟩ := Py.bind_eq_ok.1 hr
    obtain ⟨v, c2, h3, h4⟩ := Py.bind_eq_ok.1 h2
    obtain ⟨h5, h6⟩ := Py.lift_eq_ok.1 h4
    have hv : Dict.getItem c1.ctx.providerInfo "issuer" = .ok v := congrArg Prod.fst h3
    have hc2 : c1 = c2 := congrArg Prod.snd h3
    rw [Dict.getItem_eq_ok] at hv
    have hn : StrictlyNamed c1.ctx := by
      have hfr : KeepNamed { c with ctx := discoveryUrl c.ctx } c1 := by
        unfold dynamicDiscovery at h1
        have hm : (Service.onCtx (Py.modify discoveryUrl) : Py Client Unit) c = (.ok (), { c with ctx := discoveryUrl c.ctx }) := rfl
        rw [Py.bind_ok hm] at h1
        have hf : Frame KeepNamed (doRequest x .providerInfo [] {} [] >>= fun r => Py.lift (refuseError r)) :=
          Frame.bind (keepNamed_providerInfo x _ _ _) fun r => Frame.lift _
        have := hf { c with ctx := discoveryUrl c.ctx }
        rw [h1] at this
        exact this
      refine hfr ?_
      have he' : c.ctx.providerInfo = [] := by simpa using he
      have hd : (discoveryUrl c.ctx).allow = c.ctx.allow ∧ (discoveryUrl c.ctx).providerInfo = c.ctx.providerInfo := by
        unfold discoveryUrl
        split <;> exact ⟨rfl, rfl⟩
      refine ⟨by rw [hd.1]; exact h.1, fun s hs => ?_⟩
      rw [hd.2, he'] at hs
      cases hs
    unfold asStr at h5
    split at h5
    · injection h5 with h5
      subst h5
      rw [← h6, ← hc2]
      exact hn.2 _ hv
    · cases h5
  · next he =>
    obtain ⟨_, c1, h1, h2⟩ := Py.bind_eq_ok.1 hr
    have hc1 : c1.ctx.issuer = c.ctx.issuer := (congrArg (fun p => p.2.ctx.issuer) h1).symm
    obtain ⟨_, c2, h3, h4⟩ := Py.bind_eq_ok.1 h2
    obtain ⟨_, rfl⟩ := Py.lift_eq_ok.1 h3
    obtain ⟨h5, rfl⟩ := Py.lift_eq_ok.1 h4
    rw [hc1]
    unfold staticIssuer at h5
    rcases h.2 with hp | hp
    · rw [hp] at he; simp at he
    · cases hv : Dict.get? c.ctx.providerInfo "issuer" with
      | none => rw [hv] at h5; injection h5
      | some v =>
        rw [hv] at h5
        obtain rfl := hp v hv
        injection h5

theorem register_named (x : Ext) (b : Obj) : Frame KeepIss (register x b) := by
  unfold register
  refine Frame.bind Frame.read fun c => ?_
  refine Frame.ite (fun _ => ?_) (fun _ => Frame.pure _)
  unfold loadRegistration
  refine Frame.bind (Frame.try_ (keepIss_registration _ _ _ _) fun e k hk => ?_) fun _ => Frame.lift _
  split at hk
  · injection hk with hk; subst hk; exact Frame.raise _
  · cases hk

/-- Every provider has one name. -/
structure Named (h : Handler) : Prop where
  configs : ∀ n cc, (n, cc) ∈ h.configs → OneName n cc
  clients : ∀ i c, (i, c) ∈ h.issuer2rp → c.ctx.issuer = i

theorem confObj_set {config : Obj} {k k' : String} (h : k ≠ k') (v : Val) : confObj (Dict.set config k v) k' = confObj config k' := by
  unfold confObj; rw [Dict.get?_set_ne _ _ h]

theorem confStr_set {config : Obj} {k k' : String} (h : k ≠ k') (v : Val) : confStr (Dict.set config k v) k' = confStr config k' := by
  unfold confStr; rw [Dict.get?_set_ne _ _ h]

theorem named_share {h : Handler} (hn : Named h) (cfg : String) (b : Obj) : Named (share cfg b h) := by
  unfold share
  split
  · exact hn
  · next cc hcc =>
    split
    · refine ⟨fun n cc' hm => ?_, fun i c hm => ?_⟩
      · rcases Dict.mem_set hm with hm | hm
        · exact hn.configs n cc' hm
        · injection hm with hm1 hm2
          subst hm1; subst hm2
          obtain ⟨h1, h2⟩ := hn.configs _ cc (Dict.get?_eq_some_mem hcc)
          constructor
          · simp only [confObj_set (k := "behaviour") (k' := "allow") (by decide)]; exact h1
          · simp only [confIssuer, confObj_set (k := "behaviour") (k' := "provider_info") (by decide),
              confStr_set (k := "behaviour") (k' := "issuer") (by decide)]
            exact h2
      · simp only [List.mem_map] at hm
        obtain ⟨⟨j, d⟩, hd, he⟩ := hm
        injection he with he1 he2
        subst he1; subst he2
        have := hn.clients j d hd
        unfold sharedClient
        split <;> exact this
    · exact hn

theorem named_set {h : Handler} (hn : Named h) {i : String} {c : Client} (hc : c.ctx.issuer = i) :
    Named { h with issuer2rp := Dict.set h.issuer2rp i c } := by
  refine ⟨hn.configs, fun j d hm => ?_⟩
  rcases Dict.mem_set hm with hm | hm
  · exact hn.clients j d hm
  · injection hm with hm1 hm2
    subst hm1; subst hm2
    exact hc

theorem named_onClient {α : Type} {i : String} {m : Py Client α} {h : Handler} (hn : Named h)
    (hm : ∀ c, Dict.get? h.issuer2rp i = some c → (m c).2.ctx.issuer = c.ctx.issuer) : Named (onClient i m h).2 := by
  unfold onClient
  cases hc : Dict.get? h.issuer2rp i with
  | none => exact hn
  | some c =>
    refine named_share (named_set hn ?_) _ _
    rw [hm c hc]
    exact hn.clients i c (Dict.get?_eq_some_mem hc)

theorem named_initClient {x : Ext} {issuer : String} {h h' : Handler} {r : Except Exc Client} (hn : Named h)
    (hr : initClient x issuer h = (r, h')) : Named h' ∧ ∀ c, r = .ok c → OneNamed c.ctx ∧ (issuer = "" → c.ctx.providerInfo = []) := by
  have hnew : ∀ n cc, OneName n cc → OneNamed (newClient x h n cc).ctx ∧ (n = "" → (newClient x h n cc).ctx.providerInfo = []) := by
    intro n cc ⟨h1, h2⟩
    refine ⟨⟨h1, ?_⟩, ?_⟩
    · rcases h2 with h2 | h2
      · exact Or.inl h2
      · exact Or.inr h2.2
    · intro e
      rcases h2 with h2 | h2
      · exact h2
      · exact absurd e h2.1
  unfold initClient at hr
  split at hr
  · next cc hcc =>
    injection hr with h1 h2
    subst h1; subst h2
    refine ⟨hn, fun c hc => ?_⟩
    injection hc with hc
    subst hc
    exact hnew _ _ (hn.configs _ cc (Dict.get?_eq_some_mem hcc))
  · next hnone =>
    split at hr
    · injection hr with h1 h2
      subst h1; subst h2
      exact ⟨hn, fun c hc => by cases hc⟩
    · next cc hcc =>
      simp only at hr
      injection hr with h1 h2
      subst h1; subst h2
      have hcc' := hn.configs _ cc (Dict.get?_eq_some_mem hcc)
      have hpi : confObj cc.config "provider_info" = [] := by
        rcases hcc'.static with h2 | h2
        · exact h2
        · exact absurd rfl h2.1
      have hone : OneName "" { cc with config := Dict.set cc.config "issuer" (.str issuer) } := by
        constructor
        · simp only [confObj_set (k := "issuer") (k' := "allow") (by decide)]; exact hcc'.strict
        · left
          simp only [confObj_set (k := "issuer") (k' := "provider_info") (by decide)]; exact hpi
      refine ⟨⟨fun n cc' hm => ?_, hn.clients⟩, fun c hc => ?_⟩
      · rcases Dict.mem_set hm with hm | hm
        · exact hn.configs n cc' hm
        · injection hm with hm1 hm2
          subst hm1; subst hm2
          exact hone
      · injection hc with hc
        subst hc
        obtain ⟨a1, a2⟩ := hnew _ _ hone
        exact ⟨a1, fun _ => a2 rfl⟩

theorem named_onNew {α : Type} {m : Py Client α} {c : Client} {h h' : Handler} {r : Except Exc (α × Client)}
    (hn : Named h) (hr : onNew c m h = (r, h')) :
    Named h' ∧ ∀ p, r = .ok p → m c = (.ok p.1, p.2) := by
  have h1 : (onNew c m h).2 = h' := congrArg Prod.snd hr
  have h2 : (m c).1.map (fun a => (a, (m c).2)) = r := congrArg Prod.fst hr
  refine ⟨?_, ?_⟩
  · rw [← h1]; exact named_share hn _ _
  · intro p hp'
    rw [hp'] at h2
    cases h3 : (m c).1 with
    | error e => rw [h3] at h2; cases h2
    | ok a =>
      rw [h3] at h2
      injection h2 with h2
      subst h2
      exact Prod.ext h3 rfl

theorem named_adopt {x : Ext} {c : Client} {issId : String} {b : Obj} {h : Handler} (hn : Named h) (hc : OneNamed c.ctx) :
    Named (adopt x c issId b h).2 := by
  unfold adopt
  rw [Py.bind_run]
  rcases h1 : onNew c (doProviderInfo x) h with ⟨r, g1⟩
  obtain ⟨n1, q1⟩ := named_onNew hn h1
  cases r with
  | error e => exact n1
  | ok r =>
    have hi := doProviderInfo_named hc (q1 r rfl)
    simp only [Py.modify_bind_run]
    rw [Py.bind_run]
    have n2 : Named { g1 with hash2issuer := Dict.set g1.hash2issuer issId r.2.ctx.issuer } := ⟨n1.configs, n1.clients⟩
    rcases h2 : onNew r.2 (register x b) { g1 with hash2issuer := Dict.set g1.hash2issuer issId r.2.ctx.issuer } with ⟨r2, g2⟩
    obtain ⟨n3, q2⟩ := named_onNew n2 h2
    cases r2 with
    | error e => exact n3
    | ok r2 =>
      have hk : r2.2.ctx.issuer = r.2.ctx.issuer := by
        have := register_named x b r.2
        rw [q2 r2 rfl] at this
        exact this
      simp only [Py.modify_bind_run, Py.pure_run]
      exact named_set n3 (hk.trans hi)

theorem named_clientSetup (x : Ext) (issId user : String) (b : Obj) {h : Handler} (hn : Named h) :
    Named (clientSetup x issId user b h).2 := by
  unfold clientSetup
  split
  · exact hn
  · split
    · unfold doWebfinger
      rw [Py.bind_run, Py.bind_run]
      rcases h1 : initClient x "" h with ⟨r, g1⟩
      obtain ⟨n1, q1⟩ := named_initClient hn h1
      cases r with
      | error e => exact n1
      | ok c =>
        obtain ⟨d1, f1⟩ := q1 c rfl
        simp only
        rw [Py.bind_run]
        rcases h2 : onNew c (doRequest x .webfinger [] {} [("resource", .str user)]) g1 with ⟨r2, g2⟩
        obtain ⟨n2, q2⟩ := named_onNew n1 h2
        cases r2 with
        | error e => exact n2
        | ok r2 =>
          simp only [Py.pure_run, Py.read_bind_run]
          split
          · exact n2
          · refine named_adopt n2 ?_
            have hm := keepMeta_webfinger x [] {} [("resource", .str user)] c
            rw [q2 r2 rfl] at hm
            refine ⟨by rw [hm.1]; exact d1.1, Or.inl (by rw [hm.2]; exact f1 rfl)⟩
    · rw [Py.read_bind_run]
      split
      · exact hn
      · rw [Py.bind_run]
        rcases h1 : initClient x issId h with ⟨r, g1⟩
        obtain ⟨n1, q1⟩ := named_initClient hn h1
        cases r with
        | error e => exact n1
        | ok c => exact named_adopt n1 (q1 c rfl).1

theorem named_session {α : Type} {h : Handler} (hn : Named h) {s k : String} {m : Py Client α}
    (hm : Frame (Local k) m) : Named (onSession s m h).2 := by
  unfold onSession
  cases hr : sessionIssuer h s with
  | error e => exact hn
  | ok i => exact named_onClient hn fun c _ => by rw [(hm c).ctx]

theorem finalizeClient_ctx (x : Ext) (issuer : String) (response b : Obj) (c : Client) :
    (finalizeClient x issuer response b c).2.ctx = c.ctx := by
  have hf : Frame KeepCtx (finalizeClient x issuer response b) := by
    unfold finalizeClient
    refine Frame.bind ?_ fun resp => ?_
    · intro c
      rcases finalizeAuth_cases x issuer response c with ⟨e, he⟩ | ⟨resp, _, _, ⟨hie, hf⟩ | ⟨hie, κ, st, resp', k1, k2, k3, k4, hf⟩⟩
      · rw [he]; rfl
      · rw [hf]; rfl
      · rw [hf]; rfl
    · refine Frame.bind (Frame.lift _) fun sv => ?_
      refine Frame.ite (fun _ => Frame.bind (Frame.lift _) fun _ => Frame.pure _) (fun _ => ?_)
      refine Frame.bind (Frame.lift _) fun k => ?_
      intro c
      exact (local_finalizeTokens x resp k b c).ctx
  exact hf c

/-- Every call keeps the names. -/
theorem named_exec {K : String → Prop} (hK : Spec.Store.KeySpace K) {k : String} {h : Handler} (hn : Named h) (hp : PlainHandler h)
    (xc : Ext × Call) (hc : CallOk K k xc) : Named (exec xc.1 xc.2 h).2 := by
  obtain ⟨x, call⟩ := xc
  cases call with
  | begin issId user req b =>
    show Named (begin_ x issId user req b h).2
    unfold begin_
    rw [Py.bind_run]
    have h0 := named_clientSetup x issId user b hn
    have hp0 := (clientSetup_cases x issId user b hp).1
    rcases hs : clientSetup x issId user b h with ⟨r, h1⟩
    rw [hs] at h0 hp0
    cases r with
    | error e => exact h0
    | ok j =>
      simp only
      refine named_onClient h0 fun c hc' => ?_
      exact (begins_init x req b (hK.nonempty _ hc.1) c (hp0.clients j c (Dict.get?_eq_some_mem hc'))).issuer
  | finalize i r b =>
    exact named_onClient hn (i := i) (m := finalizeClient x i r b) fun c _ => by rw [finalizeClient_ctx]
  | getTokens s => exact named_session hn (local_getTokens x s)
  | refresh s sc => exact named_session hn (local_refresh x s sc)
  | userInfo s t => exact named_session hn (local_userInfo x s t)
  | hasActive s => exact named_session hn (s := s) (k := s) (m := ask (hasActive x s)) (Frame.ask _)
  | validToken s => exact named_session hn (s := s) (k := s) (m := ask (validAccessToken x s)) (Frame.ask _)
  | logout s u => exact named_session hn (local_logout x s u)
  | close s i u =>
    show Named (close x s i u h).2
    unfold close
    split
    · exact named_onClient hn fun c _ => by rw [(local_logout x s u c).ctx]
    · exact named_session hn (local_logout x s u)
  | clear s =>
    show Named (clearSession s h).2
    unfold clearSession onSession
    cases hr : sessionIssuer h s with
    | error e => exact hn
    | ok i => exact named_onClient hn fun c _ => rfl
  | backchannel i info => exact named_onClient hn (i := i) (m := ask (backchannelLogout x info)) fun c _ => rfl

/-- Every history keeps the names. -/
theorem named_run {K : String → Prop} (hK : Spec.Store.KeySpace K) {k : String} (hk : K k) :
    ∀ (l : List (Ext × Call)) {h : Handler}, Inv K k none h → Named h → (∀ xc ∈ l, CallOk K k xc) → Named (run l h) := by
  intro l
  induction l with
  | nil => intro h _ hn _; exact hn
  | cons xc l ih =>
    intro h hi hn hc
    have h1 := inv_exec hK hk hi xc (hc xc (by simp)) (fun i p q hw => by cases hw)
    exact ih h1 (named_exec hK hn hi.plain xc (hc xc (by simp))) (fun y hy => hc y (by simp [hy]))

end Handler
end Verif
