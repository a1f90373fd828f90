import Verif.Props.HonestHistory
/-!
# What the calls leave alone in the index of nonces, and the nameless session

`Quiet N k db`: nothing is stored under the empty session value, and the nonces that lead to session `k` satisfy `N`.
-/

namespace Verif
open StateInterface Service Handler
open Spec.Store (KeySpace)
open Spec.InFlight

/-- Nothing is stored under the empty session value, and the nonces that lead to session `k` satisfy `N`. -/
structure Quiet (N : String → Prop) (k : String) (db : DB) : Prop where
  nameless : Dict.get? db "" = none
  nonces : ∀ v, Dict.get? db (indexKey .nonce v) = some (.raw k) → N v

/-- A call that keeps `Quiet`. -/
def Calm (N : String → Prop) (k : String) (c c' : Client) : Prop := Quiet N k c.db → Quiet N k c'.db

instance (N : String → Prop) (k : String) : FrameRel (Calm N k) where
  refl _ := id
  trans h h' := fun q => h' (h q)

instance (N : String → Prop) (k : String) : ClientRel (Calm N k) where
  send := fun _ _ _ => id
  dpop := frame_dpopKey fun _ _ _ => id

variable {K : String → Prop} {N : String → Prop} {k : String}

namespace Quiet

theorem congr {db db' : DB} (hq : Quiet N k db) (h0 : Dict.get? db' "" = Dict.get? db "")
    (h1 : ∀ v, Dict.get? db' (indexKey .nonce v) = some (.raw k) → Dict.get? db (indexKey .nonce v) = some (.raw k) ∨ N v) :
    Quiet N k db' :=
  ⟨h0.trans hq.nameless, fun v hv => (h1 v hv).elim (hq.nonces v) id⟩

theorem store (hK : KeySpace K) {s : String} (hs : K s) (item : Obj) (t : String) {db : DB} (hq : Quiet N k db) :
    Quiet N k (storeItem item t s db).2 :=
  hq.congr (Props.get?_storeItem_ne (hK.nonempty s hs) _ _ _)
    fun v hv => Or.inl (by rw [Props.get?_storeItem_ne (KeySpace.ne_index hK hs _ _)] at hv; exact hv)

theorem create (hK : KeySpace K) {iss key rnd : String} (hs : K (if key = "" then rnd else key)) {db : DB} (hq : Quiet N k db) :
    Quiet N k (createState iss key rnd db).2 :=
  hq.congr (Props.get?_createState_ne (hK.nonempty _ hs) _)
    fun v hv => Or.inl (by rw [Props.get?_createState_ne (KeySpace.ne_index hK hs _ _)] at hv; exact hv)

theorem bind {x : XTyp} {v s : String} (hb : x = .nonce → s = k → N v) {db : DB} (hq : Quiet N k db) :
    Quiet N k (storeX2State v s x db).2 := by
  have keep : ∀ key, indexKey x v ≠ key → refKey s ≠ key → Dict.get? (storeX2State v s x db).2 key = Dict.get? db key := by
    intro key h1 h2
    unfold storeX2State
    simp only
    split
    · rw [Dict.get?_set_ne _ _ h2, Dict.get?_set_ne _ _ h1]
    · rw [Dict.get?_set_ne _ _ h2, Dict.get?_set_ne _ _ h1]
    · rw [Dict.get?_set_ne _ _ h1]
  refine hq.congr (keep _ (Ne.symm (Props.empty_ne_indexKey _ _)) (Ne.symm (Props.empty_ne_refKey _))) fun w hw => ?_
  by_cases e : indexKey x v = indexKey .nonce w
  · obtain ⟨rfl, rfl⟩ := indexKey_inj.1 e
    have := get?_bind_self db .nonce v s
    rw [this] at hw
    injection hw with hw
    injection hw with hw
    exact Or.inr (hb rfl hw)
  · rw [keep _ e (refKey_ne_indexKey _ _ _)] at hw
    exact Or.inl hw

theorem del {db : DB} (key : String) (hq : Quiet N k db) : Quiet N k (Dict.del db key) := by
  refine ⟨?_, fun v hv => hq.nonces v ?_⟩
  · rw [Dict.get?_del]
    split
    · rfl
    · exact hq.nameless
  · rw [Dict.get?_del] at hv
    split at hv
    · cases hv
    · exact hv

theorem removeRefs : ∀ (refs : Obj) {db : DB}, Quiet N k db → Quiet N k (StateInterface.removeRefs refs db).2 := by
  intro refs
  induction refs with
  | nil => intro db h; exact h
  | cons p refs ih =>
    intro db h
    obtain ⟨xt, v⟩ := p
    unfold StateInterface.removeRefs
    split
    · split
      · exact ih (h.del _)
      · exact h
    · exact h

theorem remove (s : String) {db : DB} (hq : Quiet N k db) : Quiet N k (removeState s db).2 := by
  unfold removeState
  split
  · simp only
    split
    · exact hq.del _
    · exact hq.del _
    · exact removeRefs _ (hq.del _)
  · exact hq

/-- Starting another session, or this one with nonces that satisfy `N`. -/
theorem starts (hK : KeySpace K) {M : String → Prop} {s : String} (hs : K s) (hM : s = k → ∀ v, M v → N v) {db db' : DB}
    (h : Acts (Starts M s) db db') (hq : Quiet N k db) : Quiet N k db' := by
  refine h.invariant (I := Quiet N k) (fun op d hop hi => ?_) hq
  cases op with
  | create iss key rnd =>
    have hop : (if key = "" then rnd else key) = s := hop
    rw [Kept.step_snd_create]
    exact hi.create hK (hop ▸ hs)
  | store item t q =>
    obtain ⟨rfl, _⟩ := hop
    rw [Kept.step_snd_store]
    exact hi.store hK hs item t
  | bind x v q =>
    obtain ⟨rfl, h2⟩ := hop
    rw [Kept.step_snd_bind]
    exact hi.bind fun e1 e2 => hM e2 v (h2 e1)
  | _ => exact hop.elim

end Quiet

namespace Service

theorem calm_store (hK : KeySpace K) {s : String} (hs : K s) (item : Obj) (t : String) :
    Frame (Calm N k) (onDB (storeItem item t s)) := fun _ h => Quiet.store hK hs item t h

theorem calm_bind {x : XTyp} (hx : x ≠ .nonce) (v s : String) : Frame (Calm N k) (onDB (storeX2State v s x)) :=
  fun _ h => Quiet.bind (fun e => absurd e hx) h

theorem calm_postParse (hK : KeySpace K) {x : Ext} (srv : Srv) (resp : Obj) {s : String} (hs : K s ∨ s = "") :
    Frame (Calm N k) (postParse x srv resp s) := by
  unfold postParse
  split
  · exact Frame.ask _
  · exact Frame.ask _
  · rcases hs with hs | rfl
    · exact Frame.bind (Frame.ask _) fun _ => Frame.bind (calm_store hK hs _ _) fun _ => Frame.pure _
    · intro c hq
      have : userinfoChecked x resp "" c = .error .keyError := by
        unfold userinfoChecked multipleExtendRequestArgs getState
        rw [hq.nameless]
      rw [ask_bind_error this]
      exact hq
  · exact Frame.pure _

theorem calm_storeResponse (hK : KeySpace K) (x : Ext) {s : String} (hs : K s) (t : String) (resp : Obj) :
    Frame (Calm N k) (storeResponse x t s resp) := by
  unfold storeResponse
  exact Frame.bind (Frame.lift _) fun r => Frame.bind (calm_store hK hs _ _) fun _ => Frame.pure _

theorem calm_bindIdToken (s : String) (resp : Obj) : Frame (Calm N k) (bindIdToken resp s) := by
  unfold bindIdToken
  split
  · exact Frame.pure _
  · refine Frame.bind (Frame.ask _) fun _ => ?_
    refine Frame.bind (Frame.lift _) fun _ => ?_
    exact Frame.bind (Frame.lift _) fun _ => calm_bind (by decide) _ _
  · exact Frame.raise _

theorem calm_updateMsg (hK : KeySpace K) {x : Ext} {srv : Srv} (hs : srv = .authorization ∨ srv = .accesstoken ∨
    srv = .refreshToken ∨ srv = .userinfo) (resp : Obj) {s : String} (hk : K s) : Frame (Calm N k) (updateMsg x srv resp s) := by
  rcases hs with rfl | rfl | rfl | rfl <;> simp only [updateMsg] <;> first
    | exact calm_storeResponse hK _ hk _ _
    | exact Frame.bind (calm_bindIdToken _ _) fun _ => calm_storeResponse hK _ hk _ _
    | exact Frame.pure _

theorem calm_doRequest (hK : KeySpace K) {x : Ext} {srv : Srv} (hs : srv = .accesstoken ∨ srv = .refreshToken ∨
    srv = .userinfo) (args : Obj) (o : CallOpts) {s : String} (hk : K s) :
    Frame (Calm N k) (doRequest x srv args o [("state", .str s)]) := by
  refine frame_doRequest ?_ (fun r => ?_) (fun r => ?_) (fun m => ?_)
  · exact frame_request_reading (by rcases hs with rfl | rfl | rfl <;> simp) _ _ _
  · exact calm_postParse hK _ _ (Or.inl hk)
  · exact calm_postParse hK _ _ (Or.inr rfl)
  · exact calm_updateMsg hK (by rcases hs with rfl | rfl | rfl <;> simp) _ hk

theorem calm_logoutRequest (x : Ext) (args : Obj) (o : CallOpts) (kwargs : Obj) :
    Frame (Calm N k) (getRequestParameters x .endSession args o kwargs) := by
  refine frame_buildRequest o ?_
  unfold construct
  refine Frame.bind Frame.read fun c => ?_
  refine Frame.bind ?_ fun r => ?_
  · simp only [preConstruct]
    refine Frame.bind (Frame.ask _) fun a => ?_
    refine Frame.bind (Frame.ask _) fun b => ?_
    refine Frame.bind ?_ fun _ => Frame.pure _
    unfold addState
    refine Frame.bind (Frame.lift _) fun v => ?_
    refine Frame.bind (Frame.lift _) fun s => ?_
    refine Frame.bind (Frame.lift _) fun s => ?_
    exact Frame.bind (calm_bind (by decide) _ _) fun _ => Frame.pure _
  · refine Frame.bind (Frame.ask _) fun g => ?_
    unfold postConstruct
    exact Frame.bind Frame.read fun c => Frame.pure _

end Service

namespace Handler

theorem calm_getTokens (hK : KeySpace K) (x : Ext) {s : String} (hs : K s) : Frame (Calm N k) (getTokens x s) := by
  unfold getTokens
  refine Frame.bind (Frame.ask _) fun _ => ?_
  refine Frame.bind (Frame.ask _) fun _ => ?_
  refine Frame.bind (calm_doRequest hK (Or.inl rfl) _ _ hs) fun _ => ?_
  exact Frame.bind (Frame.lift _) fun _ => Frame.pure _

theorem calm_refresh (hK : KeySpace K) (x : Ext) {s : String} (hs : K s) (sc : String) : Frame (Calm N k) (refreshAccessToken x s sc) := by
  unfold refreshAccessToken
  refine Frame.bind (Frame.ask _) fun _ => ?_
  refine Frame.bind (calm_doRequest hK (Or.inr (Or.inl rfl)) _ _ hs) fun _ => ?_
  exact Frame.bind (Frame.lift _) fun _ => Frame.pure _

theorem calm_userInfo (hK : KeySpace K) (x : Ext) {s : String} (hs : K s) (t : Val) : Frame (Calm N k) (getUserInfo x s t) := by
  unfold getUserInfo
  refine Frame.bind (Frame.ask _) fun _ => ?_
  refine Frame.bind (calm_doRequest hK (Or.inr (Or.inr rfl)) _ _ hs) fun _ => ?_
  exact Frame.bind (Frame.lift _) fun _ => Frame.pure _

theorem calm_logout (x : Ext) (s uri : String) : Frame (Calm N k) (logout x s uri) := by
  unfold logout
  refine Frame.bind Frame.read fun c => ?_
  refine Frame.ite (fun _ => Frame.raise _) (fun _ => ?_)
  exact calm_logoutRequest x _ _ _

theorem calm_endpointTokens (hK : KeySpace K) (x : Ext) {s : String} (hs : K s) : Frame (Calm N k) (endpointTokens x s) := by
  unfold endpointTokens
  refine Frame.bind (calm_getTokens hK _ hs) fun _ => ?_
  refine Frame.bind (Frame.lift _) fun _ => ?_
  exact Frame.bind (Frame.lift _) fun _ => Frame.pure _

theorem calm_getAccessAndIdToken (hK : KeySpace K) (x : Ext) (resp : Obj) {s : String} (hs : K s) (b : Obj) :
    Frame (Calm N k) (getAccessAndIdToken x resp s b) := by
  unfold getAccessAndIdToken
  refine Frame.bind (Frame.ask _) fun rt => ?_
  refine Frame.bind (Frame.lift _) fun idt => ?_
  refine Frame.ite (fun _ => ?_) (fun _ => ?_)
  · refine Frame.bind (Frame.lift _) fun _ => ?_
    exact Frame.ite (fun _ => calm_endpointTokens hK _ hs) (fun _ => Frame.pure _)
  · exact Frame.ite (fun _ => calm_endpointTokens hK _ hs) (fun _ => Frame.pure _)

theorem calm_collectUserInfo (hK : KeySpace K) (x : Ext) {s : String} (hs : K s) (t i : Val) :
    Frame (Calm N k) (collectUserInfo x s t i) := by
  unfold collectUserInfo
  refine Frame.bind Frame.read fun c => ?_
  refine Frame.ite (fun _ => ?_) (fun _ => ?_)
  · exact Frame.bind (calm_userInfo hK _ hs _) fun _ => Frame.pure _
  · refine Frame.ite (fun _ => ?_) (fun _ => Frame.pure _)
    split
    · exact Frame.pure _
    · exact Frame.raise _

theorem calm_bindSid (s : String) (i : Val) : Frame (Calm N k) (bindSid s i) := by
  unfold bindSid
  refine Frame.bind Frame.read fun c => ?_
  refine Frame.ite (fun _ => ?_) (fun _ => Frame.pure _)
  split
  · exact Frame.pure _
  · exact Frame.raise _
  · exact Frame.bind (Frame.lift _) fun _ => calm_bind (by decide) _ _

theorem calm_bindSub (s : String) (i u : Val) : Frame (Calm N k) (bindSub s i u) := by
  unfold bindSub
  refine Frame.bind (Frame.lift _) fun _ => ?_
  exact Frame.bind (Frame.lift _) fun _ => calm_bind (by decide) _ _

theorem calm_finalizeTokens (hK : KeySpace K) (x : Ext) (resp : Obj) {s : String} (hs : K s) (b : Obj) :
    Frame (Calm N k) (finalizeTokens x resp s b) := by
  unfold finalizeTokens
  refine Frame.bind (calm_getAccessAndIdToken hK _ _ hs _) fun _ => ?_
  refine Frame.bind (calm_collectUserInfo hK _ hs _ _) fun _ => ?_
  refine Frame.bind (calm_bindSid _ _) fun _ => ?_
  exact Frame.bind (calm_bindSub _ _ _) fun _ => Frame.pure _

theorem calm_finalizeClient (hK : KeySpace K) (x : Ext) (issuer : String) (response b : Obj) (c : Client) (hkn : Known K c.db) :
    Calm N k c (finalizeClient x issuer response b c).2 := by
  intro hq
  unfold finalizeClient
  rcases finalizeAuth_cases x issuer response c with ⟨e, he⟩ | ⟨resp, hpr, _, ⟨hie, hf⟩ | ⟨hie, κ, st, resp', k1, k2, k3, k4, hf⟩⟩
  · rw [Py.bind_error he]; exact hq
  · rw [Py.bind_ok hf]
    cases h1 : Dict.getItem resp "state" with
    | error e => rw [Py.lift_bind_error rfl]; exact hq
    | ok sv =>
      rw [Py.lift_bind_ok rfl, if_pos hie]
      cases h2 : Dict.getItem resp "error" with
      | error e => rw [Py.lift_bind_error rfl]; exact hq
      | ok ev => rw [Py.lift_bind_ok rfl]; exact hq
  · rw [Py.bind_ok hf]
    have hKκ : K κ := hkn κ _ (getIss_of k2 k3)
    have hfirst : Quiet N k (Dict.set c.db κ (.doc (Dict.set st "auth_response" (.obj resp')))) := by
      have := Quiet.store hK hKκ resp' "auth_response" hq
      rw [storeItem_run k2] at this
      exact this
    have hstate : Dict.get? resp' "state" = some (.str κ) := by
      rw [Props.withExpiry_get k4 (by decide)]; exact k1
    rw [Dict.getItem_eq_ok.2 hstate, Py.lift_bind_ok rfl]
    split
    · cases h2 : Dict.getItem resp' "error" with
      | error e => rw [Py.lift_bind_error rfl]; exact hfirst
      | ok ev => rw [Py.lift_bind_ok rfl]; exact hfirst
    · rw [show dbKey (.str κ) = .ok κ from rfl, Py.lift_bind_ok rfl]
      exact calm_finalizeTokens hK x resp' hKκ b
        { c with db := Dict.set c.db κ (.doc (Dict.set st "auth_response" (.obj resp'))) } hfirst

/-! ## Histories -/

/-- Every store of the handler is quiet. -/
def AllQuiet (N : String → Prop) (k : String) (h : Handler) : Prop :=
  ∀ i db, Dict.get? (stores h) i = some db → Quiet N k db

theorem quiet_empty : Quiet N k [] := ⟨rfl, fun _ h => by cases h⟩

theorem quiet_onClient {α : Type} {j : String} {m : Py Client α} {h : Handler} (hq : AllQuiet N k h)
    (hm : ∀ c, Dict.get? h.issuer2rp j = some c → Calm N k c (m c).2) : AllQuiet N k (onClient j m h).2 := by
  cases hc : Dict.get? h.issuer2rp j with
  | none => rw [show onClient j m h = (.error .keyError, h) by unfold onClient; rw [hc]]; exact hq
  | some c =>
    intro i db hd
    rw [stores_onClient hc, Dict.get?_set] at hd
    split at hd
    · injection hd with hd
      subst hd
      exact hm c hc (hq j c.db (by rw [get?_stores, hc]; rfl))
    · exact hq i db hd

theorem quiet_session {α : Type} {w : Where} {h : Handler} (hi : Inv K k w h) (hq : AllQuiet N k h) {s : String}
    {m : Py Client α} (hm : K s → Frame (Calm N k) m) : AllQuiet N k (onSession s m h).2 := by
  unfold onSession
  cases hr : sessionIssuer h s with
  | error e => exact hq
  | ok j => exact quiet_onClient hq fun c _ => hm (hi.resolved hr) c

theorem quiet_setup {x : Ext} {issuer user : String} {b : Obj} {h : Handler} (hp : PlainHandler h) (hq : AllQuiet N k h) :
    AllQuiet N k (clientSetup x issuer user b h).2 := by
  obtain ⟨_, hc⟩ := clientSetup_cases x issuer user b hp
  rcases hc with ⟨e, _, hs⟩ | ⟨_, _, hs⟩ | ⟨j, _, _, hs⟩
  · intro i db hd; rw [hs] at hd; exact hq i db hd
  · intro i db hd; rw [hs] at hd; exact hq i db hd
  · intro i db hd
    rw [hs, Dict.get?_set] at hd
    split at hd
    · injection hd with hd; subst hd; exact quiet_empty
    · exact hq i db hd

/-- `begin` of another session, or of `k` with a nonce that satisfies `N`. -/
theorem quiet_begin (hK : KeySpace K) {x : Ext} {issuer user : String} {req b : Obj} {h : Handler} (hp : PlainHandler h)
    (hq : AllQuiet N k h) (h1 : K (x.rnd "init_state"))
    (h2 : x.rnd "init_state" = k → N (x.rnd "init_nonce") ∧ x.rnd "init_nonce" ≠ "" ∧
      ∀ i g c, clientSetup x issuer user b h = (.ok i, g) → Dict.get? g.issuer2rp i = some c → Props.NoNonceGiven c req) :
    AllQuiet N k (begin_ x issuer user req b h).2 := by
  unfold begin_
  rw [Py.bind_run]
  have h0 := quiet_setup (x := x) (issuer := issuer) (user := user) (b := b) hp hq
  have hp0 := (clientSetup_cases x issuer user b hp).1
  rcases hs : clientSetup x issuer user b h with ⟨r, g⟩
  rw [hs] at h0 hp0
  cases r with
  | error e => exact h0
  | ok j =>
    simp only
    refine quiet_onClient h0 fun c hc hq0 => ?_
    have hpc := hp0.clients j c (Dict.get?_eq_some_mem hc)
    by_cases e : x.rnd "init_state" = k
    · obtain ⟨n1, n2, n3⟩ := h2 e
      have hg := n3 j g c hs hc
      have hb := begins_init_nonce (N := N) x req b (hK.nonempty _ h1) c hpc n1
        (Or.inr fun args ha => ⟨_, n2, n1, Props.initArgs_nonce ha hg.1 hg.2⟩)
      exact hq0.starts hK h1 (fun _ _ => id) hb.db
    · have hb := begins_init x req b (hK.nonempty _ h1) c hpc
      exact hq0.starts hK h1 (fun e' => absurd e' e) hb.db

theorem quiet_exec (hK : KeySpace K) {w : Where} {h : Handler} (hi : Inv K k w h) (xc : Ext × Call)
    (hc : CallOk K k xc) (hq : AllQuiet N k h) : AllQuiet N k (exec xc.1 xc.2 h).2 := by
  obtain ⟨x, call⟩ := xc
  cases call with
  | begin issId user req b => exact quiet_begin hK hi.plain hq hc.1 (fun e => absurd e hc.2)
  | finalize j r b =>
    refine quiet_onClient hq fun c hcl => calm_finalizeClient hK x j r b c (hi.known j _ ?_)
    rw [get?_stores, hcl]; rfl
  | getTokens s => exact quiet_session hi hq fun hs => calm_getTokens hK x hs
  | refresh s sc => exact quiet_session hi hq fun hs => calm_refresh hK x hs sc
  | userInfo s t => exact quiet_session hi hq fun hs => calm_userInfo hK x hs t
  | hasActive s => exact quiet_session (m := ask (hasActive x s)) hi hq fun _ => Frame.ask _
  | validToken s => exact quiet_session (m := ask (validAccessToken x s)) hi hq fun _ => Frame.ask _
  | logout s u => exact quiet_session hi hq fun _ => calm_logout x s u
  | close s j u =>
    show AllQuiet N k (close x s j u h).2
    unfold close
    split
    · exact quiet_onClient hq fun c _ => calm_logout x s u c
    · exact quiet_session hi hq fun _ => calm_logout x s u
  | clear s =>
    show AllQuiet N k (clearSession s h).2
    exact quiet_session (m := onDB (removeState s)) hi hq fun _ c h => Quiet.remove s h
  | backchannel j info =>
    exact quiet_onClient (j := j) (m := ask (backchannelLogout x info)) hq fun c _ => id

theorem quiet_run (hK : KeySpace K) (hk : K k) {w : Where} : ∀ (l : List (Ext × Call)) {h : Handler}, Inv K k w h →
    (∀ xc ∈ l, CallOk K k xc) → (∀ i p q, w = some (i, p, q) → NeverReplaced i l h) → AllQuiet N k h → AllQuiet N k (run l h) := by
  intro l
  induction l with
  | nil => intro h _ _ _ hq; exact hq
  | cons xc l ih =>
    intro h hi hc hrep hq
    exact ih (inv_exec hK hk hi xc (hc xc (by simp)) (fun i p q hw => (hrep i p q hw).1)) (fun y hy => hc y (by simp [hy]))
      (fun i p q hw => (hrep i p q hw).2) (quiet_exec hK hi xc (hc xc (by simp)) hq)

end Handler
end Verif
