import Verif.Lemmas.Kept
/-!
# Making an authorization request
-/

namespace Verif
open StateInterface

/-- A call of the store that starting session `k` makes; the nonces that are bound satisfy `N`. -/
def Starts (N : String → Prop) (k : String) : Op → Prop
  | .create _ key rnd => (if key = "" then rnd else key) = k
  | .store _ t k' => k' = k ∧ t ≠ "iss" ∧ t ≠ "refresh_token_response"
  | .bind x v k' => k' = k ∧ (x = .nonce → N v)
  | _ => False

/-- Two contexts that differ at most in the negotiated behaviour. -/
def SameSetup (a b : Ctx) : Prop := ∃ bh, b = { a with behaviour := bh }

theorem SameSetup.refl (a : Ctx) : SameSetup a a := ⟨a.behaviour, rfl⟩

theorem SameSetup.trans {a b c : Ctx} (h : SameSetup a b) (h' : SameSetup b c) : SameSetup a c := by
  obtain ⟨x, rfl⟩ := h
  obtain ⟨y, rfl⟩ := h'
  exact ⟨y, rfl⟩

/-- A step of starting session `k`. -/
structure Begins (N : String → Prop) (k : String) (c c' : Client) : Prop where
  db : Acts (Starts N k) c.db c'.db
  services : c'.services = c.services
  conf : c'.conf = c.conf
  cfg : c'.cfg = c.cfg
  log : c.log <+: c'.log
  ctx : SameSetup c.ctx c'.ctx
  key : KeyKept c c'

instance (N : String → Prop) (k : String) : FrameRel (Begins N k) where
  refl _ := ⟨Acts.refl _, rfl, rfl, rfl, List.prefix_rfl, SameSetup.refl _, fun _ => id⟩
  trans h h' := ⟨h.db.trans h'.db, h'.services.trans h.services, h'.conf.trans h.conf, h'.cfg.trans h.cfg,
    h.log.trans h'.log, h.ctx.trans h'.ctx, fun k hk => h'.key k (h.key k hk)⟩

theorem Begins.issuer {N : String → Prop} {k : String} {c c' : Client} (h : Begins N k c c') : c'.ctx.issuer = c.ctx.issuer := by
  obtain ⟨b, hb⟩ := h.ctx
  rw [hb]

namespace Begins
open Service

theorem onDB_store {N : String → Prop} {k : String} (item : Obj) {t : String} (ht : t ≠ "iss" ∧ t ≠ "refresh_token_response") : Frame (Begins N k) (onDB (storeItem item t k)) := by
  intro c
  refine ⟨?_, rfl, rfl, rfl, List.prefix_rfl, SameSetup.refl _, fun _ => id⟩
  have h := Acts.step (P := Starts N k) (op := .store item t k) ⟨rfl, ht⟩ c.db
  rw [Kept.step_snd_store] at h
  exact h

theorem onDB_bind {N : String → Prop} {k : String} (v : String) (x : XTyp) (hN : x = .nonce → N v) : Frame (Begins N k) (onDB (storeX2State v k x)) := by
  intro c
  refine ⟨?_, rfl, rfl, rfl, List.prefix_rfl, SameSetup.refl _, fun _ => id⟩
  have h := Acts.step (P := Starts N k) (op := .bind x v k) ⟨rfl, hN⟩ c.db
  rw [Kept.step_snd_bind] at h
  exact h

theorem onDB_create {N : String → Prop} {k : String} (iss key rnd : String) (hk : (if key = "" then rnd else key) = k) :
    Frame (Begins N k) (onDB (createState iss key rnd)) := by
  intro c
  refine ⟨?_, rfl, rfl, rfl, List.prefix_rfl, SameSetup.refl _, fun _ => id⟩
  have h := Acts.step (P := Starts N k) (op := .create iss key rnd) hk c.db
  rw [Kept.step_snd_create] at h
  exact h

theorem onCtx {α : Type} {N : String → Prop} {k : String} (m : Py Ctx α) (hm : ∀ ctx, SameSetup ctx (m ctx).2) :
    Frame (Begins N k) (Service.onCtx m) := by
  intro c
  exact ⟨Acts.refl _, rfl, rfl, rfl, List.prefix_rfl, hm _, fun _ => id⟩

instance (N : String → Prop) (k : String) : ClientRel (Begins N k) where
  send := fun _ _ _ => ⟨Acts.refl _, rfl, rfl, rfl, List.prefix_append _ _, SameSetup.refl _, fun _ => id⟩
  dpop := frame_dpopKey fun _ _ hk => ⟨Acts.refl _, rfl, rfl, rfl, List.prefix_rfl, SameSetup.refl _, hk⟩

end Begins

/-- The configuration of the authorization service does not force a state on requests. -/
def PlainConf (conf : Dict Obj) : Prop :=
  ∀ o, Dict.get? ((Dict.get? conf Srv.authorization.name).getD []) "pre_construct" = some (.obj o) →
    Dict.get? o "state" = none

namespace Service

theorem setState_run {x : Ext} {args kwargs : Obj} {k : String} (hk : k ≠ "") (hd : dunder k = false)
    (ha : Dict.get? args "state" = some (.str k)) (hkw : Dict.get? kwargs "state" = none) (c : Client) :
    setState x args kwargs c = (.ok (Dict.set args "state" (.str k)),
      { c with db := Dict.set c.db k (.doc (Msg.ofDict [("iss", .str c.ctx.issuer)])) }) := by
  have hg : givenState args kwargs = .ok k := by
    simp [givenState, ha, hkw, Val.truthy, hk, asStr]
  unfold setState
  rw [hg, Py.lift_bind_ok rfl, Py.read_bind_run]
  have hc : onDB (createState c.ctx.issuer k (x.rnd "state")) c = (.ok k,
      { c with db := Dict.set c.db k (.doc (Msg.ofDict [("iss", .str c.ctx.issuer)])) }) := by
    unfold onDB createState
    simp [hk, hd]
  rw [Py.bind_ok hc]
  rfl

/-- The parts of `oidc_pre_construct` keep what they do not set. -/
theorem authorizationPre_state {nonce : String} {behaviour args kwargs : Obj} {r : Obj × Obj}
    (h : authorizationPre nonce behaviour args kwargs = .ok r) :
    (∀ p, p ≠ "response_type" → p ≠ "scope" → p ≠ "nonce" → Dict.get? r.1 p = Dict.get? args p) ∧
    ((Dict.keys args).Nodup → (Dict.keys r.1).Nodup) ∧
    (∀ n, Dict.get? args "nonce" = some n → Dict.get? r.1 "nonce" = some n) := by
  unfold authorizationPre at h
  cases h1 : preResponseType behaviour args with
  | error e => rw [h1] at h; cases h
  | ok ar =>
    obtain ⟨a, rts⟩ := ar
    rw [h1] at h
    simp only at h
    cases h2 : preScope behaviour a with
    | error e => rw [h2] at h; cases h
    | ok b =>
      rw [h2] at h
      injection h with h
      subst h
      have ha : (∀ p, p ≠ "response_type" → Dict.get? a p = Dict.get? args p) ∧
          ((Dict.keys args).Nodup → (Dict.keys a).Nodup) := by
        unfold preResponseType at h1
        split at h1
        · injection h1 with h1; injection h1 with h1 _; subst h1
          exact ⟨fun _ _ => rfl, id⟩
        · split at h1
          · injection h1 with h1; injection h1 with h1 _; subst h1
            exact ⟨fun p hp => Dict.get?_set_ne _ _ (Ne.symm hp), fun hn => Dict.nodup_set hn _ _⟩
          · injection h1 with h1; injection h1 with h1 _; subst h1
            exact ⟨fun p hp => Dict.get?_set_ne _ _ (Ne.symm hp), fun hn => Dict.nodup_set hn _ _⟩
          · cases h1
      have hb : (∀ p, p ≠ "scope" → Dict.get? b p = Dict.get? a p) ∧
          ((Dict.keys a).Nodup → (Dict.keys b).Nodup) := by
        unfold preScope at h2
        split at h2
        · injection h2 with h2; subst h2
          exact ⟨fun p hp => Dict.get?_set_ne _ _ (Ne.symm hp), fun hn => Dict.nodup_set hn _ _⟩
        · split at h2
          · cases h2
          · injection h2 with h2; subst h2
            exact ⟨fun _ _ => rfl, id⟩
          · split at h2
            · injection h2 with h2; subst h2
              exact ⟨fun p hp => Dict.get?_set_ne _ _ (Ne.symm hp), fun hn => Dict.nodup_set hn _ _⟩
            · cases h2
      simp only
      refine ⟨fun p p1 p2 p3 => ?_, fun hn => ?_, fun n hn => ?_⟩
      · rw [← ha.1 p p1, ← hb.1 p p2]
        unfold preNonce
        split
        · exact Dict.get?_set_ne _ _ (Ne.symm p3)
        · rfl
      · unfold preNonce
        split
        · exact Dict.nodup_set (hb.2 (ha.2 hn)) _ _
        · exact hb.2 (ha.2 hn)
      · have : Dict.get? b "nonce" = some n := by
          rw [hb.1 _ (by decide), ha.1 _ (by decide), hn]
        unfold preNonce
        rw [if_neg (by simp [Dict.has_eq, this])]
        exact this

/-- `pre_construct` of the authorization service starts session `k` only, and its result carries the
state. -/
theorem begins_pre {N : String → Prop} {x : Ext} {args kwargs : Obj} {k : String} (hk : k ≠ "")
    (ha : Dict.get? args "state" = some (.str k)) (hn : (Dict.keys args).Nodup) (hkw : Dict.get? kwargs "state" = none)
    (c : Client) :
    Begins N k c (preConstruct x .authorization args kwargs c).2 ∧
    ∀ r c', preConstruct x .authorization args kwargs c = (.ok r, c') →
      Dict.get? r.1 "state" = some (.str k) ∧ (Dict.keys r.1).Nodup ∧
        ∀ v, Dict.get? args "nonce" = some v → Dict.get? r.1 "nonce" = some v := by
  have hg : givenState args kwargs = .ok k := by
    simp [givenState, ha, hkw, Val.truthy, hk, asStr]
  have hset : ∀ c, Begins N k c (setState x args kwargs c).2 := by
    intro c
    unfold setState
    rw [hg, Py.lift_bind_ok rfl, Py.read_bind_run]
    exact Frame.bind (Begins.onDB_create _ _ _ (by simp [hk])) (fun _ => Frame.pure _) c
  have hset' : ∀ c a c', setState x args kwargs c = (.ok a, c') → a = Dict.set args "state" (.str k) := by
    intro c a c' h
    unfold setState at h
    rw [hg, Py.lift_bind_ok rfl, Py.read_bind_run] at h
    obtain ⟨k', c1, h1, h2⟩ := Py.bind_eq_ok.1 h
    have h3 : (createState c.ctx.issuer k (x.rnd "state") c.db).1 = .ok k' := congrArg Prod.fst h1
    unfold createState at h3
    simp only [if_neg hk] at h3
    split at h3
    · cases h3
    · injection h3 with h3; subst h3
      have h4 : Except.ok (ε := Exc) (Dict.set args "state" (.str k)) = .ok a := congrArg Prod.fst h2
      injection h4 with h4
      exact h4.symm
  have hpick : ∀ a c1 b c2, Dict.get? a "state" = some (.str k) → (Dict.keys a).Nodup →
      pickRedirect a c1 = (.ok b, c2) → Dict.get? b "state" = some (.str k) ∧ (Dict.keys b).Nodup ∧
        Dict.get? b "nonce" = Dict.get? a "nonce" := by
    intro a c1 b c2 h0 hn0 h
    unfold pickRedirect at h
    obtain ⟨v, c3, h1, h2⟩ := Py.bind_eq_ok.1 h
    have h4 : Except.ok (ε := Exc) (Dict.set a "redirect_uri" v) = .ok b := congrArg Prod.fst h2
    injection h4 with h4
    subst h4
    exact ⟨by rw [Dict.get?_set_ne _ _ (by decide)]; exact h0, Dict.nodup_set hn0 _ _, Dict.get?_set_ne _ _ (by decide)⟩
  have hch : ∀ a, Dict.get? a "state" = some (.str k) → Frame (Begins N k) (addCodeChallenge x a) := by
    intro a h0 c
    unfold addCodeChallenge
    rw [Py.read_bind_run]
    simp only
    split
    · exact FrameRel.refl _
    · rw [Dict.getItem_eq_ok.2 h0]
      rw [Py.lift_bind_ok rfl]
      rw [show dbKey (.str k) = .ok k from rfl, Py.lift_bind_ok rfl]
      exact Frame.bind (Begins.onDB_store _ (by decide)) (fun _ => Frame.pure _) c
  have hch' : ∀ a c1 d c2, Dict.get? a "state" = some (.str k) → (Dict.keys a).Nodup →
      addCodeChallenge x a c1 = (.ok d, c2) → Dict.get? d "state" = some (.str k) ∧ (Dict.keys d).Nodup ∧
        Dict.get? d "nonce" = Dict.get? a "nonce" := by
    intro a c1 d c2 h0 hn0 h
    unfold addCodeChallenge at h
    rw [Py.read_bind_run] at h
    simp only at h
    split at h
    · have := congrArg Prod.fst h; cases this
    · obtain ⟨_, c3, _, h2⟩ := Py.bind_eq_ok.1 h
      obtain ⟨_, c4, _, h4⟩ := Py.bind_eq_ok.1 h2
      obtain ⟨_, c5, _, h6⟩ := Py.bind_eq_ok.1 h4
      have h7 := congrArg Prod.fst h6
      injection h7 with h7
      subst h7
      refine ⟨?_, Dict.nodup_set (Dict.nodup_set hn0 _ _) _ _, ?_⟩
      · rw [Dict.get?_set_ne _ _ (by decide), Dict.get?_set_ne _ _ (by decide)]
        exact h0
      · rw [Dict.get?_set_ne _ _ (by decide), Dict.get?_set_ne _ _ (by decide)]
  have hs0 : Dict.get? (Dict.set args "state" (.str k)) "state" = some (.str k) := Dict.get?_set_self _ _ _
  have hn0 := Dict.nodup_set hn "state" (Val.str k)
  refine ⟨?_, ?_⟩
  · simp only [preConstruct]
    refine Frame.bind' hset fun a c1 h1 => ?_
    obtain rfl := hset' _ _ _ h1
    refine Frame.bind' (Frame.bind (Frame.ask _) fun _ => Frame.pure _) fun b c2 h2 => ?_
    obtain ⟨hb, hnb, hnn⟩ := hpick _ _ _ _ hs0 hn0 h2
    rw [Py.read_bind_run]
    refine Frame.bind' (Frame.lift _) fun r c3 h3 => ?_
    obtain ⟨h3', rfl⟩ := Py.lift_eq_ok.1 h3
    obtain ⟨p1, p2, p3⟩ := authorizationPre_state h3'
    have hr : Dict.get? r.1 "state" = some (.str k) := by
      rw [p1 _ (by decide) (by decide) (by decide)]; exact hb
    split
    · exact Frame.bind (hch _ hr) (fun _ => Frame.pure _) c2
    · exact FrameRel.refl _
  · intro r c' h
    simp only [preConstruct] at h
    obtain ⟨a, c1, h1, h⟩ := Py.bind_eq_ok.1 h
    obtain rfl := hset' _ _ _ h1
    obtain ⟨b, c2, h2, h⟩ := Py.bind_eq_ok.1 h
    obtain ⟨hb, hnb, hnn⟩ := hpick _ _ _ _ hs0 hn0 h2
    rw [Py.read_bind_run] at h
    obtain ⟨r0, c3, h3, h⟩ := Py.bind_eq_ok.1 h
    obtain ⟨h3', rfl⟩ := Py.lift_eq_ok.1 h3
    obtain ⟨p1, p2, p3⟩ := authorizationPre_state h3'
    have hr : Dict.get? r0.1 "state" = some (.str k) := by
      rw [p1 _ (by decide) (by decide) (by decide)]; exact hb
    split at h
    · obtain ⟨d, c4, h4, h⟩ := Py.bind_eq_ok.1 h
      have h7 := congrArg Prod.fst h
      injection h7 with h7
      subst h7
      obtain ⟨e1, e2, e3⟩ := hch' _ _ _ _ hr (p2 hnb) h4
      exact ⟨e1, e2, fun v hv => by
        rw [e3]
        exact p3 v (by rw [hnn, Dict.get?_set_ne _ _ (by decide)]; exact hv)⟩
    · have h7 := congrArg Prod.fst h
      injection h7 with h7
      subst h7
      exact ⟨hr, p2 hnb, fun v hv => p3 v (by rw [hnn, Dict.get?_set_ne _ _ (by decide)]; exact hv)⟩

/-- The state of the request message. -/
theorem make_state {t : MsgType} {g : Obj} (hn : (Dict.keys g).Nodup) {k : String} (hk : k ≠ "")
    (hg : Dict.get? g "state" = some (.str k)) {v : Val} {s : String} (hv : Dict.getItem (t.make g) "state" = .ok v)
    (hs : dbKey v = .ok s) : s = k ∧ v = .str k := by
  rw [Dict.getItem_eq_ok, t.get?_make hn, hg] at hv
  have he : Msg.emptyVal (.str k) = false := by
    cases h : Msg.emptyVal (.str k) with
    | false => rfl
    | true => rcases (Msg.emptyVal_iff _).1 h with h | h <;> simp at h; exact absurd h hk
  simp only [he, Bool.false_eq_true, if_false, Option.some.injEq, MsgType.coerce] at hv
  split at hv
  · subst hv; cases hs
  · subst hv
    injection hs with hs
    exact ⟨hs.symm, rfl⟩

/-- The nonce binding binds to the session of the request. -/
theorem begins_bindNonce {N : String → Prop} {req : Obj} {k : String}
    (hs : ∀ v s, Dict.getItem req "state" = .ok v → dbKey v = .ok s → s = k)
    (hN : ∀ n, Dict.get? req "nonce" = some (.str n) → N n) : Frame (Begins N k) (bindNonce req) := by
  intro c
  unfold bindNonce
  refine Frame.bind' (Frame.lift _) fun b c1 h1 => ?_
  split
  · refine Frame.bind' (Frame.lift _) fun nv c2 h2 => ?_
    refine Frame.bind' (Frame.lift _) fun n c3 h3 => ?_
    refine Frame.bind' (Frame.lift _) fun sv c4 h4 => ?_
    refine Frame.bind' (Frame.lift _) fun s c5 h5 => ?_
    obtain ⟨h4', _⟩ := Py.lift_eq_ok.1 h4
    obtain ⟨h5', _⟩ := Py.lift_eq_ok.1 h5
    obtain rfl := hs _ _ h4' h5'
    obtain ⟨h2', _⟩ := Py.lift_eq_ok.1 h2
    obtain ⟨h3', _⟩ := Py.lift_eq_ok.1 h3
    have hnv : nv = .str n := by
      cases nv <;> simp [asStr] at h3'
      rw [h3']
    rw [Dict.getItem_eq_ok, hnv] at h2'
    exact Begins.onDB_bind _ _ (fun _ => hN n h2') _
  · exact FrameRel.refl _

theorem offlinePrompt_keeps {t : MsgType} {req r : Obj} (h : offlinePrompt t req = .ok r) :
    (∀ p, p ≠ "prompt" → Dict.get? r p = Dict.get? req p) ∧
    ((Dict.keys req).Nodup → (Dict.keys r).Nodup) := by
  unfold offlinePrompt at h
  split at h
  · cases h
  · split at h
    · cases h
    · injection h with h
      subst h
      split
      · exact ⟨fun p hp => Dict.get?_set_ne _ _ (Ne.symm hp), fun hn => Dict.nodup_set hn _ _⟩
      · exact ⟨fun _ _ => rfl, id⟩

theorem begins_push {N : String → Prop} (x : Ext) (k : String) (req : Obj) : Frame (Begins N k) (pushAuthorization x req) := by
  unfold pushAuthorization
  refine Frame.bind Frame.read fun c => ?_
  refine Frame.bind (Frame.lift _) fun _ => ?_
  refine Frame.bind (Frame.lift _) fun _ => ?_
  refine Frame.bind (Frame.lift _) fun _ => ?_
  exact Frame.bind (ClientRel.send _ _) fun _ => Frame.lift _

theorem begins_post {N : String → Prop} {x : Ext} {req post : Obj} {k : String}
    (hs : ∀ v s, Dict.getItem req "state" = .ok v → dbKey v = .ok s → s = k)
    (hN : ∀ n, Dict.get? req "nonce" = some (.str n) → N n) :
    Frame (Begins N k) (postConstruct x .authorization req post) := by
  unfold postConstruct
  refine Frame.bind Frame.read fun c => ?_
  simp only
  refine Frame.bind ?_ fun r => ?_
  · unfold authorizationPost
    refine Frame.bind (begins_bindNonce hs hN) fun _ => ?_
    intro c1
    refine Frame.bind' (Frame.lift _) fun r c2 h2 => ?_
    refine Frame.bind' (Frame.lift _) fun sv c3 h3 => ?_
    refine Frame.bind' (Frame.lift _) fun s c4 h4 => ?_
    obtain ⟨h2', _⟩ := Py.lift_eq_ok.1 h2
    obtain ⟨h3', _⟩ := Py.lift_eq_ok.1 h3
    obtain ⟨h4', _⟩ := Py.lift_eq_ok.1 h4
    have hst : Dict.getItem req "state" = .ok sv := by
      rw [Dict.getItem_eq_ok] at h3' ⊢
      rw [← (offlinePrompt_keeps h2').1 _ (by decide)]
      exact h3'
    obtain rfl := hs _ _ hst h4'
    exact Frame.bind (Begins.onDB_store _ (by decide)) (fun _ => Frame.ask _) _
  · split
    · exact begins_push _ _ _
    · exact Frame.pure _

theorem methodArgs_none {conf : Obj} {context : String} {kwargs : Obj} {p : String} (hn : (Dict.keys kwargs).Nodup)
    (hk : Dict.get? kwargs p = none) (hc : ∀ o, Dict.get? conf context = some (.obj o) → Dict.get? o p = none) :
    Dict.get? (methodArgs conf context kwargs) p = none := by
  unfold methodArgs
  split
  · next o ho => rw [Dict.get?_update_nodup _ hn, hk, hc o ho]; rfl
  · exact hk

theorem stateFromKwargs_given {t : MsgType} {args kwargs : Obj} {v : Val} (h : Dict.get? args "state" = some v) :
    stateFromKwargs t args kwargs = args := by
  unfold stateFromKwargs
  rw [if_neg]
  simp [Dict.has_eq, h]

/-- Making an authorization request for session `k` starts session `k` only. -/
theorem begins_request {N : String → Prop} {x : Ext} {args kwargs : Obj} {o : CallOpts} {k : String} (hk : k ≠ "")
    (ha : Dict.get? args "state" = some (.str k)) (hn : (Dict.keys args).Nodup)
    (hkn : (Dict.keys kwargs).Nodup) (hkw : Dict.get? kwargs "state" = none)
    (hN : (∀ n, N n) ∨ ∃ n, n ≠ "" ∧ N n ∧ Dict.get? args "nonce" = some (.str n)) (c : Client) (hp : PlainConf c.conf) :
    Begins N k c (getRequestParameters x .authorization args o kwargs c).2 := by
  have hkw' : Dict.get? (methodArgs (confOf c .authorization) "pre_construct" kwargs) "state" = none :=
    methodArgs_none hkn hkw hp
  have hc : Begins N k c (construct x .authorization args kwargs c).2 := by
    unfold construct
    rw [Py.read_bind_run]
    obtain ⟨p1, p2⟩ := begins_pre (x := x) hk ha hn hkw' c
    rw [Py.bind_run]
    rcases hr : preConstruct x .authorization args (methodArgs (confOf c .authorization) "pre_construct" kwargs) c with ⟨r, c1⟩
    rw [hr] at p1
    cases r with
    | error e => exact p1
    | ok r =>
      simp only
      refine FrameRel.trans p1 ?_
      obtain ⟨q1, q2, q3⟩ := p2 _ _ hr
      refine Frame.bind' (Frame.ask _) fun g c2 hg => ?_
      have hg' : gatherRequestArgs x c1 .authorization (stateFromKwargs (x.msg .authorization) r.1 kwargs) = .ok g :=
        congrArg Prod.fst hg
      rw [stateFromKwargs_given q1] at hg'
      exact begins_post (fun v s hv hs => (make_state (nodup_gather hg' q2) hk (gather_given hg' q1) hv hs).1)
        (fun n hn => by
          rcases hN with h | ⟨n', h1, h2, h3⟩
          · exact h n
          · have h4 := gather_given hg' (q3 _ h3)
            rw [MsgType.get?_make _ (nodup_gather hg' q2), h4] at hn
            have he : Msg.emptyVal (.str n') = false := by
              cases h : Msg.emptyVal (.str n') with
              | false => rfl
              | true => rcases (Msg.emptyVal_iff _).1 h with h | h <;> simp at h; exact absurd h h1
            simp only [he, Bool.false_eq_true, if_false, Option.some.injEq, MsgType.coerce] at hn
            split at hn
            · cases hn
            · injection hn with hn
              exact hn ▸ h2) _
  show Begins N k c (buildRequest x .authorization args o kwargs c).2
  unfold buildRequest
  rw [Py.read_bind_run]
  refine Frame.bind' (Frame.ask _) fun am c1 h1 => ?_
  obtain rfl : c1 = c := (congrArg Prod.snd h1).symm
  rw [Py.bind_run]
  rcases hr : construct x .authorization args kwargs c1 with ⟨r, c2⟩
  rw [hr] at hc
  cases r with
  | error e => exact hc
  | ok r =>
    refine FrameRel.trans hc ?_
    exact Frame.bind (frame_getHeaders _ _ _ _ _ _) (fun _ => Frame.ask _) c2

end Service

namespace Handler
open Service

theorem initArgs_nodup {x : Ext} {ctx : Ctx} {req args : Obj} (h : initArgs x ctx req = .ok args) : (Dict.keys args).Nodup := by
  unfold initArgs at h
  split at h
  · cases h
  · split at h
    · cases h
    · split at h
      · cases h
      · injection h with h
        subst h
        exact Dict.nodup_update (Dict.nodup_update (by simp [Dict.keys]) _) _

theorem createState_random (iss rnd : String) (db : DB) :
    createState iss "" rnd db = (.ok rnd, Dict.set db rnd (.doc (Msg.ofDict [("iss", .str iss)]))) := by
  unfold createState; simp

theorem aliasScope_setup (req : Obj) (ctx : Ctx) : SameSetup ctx ((Py.modify (aliasScope req) : Py Ctx Unit) ctx).2 := by
  show SameSetup ctx (aliasScope req ctx)
  unfold aliasScope
  split
  · exact SameSetup.refl _
  · split
    · split
      · exact SameSetup.refl _
      · exact ⟨_, rfl⟩
    · exact SameSetup.refl _

/-- `init_authorization` starts the session of its random value only. -/
theorem begins_init_nonce {N : String → Prop} (x : Ext) (req b : Obj) (hk : x.rnd "init_state" ≠ "") (c : Client) (hp : PlainConf c.conf)
    (hN1 : N (x.rnd "init_nonce"))
    (hN : (∀ n, N n) ∨ ∀ args, initArgs x c.ctx req = .ok args → ∃ n, n ≠ "" ∧ N n ∧ Dict.get? args "nonce" = some (.str n)) :
    Begins N (x.rnd "init_state") c (initAuthorization x req b c).2 := by
  unfold initAuthorization
  refine Frame.bind' (Frame.ask _) fun args c1 h1 => ?_
  obtain rfl : c1 = c := (congrArg Prod.snd h1).symm
  have ha : initArgs x c1.ctx req = .ok args := congrArg Prod.fst h1
  rw [Py.read_bind_run]
  refine Frame.bind' (Begins.onDB_create _ _ _ (by simp)) fun k c2 h2 => ?_
  have hk2 : k = x.rnd "init_state" := by
    have h3 : (createState c1.ctx.issuer "" (x.rnd "init_state") c1.db).1 = .ok k := congrArg Prod.fst h2
    rw [createState_random] at h3
    injection h3 with h3
    exact h3.symm
  have hc2 : c2.conf = c1.conf := (congrArg (fun p => p.2.conf) h2).symm
  subst hk2
  refine Frame.bind' (Begins.onDB_bind _ _ (fun _ => hN1)) fun _ c3 h3 => ?_
  have hc3 : c3.conf = c2.conf := (congrArg (fun p => p.2.conf) h3).symm
  split
  · exact FrameRel.refl _
  · refine Frame.bind' (Begins.onCtx _ (aliasScope_setup req)) fun _ c4 h4 => ?_
    have hc4 : c4.conf = c3.conf := (congrArg (fun p => p.2.conf) h4).symm
    rw [Py.bind_run]
    have hb := begins_request (x := x) (args := Dict.set args "state" (.str (x.rnd "init_state")))
      (kwargs := [("behaviour_args", .obj b)]) (o := {}) hk (Dict.get?_set_self _ _ _)
      (Dict.nodup_set (initArgs_nodup ha) _ _) (by simp [Dict.keys]) (by simp [Dict.get?])
      (hN.imp id fun h => let ⟨n, e1, e2, e3⟩ := h args ha; ⟨n, e1, e2, by rw [Dict.get?_set_ne _ _ (by decide)]; exact e3⟩) c4
      (by rw [hc4, hc3, hc2]; exact hp)
    rcases hr : getRequestParameters x .authorization (Dict.set args "state" (.str (x.rnd "init_state"))) {}
      [("behaviour_args", .obj b)] c4 with ⟨r, c5⟩
    rw [hr] at hb
    cases r with
    | error e => exact hb
    | ok r => exact hb

theorem begins_init (x : Ext) (req b : Obj) (hk : x.rnd "init_state" ≠ "") (c : Client) (hp : PlainConf c.conf) :
    Begins (fun _ => True) (x.rnd "init_state") c (initAuthorization x req b c).2 :=
  begins_init_nonce x req b hk c hp trivial (Or.inl fun _ => trivial)

end Handler
end Verif
