import Verif.Lemmas.Desk
import Verif.Props.Isolation
/-!
# What the pieces of a call do for their session and for others
-/

namespace Verif.Desk
open Verif Verif.Service Verif.Handler Verif.StateInterface Pieces
open Verif.Spec.Store (KeySpace)

variable {α β : Type} {K : String → Prop} {κ : Client} {n s k : String}

/-- A session that was not begun: no nonce leads to it, and what is kept under the name of its list of look-ups
is a list. -/
structure Unused (k : String) (db : DB) : Prop where
  quiet : Quiet (fun _ => False) k db
  unref : ∀ r, Dict.get? db (refKey k) ≠ some (.raw r)

/-- What is done for session `s`, whose nonce is `n`, leaves the set-up of the client as it is, and the other sessions with what
leads to them. -/
structure Beside (K : String → Prop) (n s : String) (c d : Client) : Prop where
  ctx : d.ctx = c.ctx
  services : d.services = c.services
  conf : d.conf = c.conf
  cfg : d.cfg = c.cfg
  key : d.dpopKey = c.dpopKey
  rest : ∀ m k, K k → k ≠ s → m ≠ n → Own m k c.db → Own m k d.db ∧ getState d.db k = getState c.db k
  fresh : ∀ k, K k → k ≠ s → Unused k c.db → Unused k d.db ∧ getState d.db k = getState c.db k
  record : K s → ∀ k, K k → k ≠ s → getState d.db k = getState c.db k

instance : FrameRel (Beside K n s) where
  refl _ := ⟨rfl, rfl, rfl, rfl, rfl, fun _ _ _ _ _ h => ⟨h, rfl⟩, fun _ _ _ h => ⟨h, rfl⟩, fun _ _ _ _ => rfl⟩
  trans h h' := ⟨h'.ctx.trans h.ctx, h'.services.trans h.services, h'.conf.trans h.conf, h'.cfg.trans h.cfg, h'.key.trans h.key,
    fun n k hk hne hm ho =>
      have h1 := h.rest n k hk hne hm ho
      have h2 := h'.rest n k hk hne hm h1.1
      ⟨h2.1, h2.2.trans h1.2⟩,
    fun k hk hne ho =>
      have h1 := h.fresh k hk hne ho
      have h2 := h'.fresh k hk hne h1.1
      ⟨h2.1, h2.2.trans h1.2⟩,
    fun hs k hk hne => (h'.record hs k hk hne).trans (h.record hs k hk hne)⟩

theorem beside_send (x : Ext) (r : Sent) : Frame (Beside K n s) (send x r) := fun _ =>
  ⟨rfl, rfl, rfl, rfl, rfl, fun _ _ _ _ _ h => ⟨h, rfl⟩, fun _ _ _ h => ⟨h, rfl⟩, fun _ _ _ _ => rfl⟩

theorem beside_store (hK : KeySpace K) (hs : K s) (item : Obj) (t : String) : Frame (Beside K n s) (onDB (storeItem item t s)) := by
  intro c
  refine ⟨rfl, rfl, rfl, rfl, rfl, fun n k hk hne _ ho => ⟨⟨?_, ?_, ho.quiet.store hK hs item t⟩, ?_⟩,
    fun k hk hne hu => ⟨⟨hu.quiet.store hK hs item t, ?_⟩, ?_⟩, fun _ k hk hne => ?_⟩
  · show Dict.get? (storeItem item t s c.db).2 _ = _
    rw [Props.get?_storeItem_ne (KeySpace.ne_index hK hs _ _)]; exact ho.nonce
  · obtain ⟨refs, hr⟩ := ho.indexed
    refine ⟨refs, ?_⟩
    show Dict.get? (storeItem item t s c.db).2 _ = _
    rw [Props.get?_storeItem_ne (KeySpace.ne_ref hK hs hk)]; exact hr
  · show getState (storeItem item t s c.db).2 k = _
    unfold getState
    rw [Props.get?_storeItem_ne (Ne.symm hne)]
  · show ∀ r, Dict.get? (storeItem item t s c.db).2 _ ≠ _
    rw [Props.get?_storeItem_ne (KeySpace.ne_ref hK hs hk)]; exact hu.unref
  · show getState (storeItem item t s c.db).2 k = _
    unfold getState
    rw [Props.get?_storeItem_ne (Ne.symm hne)]
  · show getState (storeItem item t s c.db).2 k = _
    unfold getState
    rw [Props.get?_storeItem_ne (Ne.symm hne)]

theorem beside_bind' (hK : KeySpace K) (hs : K s) {x : XTyp} {v : String} (hx : x = .nonce → v = n) :
    Frame (Beside K n s) (onDB (storeX2State v s x)) := by
  intro c
  have keep : ∀ key, indexKey x v ≠ key → refKey s ≠ key → Dict.get? (storeX2State v s x c.db).2 key = Dict.get? c.db key := by
    intro key h1 h2
    unfold storeX2State
    simp only
    split
    · rw [Dict.get?_set_ne _ _ h2, Dict.get?_set_ne _ _ h1]
    · rw [Dict.get?_set_ne _ _ h2, Dict.get?_set_ne _ _ h1]
    · rw [Dict.get?_set_ne _ _ h1]
  refine ⟨rfl, rfl, rfl, rfl, rfl, fun m k hk hne hm ho => ⟨⟨?_, ?_, ho.quiet.bind fun _ e => absurd e.symm hne⟩, ?_⟩,
    fun k hk hne hu => ⟨⟨hu.quiet.bind fun _ e => absurd e.symm hne, ?_⟩, ?_⟩, fun _ k hk hne => ?_⟩
  · show Dict.get? (storeX2State v s x c.db).2 _ = _
    rw [keep _ (fun e => hm ((indexKey_inj.1 e).2.symm.trans (hx (indexKey_inj.1 e).1))) (refKey_ne_indexKey _ _ _)]; exact ho.nonce
  · obtain ⟨refs, hr⟩ := ho.indexed
    refine ⟨refs, ?_⟩
    show Dict.get? (storeX2State v s x c.db).2 _ = _
    rw [keep _ (indexKey_ne_refKey _ _ _) (fun e => hne (refKey_inj.1 e).symm)]; exact hr
  · show getState (storeX2State v s x c.db).2 k = _
    unfold getState
    rw [keep _ (Ne.symm (KeySpace.ne_index hK hk _ _)) (Ne.symm (KeySpace.ne_ref hK hk hs))]
  · show ∀ r, Dict.get? (storeX2State v s x c.db).2 _ ≠ _
    rw [keep _ (indexKey_ne_refKey _ _ _) (fun e => hne (refKey_inj.1 e).symm)]; exact hu.unref
  · show getState (storeX2State v s x c.db).2 k = _
    unfold getState
    rw [keep _ (Ne.symm (KeySpace.ne_index hK hk _ _)) (Ne.symm (KeySpace.ne_ref hK hk hs))]
  · show getState (storeX2State v s x c.db).2 k = _
    unfold getState
    rw [keep _ (Ne.symm (KeySpace.ne_index hK hk _ _)) (Ne.symm (KeySpace.ne_ref hK hk hs))]

theorem beside_bind (hK : KeySpace K) (hs : K s) {x : XTyp} (hx : x ≠ .nonce) (v : String) :
    Frame (Beside K n s) (onDB (storeX2State v s x)) := beside_bind' hK hs fun e => absurd e hx

theorem beside_storeResponse (hK : KeySpace K) (hs : K s) (x : Ext) (t : String) (resp : Obj) :
    Frame (Beside K n s) (storeResponse x t s resp) := by
  unfold storeResponse
  exact Frame.bind (Frame.lift _) fun r => Frame.bind (beside_store hK hs _ _) fun _ => Frame.pure _

theorem beside_bindIdToken (hK : KeySpace K) (hs : K s) (resp : Obj) : Frame (Beside K n s) (bindIdToken resp s) := by
  unfold bindIdToken
  split
  · exact Frame.pure _
  · refine Frame.bind (Frame.ask _) fun _ => Frame.bind (Frame.lift _) fun _ => ?_
    exact Frame.bind (Frame.lift _) fun _ => beside_bind hK hs (by decide) _
  · exact Frame.raise _

/-- Where nothing is stored for the nameless session, nothing can be stored for it by what comes from the userinfo endpoint. -/
theorem beside_nameless (hK : KeySpace K) (x : Ext) (srv : Srv) (resp : Obj) : Frame (Beside K n s) (postParse x srv resp "") := by
  unfold postParse
  split
  · exact Frame.ask _
  · exact Frame.ask _
  · intro c
    by_cases h0 : Dict.get? c.db "" = none
    · have : userinfoChecked x resp "" c = .error .keyError := by
        unfold userinfoChecked multipleExtendRequestArgs getState
        rw [h0]
      rw [ask_bind_error this]
      exact FrameRel.refl _
    · cases hr : userinfoChecked x resp "" c with
      | error e => rw [ask_bind_error hr]; exact FrameRel.refl _
      | ok r =>
        rw [ask_bind_ok hr, Py.bind_run]
        have h1 : (onDB (storeItem r "user_info" "") c).2 = { c with db := (storeItem r "user_info" "" c.db).2 } := rfl
        rcases h2 : onDB (storeItem r "user_info" "") c with ⟨q, d⟩
        rw [h2] at h1
        simp only at h1
        subst h1
        cases q <;> exact ⟨rfl, rfl, rfl, rfl, rfl, fun n k hk hne _ ho => absurd ho.quiet.nameless h0, fun k hk hne hu => absurd hu.quiet.nameless h0,
          fun _ k hk _ => by show getState (storeItem r "user_info" "" c.db).2 k = _; unfold getState; rw [Props.get?_storeItem_ne (Ne.symm (hK.nonempty k hk))]⟩
  · exact Frame.pure _

theorem beside_postParse (hK : KeySpace K) (hs : K s) (x : Ext) (srv : Srv) (resp : Obj) :
    Frame (Beside K n s) (postParse x srv resp s) := by
  unfold postParse
  split
  · exact Frame.ask _
  · exact Frame.ask _
  · exact Frame.bind (Frame.ask _) fun _ => Frame.bind (beside_store hK hs _ _) fun _ => Frame.pure _
  · exact Frame.pure _

theorem beside_update (hK : KeySpace K) (hs : K s) (x : Ext) {srv : Srv} (hr : Running srv) (r : Resp) :
    Frame (Beside K n s) (update x srv r s) := by
  refine frame_update _ fun o => ?_
  rcases hr with rfl | rfl | rfl | rfl
  · exact Frame.bind (beside_bindIdToken hK hs o) fun _ => beside_storeResponse hK hs x _ _
  · exact beside_storeResponse hK hs x _ _
  · exact Frame.pure _
  · exact Frame.pure _

theorem beside_construct (hK : KeySpace K) (hs : K s) (x : Ext) {srv : Srv} (hr : Running srv) (args : Obj) :
    Frame (Beside K n s) (construct x srv args [("state", .str s)]) := by
  by_cases he : srv = .endSession
  · subst he
    unfold construct
    refine Frame.bind Frame.read fun c => Frame.bind ?_ fun r => ?_
    · simp only [preConstruct]
      refine Frame.bind (Frame.ask _) fun a => Frame.bind (Frame.ask _) fun b => Frame.bind ?_ fun _ => Frame.pure _
      unfold addState
      refine Frame.bind (Frame.lift _) fun v => Frame.bind (Frame.lift _) fun w => ?_
      have : stateArg (methodArgs (confOf c .endSession) "pre_construct" [("state", .str s)]) = .ok s := by
        unfold stateArg
        rw [Dict.getItem_eq_ok.2 (methodArgs_given _ _ (by simp [Dict.keys]) rfl)]
        rfl
      rw [this]
      intro c'
      refine Frame.bind' (Frame.lift _) fun a' s' h => ?_
      have h1 : Except.ok (ε := Exc) s = .ok a' := congrArg Prod.fst h
      injection h1 with h1
      subst h1
      exact Frame.bind (beside_bind hK hs (by decide) _) (fun _ => Frame.pure _) s'
    · refine Frame.bind (Frame.ask _) fun g => ?_
      unfold postConstruct
      exact Frame.bind Frame.read fun c => Frame.pure _
  · refine frame_construct_reading' ?_ _ _
    rcases hr with rfl | rfl | rfl | rfl
    · decide
    · decide
    · decide
    · exact absurd rfl he

theorem beside_bindSid (hK : KeySpace K) (hs : K s) (i : Val) : Frame (Beside K n s) (bindSid s i) := by
  unfold bindSid
  refine Frame.bind Frame.read fun c => Frame.ite (fun _ => ?_) (fun _ => Frame.pure _)
  split
  · exact Frame.pure _
  · exact Frame.raise _
  · exact Frame.bind (Frame.lift _) fun _ => beside_bind hK hs (by decide) _

theorem beside_bindSub (hK : KeySpace K) (hs : K s) (i u : Val) : Frame (Beside K n s) (bindSub s i u) := by
  unfold bindSub
  refine Frame.bind (Frame.lift _) fun _ => ?_
  exact Frame.bind (Frame.lift _) fun _ => beside_bind hK hs (by decide) _

/-- An answer for session `s` is taken down for session `s`. -/
theorem beside_finalizeAuth (hK : KeySpace K) (hs : K s) {x : Ext} {r : Obj} (ha : AnswersSession s x r) (issuer : String) :
    Frame (Beside K n s) (finalizeAuth x issuer r) := by
  intro c
  rcases finalizeAuth_cases x issuer r c with ⟨e, h⟩ | ⟨resp, h1, _, ⟨_, h⟩ | ⟨h2, q, st, resp', h3, h4, _, _, h⟩⟩
  · rw [h]; exact FrameRel.refl _
  · rw [h]; exact FrameRel.refl _
  · have hq : q = s := by
      rw [parseAuthorization_eq] at h1
      cases ho : authOutcome x r c with
      | error e => rw [ho] at h1; cases h1
      | ok o =>
        rw [ho] at h1
        have h1 := congrArg Prod.fst h1
        simp only at h1
        split at h1
        · cases h1
        · injection h1 with h1
          injection h1 with h1
          subst h1
          rcases authOutcome_state ha ho with e | e
          · rw [h2] at e; cases e
          · rw [h3] at e
            injection e with e
            injection e
    subst hq
    rw [h]
    have hstore : Dict.set c.db q (.doc (Dict.set st "auth_response" (.obj resp'))) = (storeItem resp' "auth_response" q c.db).2 := by
      unfold storeItem
      rw [h4]
    have := beside_store (n := n) hK hs resp' "auth_response" c
    rw [hstore]
    exact this

/-! ## Pieces -/

/-- Set up as a given client, with the same key. -/
structure Like (κ c : Client) : Prop where
  ctx : c.ctx = κ.ctx
  services : c.services = κ.services
  conf : c.conf = κ.conf
  cfg : c.cfg = κ.cfg
  key : c.dpopKey = κ.dpopKey

theorem Like.beside {c d : Client} (h : Like κ c) (hb : Beside K n s c d) : Like κ d :=
  ⟨hb.ctx.trans h.ctx, hb.services.trans h.services, hb.conf.trans h.conf, hb.cfg.trans h.cfg, hb.key.trans h.key⟩

/-- Twins that are set up as a given client. -/
structure TwinK (κ : Client) (n k : String) (c c' : Client) : Prop where
  twin : Twin n k c c'
  like : Like κ c
  like' : Like κ c'

/-- Each piece does the same at twins and works for its session only; what the call returns satisfies `Q`. -/
inductive Good (K : String → Prop) (κ : Client) (n s : String) (Q : α → Prop) : Pieces α → Prop where
  | done (r : Except Exc α) (h : ∀ a, r = .ok a → Q a) : Good K κ n s Q (.done r)
  | piece {β : Type} (m : Py Client β) (next : β → Pieces α)
      (par : ∀ c c', TwinK κ n s c c' → Agree Refused (m c).1 (m c').1 ∧ Twin n s (m c).2 (m c').2 ∧
        ∃ l, (m c).2.log = c.log ++ l ∧ (m c').2.log = c'.log ++ l)
      (frame : ∀ c, Like κ c → Beside K n s c (m c).2)
      (rest : ∀ c c' b, TwinK κ n s c c' → (m c).1 = .ok b → Good K κ n s Q (next b)) : Good K κ n s Q (.piece m next)

namespace Good

theorem pure {Q : α → Prop} (a : α) (h : Q a) : Good K κ n s Q (Pure.pure a : Pieces α) :=
  .done _ fun b e => by injection e with e; exact e ▸ h

theorem one {Q : α → Prop} {m : Py Client α} (hp : Par Refused n s m) (hf : Frame (Beside K n s) m)
    (hq : ∀ c c' a, TwinK κ n s c c' → (m c).1 = .ok a → Q a) : Good K κ n s Q (Pieces.one m) :=
  .piece m _ (fun c c' h => hp c c' h.twin) (fun c _ => hf c) fun c c' b h e =>
    .done _ fun a e' => by injection e' with e'; exact e' ▸ hq c c' b h e

theorem one' {m : Py Client α} (hp : Par Refused n s m) (hf : Frame (Beside K n s) m) :
    Good K κ n s (fun _ => True) (Pieces.one m) := one hp hf fun _ _ _ _ _ => trivial

theorem bind {Q : α → Prop} {Q' : β → Prop} {p : Pieces α} {f : α → Pieces β} (hp : Good K κ n s Q p)
    (hf : ∀ a, Q a → Good K κ n s Q' (f a)) : Good K κ n s Q' (p >>= f) := by
  induction hp with
  | done r h =>
    cases r with
    | ok a => exact hf a (h a rfl)
    | error e => exact .done _ fun a e => by cases e
  | piece m next par frame rest ih =>
    exact .piece m _ par frame fun c c' b h e => ih c c' b h e

theorem ite {Q : α → Prop} {p : Prop} [Decidable p] {x y : Pieces α} (hx : p → Good K κ n s Q x) (hy : ¬ p → Good K κ n s Q y) :
    Good K κ n s Q (if p then x else y) := by
  split
  · exact hx ‹_›
  · exact hy ‹_›

end Good

theorem good_ask {f : Client → Except Exc α} (h : ∀ c c', Twin n s c c' → f c = f c') :
    Good K κ n s (fun a => ∃ c c', Twin n s c c' ∧ f c = .ok a) (Pieces.one (ask f)) :=
  Good.one (Par.ask h) (Frame.ask _) fun c c' _ ht e => ⟨c, c', ht.twin, e⟩

theorem good_blind {f : Client → Except Exc α} (h : Blind f) : Good K κ n s (fun a => ∃ c, f c = .ok a) (Pieces.one (ask f)) :=
  Good.one (Par.blind h) (Frame.ask _) fun c _ _ _ e => ⟨c, e⟩

theorem good_lift (r : Except Exc α) : Good K κ n s (fun a => r = .ok a) (Pieces.one (Py.lift r)) :=
  Good.one (Par.lift r) (Frame.lift _) fun _ _ _ _ e => e

theorem good_headers (x : Ext) (srv : Srv) (req : Obj) (hm am : String) {kwargs : Obj}
    (hkw : NoOtherKey s (Dict.set kwargs "authn_endpoint" (.str srv.endpointName))) :
    Good K κ n s (fun _ => True) (headers x srv req hm am kwargs) := by
  unfold headers
  refine Good.bind (good_blind fun _ _ _ _ => rfl) fun m _ => ?_
  refine Good.bind (good_ask fun c c' hs => twin_authn hs x srv req m hkw) fun r _ => ?_
  refine Good.bind (Q := fun look => ∀ ka, look = some (some ka) → κ.dpopKey = some ka) ?_ fun look hl => ?_
  · refine .piece _ _ (fun c c' h => ?_) (fun c _ => FrameRel.refl c) fun c c' b h e => .done _ fun a e' => ?_
    · refine ⟨Agree.of_eq ?_, h.twin, [], by simp [ask], by simp [ask]⟩
      show lookForKey x srv c = lookForKey x srv c'
      unfold lookForKey dpopKeyFor
      rw [h.like.key, h.like'.key, h.twin.ctx]
    · injection e' with e'
      subst e'
      intro ka hka
      subst hka
      have e : lookForKey x srv c = .ok (some (some ka)) := e
      unfold lookForKey at e
      split at e
      · next hu =>
        have ha : Dict.has c.ctx.addOn "dpop" = true := by
          unfold usesDpop at hu
          simp only [Bool.and_eq_true] at hu
          exact hu.1
        obtain ⟨k1, _⟩ := h.twin.key ha
        rw [h.like.key] at k1
        obtain ⟨v, hv⟩ := Option.isSome_iff_exists.1 k1
        unfold dpopKeyFor at e
        rw [h.like.key, hv] at e
        injection e with e
        injection e with e
        rw [hv, e]
      · injection e with e; cases e
  · match look, hl with
    | none, _ => exact Good.pure _ trivial
    | some none, _ => exact Good.pure _ trivial
    | some (some (key, alg)), hl =>
      have hκ : κ.dpopKey = some (key, alg) := hl _ rfl
      refine Good.bind (Q := fun _ => True) ?_ fun _ _ => ?_
      · refine .piece _ _ (fun c c' h => ?_) (fun c h => ?_) fun c c' b h e => .done _ fun _ _ => trivial
        · refine ⟨rfl, ⟨h.twin.ctx, h.twin.services, h.twin.conf, h.twin.cfg, fun _ => ⟨rfl, rfl⟩, h.twin.record, h.twin.own, h.twin.own'⟩,
            [], by simp [Py.modify], by simp [Py.modify]⟩
        · exact ⟨rfl, rfl, rfl, rfl, (h.key.trans hκ).symm, fun _ _ _ _ _ ho => ⟨ho, rfl⟩, fun _ _ _ hu => ⟨hu, rfl⟩, fun _ _ _ _ => rfl⟩
      refine Good.bind (good_blind fun _ _ _ _ => rfl) fun htu _ => ?_
      exact Good.bind (good_lift _) fun jws _ => Good.pure _ trivial

theorem good_build (hK : KeySpace K) (hs : K s) (x : Ext) {srv : Srv} (hr : Running srv) {args : Obj} (o : CallOpts)
    (hg : Given s srv args [("state", .str s)]) :
    Good K κ n s (fun _ => True) (build x srv args o [("state", .str s)]) := by
  unfold build
  refine Good.bind (good_blind fun _ _ _ _ => rfl) fun style hst => ?_
  refine Good.bind (good_blind fun _ _ _ _ => rfl) fun am _ => ?_
  refine Good.bind (Good.one' (par_construct hK hs x hr hg) (beside_construct hK hs x hr _)) fun req _ => ?_
  refine Good.bind (good_headers x srv req _ am ?_) fun h _ => ?_
  · obtain ⟨c, hc⟩ := hst
    injection hc with hc
    subst hc
    left
    rw [Dict.get?_set_ne _ _ (by decide)]
    show Dict.get? (withIss c _) "key" = none
    unfold withIss
    split
    · rfl
    · rw [Dict.get?_set_ne _ _ (by decide)]; rfl
  · exact Good.one (Par.blind (blind_assemble _ _ _ _ _ _ _)) (Frame.ask _) fun _ _ _ _ _ => trivial

theorem good_responding (hK : KeySpace K) (hs : K s) {x : Ext} (hx : Forgetful x) {srv : Srv} (hr : Running srv) (info : ReqInfo) (bt : String) :
    Good K κ n s (fun _ => True) (responding x srv info bt s) := by
  unfold responding
  refine Good.bind (Good.one' (Par.send hx _) (beside_send _ _)) fun r _ => ?_
  refine Good.bind (good_blind fun _ _ _ _ => rfl) fun b _ => ?_
  refine Good.ite (fun _ => Good.pure _ trivial) fun _ => Good.ite (fun _ => Good.pure _ trivial) fun _ => ?_
  exact Good.one' (par_parseRequestResponse hK hs x hr r _ (Or.inl rfl))
    (frame_parseRequestResponse _ _ (fun _ => beside_postParse hK hs _ _ _) (fun _ => beside_nameless hK _ _ _))

theorem good_updating (hK : KeySpace K) (hs : K s) (x : Ext) {srv : Srv} (hr : Running srv) (r : Resp) :
    Good K κ n s (fun _ => True) (updating x srv r s) := by
  unfold updating
  split
  · refine Good.bind (Good.one' (par_bindIdToken hK hs _) (beside_bindIdToken hK hs _)) fun _ _ => ?_
    exact Good.bind (Good.one' (par_storeResponse hK hs x _ _) (beside_storeResponse hK hs x _ _)) fun _ _ => Good.pure _ trivial
  · exact Good.one' (par_update hK hs x hr _) (beside_update hK hs x hr _)

theorem good_request (hK : KeySpace K) (hs : K s) {x : Ext} (hx : Forgetful x) {srv : Srv} (hr : Running srv) {args : Obj} (o : CallOpts)
    (hg : Given s srv args [("state", .str s)]) :
    Good K κ n s (fun _ => True) (request x srv args o [("state", .str s)]) := by
  unfold request
  refine Good.bind (good_blind (f := chosenService srv o) fun _ _ _ _ => rfl) fun bt _ => ?_
  refine Good.bind (good_build hK hs x hr o hg) fun info _ => ?_
  refine Good.bind (good_responding hK hs hx hr info bt) fun r _ => ?_
  exact Good.ite (fun _ => Good.pure _ trivial) fun _ => good_updating hK hs x hr r

theorem good_gettingTokens (hK : KeySpace K) (hs : K s) {x : Ext} (hx : Forgetful x) :
    Good K κ n s (fun _ => True) (gettingTokens x s) := by
  unfold gettingTokens
  refine Good.bind (good_ask fun c c' h => ?_) fun args ha => ?_
  · unfold tokenArgs
    rw [h.item, h.item, h.ctx]
  obtain ⟨c, _, _, ha⟩ := ha
  have hargs : (Dict.keys args).Nodup ∧ Dict.get? args "state" = some (.str s) := by
    unfold tokenArgs at ha
    cases h1 : getItem c.db "auth_response" s with
    | error e => rw [h1] at ha; cases ha
    | ok resp =>
      rw [h1] at ha
      cases h2 : getItem c.db "auth_request" s with
      | error e => rw [h2] at ha; cases ha
      | ok req =>
        rw [h2] at ha
        simp only at ha
        cases h3 : Dict.getItem resp "code" with
        | error e => rw [h3] at ha; cases ha
        | ok code =>
          rw [h3] at ha
          simp only at ha
          cases h4 : Dict.getItem req "redirect_uri" with
          | error e => rw [h4] at ha; cases ha
          | ok ru =>
            rw [h4] at ha
            injection ha with ha
            subst ha
            exact ⟨by simp [Dict.keys], rfl⟩
  refine Good.bind (good_blind fun _ _ _ _ => rfl) fun am _ => ?_
  refine Good.bind (good_request hK hs hx (Or.inl rfl) _ ⟨hargs.1, rfl, fun _ => hargs.2⟩) fun r _ => ?_
  exact Good.bind (good_lift _) fun _ _ => Good.pure _ trivial

theorem good_refreshing (hK : KeySpace K) (hs : K s) {x : Ext} (hx : Forgetful x) (sc : String) :
    Good K κ n s (fun _ => True) (refreshing x s sc) := by
  unfold refreshing
  refine Good.bind (good_blind fun _ _ _ _ => rfl) fun am _ => ?_
  refine Good.bind (good_request hK hs hx (Or.inr (Or.inl rfl)) _ ⟨?_, rfl, fun e => by cases e⟩) fun r _ => ?_
  · split <;> simp [Dict.keys]
  exact Good.bind (good_lift _) fun _ _ => Good.pure _ trivial

theorem good_gettingUserInfo (hK : KeySpace K) (hs : K s) {x : Ext} (hx : Forgetful x) (t : Val) :
    Good K κ n s (fun _ => True) (gettingUserInfo x s t) := by
  unfold gettingUserInfo
  refine Good.bind (good_ask fun c c' h => ?_) fun _ _ => ?_
  · unfold lookedUp
    rw [h.multi]
  refine Good.bind (good_request hK hs hx (Or.inr (Or.inr (Or.inl rfl))) _ ⟨by simp [Dict.keys], rfl, fun e => by cases e⟩) fun r _ => ?_
  exact Good.bind (good_lift _) fun _ _ => Good.pure _ trivial

theorem good_loggingOut (hK : KeySpace K) (hs : K s) (x : Ext) (uri : String) :
    Good K κ n s (fun _ => True) (loggingOut x s uri) := by
  unfold loggingOut
  refine Good.bind (good_blind fun _ _ _ _ => rfl) fun _ _ => ?_
  refine good_build hK hs x (Or.inr (Or.inr (Or.inr rfl))) _ ⟨?_, rfl, fun e => by cases e⟩
  split <;> simp [Dict.keys]

theorem good_fetchingTokens (hK : KeySpace K) (hs : K s) {x : Ext} (hx : Forgetful x) :
    Good K κ n s (fun _ => True) (fetchingTokens x s) := by
  unfold fetchingTokens
  refine Good.bind (good_gettingTokens hK hs hx) fun r _ => ?_
  exact Good.bind (good_lift _) fun _ _ => Good.bind (good_lift _) fun _ _ => Good.pure _ trivial

theorem good_tokensOf (hK : KeySpace K) (hs : K s) {x : Ext} (hx : Forgetful x) (resp b : Obj) :
    Good K κ n s (fun _ => True) (tokensOf x resp s b) := by
  unfold tokensOf
  refine Good.bind (good_ask fun c c' h => ?_) fun rt _ => ?_
  · unfold storedResponseType
    rw [h.item]
  refine Good.bind (good_lift _) fun idt _ => ?_
  refine Good.ite (fun _ => ?_) fun _ => Good.ite (fun _ => good_fetchingTokens hK hs hx) fun _ => Good.pure _ trivial
  refine Good.bind (good_lift _) fun tok _ => ?_
  exact Good.ite (fun _ => good_fetchingTokens hK hs hx) fun _ => Good.pure _ trivial

theorem good_collecting (hK : KeySpace K) (hs : K s) {x : Ext} (hx : Forgetful x) (tok idt : Val) :
    Good K κ n s (fun _ => True) (collecting x s tok idt) := by
  unfold collecting
  refine Good.bind (good_blind fun _ _ _ _ => rfl) fun asks _ => ?_
  refine Good.ite (fun _ => ?_) fun _ => Good.ite (fun _ => ?_) fun _ => Good.pure _ trivial
  · exact Good.bind (good_gettingUserInfo hK hs hx _) fun _ _ => Good.pure _ trivial
  · split
    · exact Good.pure _ trivial
    · exact Good.one' (Par.raise _) (Frame.raise _)

theorem good_completing (hK : KeySpace K) (hs : K s) {x : Ext} (hx : Forgetful x) (resp b : Obj) :
    Good K κ n s (fun _ => True) (completing x resp s b) := by
  unfold completing
  refine Good.bind (good_tokensOf hK hs hx _ _) fun t _ => ?_
  refine Good.bind (good_collecting hK hs hx _ _) fun info _ => ?_
  refine Good.bind (Good.one' (par_bindSid hK hs _) (beside_bindSid hK hs _)) fun _ _ => ?_
  exact Good.bind (Good.one' (par_bindSub hK hs _ _) (beside_bindSub hK hs _ _)) fun _ _ => Good.pure _ trivial

theorem finalizeAuth_state {x : Ext} {r o : Obj} (ha : AnswersSession s x r) {issuer : String} {c : Client}
    (h : (finalizeAuth x issuer r c).1 = .ok o) : Msg.isError o = true ∨ Dict.get? o "state" = some (.str s) := by
  rcases finalizeAuth_cases x issuer r c with ⟨e, h'⟩ | ⟨resp, h1, _, h'⟩
  · rw [h'] at h; cases h
  · have hst : Msg.isError resp = true ∨ Dict.get? resp "state" = some (.str s) := by
      rw [parseAuthorization_eq] at h1
      cases ho : authOutcome x r c with
      | error e => rw [ho] at h1; cases h1
      | ok o' =>
        rw [ho] at h1
        have h1 := congrArg Prod.fst h1
        simp only at h1
        split at h1
        · cases h1
        · injection h1 with h1
          injection h1 with h1
          subst h1
          exact authOutcome_state ha ho
    rcases h' with ⟨h2, h'⟩ | ⟨h2, q, st, resp', h3, h4, _, h5, h'⟩
    · rw [h'] at h
      injection h with h
      subst h
      exact Or.inl h2
    · rw [h'] at h
      injection h with h
      subst h
      right
      rw [withExpiry_state h5]
      exact hst.resolve_left (by rw [h2]; decide)

theorem good_finalizing (hK : KeySpace K) (hs : K s) {x : Ext} (hx : Forgetful x) {r : Obj} (ha : AnswersSession s x r) (issuer : String) (b : Obj) :
    Good K κ n s (fun _ => True) (finalizing x issuer r b) := by
  unfold finalizing
  refine Good.bind (Q := fun o => Msg.isError o = true ∨ Dict.get? o "state" = some (.str s))
    (Good.one (par_finalizeAuth hK hs ha issuer) (beside_finalizeAuth hK hs ha issuer) fun c _ o _ e => finalizeAuth_state ha e) fun resp hr => ?_
  refine Good.bind (good_lift _) fun sv hv => ?_
  refine Good.ite (fun _ => Good.bind (good_lift _) fun _ _ => Good.pure _ trivial) fun he => ?_
  have hst := hr.resolve_left he
  rw [Dict.getItem_eq_ok.2 hst] at hv
  injection hv with hv
  subst hv
  refine Good.bind (good_lift _) fun q hq => ?_
  have hq : q = s := by
    simp only [dbKey] at hq
    injection hq with hq
    exact hq.symm
  subst hq
  exact good_completing hK hs hx _ _

end Verif.Desk
