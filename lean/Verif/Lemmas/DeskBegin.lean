import Verif.Lemmas.DeskGood
import Verif.Props.Begin
/-!
# What the pieces of `begin` do for their session and for others
-/

namespace Verif.Desk
open Verif Verif.Service Verif.Handler Verif.StateInterface Pieces
open Verif.Spec.Store (KeySpace)

variable {α β : Type} {K : String → Prop} {κ : Client} {n s k : String}

/-- The record of the session is made anew. -/
theorem own_create (hK : KeySpace K) (hs : K s) {db : DB} (ho : Own n s db) (v : DbVal) : Own n s (Dict.set db s v) := by
  refine ⟨?_, ?_, ho.quiet.congr (Dict.get?_set_ne _ _ (hK.nonempty s hs)) fun w hw => Or.inl ?_⟩
  · rw [Dict.get?_set_ne _ _ (KeySpace.ne_index hK hs _ _)]; exact ho.nonce
  · obtain ⟨refs, hr⟩ := ho.indexed
    exact ⟨refs, by rw [Dict.get?_set_ne _ _ (KeySpace.ne_ref hK hs hs)]; exact hr⟩
  · rw [Dict.get?_set_ne _ _ (KeySpace.ne_index hK hs _ _)] at hw; exact hw

theorem beside_set (hK : KeySpace K) (hs : K s) (c : Client) (v : DbVal) : Beside K n s c { c with db := Dict.set c.db s v } := by
  have hq : ∀ {N : String → Prop} {k : String}, Quiet N k c.db → Quiet N k (Dict.set c.db s v) := fun h =>
    h.congr (Dict.get?_set_ne _ _ (hK.nonempty s hs)) fun w hw => Or.inl (by
      rw [Dict.get?_set_ne _ _ (KeySpace.ne_index hK hs _ _)] at hw; exact hw)
  have hst : ∀ k, k ≠ s → getState (Dict.set c.db s v) k = getState c.db k := by
    intro k hne
    unfold getState
    rw [Dict.get?_set_ne _ _ (Ne.symm hne)]
  refine ⟨rfl, rfl, rfl, rfl, rfl, fun m k hk hne _ ho => ⟨⟨?_, ?_, hq ho.quiet⟩, hst k hne⟩,
    fun k hk hne hu => ⟨⟨hq hu.quiet, ?_⟩, hst k hne⟩, fun _ k _ hne => hst k hne⟩
  · rw [Dict.get?_set_ne _ _ (KeySpace.ne_index hK hs _ _)]; exact ho.nonce
  · obtain ⟨refs, hr⟩ := ho.indexed
    exact ⟨refs, by rw [Dict.get?_set_ne _ _ (KeySpace.ne_ref hK hs hk)]; exact hr⟩
  · rw [Dict.get?_set_ne _ _ (KeySpace.ne_ref hK hs hk)]; exact hu.unref

theorem good_setState (hK : KeySpace K) (hs : K s) (x : Ext) {args kw : Obj} (ha : Dict.get? args "state" = some (.str s))
    (hkw : Dict.get? kw "state" = none) :
    Good K κ n s (fun a => a = Dict.set args "state" (.str s)) (one (setState x args kw)) := by
  have run := setState_run (x := x) (hK.nonempty s hs) (KeySpace.not_dunder hK hs) ha hkw
  refine Good.one ?_ ?_ ?_
  · intro c c' h
    rw [run c, run c']
    refine ⟨rfl, ⟨h.ctx, h.services, h.conf, h.cfg, h.key, ?_, own_create hK hs h.own _, own_create hK hs h.own' _⟩, [], by simp, by simp⟩
    unfold getState
    rw [Dict.get?_set_self, Dict.get?_set_self, h.ctx]
  · intro c
    rw [run c]
    exact beside_set hK hs c _
  · intro c c' a _ e
    rw [run c] at e
    injection e with e
    exact e.symm

/-- The nonce of the session is bound to it again. -/
theorem own_bind {db : DB} (ho : Own n s db) : Own n s (storeX2State n s .nonce db).2 :=
  ⟨get?_bind_self _ _ _ _, indexed_bind ho.indexed _ _, Quiet.bind (N := fun v => v = n) (fun _ _ => rfl) ho.quiet⟩

theorem par_bindOwn (hK : KeySpace K) (hs : K s) : Par Refused n s (onDB (storeX2State n s .nonce)) := by
  intro c c' h
  obtain ⟨r1, h1⟩ := bind_indexed (x := .nonce) n h.own.indexed
  obtain ⟨r2, h2⟩ := bind_indexed (x := .nonce) n h.own'.indexed
  refine ⟨Agree.of_eq ?_, ⟨h.ctx, h.services, h.conf, h.cfg, h.key, ?_, own_bind h.own, own_bind h.own'⟩,
    [], by simp [onDB], by simp [onDB]⟩
  · simp only [onDB, h1, h2]
  · simp only [onDB]
    rw [getState_bind hK hs n h.own.indexed, getState_bind hK hs n h.own'.indexed, h.record]

theorem lift_ok {r : Except Exc α} {c : Client} {a : α} (h : ((Py.lift r : Py Client α) c).1 = .ok a) : r = .ok a := h

theorem par_bindNonce (hK : KeySpace K) (hs : K s) {req : Obj}
    (hst : ∀ v q, Dict.getItem req "state" = .ok v → dbKey v = .ok q → q = s)
    (hn : ∀ m, Dict.get? req "nonce" = some (.str m) → m = n) : Par Refused n s (bindNonce req) := by
  unfold bindNonce
  refine Par.bind (Par.lift _) fun b => ?_
  refine Par.ite (fun _ => ?_) (fun _ => Par.pure _)
  refine Par.bind' (P := fun v => Dict.getItem req "nonce" = .ok v) (Par.lift _) (fun _ _ _ _ h => h) fun nv h1 => ?_
  refine Par.bind' (P := fun m => asStr nv = .ok m) (Par.lift _) (fun _ _ _ _ h => h) fun m h2 => ?_
  refine Par.bind' (P := fun v => Dict.getItem req "state" = .ok v) (Par.lift _) (fun _ _ _ _ h => h) fun sv h3 => ?_
  refine Par.bind' (P := fun q => dbKey sv = .ok q) (Par.lift _) (fun _ _ _ _ h => h) fun q h4 => ?_
  obtain rfl := hst _ _ h3 h4
  have hnv : nv = .str m := by
    cases nv <;> simp [asStr] at h2
    rw [h2]
  rw [Dict.getItem_eq_ok, hnv] at h1
  obtain rfl := hn _ h1
  exact par_bindOwn hK hs

theorem beside_bindNonce (hK : KeySpace K) (hs : K s) {req : Obj}
    (hst : ∀ v q, Dict.getItem req "state" = .ok v → dbKey v = .ok q → q = s)
    (hn : ∀ m, Dict.get? req "nonce" = some (.str m) → m = n) : Frame (Beside K n s) (bindNonce req) := by
  intro c
  unfold bindNonce
  refine Frame.bind' (Frame.lift _) fun b c1 h1 => ?_
  split
  · refine Frame.bind' (Frame.lift _) fun nv c2 h2 => ?_
    refine Frame.bind' (Frame.lift _) fun m c3 h3 => ?_
    refine Frame.bind' (Frame.lift _) fun sv c4 h4 => ?_
    refine Frame.bind' (Frame.lift _) fun q c5 h5 => ?_
    obtain ⟨h4', _⟩ := Py.lift_eq_ok.1 h4
    obtain ⟨h5', _⟩ := Py.lift_eq_ok.1 h5
    obtain rfl := hst _ _ h4' h5'
    obtain ⟨h2', _⟩ := Py.lift_eq_ok.1 h2
    obtain ⟨h3', _⟩ := Py.lift_eq_ok.1 h3
    have hnv : nv = .str m := by
      cases nv <;> simp [asStr] at h3'
      rw [h3']
    rw [Dict.getItem_eq_ok, hnv] at h2'
    obtain rfl := hn _ h2'
    exact beside_bind' hK hs (fun _ => rfl) _
  · exact FrameRel.refl _

/-- What the arguments of the request carry. -/
structure Carries (n s : String) (a : Obj) : Prop where
  state : Dict.get? a "state" = some (.str s)
  nonce : Dict.get? a "nonce" = some (.str n)
  nodup : (Dict.keys a).Nodup

theorem good_challenge (hK : KeySpace K) (hs : K s) (x : Ext) {a : Obj} (ha : Carries n s a) :
    Good K κ n s (fun d => Carries n s d) (one (addCodeChallenge x a)) := by
  refine Good.one ?_ ?_ ?_
  · unfold addCodeChallenge
    refine Par.read_bind (fun _ _ _ _ => rfl) fun c => ?_
    refine Par.ite (fun _ => Par.raise _) fun _ => ?_
    rw [Dict.getItem_eq_ok.2 ha.state]
    refine Par.bind' (P := fun v => v = .str s) (Par.lift _) (fun _ _ v _ h => by injection h with h; exact h.symm) fun v hv => ?_
    subst hv
    refine Par.bind' (P := fun q => q = s) (Par.lift _) (fun _ _ v _ h => by injection h with h; exact h.symm) fun q hq => ?_
    subst hq
    exact Par.bind (Par.store hK hs _ _) fun _ => Par.pure _
  · intro c
    unfold addCodeChallenge
    rw [Py.read_bind_run]
    simp only
    split
    · exact FrameRel.refl _
    · rw [Dict.getItem_eq_ok.2 ha.state, Py.lift_bind_ok rfl, show dbKey (.str s) = .ok s from rfl, Py.lift_bind_ok rfl]
      exact Frame.bind (beside_store hK hs _ _) (fun _ => Frame.pure _) c
  · intro c c' d _ e
    rcases h : addCodeChallenge x a c with ⟨q, c1⟩
    rw [h] at e
    simp only at e
    subst e
    obtain ⟨_, rfl, _⟩ := addCodeChallenge_ok ha.state h
    unfold withChallenge
    refine ⟨?_, ?_, Dict.nodup_set (Dict.nodup_set ha.nodup _ _) _ _⟩
    · rw [Dict.get?_set_ne _ _ (by decide), Dict.get?_set_ne _ _ (by decide)]; exact ha.state
    · rw [Dict.get?_set_ne _ _ (by decide), Dict.get?_set_ne _ _ (by decide)]; exact ha.nonce

theorem good_pick {a : Obj} (ha : Carries n s a) : Good K κ n s (fun d => Carries n s d) (one (pickRedirect a)) := by
  refine Good.one ?_ ?_ ?_
  · unfold pickRedirect
    exact Par.bind (Par.blind fun _ _ _ _ => rfl) fun _ => Par.pure _
  · unfold pickRedirect
    exact Frame.bind (Frame.ask _) fun _ => Frame.pure _
  · intro c c' d _ e
    rcases h : pickRedirect a c with ⟨q, c1⟩
    rw [h] at e
    simp only at e
    subst e
    unfold pickRedirect at h
    obtain ⟨v, c3, _, h2⟩ := Py.bind_eq_ok.1 h
    have h4 : Except.ok (ε := Exc) (Dict.set a "redirect_uri" v) = .ok d := congrArg Prod.fst h2
    injection h4 with h4
    subst h4
    exact ⟨by rw [Dict.get?_set_ne _ _ (by decide)]; exact ha.state, by rw [Dict.get?_set_ne _ _ (by decide)]; exact ha.nonce,
      Dict.nodup_set ha.nodup _ _⟩

theorem par_push {x : Ext} (hx : Forgetful x) (q : Obj) : Par Refused n s (pushAuthorization x q) := by
  unfold pushAuthorization
  refine Par.read_bind (fun _ _ _ _ => rfl) fun c => ?_
  refine Par.bind (Par.lift _) fun _ => Par.bind (Par.lift _) fun _ => Par.bind (Par.lift _) fun _ => ?_
  exact Par.bind (Par.send hx _) fun _ => Par.lift _

theorem beside_push (x : Ext) (q : Obj) : Frame (Beside K n s) (pushAuthorization x q) := by
  unfold pushAuthorization
  refine Frame.bind Frame.read fun c => ?_
  refine Frame.bind (Frame.lift _) fun _ => Frame.bind (Frame.lift _) fun _ => Frame.bind (Frame.lift _) fun _ => ?_
  exact Frame.bind (beside_send _ _) fun _ => Frame.lift _

theorem make_nonce {t : MsgType} {g : Obj} (hn : (Dict.keys g).Nodup) (hne : n ≠ "") (hg : Dict.get? g "nonce" = some (.str n))
    {m : String} (h : Dict.get? (t.make g) "nonce" = some (.str m)) : m = n := by
  rw [MsgType.get?_make _ hn, hg] at h
  have he : Msg.emptyVal (.str n) = false := by
    cases h : Msg.emptyVal (.str n) with
    | false => rfl
    | true => rcases (Msg.emptyVal_iff _).1 h with h | h <;> simp at h; exact absurd h hne
  simp only [he, Bool.false_eq_true, if_false, Option.some.injEq, MsgType.coerce] at h
  split at h
  · cases h
  · injection h with h
    exact h.symm

theorem good_constructing (hK : KeySpace K) (hs : K s) (hne : n ≠ "") {x : Ext} (hx : Forgetful x) {args kwargs : Obj}
    (ha : Carries n s args) (hkn : (Dict.keys kwargs).Nodup) (hkw : Dict.get? kwargs "state" = none) (hp : PlainConf κ.conf) :
    Good K κ n s (fun _ => True) (constructing x args kwargs) := by
  unfold constructing
  refine Good.bind (Q := fun kw => Dict.get? kw "state" = none) ?_ fun kw hw => ?_
  · refine Good.one (Par.blind fun _ _ _ _ => rfl) (Frame.ask _) fun c c' a ht e => ?_
    injection e with e
    subst e
    refine methodArgs_none hkn hkw ?_
    unfold confOf
    rw [ht.like.conf]
    exact hp
  refine Good.bind (good_setState hK hs x ha.state hw) fun a h => ?_
  subst h
  have ha1 : Carries n s (Dict.set args "state" (.str s)) :=
    ⟨Dict.get?_set_self _ _ _, by rw [Dict.get?_set_ne _ _ (by decide)]; exact ha.nonce, Dict.nodup_set ha.nodup _ _⟩
  refine Good.bind (good_pick ha1) fun a2 ha2 => ?_
  refine Good.bind (Q := fun r => Carries n s r.1.1) ?_ fun r hr => ?_
  · refine Good.one (Par.blind fun _ _ _ _ => rfl) (Frame.ask _) fun c c' r ht e => ?_
    have e : (authorizationPre (x.rnd "pre_nonce") c.ctx.behaviour a2 kw).map (fun r => (r, Dict.has c.ctx.addOn "pkce")) = .ok r := e
    cases h : authorizationPre (x.rnd "pre_nonce") c.ctx.behaviour a2 kw with
    | error e' => rw [h] at e; cases e
    | ok r0 =>
      rw [h] at e
      injection e with e
      subst e
      obtain ⟨p1, p2, p3⟩ := authorizationPre_state h
      exact ⟨by rw [p1 _ (by decide) (by decide) (by decide)]; exact ha2.state, p3 _ ha2.nonce, p2 ha2.nodup⟩
  have key : ∀ jp : Obj → Pieces Obj, (∀ d, Carries n s d → Good K κ n s (fun _ => True) (jp d)) →
      Good K κ n s (fun _ => True) (if r.2 = true then one (addCodeChallenge x r.1.1) >>= jp else pure r.1.1 >>= jp) := fun jp h =>
    Good.ite (fun _ => Good.bind (good_challenge hK hs x hr) h) fun _ => h _ hr
  refine key _ fun d hd => ?_
  refine Good.bind (good_blind (blind_gather _ _ _)) fun g hg => ?_
  obtain ⟨cg, hg⟩ := hg
  rw [stateFromKwargs_given hd.state] at hg
  have hnd := nodup_gather hg hd.nodup
  have hst : ∀ v q, Dict.getItem ((x.msg .authorization).make g) "state" = .ok v → dbKey v = .ok q → q = s := fun v q hv hq =>
    (make_state hnd (hK.nonempty s hs) (gather_given hg hd.state) hv hq).1
  have hno : ∀ m, Dict.get? ((x.msg .authorization).make g) "nonce" = some (.str m) → m = n := fun m hm =>
    make_nonce hnd hne (gather_given hg hd.nonce) hm
  refine Good.bind (good_blind fun _ _ _ _ => rfl) fun post _ => ?_
  refine Good.bind (Good.one' (par_bindNonce hK hs hst hno) (beside_bindNonce hK hs hst hno)) fun _ _ => ?_
  refine Good.bind (good_lift _) fun q hq => ?_
  refine Good.bind (good_lift _) fun sv hsv => ?_
  refine Good.bind (good_lift _) fun q' hq' => ?_
  have : q' = s := by
    refine hst sv q' ?_ hq'
    rw [Dict.getItem_eq_ok] at hsv ⊢
    rw [← (offlinePrompt_keeps hq).1 _ (by decide)]
    exact hsv
  subst this
  refine Good.bind (Good.one' (Par.store hK hs _ _) (beside_store hK hs _ _)) fun _ _ => ?_
  refine Good.bind (good_blind fun _ _ _ _ => rfl) fun f _ => ?_
  exact Good.ite (fun _ => Good.one' (par_push hx _) (beside_push _ _)) fun _ => Good.pure _ trivial

theorem good_authorizing (hK : KeySpace K) (hs : K s) (hne : n ≠ "") {x : Ext} (hx : Forgetful x) {args : Obj} (b : Obj)
    (ha : Carries n s args) (hp : PlainConf κ.conf) :
    Good K κ n s (fun _ => True) (authorizing x args [("behaviour_args", .obj b)]) := by
  unfold authorizing
  refine Good.bind (good_blind fun _ _ _ _ => rfl) fun style hst => ?_
  refine Good.bind (good_blind fun _ _ _ _ => rfl) fun am _ => ?_
  refine Good.bind (good_constructing hK hs hne hx ha (by simp [Dict.keys]) rfl hp) fun req _ => ?_
  refine Good.bind (good_headers x _ req _ am ?_) fun h _ => ?_
  · obtain ⟨c, hc⟩ := hst
    injection hc with hc
    subst hc
    left
    rw [Dict.get?_set_ne _ _ (by decide)]
    show Dict.get? (withIss c _) "key" = none
    unfold withIss
    split
    · rfl
    · rw [Dict.get?_set_ne _ _ (by decide)]; rfl
  · exact Good.one (Par.blind (blind_assemble _ _ _ _ _ _ _)) (Frame.ask _) fun _ _ _ _ _ => trivial

/-- What comes after the nonce was bound. -/
theorem good_begun (hK : KeySpace K) (hs : K s) (hne : n ≠ "") {x : Ext} (hx : Forgetful x) {args : Obj} (req b : Obj)
    (hn : Dict.get? args "nonce" = some (.str n)) (hnd : (Dict.keys args).Nodup) (hp : PlainConf κ.conf)
    (hscope : aliasScope req κ.ctx = κ.ctx) :
    Good K κ n s (fun _ => True) (do
      one (ask (fun c => if .authorization ∉ c.services then .error .attributeError else .ok ()))
      one (onCtx (Py.modify (aliasScope req)))
      let info ← authorizing x (Dict.set args "state" (.str s)) [("behaviour_args", .obj b)]
      pure (info.url, s)) := by
  refine Good.bind (good_blind fun _ _ _ _ => rfl) fun _ _ => ?_
  refine Good.bind (Q := fun _ => True) ?_ fun _ _ => ?_
  · have same : ∀ c, Like κ c → onCtx (Py.modify (aliasScope req)) c = (.ok (), c) := by
      intro c h
      show (Except.ok (), ({ c with ctx := aliasScope req c.ctx } : Client)) = _
      rw [h.ctx, hscope, ← h.ctx]
    refine .piece _ _ (fun c c' h => ?_) (fun c h => ?_) fun c c' b h e => .done _ fun _ _ => trivial
    · rw [same c h.like, same c' h.like']
      exact ⟨rfl, h.twin, [], by simp, by simp⟩
    · rw [same c h]
      exact FrameRel.refl _
  refine Good.bind (good_authorizing hK hs hne hx b ⟨Dict.get?_set_self _ _ _, ?_, Dict.nodup_set hnd _ _⟩ hp) fun info _ => Good.pure _ trivial
  rw [Dict.get?_set_ne _ _ (by decide)]
  exact hn

/-! ## Before the nonce is bound -/

/-- Clients at which the session was not begun. -/
structure FreshK (κ : Client) (s : String) (c c' : Client) : Prop where
  like : Like κ c
  like' : Like κ c'
  dpop : Dict.has κ.ctx.addOn "dpop" = true → κ.dpopKey.isSome
  unused : Unused s c.db
  unused' : Unused s c'.db
  record : getState c'.db s = getState c.db s

/-- Pieces that begin the session; the last of them binds the nonce. -/
inductive Opening (K : String → Prop) (κ : Client) (n s : String) : Pieces α → Prop where
  | more {β : Type} (m : Py Client β) (next : β → Pieces α)
      (par : ∀ c c', FreshK κ s c c' → ∃ b, (m c).1 = .ok b ∧ (m c').1 = .ok b ∧ FreshK κ s (m c).2 (m c').2 ∧
        ∃ l, (m c).2.log = c.log ++ l ∧ (m c').2.log = c'.log ++ l)
      (frame : ∀ c, Like κ c → Beside K n s c (m c).2)
      (rest : ∀ c b, Like κ c → (m c).1 = .ok b → Opening K κ n s (next b)) : Opening K κ n s (.piece m next)
  | last {β : Type} (m : Py Client β) (next : β → Pieces α)
      (par : ∀ c c', FreshK κ s c c' → ∃ b, (m c).1 = .ok b ∧ (m c').1 = .ok b ∧ TwinK κ n s (m c).2 (m c').2 ∧
        ∃ l, (m c).2.log = c.log ++ l ∧ (m c').2.log = c'.log ++ l)
      (frame : ∀ c, Like κ c → Beside K n s c (m c).2)
      (rest : ∀ c b, Like κ c → (m c).1 = .ok b → Good K κ n s (fun _ => True) (next b)) : Opening K κ n s (.piece m next)

/-- Something is looked up that depends on the set-up only. -/
theorem opening_ask {f : Client → Except Exc β} {next : β → Pieces α} {b : β} (h : ∀ c, Like κ c → f c = .ok b)
    (hn : Opening K κ n s (next b)) : Opening K κ n s (one (ask f) >>= next) := by
  refine .more _ _ (fun c c' hc => ⟨b, h c hc.like, h c' hc.like', hc, [], by simp [ask], by simp [ask]⟩) (fun c _ => FrameRel.refl c)
    fun c b' hc e => ?_
  have e : f c = .ok b' := e
  rw [h c hc] at e
  injection e with e
  subst e
  exact hn

theorem unused_set (hK : KeySpace K) (hs : K s) {db : DB} (hu : Unused s db) (v : DbVal) : Unused s (Dict.set db s v) :=
  ⟨hu.quiet.congr (Dict.get?_set_ne _ _ (hK.nonempty s hs)) fun w hw => Or.inl (by
      rw [Dict.get?_set_ne _ _ (KeySpace.ne_index hK hs _ _)] at hw; exact hw),
    by rw [Dict.get?_set_ne _ _ (KeySpace.ne_ref hK hs hs)]; exact hu.unref⟩

theorem bind_unref (v : String) {db : DB} (h : ∀ r, Dict.get? db (refKey s) ≠ some (.raw r)) :
    ∃ o, storeX2State v s .nonce db = (.ok (), Dict.set (Dict.set db (indexKey .nonce v) (.raw s)) (refKey s) (.doc o)) := by
  unfold storeX2State
  simp only
  rw [Dict.get?_set_ne _ _ (indexKey_ne_refKey _ _ _)]
  cases hr : Dict.get? db (refKey s) with
  | none => exact ⟨_, rfl⟩
  | some w =>
    cases w with
    | doc o => exact ⟨_, rfl⟩
    | raw r => exact absurd hr (h r)

theorem opening_begin (hK : KeySpace K) {x : Ext} (hs : K (x.rnd "init_state")) (hne : x.rnd "init_nonce" ≠ "") (hx : Forgetful x)
    {args : Obj} (req b : Obj) (hargs : initArgs x κ.ctx req = .ok args) (hgiven : Props.NoNonceGiven κ req) (hp : PlainConf κ.conf)
    (hscope : aliasScope req κ.ctx = κ.ctx) :
    Opening K κ (x.rnd "init_nonce") (x.rnd "init_state") (beginning x req b) := by
  unfold beginning
  refine opening_ask (b := args) (fun c hc => by rw [hc.ctx]; exact hargs) ?_
  refine opening_ask (b := κ.ctx.issuer) (fun c hc => by rw [hc.ctx]) ?_
  have run : ∀ c, onDB (createState κ.ctx.issuer "" (x.rnd "init_state")) c = (.ok (x.rnd "init_state"),
      { c with db := Dict.set c.db (x.rnd "init_state") (.doc (Msg.ofDict [("iss", .str κ.ctx.issuer)])) }) := by
    intro c
    unfold onDB
    rw [createState_random]
  refine .more _ _ (fun c c' hc => ?_) (fun c _ => ?_) fun c k _ e => ?_
  · rw [run c, run c']
    refine ⟨_, rfl, rfl, ⟨⟨hc.like.ctx, hc.like.services, hc.like.conf, hc.like.cfg, hc.like.key⟩,
      ⟨hc.like'.ctx, hc.like'.services, hc.like'.conf, hc.like'.cfg, hc.like'.key⟩, hc.dpop, unused_set hK hs hc.unused _,
      unused_set hK hs hc.unused' _, ?_⟩, [], by simp, by simp⟩
    unfold getState
    rw [Dict.get?_set_self, Dict.get?_set_self]
  · rw [run c]
    exact beside_set hK hs c _
  rw [run c] at e
  injection e with e
  subst e
  have keep : ∀ c : Client, Unused (x.rnd "init_state") c.db →
      (storeX2State (x.rnd "init_nonce") (x.rnd "init_state") .nonce c.db).1 = .ok () ∧
      Own (x.rnd "init_nonce") (x.rnd "init_state") (storeX2State (x.rnd "init_nonce") (x.rnd "init_state") .nonce c.db).2 ∧
      getState (storeX2State (x.rnd "init_nonce") (x.rnd "init_state") .nonce c.db).2 (x.rnd "init_state") = getState c.db (x.rnd "init_state") := by
    intro c hu
    obtain ⟨o, h1⟩ := bind_unref (x.rnd "init_nonce") hu.unref
    have hok : (storeX2State (x.rnd "init_nonce") (x.rnd "init_state") .nonce c.db).1 = .ok () := by rw [h1]
    have hq : Quiet (fun v => v = x.rnd "init_nonce") (x.rnd "init_state") c.db := ⟨hu.quiet.nameless, fun v hv => (hu.quiet.nonces v hv).elim⟩
    refine ⟨hok, ⟨get?_bind_self _ _ _ _, indexed_of_bind hok, Quiet.bind (N := fun v => v = x.rnd "init_nonce") (fun _ _ => rfl) hq⟩, ?_⟩
    rw [h1]
    unfold getState
    simp only
    rw [Dict.get?_set_ne _ _ (Ne.symm (KeySpace.ne_ref hK hs hs)), Dict.get?_set_ne _ _ (Ne.symm (KeySpace.ne_index hK hs _ _))]
  refine .last _ _ (fun c c' hc => ?_) (fun c _ => beside_bind' hK hs (fun _ => rfl) c) fun c u _ _ => ?_
  · obtain ⟨a1, a2, a3⟩ := keep c hc.unused
    obtain ⟨b1, b2, b3⟩ := keep c' hc.unused'
    refine ⟨(), a1, b1, ⟨⟨hc.like'.ctx.trans hc.like.ctx.symm, hc.like'.services.trans hc.like.services.symm,
      hc.like'.conf.trans hc.like.conf.symm, hc.like'.cfg.trans hc.like.cfg.symm, ?_, ?_, a2, b2⟩,
      ⟨hc.like.ctx, hc.like.services, hc.like.conf, hc.like.cfg, hc.like.key⟩,
      ⟨hc.like'.ctx, hc.like'.services, hc.like'.conf, hc.like'.cfg, hc.like'.key⟩⟩, [], by simp [onDB], by simp [onDB]⟩
    · intro hd
      have hd : Dict.has c.ctx.addOn "dpop" = true := hd
      rw [hc.like.ctx] at hd
      refine ⟨?_, hc.like'.key.trans hc.like.key.symm⟩
      show c.dpopKey.isSome = true
      rw [hc.like.key]
      exact hc.dpop hd
    · exact b3.trans (hc.record.trans a3.symm)
  · exact good_begun hK hs hne hx req b (Props.initArgs_nonce hargs hgiven.1 hgiven.2) (initArgs_nodup hargs) hp hscope

end Verif.Desk
