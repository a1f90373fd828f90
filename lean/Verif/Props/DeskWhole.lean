import Verif.Props.DeskBegun
/-!
# C125: whole logins at the same time
-/

namespace Verif.Spec.Desk
open Verif Verif.Service Verif.Handler Verif.Desk Verif.StateInterface

/-- The scope of the request is given or configured, or the negotiated scope is no list or has `openid` in it already. -/
def ScopeSettled (c : Client) (req : Obj) : Prop :=
  Dict.has req "scope" = true ∨ Dict.has (confObj c.ctx.config "request_args") "scope" = true ∨
    ∀ l, Dict.get? c.ctx.behaviour "scope" = some (.list l) → .str "openid" ∈ l

/-- Session `k` was not begun at the store (a record of it may be there): no nonce leads to it, and what is kept as its list of look-ups
is no bare string; and nothing is stored without a name. -/
structure NotBegun (k : String) (db : DB) : Prop where
  nameless : Dict.get? db "" = none
  nonce : ∀ v, Dict.get? db (indexKey .nonce v) ≠ some (.raw k)
  refs : ∀ r, Dict.get? db (refKey k) ≠ some (.raw r)

/-- A whole login: `begin`, which draws session value `k` and nonce `n`, and then calls for the session.  Neither the caller nor the
configuration gives a nonce.  Alone, `begin` succeeds. -/
def Login (c : Client) (n k : String) (calls : List (Ext × Job)) : Prop :=
  ∃ x req b rest, calls = (x, .begin req b) :: rest ∧ x.rnd "init_state" = k ∧ x.rnd "init_nonce" = n ∧ n ≠ "" ∧ Forgetful x ∧
    NotBegun k c.db ∧ Dict.get? req "nonce" = none ∧ Dict.get? (confObj c.ctx.config "request_args") "nonce" = none ∧
    ScopeSettled c req ∧ (initAuthorization x req b c).1.isOk = true ∧ ∀ xj ∈ rest, OwnJob k xj

/-- Calls for a session that is in flight or running. -/
def InFlight (c : Client) (n k : String) (calls : List (Ext × Job)) : Prop :=
  Own n k c.db ∧ ∀ xj ∈ calls, OwnJob k xj

end Verif.Spec.Desk

namespace Verif.Props
open Verif Verif.Service Verif.Handler Verif.StateInterface Verif.Desk Verif.Spec.Desk Verif.Spec.InFlight
open Verif.Spec.Store (KeySpace)

theorem aliasScope_settled {c : Client} {req : Obj} (h : ScopeSettled c req) : aliasScope req c.ctx = c.ctx := by
  unfold aliasScope
  split
  · rfl
  · next hn =>
    simp only [Bool.or_eq_true, not_or] at hn
    rcases h with h | h | h
    · exact absurd h hn.2
    · exact absurd h hn.1
    · split
      · next l hl => rw [if_pos (h l hl)]
      · rfl

theorem initArgs_of_ok {x : Ext} {req b : Obj} {c : Client} (h : (initAuthorization x req b c).1.isOk = true) :
    ∃ args, initArgs x c.ctx req = .ok args := by
  cases ha : initArgs x c.ctx req with
  | ok args => exact ⟨args, rfl⟩
  | error e =>
    unfold initAuthorization at h
    rw [ask_bind_error (e := e) ha] at h
    cases h

theorem opening_login {K : String → Prop} {x : Ext} {κ : Client} {req b : Obj}
    (h : Opening K κ (x.rnd "init_nonce") (x.rnd "init_state") (beginning x req b)) :
    Opening K κ (x.rnd "init_nonce") (x.rnd "init_state") ((Job.begin req b).pieces x) := by
  have gen : ∀ {α β : Type} {p : Pieces α} {f : α → Pieces β} {n s : String}, Opening K κ n s p →
      (∀ a, Good K κ n s (fun _ => True) (f a)) → Opening K κ n s (p.andThen f) := by
    intro α β p f n s hp hf
    induction hp with
    | more m next par frame rest ih => exact .more m _ par frame fun c b hc e => ih c b hc e
    | last m next par frame rest => exact .last m _ par frame fun c b hc e => Good.bind (rest c b hc e) fun a _ => hf a
  exact gen h fun p => Good.pure _ trivial

/-- **C125.**  Any number of threads at the client of a provider.  Each either makes a whole login, from `begin` on, or makes calls for
a session that is in flight or running; sessions and nonces are distinct.  If DPoP is in use, there is a key already; the
negotiated scope, where it is used, has `openid` in it.  However the pieces of the calls are interleaved: a thread that comes to
its turn often enough has made its calls, and then each has returned or raised what it does when the calls are made alone,
one after the other, each as a whole (the URL and session value `begin` returns included); the same requests were sent, and the
record of the session is the same. -/
theorem C125_whole_logins_partial {ι : Type} [DecidableEq ι] {K : String → Prop} (hK : KeySpace K) (c : Client)
    (session nonce : ι → String) (calls : ι → List (Ext × Job))
    (hkeys : ∀ u, K (session u)) (hdistinct : ∀ u v, session u = session v → u = v) (hnonces : ∀ u v, nonce u = nonce v → u = v)
    (hplain : ∀ o, Dict.get? (confOf c .authorization) "pre_construct" = some (.obj o) → Dict.get? o "state" = none)
    (hdpop : Dict.has c.ctx.addOn "dpop" = true → c.dpopKey.isSome)
    (hcalls : ∀ u, Login c (nonce u) (session u) (calls u) ∨ InFlight c (nonce u) (session u) (calls u)) (u : ι) :
    (∃ N, ∀ l : List ι, N ≤ l.count u → (((Desk.start c calls).run l).thread u).finished) ∧
    ∀ l : List ι, (((Desk.start c calls).run l).thread u).finished →
      SameResults (((Desk.start c calls).run l).thread u).results (inTurn (calls u) c).1 ∧
      c.log ++ (((Desk.start c calls).run l).thread u).sent = (inTurn (calls u) c).2.log ∧
      getState ((Desk.start c calls).run l).client.db (session u) = getState (inTurn (calls u) c).2.db (session u) := by
  refine as_if_alone (nf := nonce) hK c calls hkeys hdistinct hnonces (fun u => ?_) u
  have hlike : Like c c := ⟨rfl, rfl, rfl, rfl, rfl⟩
  rcases hcalls u with ⟨x, req, b, rest, h1, h2, h3, h4, h5, h6, h7, h8, h9, h10, h11⟩ | ⟨h1, h2⟩
  · rw [h1]
    have hk := hkeys u
    obtain ⟨args, ha⟩ := initArgs_of_ok h10
    have hop := opening_begin (κ := c) hK (x := x) (h2 ▸ hk) (h3 ▸ h4) h5 req b ha ⟨h7, h8⟩ hplain (aliasScope_settled h9)
    have hop' := opening_login hop
    rw [h2, h3] at hop'
    have hu : Unused (session u) c.db := ⟨⟨h6.nameless, fun v hv => h6.nonce v hv⟩, h6.refs⟩
    exact .waiting ⟨hlike, hlike, hdpop, hu, hu, rfl⟩ hop' h11
  · exact .running ⟨⟨rfl, rfl, rfl, rfl, fun hd => ⟨hdpop hd, rfl⟩, rfl, h1, h1⟩, hlike, hlike⟩ (Same.refl _)
      ⟨fun _ h => (by cases h), h2⟩

/-- **C125**, the calls: `begin` of the handler, once the client is set up, is `begin` at the client. -/
theorem C125_begin (x : Ext) (h g : Handler) (issuer user i : String) (req b : Obj) (hs : clientSetup x issuer user b h = (.ok i, g)) :
    exec x (.begin issuer user req b) h = onClient i ((Job.begin req b).call x) g := by
  show ret _ (begin_ x issuer user req b) h = _
  unfold ret begin_
  rw [Py.bind_ok hs]
  unfold onClient
  cases Dict.get? g.issuer2rp i with
  | none => rfl
  | some c =>
    have hc : (Job.begin req b).call x c = ((initAuthorization x req b c).1.map (fun p => Ret.started p.1 p.2),
        (initAuthorization x req b c).2) := by
      show (initAuthorization x req b >>= fun p => (pure (Ret.started p.1 p.2) : Py Client Ret)) c = _
      rw [Py.bind_run]
      rcases initAuthorization x req b c with ⟨q, d⟩
      cases q <;> rfl
    simp only [hc]

/-! ## Sessions that were not begun -/

/-- Lists of look-ups are lists. -/
def RefLists (db : DB) : Prop := ∀ q r, Dict.get? db (refKey q) ≠ some (.raw r)

theorem refLists_set {db : DB} (h : RefLists db) (key : String) (o : Obj) : RefLists (Dict.set db key (.doc o)) := by
  intro q r hr
  rw [Dict.get?_set] at hr
  split at hr
  · cases hr
  · exact h q r hr

theorem refLists_del {db : DB} (h : RefLists db) (key : String) : RefLists (Dict.del db key) := by
  intro q r hr
  rw [Dict.get?_del] at hr
  split at hr
  · cases hr
  · exact h q r hr

theorem refLists_removeRefs : ∀ (refs : Obj) {db : DB}, RefLists db → RefLists (StateInterface.removeRefs refs db).2 := by
  intro refs
  induction refs with
  | nil => intro db h; exact h
  | cons p refs ih =>
    intro db h
    obtain ⟨xt, v⟩ := p
    unfold StateInterface.removeRefs
    split
    · split
      · exact ih (refLists_del h _)
      · exact h
    · exact h

theorem refLists_step (op : Op) (db : DB) (h : RefLists db) : RefLists (StateInterface.step op db).2 := by
  cases op with
  | create iss key rnd =>
    rw [Kept.step_snd_create]
    rcases Kept.createState_cases iss key rnd db with e | e <;> rw [e]
    · exact h
    · exact refLists_set h _ _
  | store item t κ =>
    rw [Kept.step_snd_store]
    unfold storeItem
    split
    · exact refLists_set h _ _
    · exact refLists_set h _ _
    · exact h
  | bind x v κ =>
    rw [Kept.step_snd_bind]
    have h1 : RefLists (Dict.set db (indexKey x v) (.raw κ)) := by
      intro q r hr
      rw [Dict.get?_set_ne _ _ (indexKey_ne_refKey _ _ _)] at hr
      exact h q r hr
    unfold storeX2State
    simp only
    split
    · exact refLists_set h1 _ _
    · exact refLists_set h1 _ _
    · exact h1
  | remove κ =>
    rw [Kept.step_snd_remove]
    unfold removeState
    split
    · simp only
      split
      · exact refLists_del h _
      · exact refLists_del h _
      · exact refLists_removeRefs _ (refLists_del h _)
    · exact h
  | item t κ =>
    have : (StateInterface.step (.item t κ) db).2 = db := by
      simp only [StateInterface.step]; cases getItem db t κ <;> rfl
    rw [this]; exact h
  | issuer κ =>
    have : (StateInterface.step (.issuer κ) db).2 = db := by
      simp only [StateInterface.step]; cases getIss db κ <;> rfl
    rw [this]; exact h
  | lookup x v =>
    have : (StateInterface.step (.lookup x v) db).2 = db := by
      simp only [StateInterface.step]; cases getStateByX db v x <;> rfl
    rw [this]; exact h

theorem refLists_acts {P : Op → Prop} {db db' : DB} (h : Acts P db db') (hr : RefLists db) : RefLists db' :=
  h.invariant (fun op d _ hi => refLists_step op d hi) hr

/-- At every store of the handler. -/
def AllRefLists (h : Handler) : Prop := ∀ i db, Dict.get? (stores h) i = some db → RefLists db

theorem refLists_onClient {α : Type} {j : String} {m : Py Client α} {h : Handler} (hq : AllRefLists h)
    (hm : ∀ c, Dict.get? h.issuer2rp j = some c → RefLists c.db → RefLists (m c).2.db) : AllRefLists (onClient j m h).2 := by
  cases hc : Dict.get? h.issuer2rp j with
  | none => rw [show onClient j m h = (.error .keyError, h) by unfold onClient; rw [hc]]; exact hq
  | some c =>
    intro i db hd
    rw [stores_onClient hc, Dict.get?_set] at hd
    split at hd
    · injection hd with hd
      subst hd
      exact hm c hc (hq j c.db (by rw [get?_stores, hc]; rfl))
    · exact hq i db hd

theorem refLists_session {α : Type} {h : Handler} (hq : AllRefLists h) {s : String} {m : Py Client α}
    (hm : ∀ c, RefLists c.db → RefLists (m c).2.db) : AllRefLists (onSession s m h).2 := by
  unfold onSession
  cases hr : sessionIssuer h s with
  | error e => exact hq
  | ok j => exact refLists_onClient hq fun c _ => hm c

theorem refLists_exec {K : String → Prop} {k : String} (hK : KeySpace K) {w : Where} {h : Handler} (hi : Inv K k w h) (xc : Ext × Call)
    (hc : CallOk K k xc) (hq : AllRefLists h) : AllRefLists (exec xc.1 xc.2 h).2 := by
  have loc : ∀ {α : Type} {s : String} {m : Py Client α}, Frame (Local s) m → ∀ c : Client, RefLists c.db → RefLists (m c).2.db :=
    fun hm c hr => refLists_acts (hm c).db hr
  obtain ⟨x, call⟩ := xc
  cases call with
  | begin issId user req b =>
    show AllRefLists (begin_ x issId user req b h).2
    unfold begin_
    rw [Py.bind_run]
    obtain ⟨hp0, hc0⟩ := clientSetup_cases x issId user b hi.plain
    have h0 : AllRefLists (clientSetup x issId user b h).2 := by
      rcases hc0 with ⟨e, _, hs⟩ | ⟨_, _, hs⟩ | ⟨j, _, _, hs⟩
      · intro i db hd; rw [hs] at hd; exact hq i db hd
      · intro i db hd; rw [hs] at hd; exact hq i db hd
      · intro i db hd
        rw [hs, Dict.get?_set] at hd
        split at hd
        · injection hd with hd; subst hd; intro q r hr; cases hr
        · exact hq i db hd
    rcases hs : clientSetup x issId user b h with ⟨r, g⟩
    rw [hs] at h0 hp0
    cases r with
    | error e => exact h0
    | ok j =>
      simp only
      exact refLists_onClient h0 fun c hcl hr =>
        refLists_acts (begins_init x req b (hK.nonempty _ hc.1) c (hp0.clients j c (Dict.get?_eq_some_mem hcl))).db hr
  | finalize j r b =>
    refine refLists_onClient hq fun c hcl hr => refLists_acts (spares_finalizeClient (n := "") (k := k) x j r b c (hi.known j _ ?_)) hr
    rw [get?_stores, hcl]; rfl
  | getTokens s => exact refLists_session hq (loc (local_getTokens x s))
  | refresh s sc => exact refLists_session hq (loc (local_refresh x s sc))
  | userInfo s t => exact refLists_session hq (loc (local_userInfo x s t))
  | hasActive s => exact refLists_session (m := ask (hasActive x s)) hq fun _ => id
  | validToken s => exact refLists_session (m := ask (validAccessToken x s)) hq fun _ => id
  | logout s u => exact refLists_session hq (loc (local_logout x s u))
  | close s j u =>
    show AllRefLists (close x s j u h).2
    unfold close
    split
    · exact refLists_onClient hq fun c _ => loc (local_logout x s u) c
    · exact refLists_session hq (loc (local_logout x s u))
  | clear s =>
    show AllRefLists (clearSession s h).2
    refine refLists_session (m := onDB (removeState s)) hq fun c hr => ?_
    have := refLists_step (.remove s) c.db hr
    rw [Kept.step_snd_remove] at this
    exact this
  | backchannel j info => exact refLists_onClient (j := j) (m := ask (backchannelLogout x info)) hq fun _ _ => id

theorem refLists_run {K : String → Prop} {k : String} (hK : KeySpace K) (hk : K k) : ∀ (l : List (Ext × Call)) {h : Handler},
    Inv K k none h → (∀ xc ∈ l, CallOk K k xc) → AllRefLists h → AllRefLists (run l h) := by
  intro l
  induction l with
  | nil => intro h _ _ hq; exact hq
  | cons xc l ih =>
    intro h hi hc hq
    exact ih (inv_exec hK hk hi xc (hc xc (by simp)) (fun _ _ _ hw => by cases hw)) (fun y hy => hc y (by simp [hy]))
      (refLists_exec hK hi xc (hc xc (by simp)) hq)

/-- **C125**, its hypothesis: a session value that no call drew is not begun, at the client of any provider, after whatever history. -/
theorem C125_not_begun {K : String → Prop} (hK : KeySpace K) (h0 : Handler) (hnew : NewHandler h0) (before : List (Ext × Call)) (k : String)
    (hk : K k) (hbefore : ∀ xc ∈ before, CallOk K k xc) (i : String) (c : Client) (hc : Dict.get? (run before h0).issuer2rp i = some c) :
    NotBegun k c.db := by
  have hd : Dict.get? (stores (run before h0)) i = some c.db := by rw [get?_stores, hc]; rfl
  have hq : AllQuiet (fun _ => False) k (run before h0) := by
    refine quiet_run hK hk before (inv_new hnew.empty hnew.plain) hbefore (fun _ _ _ hw => by cases hw) ?_
    intro j db hd
    rw [get?_stores, hnew.empty] at hd
    cases hd
  have hr : AllRefLists (run before h0) := by
    refine refLists_run hK hk before (inv_new hnew.empty hnew.plain) hbefore ?_
    intro j db hd
    rw [get?_stores, hnew.empty] at hd
    cases hd
  exact ⟨(hq i _ hd).nameless, fun v hv => (hq i _ hd).nonces v hv, hr i _ hd k⟩

/-! ## Non-vacuity -/

/-- The client with the first session in flight. -/
def firstClient : Client := (Dict.get? inFlight.issuer2rp "https://op.example").getD default

theorem firstClient_eq : Dict.get? inFlight.issuer2rp "https://op.example" = some firstClient := by
  have h : (Dict.get? inFlight.issuer2rp "https://op.example").isSome = true := by rfl
  obtain ⟨c, hc⟩ := Option.isSome_iff_exists.1 h
  unfold firstClient
  rw [hc]
  rfl

theorem firstClient_own : Own "n1" World.s1 firstClient.db := by
  obtain ⟨_, _, c, h1, h2, _⟩ := C124_in_flight Props.C10_generated_keys_are_safe World.handler newWorld earlier
    (World.ext 1000 World.s1 "n1" "") "https://op.example" "" [] [] _ World.s1 inFlight earlier_ok gen_s1
    (by decide) (by decide) ⟨by decide, by decide⟩ (by rfl) "https://op.example" (by rfl) (by decide) inFlight_named
    (gives_none (by rfl)) (no_dpop (by rfl)) earlier_fresh [] trivial
  have := firstClient_eq.symm.trans h1
  injection this with this
  rw [this]
  exact h2

theorem firstClient_not_begun (k : String) (hk : Spec.History.Generated k) (h1 : k ≠ World.s1) (h3 : k ≠ s3) : NotBegun k firstClient.db := by
  refine C125_not_begun Props.C10_generated_keys_are_safe World.handler newWorld earlierToo k hk (fun xc h => ?_) "https://op.example" _ ?_
  · simp only [earlierToo, earlier, List.cons_append, List.nil_append, List.mem_cons, List.not_mem_nil, or_false] at h
    rcases h with rfl | rfl | rfl
    · exact ⟨gen_s3, Ne.symm h3⟩
    · trivial
    · exact ⟨gen_s1, Ne.symm h1⟩
  · exact firstClient_eq

/-- A third session value. -/
def s4 : String := "abcdefghijklmnopqrstuvwxyzABCDE4"

/-- Three threads: the first session is finalized and the tokens renewed; the second and third log in from the beginning. -/
def threeDesks (u : Fin 3) : List (Ext × Job) :=
  match u with
  | 0 => [(World.ext 1003 "" "" "n1", .finalize "https://op.example" [("code", .str "code1"), ("state", .str World.s1)] []),
     (World.ext 1004 "" "" "n1", .refresh World.s1 "")]
  | 1 => [(World.ext 1003 World.s2 "n2" "n2", .begin [] []),
     (World.ext 1004 "" "" "n2", .finalize "https://op.example" [("code", .str "code2"), ("state", .str World.s2)] []),
     (World.ext 1005 "" "" "n2", .refresh World.s2 "")]
  | 2 => [(World.ext 1003 s4 "n4" "n4", .begin [("scope", .list [.str "openid"])] []),
     (World.ext 1004 "" "" "n4", .finalize "https://op.example" [("code", .str "code4"), ("state", .str s4)] []),
     (World.ext 1005 "" "" "n4", .validToken s4)]

/-- They take turns. -/
def threeTurns : Nat → List (Fin 3)
  | 0 => []
  | m + 1 => 0 :: 1 :: 2 :: threeTurns m

/-- Their sessions. -/
def threeSessions (u : Fin 3) : String := match u with | 0 => World.s1 | 1 => World.s2 | 2 => s4
/-- Their nonces. -/
def threeNonces (u : Fin 3) : String := match u with | 0 => "n1" | 1 => "n2" | 2 => "n4"

set_option maxRecDepth 100000 in
/-- Non-vacuity: in the small world two threads log in from the beginning while a third finalizes a session in flight, taking turns
piece by piece; all finish, and all calls succeed, with what they do alone. -/
example : (∀ u : Fin 3, ∀ l : List (Fin 3), (((Desk.start firstClient threeDesks).run l).thread u).finished →
      SameResults (((Desk.start firstClient threeDesks).run l).thread u).results (inTurn (threeDesks u) firstClient).1) ∧
    (∀ u : Fin 3, (((Desk.start firstClient threeDesks).run (threeTurns 120)).thread u).finished ∧
      (((Desk.start firstClient threeDesks).run (threeTurns 120)).thread u).results.all (·.isOk) = true ∧
      (((Desk.start firstClient threeDesks).run (threeTurns 120)).thread u).results.length = if u = 0 then 2 else 3) := by
  refine ⟨fun u l hl => ?_, fun u => ?_⟩
  · refine ((C125_whole_logins_partial (K := Spec.History.Generated) Props.C10_generated_keys_are_safe firstClient
      threeSessions threeNonces threeDesks ?_ ?_ ?_ ?_ ?_ ?_ u).2 l hl).1
    · intro v
      match v with
      | 0 => exact gen_s1
      | 1 => exact gen_s2
      | 2 => show Spec.History.Generated s4; unfold Spec.History.Generated; decide
    · decide
    · decide
    · intro o ho
      have h1 : Dict.get? (confOf firstClient .authorization) "pre_construct" = none := by rfl
      rw [h1] at ho
      cases ho
    · exact no_dpop (h := inFlight) (by rfl) _ firstClient_eq
    · intro v
      match v with
      | 0 =>
        refine .inr ⟨firstClient_own, fun xj hx => ?_⟩
        simp only [threeDesks, List.mem_cons, List.not_mem_nil, or_false] at hx
        rcases hx with rfl | rfl
        · exact ⟨world_forgetful _ _ _ _, world_answers _ _ _ _ _ _⟩
        · exact ⟨world_forgetful _ _ _ _, rfl⟩
      | 1 =>
        refine .inl ⟨_, _, _, _, rfl, rfl, rfl, by decide, world_forgetful _ _ _ _, firstClient_not_begun _ gen_s2 (by decide) (by decide), rfl, rfl, ?_,
          by decide +kernel, fun xj hx => ?_⟩
        · refine .inr (.inr fun l hl => ?_)
          have h1 : Dict.get? firstClient.ctx.behaviour "scope" = some (.list [.str "openid"]) := by decide +kernel
          rw [h1] at hl
          injection hl with hl
          injection hl with hl
          rw [← hl]
          decide
        · simp only [List.mem_cons, List.not_mem_nil, or_false] at hx
          rcases hx with rfl | rfl
          · exact ⟨world_forgetful _ _ _ _, world_answers _ _ _ _ _ _⟩
          · exact ⟨world_forgetful _ _ _ _, rfl⟩
      | 2 =>
        refine .inl ⟨_, _, _, _, rfl, rfl, rfl, by decide, world_forgetful _ _ _ _, firstClient_not_begun _ (by unfold Spec.History.Generated; decide) (by decide) (by decide), rfl, rfl, .inl rfl,
          by decide +kernel, fun xj hx => ?_⟩
        simp only [List.mem_cons, List.not_mem_nil, or_false] at hx
        rcases hx with rfl | rfl
        · exact ⟨world_forgetful _ _ _ _, world_answers _ _ _ _ _ _⟩
        · exact rfl
  · have gen : ∀ (t : Thread) (n : Nat), (t.now.isNone && t.todo.isEmpty && t.results.all (·.isOk) && t.results.length == n) = true →
        t.finished ∧ t.results.all (·.isOk) = true ∧ t.results.length = n := by
      intro t n h
      simp only [Bool.and_eq_true, beq_iff_eq] at h
      exact ⟨⟨h.1.1.1, List.isEmpty_iff.1 h.1.1.2⟩, h.1.2, h.2⟩
    refine gen _ _ ?_
    revert u
    decide +kernel

end Verif.Props
