import Verif.Props.InFlight
/-!
# C75: what is done for other sessions does not change a session
-/

namespace Verif.Spec.InFlight
open Verif Verif.Service Verif.Handler

/-- The call is made for session `k`: it is given `k`, or draws it, or is given an authorization response that, once
parsed, carries `k` as its state. -/
def Concerns (k : String) : Ext × Call → Prop
  | (x, .begin _ _ _ _) => x.rnd "init_state" = k
  | (x, .finalize _ r _) => ∃ c resp c', parseResponse x .authorization (.dict r) "dict" "" c = (.ok (.msg resp), c') ∧
      Dict.get? resp "state" = some (.str k)
  | (_, .getTokens s) => s = k
  | (_, .refresh s _) => s = k
  | (_, .userInfo s _) => s = k
  | (_, .hasActive s) => s = k
  | (_, .validToken s) => s = k
  | (_, .logout s _) => s = k
  | (_, .close s _ _) => s = k
  | (_, .clear s) => s = k
  | (_, .backchannel _ _) => False

end Verif.Spec.InFlight

namespace Verif.Props
open Verif Verif.Service Verif.Handler Verif.StateInterface Verif.Spec.InFlight
open Verif.Spec.Store (KeySpace)

variable {K : String → Prop} {k : String}

/-- A store call for another session. -/
def OtherKey (K : String → Prop) (k : String) : Op → Prop
  | .create _ key rnd => (if key = "" then rnd else key) ≠ k
  | .store _ _ k' => k' ≠ k
  | .bind _ _ k' => K k'
  | .remove k' => k' ≠ k
  | _ => True

theorem elsewhere_step (hK : KeySpace K) (hk : K k) (op : Op) (db : DB) (hs : OtherKey K k op) :
    getState (StateInterface.step op db).2 k = getState db k := by
  cases op with
  | create iss key rnd =>
    rw [Kept.step_snd_create]
    rcases Kept.createState_cases iss key rnd db with h | h <;> rw [h]
    exact getState_set_ne _ _ (Ne.symm hs)
  | store item t k' =>
    rw [Kept.step_snd_store]
    exact Kept.getState_storeItem_ne (Ne.symm hs) _ _ _
  | bind x v k' =>
    rw [Kept.step_snd_bind]
    exact Kept.getState_storeX2State (fun x v => KeySpace.ne_index hK hk x v) (KeySpace.ne_ref hK hk hs) x v db
  | remove k' =>
    rw [Kept.step_snd_remove]
    unfold getState
    rw [Handler.get?_removeState (fun x v => KeySpace.ne_index hK hk x v), if_neg hs]
  | item t k' =>
    have : (StateInterface.step (.item t k') db).2 = db := by
      simp only [StateInterface.step]; cases getItem db t k' <;> rfl
    rw [this]
  | issuer k' =>
    have : (StateInterface.step (.issuer k') db).2 = db := by
      simp only [StateInterface.step]; cases getIss db k' <;> rfl
    rw [this]
  | lookup x v =>
    have : (StateInterface.step (.lookup x v) db).2 = db := by
      simp only [StateInterface.step]; cases getStateByX db v x <;> rfl
    rw [this]

theorem elsewhere_acts (hK : KeySpace K) (hk : K k) {P : Op → Prop} (hP : ∀ op, P op → OtherKey K k op) {db db' : DB}
    (h : Acts P db db') : getState db' k = getState db k :=
  h.invariant (I := fun d => getState d k = getState db k)
    (fun op d hop hi => (elsewhere_step hK hk op d (hP op hop)).trans hi) rfl

theorem elsewhere_touches (hK : KeySpace K) (hk : K k) {s : String} (hs : K s) (hne : s ≠ k) {db db' : DB}
    (h : Acts (Touches s) db db') : getState db' k = getState db k := by
  refine elsewhere_acts hK hk (fun op hop => ?_) h
  cases op with
  | store item t q =>
    rcases hop.1 with rfl | rfl
    · exact hne
    · exact Ne.symm (hK.nonempty k hk)
  | bind x v q => obtain ⟨rfl, -⟩ := hop; exact hs
  | _ => exact hop.elim

theorem elsewhere_starts (hK : KeySpace K) (hk : K k) {N : String → Prop} {s : String} (hs : K s) (hne : s ≠ k) {db db' : DB}
    (h : Acts (Starts N s) db db') : getState db' k = getState db k := by
  refine elsewhere_acts hK hk (fun op hop => ?_) h
  cases op with
  | create iss key rnd => exact fun e => hne (hop.symm.trans e)
  | store item t q => obtain ⟨rfl, _⟩ := hop; exact hne
  | bind x v q => obtain ⟨rfl, -⟩ := hop; exact hs
  | _ => exact hop.elim

/-- The record of session `k` at the client kept as `i` is the same. -/
def SameRecord (i k : String) (h h' : Handler) : Prop :=
  ∀ db, Dict.get? (stores h) i = some db → ∃ db', Dict.get? (stores h') i = some db' ∧ getState db' k = getState db k

theorem SameRecord.refl (i k : String) (h : Handler) : SameRecord i k h h := fun db hd => ⟨db, hd, rfl⟩

theorem SameRecord.trans {i k : String} {a b c : Handler} (h : SameRecord i k a b) (h' : SameRecord i k b c) :
    SameRecord i k a c := fun db hd =>
  let ⟨d1, e1, f1⟩ := h db hd
  let ⟨d2, e2, f2⟩ := h' d1 e1
  ⟨d2, e2, f2.trans f1⟩

theorem record_onClient {α : Type} {i j : String} {m : Py Client α} {h : Handler}
    (hm : ∀ c, Dict.get? h.issuer2rp j = some c → getState (m c).2.db k = getState c.db k) :
    SameRecord i k h (onClient j m h).2 := by
  cases hc : Dict.get? h.issuer2rp j with
  | none => rw [show onClient j m h = (.error .keyError, h) by unfold onClient; rw [hc]]; exact .refl _ _ _
  | some c =>
    intro db hd
    rw [stores_onClient hc]
    by_cases e : j = i
    · subst e
      rw [get?_stores, hc] at hd
      injection hd with hd
      subst hd
      exact ⟨_, Dict.get?_set_self _ _ _, hm c hc⟩
    · exact ⟨db, by rw [Dict.get?_set_ne _ _ e]; exact hd, rfl⟩

/-- `finalize` of another session. -/
theorem finalizeClient_elsewhere (hK : KeySpace K) (hk : K k) (x : Ext) (issuer : String) (response b : Obj) (c : Client)
    (hkn : Known K c.db)
    (hne : ∀ resp c', parseResponse x .authorization (.dict response) "dict" "" c = (.ok (.msg resp), c') →
      Dict.get? resp "state" ≠ some (.str k)) :
    getState (finalizeClient x issuer response b c).2.db k = getState c.db k := by
  unfold finalizeClient
  rcases finalizeAuth_cases x issuer response c with ⟨e, he⟩ | ⟨resp, hpr, _, ⟨hie, hf⟩ | ⟨hie, κ, st, resp', k1, k2, k3, k4, hf⟩⟩
  · rw [Py.bind_error he]
  · rw [Py.bind_ok hf]
    cases h1 : Dict.getItem resp "state" with
    | error e => rw [Py.lift_bind_error rfl]
    | ok sv =>
      rw [Py.lift_bind_ok rfl, if_pos hie]
      cases h2 : Dict.getItem resp "error" with
      | error e => rw [Py.lift_bind_error rfl]
      | ok ev => rw [Py.lift_bind_ok rfl]; rfl
  · rw [Py.bind_ok hf]
    have hκ : κ ≠ k := fun e => hne resp c hpr (e ▸ k1)
    have hKκ : K κ := hkn κ _ (getIss_of k2 k3)
    have hfirst : getState (Dict.set c.db κ (.doc (Dict.set st "auth_response" (.obj resp')))) k = getState c.db k :=
      getState_set_ne _ _ (Ne.symm hκ)
    have hstate : Dict.get? resp' "state" = some (.str κ) := by
      unfold withExpiry at k4
      split at k4
      · injection k4 with k4; subst k4; exact k1
      · next v _ =>
        cases hv : toInt v with
        | error e => rw [hv] at k4; cases k4
        | ok i =>
          rw [hv] at k4
          injection k4 with k4
          subst k4
          rw [Dict.get?_set_ne _ _ (by decide)]
          exact k1
    rw [Dict.getItem_eq_ok.2 hstate, Py.lift_bind_ok rfl]
    split
    · cases h2 : Dict.getItem resp' "error" with
      | error e => rw [Py.lift_bind_error rfl]; exact hfirst
      | ok ev => rw [Py.lift_bind_ok rfl]; exact hfirst
    · rw [show dbKey (.str κ) = .ok κ from rfl, Py.lift_bind_ok rfl]
      have hl := local_finalizeTokens x resp' κ b { c with db := Dict.set c.db κ (.doc (Dict.set st "auth_response" (.obj resp'))) }
      exact (elsewhere_touches hK hk hKκ hκ hl.db).trans hfirst

theorem record_session {α : Type} (hK : KeySpace K) (hk : K k) {w : Where} {h : Handler} (hi : Inv K k w h) {i s : String}
    (hne : s ≠ k) {m : Py Client α} (hm : Frame (Local s) m) : SameRecord i k h (onSession s m h).2 := by
  unfold onSession
  cases hr : sessionIssuer h s with
  | error e => exact .refl _ _ _
  | ok j => exact record_onClient fun c _ => elsewhere_touches hK hk (hi.resolved hr) hne (hm c).db

/-- One call for another session. -/
theorem record_exec (hK : KeySpace K) (hk : K k) {w : Where} {h : Handler} (hi : Inv K k w h) {i : String} (xc : Ext × Call)
    (hc : CallOk K k xc) (hno : ¬ Concerns k xc) (hrep : NotReplaced i h xc) (hhas : Dict.has h.issuer2rp i = true)
    (hw : ∀ j p q, w = some (j, p, q) → j = i) :
    SameRecord i k h (exec xc.1 xc.2 h).2 := by
  obtain ⟨x, call⟩ := xc
  cases call with
  | begin issId user req b =>
    obtain ⟨c1, c2⟩ := hc
    show SameRecord i k h (begin_ x issId user req b h).2
    unfold begin_
    rw [Py.bind_run]
    have h0 := inv_setup hi x issId user b (fun j p q hj he => by
      have := hw j p q hj; subst this; exact hrep he)
    have hs0 : SameRecord i k h (clientSetup x issId user b h).2 := by
      obtain ⟨_, hc⟩ := clientSetup_cases x issId user b hi.plain
      rcases hc with ⟨e, _, hs⟩ | ⟨_, _, hs⟩ | ⟨j, hr, hno, hs⟩
      · intro db hd; exact ⟨db, by rw [hs]; exact hd, rfl⟩
      · intro db hd; exact ⟨db, by rw [hs]; exact hd, rfl⟩
      · have hji : j ≠ i := by
          intro e
          subst e
          have := hrep hr
          subst this
          rw [hno] at hhas
          cases hhas
        intro db hd
        exact ⟨db, by rw [hs, Dict.get?_set_ne _ _ hji]; exact hd, rfl⟩
    rcases hs : clientSetup x issId user b h with ⟨r, h1⟩
    rw [hs] at h0 hs0
    cases r with
    | error e => exact hs0
    | ok j =>
      simp only
      refine hs0.trans (record_onClient fun c hc => ?_)
      have hb := begins_init x req b (hK.nonempty _ c1) c (h0.plain.clients j c (Dict.get?_eq_some_mem hc))
      exact elsewhere_starts hK hk c1 c2 hb.db
  | finalize j r b =>
    refine record_onClient fun c hcl => finalizeClient_elsewhere hK hk x j r b c (hi.known j _ ?_) ?_
    · rw [get?_stores, hcl]; rfl
    · intro resp c' hp hs
      exact hno ⟨c, resp, c', hp, hs⟩
  | getTokens s => exact record_session hK hk hi hno (local_getTokens x s)
  | refresh s sc => exact record_session hK hk hi hno (local_refresh x s sc)
  | userInfo s t => exact record_session hK hk hi hno (local_userInfo x s t)
  | hasActive s => exact record_session hK hk hi (s := s) (m := ask (hasActive x s)) hno (Frame.ask _)
  | validToken s => exact record_session hK hk hi (s := s) (m := ask (validAccessToken x s)) hno (Frame.ask _)
  | logout s u => exact record_session hK hk hi hno (local_logout x s u)
  | close s j u =>
    show SameRecord i k h (close x s j u h).2
    unfold close
    split
    · exact record_onClient fun c _ => elsewhere_touches hK hk hc hno (local_logout x s u c).db
    · exact record_session hK hk hi hno (local_logout x s u)
  | clear s =>
    show SameRecord i k h (clearSession s h).2
    unfold clearSession onSession
    cases hr : sessionIssuer h s with
    | error e => exact .refl _ _ _
    | ok j =>
      refine record_onClient fun c _ => ?_
      have := elsewhere_step hK hk (.remove s) c.db hno
      rw [Kept.step_snd_remove] at this
      exact this
  | backchannel j info =>
    exact record_onClient (j := j) (m := ask (backchannelLogout x info)) fun c _ => rfl

/-- Histories of calls for other sessions. -/
theorem record_run (hK : KeySpace K) (hk : K k) {i : String} {p q : Except Exc Obj} : ∀ (l : List (Ext × Call)) {h : Handler},
    Inv K k (some (i, p, q)) h → (∀ xc ∈ l, CallOk K k xc) → (∀ xc ∈ l, ¬ Concerns k xc) → NeverReplaced i l h →
    SameRecord i k h (run l h) := by
  intro l
  induction l with
  | nil => intro h _ _ _ _; exact .refl _ _ _
  | cons xc l ih =>
    intro h hi hc hno hrep
    have hw : ∀ j p' q', (some (i, p, q) : Where) = some (j, p', q') → j = i := by
      intro j p' q' he; injection he with he; injection he with he _; exact he.symm
    have hhas : Dict.has h.issuer2rp i = true := by
      obtain ⟨db, hd, _⟩ := hi.here i p q rfl
      rw [get?_stores] at hd
      rw [Dict.has_eq]
      cases h3 : Dict.get? h.issuer2rp i with
      | none => rw [h3] at hd; cases hd
      | some c => rfl
    have h1 := inv_exec hK hk hi xc (hc xc (by simp)) (fun j p' q' he => by
      have := hw j p' q' he; subst this; exact hrep.1)
    have h2 := record_exec hK hk hi xc (hc xc (by simp)) (hno xc (by simp)) hrep.1 hhas hw
    exact h2.trans (ih h1 (fun y hy => hc y (by simp [hy])) (fun y hy => hno y (by simp [hy])) hrep.2)

/-- **C75**.  A handler is made; any calls are made (`before`); `begin` returns `k` for the client kept as `i`; any calls
are made (`after`), for this and other sessions; then calls are made for other sessions only (`others`: they are given or
draw other session values, and finalize responses that carry other states), with any answers and failures.  As long as the
client is not replaced, the session information of `k` is after `others` what it was before. -/
theorem C75_others_change_nothing {K : String → Prop} (hK : KeySpace K) (h0 : Handler) (hnew : NewHandler h0)
    (before : List (Ext × Call)) (x : Ext) (issuer user : String) (req b : Obj) (url k : String) (h1 : Handler)
    (hbefore : ∀ xc ∈ before, CallOk K k xc) (hkx : K (x.rnd "init_state"))
    (hbegin : begin_ x issuer user req b (run before h0) = (.ok (url, k), h1))
    (i : String) (hsetup : (clientSetup x issuer user b (run before h0)).1 = .ok i) (hne : i ≠ "")
    (hname : NamedAfterIssuer h1 i)
    (after : List (Ext × Call)) (hafter : ∀ xc ∈ after, CallOk K k xc) (hkeep : NeverReplaced i after h1)
    (others : List (Ext × Call)) (hothers : ∀ xc ∈ others, CallOk K k xc) (hno : ∀ xc ∈ others, ¬ Concerns k xc)
    (hkeep' : NeverReplaced i others (run after h1)) :
    ∃ st, sessionInformation (run after h1) k = .ok st ∧ sessionInformation (run others (run after h1)) k = .ok st := by
  have hk : K k := by
    obtain ⟨_, _, _, _, _, b3, _⟩ := begin_ok hbegin
    exact init_key b3 ▸ hkx
  have hi0 : Inv K k none (run before h0) :=
    inv_run hK hk before (inv_new hnew.empty hnew.plain) hbefore (fun _ _ _ hw => by cases hw)
  obtain ⟨c, c', a1, a2, a3, a4, a5⟩ := inv_begun hK hkx hi0 hbegin hsetup hne hname
  have hi2 := inv_run hK hk after a5 hafter (fun i' p q hw => by
    injection hw with hw
    injection hw with hw _
    subst hw
    exact hkeep)
  have hi3 := inv_run hK hk others hi2 hothers (fun i' p q hw => by
    injection hw with hw
    injection hw with hw _
    subst hw
    exact hkeep')
  have hrec := record_run hK hk others hi2 hothers hno hkeep'
  have info : ∀ {h : Handler} {db : DB}, Inv K k (some (i, getItem c'.db "auth_request" k, getItem c'.db "pkce" k)) h →
      Dict.get? (stores h) i = some db → sessionInformation h k = getState db k := by
    intro h db hi hd
    rw [get?_stores] at hd
    cases hc : Dict.get? h.issuer2rp i with
    | none => rw [hc] at hd; cases hd
    | some c =>
      rw [hc] at hd
      injection hd with hd
      subst hd
      unfold sessionInformation getClientFromSessionKey
      rw [inv_resolves hi hne]
      simp only [Dict.getItem_eq_ok.2 hc]
  obtain ⟨db, d1, d2, _⟩ := hi2.here i _ _ rfl
  obtain ⟨db', e1, e2⟩ := hrec db d1
  rw [info hi2 d1, info hi3 e1, e2]
  unfold getIss at d2
  cases hst : getState db k with
  | error e => rw [hst] at d2; cases d2
  | ok st => exact ⟨st, rfl, rfl⟩

/-- The session's own calls. -/
def ownCalls : List (Ext × Call) :=
  [(World.ext 1001 "" "" "n1", .finalize "https://op.example" [("code", .str "code1"), ("state", .str World.s1)] [])]

/-- Calls for another session: it is started, finalized, its tokens are renewed, its user is looked up, it is cleared. -/
def otherCalls : List (Ext × Call) :=
  [(World.ext 1002 World.s2 "n2" "", .begin "https://op.example" "" [] []),
   (World.ext 1003 "" "" "n2", .finalize "https://op.example" [("code", .str "code2"), ("state", .str World.s2)] []),
   (World.ext 1004 "" "" "n2", .refresh World.s2 ""),
   (World.ext 1005 "" "" "n2", .hasActive World.s2),
   (World.ext 1006 "" "" "n2", .clear World.s2)]

/-- A response with a code and a state is parsed to itself. -/
theorem world_parse (now : Int) (a b n code st : String) (c : Client) :
    parseResponse (World.ext now a b n) .authorization (.dict [("code", .str code), ("state", .str st)]) "dict" "" c =
      (.ok (.msg [("code", .str code), ("state", .str st)]), c) := by
  rfl

theorem ownCalls_ok : ∀ xc ∈ ownCalls, CallOk Spec.History.Generated World.s1 xc := by
  intro xc h
  simp only [ownCalls, List.mem_cons, List.not_mem_nil, or_false] at h
  subst h
  trivial

theorem otherCalls_ok : ∀ xc ∈ otherCalls, CallOk Spec.History.Generated World.s1 xc := by
  intro xc h
  simp only [otherCalls, List.mem_cons, List.not_mem_nil, or_false] at h
  rcases h with rfl | rfl | rfl | rfl | rfl
  · exact ⟨gen_s2, by decide⟩
  · trivial
  · trivial
  · trivial
  · show World.s2 ≠ World.s1
    decide

theorem otherCalls_elsewhere : ∀ xc ∈ otherCalls, ¬ Concerns World.s1 xc := by
  intro xc h
  simp only [otherCalls, List.mem_cons, List.not_mem_nil, or_false] at h
  rcases h with rfl | rfl | rfl | rfl | rfl
  · show World.s2 ≠ World.s1
    decide
  · rintro ⟨c, resp, c', hp, hs⟩
    rw [world_parse] at hp
    injection hp with hp _
    injection hp with hp
    injection hp with hp
    subst hp
    have : (some (Val.str World.s2)) = some (Val.str World.s1) := hs
    injection this with this
    injection this with this
    exact absurd this (by decide)
  · show World.s2 ≠ World.s1
    decide
  · show World.s2 ≠ World.s1
    decide
  · show World.s2 ≠ World.s1
    decide

/-- The theorem applies to these calls; all of them succeed, and they do change the store. -/
example : (∃ st, sessionInformation (run ownCalls inFlight) World.s1 = .ok st ∧
      sessionInformation (run otherCalls (run ownCalls inFlight)) World.s1 = .ok st) ∧
    ((sessionInformation (run ownCalls inFlight) World.s1).toOption.map
      fun t => Dict.keys t) = some ["iss", "auth_request", "auth_response", "token_response", "user_info"] ∧
    (sessionInformation (run (otherCalls.take 3) (run ownCalls inFlight)) World.s2).isOk = true ∧
    (sessionInformation (run otherCalls (run ownCalls inFlight)) World.s2).isOk = false :=
  ⟨C75_others_change_nothing Props.C10_generated_keys_are_safe World.handler newWorld earlier
    (World.ext 1000 World.s1 "n1" "") "https://op.example" "" [] [] _ World.s1 inFlight earlier_ok gen_s1
    (by rfl) "https://op.example" (by rfl) (by decide) inFlight_named ownCalls ownCalls_ok ⟨trivial, trivial⟩
    otherCalls otherCalls_ok otherCalls_elsewhere ⟨fun _ => rfl, trivial, trivial, trivial, trivial, trivial⟩,
   by rfl, by rfl, by rfl⟩

end Verif.Props
