import Verif.Lemmas.Quiet
/-!
# Where a session comes from

`Whence K k A h`: every client of `h` that has the session `k` satisfies `A`, with the authorization request of the session.
In contrast to `Inv`, the session may be cleared and its client may be set up anew.
-/

namespace Verif
open StateInterface Service Handler
open Spec.Store (KeySpace)
open Spec.InFlight

/-- Session `k` is in the second store only as it was in the first. -/
def NotBegun (k : String) (db db' : DB) : Prop :=
  ∀ v, getIss db' k = .ok v → getIss db k = .ok v ∧ getItem db' "auth_request" k = getItem db "auth_request" k

theorem SameStart.notBegun {k : String} {db db' : DB} (h : SameStart k db db') : NotBegun k db db' :=
  fun _ hv => ⟨h.iss ▸ hv, h.request⟩

theorem NotBegun.of_sub {k : String} {db db' : DB} (h : ∀ e, Dict.get? db' k = some e → Dict.get? db k = some e) :
    NotBegun k db db' := by
  intro v hv
  cases he : Dict.get? db' k with
  | none =>
    unfold getIss getState at hv
    rw [he] at hv
    cases hv
  | some e =>
    have h1 : getState db k = getState db' k := by unfold getState; rw [h e he, he]
    constructor
    · unfold getIss; rw [h1]; exact hv
    · unfold getItem; rw [h1]

theorem get?_removeRefs_sub : ∀ (refs : Obj) (db : DB) (key : String) (e : DbVal),
    Dict.get? (StateInterface.removeRefs refs db).2 key = some e → Dict.get? db key = some e := by
  intro refs
  induction refs with
  | nil => intro db key e h; exact h
  | cons p refs ih =>
    intro db key e h
    obtain ⟨xt, v⟩ := p
    unfold StateInterface.removeRefs at h
    split at h
    · split at h
      · have := ih _ key e h
        rw [Dict.get?_del] at this
        split at this
        · cases this
        · exact this
      · exact h
    · exact h

theorem get?_removeState_sub (s : String) (db : DB) (key : String) (e : DbVal)
    (h : Dict.get? (removeState s db).2 key = some e) : Dict.get? db key = some e := by
  have hdel : ∀ {e}, Dict.get? (Dict.del db s) key = some e → Dict.get? db key = some e := by
    intro e h
    rw [Dict.get?_del] at h
    split at h
    · cases h
    · exact h
  unfold removeState at h
  split at h
  · simp only at h
    split at h
    · exact hdel h
    · exact hdel h
    · exact hdel (get?_removeRefs_sub _ _ _ _ h)
  · exact h

/-- A session that is resolved is kept by some client. -/
theorem kept_of_resolved {h : Handler} (hn : (Dict.keys (stores h)).Nodup) {k i : String} (hr : sessionIssuer h k = .ok i) :
    ∃ j db v, Dict.get? (stores h) j = some db ∧ getIss db k = .ok v := by
  rw [sessionIssuer_stores] at hr
  have : ∀ {l : Dict DB} {v : Val}, findIn k l = .ok (some v) → ∃ p ∈ l, ∃ v, getIss p.2 k = .ok v := by
    intro l
    induction l with
    | nil => intro v h; cases h
    | cons p l ih =>
      obtain ⟨j, db⟩ := p
      intro v h
      simp only [findIn] at h
      split at h
      · obtain ⟨q, hq, hv⟩ := ih h
        exact ⟨q, by simp [hq], hv⟩
      · cases h
      · next v' hv' => exact ⟨(j, db), by simp, v', hv'⟩
  cases hf : findIn k (stores h) with
  | error e => rw [hf] at hr; cases hr
  | ok o =>
    rw [hf] at hr
    cases o with
    | none => cases hr
    | some v =>
      obtain ⟨p, hp, v, hv⟩ := this hf
      exact ⟨p.1, p.2, v, Dict.get?_of_mem_nodup hn hp, hv⟩

/-- Every client that has session `k` satisfies `A`, with the authorization request it keeps. -/
structure Whence (K : String → Prop) (k : String) (A : String → Except Exc Obj → Prop) (h : Handler) : Prop where
  nodup : (Dict.keys (stores h)).Nodup
  plain : PlainHandler h
  known : ∀ i db, Dict.get? (stores h) i = some db → Known K db
  whence : ∀ i db v, Dict.get? (stores h) i = some db → getIss db k = .ok v → A i (getItem db "auth_request" k)

variable {K : String → Prop} {k : String} {A : String → Except Exc Obj → Prop} {h : Handler}

namespace Whence

theorem same (hi : Whence K k A h) {h' : Handler} (hp : PlainHandler h') (hst : stores h' = stores h) : Whence K k A h' :=
  ⟨hst ▸ hi.nodup, hp, hst ▸ hi.known, hst ▸ hi.whence⟩

theorem set (hi : Whence K k A h) {j : String} {db' : DB} (hkn : Known K db')
    (hw : ∀ v, getIss db' k = .ok v → A j (getItem db' "auth_request" k)) {h' : Handler} (hp : PlainHandler h')
    (hst : stores h' = Dict.set (stores h) j db') : Whence K k A h' := by
  refine ⟨?_, hp, ?_, ?_⟩
  · rw [hst]; exact Dict.nodup_set hi.nodup _ _
  · intro i d hd
    rw [hst, Dict.get?_set] at hd
    split at hd
    · injection hd with hd; subst hd; exact hkn
    · exact hi.known i d hd
  · intro i d v hd hv
    rw [hst, Dict.get?_set] at hd
    split at hd
    · next e => injection hd with hd; subst hd; subst e; exact hw v hv
    · exact hi.whence i d v hd hv

theorem mono (hi : Whence K k A h) {A' : String → Except Exc Obj → Prop} (hA : ∀ i p, A i p → A' i p) : Whence K k A' h :=
  ⟨hi.nodup, hi.plain, hi.known, fun i db v hd hv => hA _ _ (hi.whence i db v hd hv)⟩

/-- A resolved session value is one of the session values. -/
theorem resolved (hi : Whence K k A h) {s i : String} (hr : sessionIssuer h s = .ok i) : K s := by
  rw [sessionIssuer_stores] at hr
  have : ∀ {l : Dict DB} {v : Val}, findIn s l = .ok (some v) → (∀ p ∈ l, Known K p.2) → K s := by
    intro l
    induction l with
    | nil => intro v h; cases h
    | cons p l ih =>
      obtain ⟨j, db⟩ := p
      intro v h hk
      simp only [findIn] at h
      split at h
      · exact ih h fun q hq => hk q (by simp [hq])
      · cases h
      · next v' hv' =>
        exact hk (j, db) (by simp) s v' hv'
  cases hf : findIn s (stores h) with
  | error e => rw [hf] at hr; cases hr
  | ok o =>
    rw [hf] at hr
    cases o with
    | none => cases hr
    | some v =>
      exact this hf fun p hp => hi.known p.1 p.2 (Dict.get?_of_mem_nodup hi.nodup hp)

theorem onClient {α : Type} (hi : Whence K k A h) {j : String} {m : Py Client α}
    (hm : ∀ c, Dict.get? h.issuer2rp j = some c → Known K c.db →
      Known K (m c).2.db ∧ NotBegun k c.db (m c).2.db ∧ (m c).2.conf = c.conf) :
    Whence K k A (Handler.onClient j m h).2 := by
  cases hc : Dict.get? h.issuer2rp j with
  | none => rw [show Handler.onClient j m h = (.error .keyError, h) by unfold Handler.onClient; rw [hc]]; exact hi
  | some c =>
    have hcs : Dict.get? (stores h) j = some c.db := by rw [get?_stores, hc]; rfl
    obtain ⟨m1, m2, m3⟩ := hm c hc (hi.known j _ hcs)
    refine hi.set (db' := (m c).2.db) m1 (fun v hv => ?_) (plain_onClient hi.plain ?_) (stores_onClient hc)
    · obtain ⟨a1, a2⟩ := m2 v hv
      rw [a2]
      exact hi.whence j c.db v hcs a1
    · intro c' hc'
      rw [hc] at hc'
      injection hc' with hc'
      subst hc'
      exact m3

theorem local_ {α : Type} (hK : KeySpace K) (hk : K k) (hi : Whence K k A h) {j s : String} (hs : K s) {m : Py Client α}
    (hm : Frame (Local s) m) : Whence K k A (Handler.onClient j m h).2 :=
  hi.onClient fun c _ hkn =>
    let ⟨a, b⟩ := Kept.safe_acts hK hk (Kept.safe_of_touches hs (hm c).db) hkn
    ⟨a, b.notBegun, (hm c).conf⟩

theorem session {α : Type} (hK : KeySpace K) (hk : K k) (hi : Whence K k A h) {s : String} {m : Py Client α}
    (hm : Frame (Local s) m) : Whence K k A (onSession s m h).2 := by
  unfold onSession
  cases hr : sessionIssuer h s with
  | error e => exact hi
  | ok i => exact hi.local_ hK hk (hi.resolved hr) hm

theorem setup (hi : Whence K k A h) (x : Ext) (issId user : String) (b : Obj) :
    Whence K k A (clientSetup x issId user b h).2 := by
  obtain ⟨hp, hc⟩ := clientSetup_cases x issId user b hi.plain
  rcases hc with ⟨e, _, hs⟩ | ⟨_, _, hs⟩ | ⟨i, hr, hno, hs⟩
  · exact hi.same hp hs
  · exact hi.same hp hs
  · refine hi.set (db' := []) ?_ ?_ hp hs
    · intro κ v h; simp [getIss, getState, Dict.get?] at h
    · intro v h; simp [getIss, getState, Dict.get?] at h

theorem new (hn : h.issuer2rp = []) (hp : PlainHandler h) : Whence K k A h := by
  have hs : stores h = [] := by unfold stores; rw [hn]; rfl
  refine ⟨?_, hp, ?_, ?_⟩ <;> rw [hs]
  · simp [Dict.keys]
  · intro i db h; cases h
  · intro i db v h; cases h

end Whence

/-- Calls in which random session values lie in `K` and are not `k`, and `close` with an explicit issuer is given a session
value. -/
def NotDrawing (K : String → Prop) (k : String) : Ext × Call → Prop
  | (x, .begin _ _ _ _) => K (x.rnd "init_state") ∧ x.rnd "init_state" ≠ k
  | (_, .close s _ _) => K s
  | _ => True

theorem whence_clear (hi : Whence K k A h) (s : String) : Whence K k A (clearSession s h).2 := by
  unfold clearSession onSession
  cases hr : sessionIssuer h s with
  | error e => exact hi
  | ok i =>
    refine hi.onClient fun c _ hkn => ⟨Kept.known_remove hkn s, NotBegun.of_sub fun e he => ?_, rfl⟩
    exact get?_removeState_sub s c.db k e he

/-- Every call of another session. -/
theorem whence_exec (hK : KeySpace K) (hk : K k) (hi : Whence K k A h) (xc : Ext × Call) (hc : NotDrawing K k xc) :
    Whence K k A (exec xc.1 xc.2 h).2 := by
  obtain ⟨x, call⟩ := xc
  cases call with
  | begin issId user req b =>
    obtain ⟨c1, c2⟩ := hc
    show Whence K k A (begin_ x issId user req b h).2
    unfold begin_
    rw [Py.bind_run]
    have h0 := hi.setup x issId user b
    rcases hs : clientSetup x issId user b h with ⟨r, h1⟩
    rw [hs] at h0
    cases r with
    | error e => exact h0
    | ok j =>
      simp only
      refine h0.onClient fun c hc hkn => ?_
      have hb := begins_init x req b (hK.nonempty _ c1) c (h0.plain.clients j c (Dict.get?_eq_some_mem hc))
      obtain ⟨a1, a2⟩ := Kept.safe_acts hK hk (safe_of_starts c1 c2 hb.db) hkn
      exact ⟨a1, a2.notBegun, hb.conf⟩
  | finalize i r b =>
    exact hi.onClient (j := i) (m := finalizeClient x i r b) fun c _ hkn =>
      let ⟨a, b, c⟩ := finalizeClient_kept hK hk x i r b c hkn
      ⟨a, b.notBegun, c⟩
  | getTokens s => exact hi.session hK hk (local_getTokens x s)
  | refresh s sc => exact hi.session hK hk (local_refresh x s sc)
  | userInfo s t => exact hi.session hK hk (local_userInfo x s t)
  | hasActive s => exact hi.session hK hk (s := s) (m := ask (hasActive x s)) (Frame.ask _)
  | validToken s => exact hi.session hK hk (s := s) (m := ask (validAccessToken x s)) (Frame.ask _)
  | logout s u => exact hi.session hK hk (local_logout x s u)
  | close s i u =>
    show Whence K k A (close x s i u h).2
    unfold close
    split
    · exact hi.local_ hK hk hc (local_logout x s u)
    · exact hi.session hK hk (local_logout x s u)
  | clear s => exact whence_clear hi s
  | backchannel i info =>
    exact hi.onClient (j := i) (m := ask (backchannelLogout x info)) fun c _ hkn => ⟨hkn, (SameStart.refl _ _).notBegun, rfl⟩

theorem whence_run (hK : KeySpace K) (hk : K k) : ∀ (l : List (Ext × Call)) {h : Handler}, Whence K k A h →
    (∀ xc ∈ l, NotDrawing K k xc) → Whence K k A (run l h) := by
  intro l
  induction l with
  | nil => intro h hi _; exact hi
  | cons xc l ih =>
    intro h hi hc
    exact ih (whence_exec hK hk hi xc (hc xc (by simp))) (fun y hy => hc y (by simp [hy]))

/-- After the `begin` that drew `k`: the client that was set up or found, if any, has the session. -/
theorem whence_begin (hK : KeySpace K) {x : Ext} {issId user : String} {req b : Obj} (hkx : K (x.rnd "init_state"))
    (hi : Whence K (x.rnd "init_state") (fun _ _ => False) h) :
    Whence K (x.rnd "init_state") (fun i p => (clientSetup x issId user b h).1 = .ok i ∧
      ∃ c, Dict.get? (begin_ x issId user req b h).2.issuer2rp i = some c ∧ p = getItem c.db "auth_request" (x.rnd "init_state"))
      (begin_ x issId user req b h).2 := by
  unfold begin_
  rw [Py.bind_run]
  have h0 := hi.setup x issId user b
  rcases hs : clientSetup x issId user b h with ⟨r, g⟩
  rw [hs] at h0
  cases r with
  | error e => exact h0.mono fun _ _ h => h.elim
  | ok j =>
    simp only
    cases hc : Dict.get? g.issuer2rp j with
    | none =>
      rw [show Handler.onClient j (initAuthorization x req b) g = (.error .keyError, g) by unfold Handler.onClient; rw [hc]]
      exact h0.mono fun _ _ h => h.elim
    | some c =>
      have hcs : Dict.get? (stores g) j = some c.db := by rw [get?_stores, hc]; rfl
      have hb := begins_init x req b (hK.nonempty _ hkx) c (h0.plain.clients j c (Dict.get?_eq_some_mem hc))
      refine (h0.mono fun _ _ h => h.elim).set (Props.known_starts hkx hb.db (h0.known j _ hcs)) ?_
        (plain_onClient h0.plain ?_) (stores_onClient hc)
      · intro v hv
        obtain ⟨bh, o1⟩ := Props.onClient_client (m := initAuthorization x req b) hc
        exact ⟨rfl, _, o1, rfl⟩
      · intro c' hc'
        rw [hc] at hc'
        injection hc' with hc'
        subst hc'
        exact hb.conf

/-! ## The index of nonces -/

variable {N : String → Prop}

theorem quiet_session' {α : Type} (hi : Whence K k A h) (hq : AllQuiet N k h) {s : String}
    {m : Py Client α} (hm : K s → Frame (Calm N k) m) : AllQuiet N k (onSession s m h).2 := by
  unfold onSession
  cases hr : sessionIssuer h s with
  | error e => exact hq
  | ok j => exact quiet_onClient hq fun c _ => hm (hi.resolved hr) c

theorem quiet_exec' (hK : KeySpace K) (hi : Whence K k A h) (xc : Ext × Call)
    (hc : NotDrawing K k xc) (hq : AllQuiet N k h) : AllQuiet N k (exec xc.1 xc.2 h).2 := by
  obtain ⟨x, call⟩ := xc
  cases call with
  | begin issId user req b => exact quiet_begin hK hi.plain hq hc.1 (fun e => absurd e hc.2)
  | finalize j r b =>
    refine quiet_onClient hq fun c hcl => calm_finalizeClient hK x j r b c (hi.known j _ ?_)
    rw [get?_stores, hcl]; rfl
  | getTokens s => exact quiet_session' hi hq fun hs => calm_getTokens hK x hs
  | refresh s sc => exact quiet_session' hi hq fun hs => calm_refresh hK x hs sc
  | userInfo s t => exact quiet_session' hi hq fun hs => calm_userInfo hK x hs t
  | hasActive s => exact quiet_session' (m := ask (hasActive x s)) hi hq fun _ => Frame.ask _
  | validToken s => exact quiet_session' (m := ask (validAccessToken x s)) hi hq fun _ => Frame.ask _
  | logout s u => exact quiet_session' hi hq fun _ => calm_logout x s u
  | close s j u =>
    show AllQuiet N k (close x s j u h).2
    unfold close
    split
    · exact quiet_onClient hq fun c _ => calm_logout x s u c
    · exact quiet_session' hi hq fun _ => calm_logout x s u
  | clear s =>
    show AllQuiet N k (clearSession s h).2
    exact quiet_session' (m := onDB (removeState s)) hi hq fun _ c h => Quiet.remove s h
  | backchannel j info =>
    exact quiet_onClient (j := j) (m := ask (backchannelLogout x info)) hq fun c _ => id

theorem quiet_run' (hK : KeySpace K) (hk : K k) : ∀ (l : List (Ext × Call)) {h : Handler}, Whence K k A h →
    (∀ xc ∈ l, NotDrawing K k xc) → AllQuiet N k h → AllQuiet N k (run l h) := by
  intro l
  induction l with
  | nil => intro h _ _ hq; exact hq
  | cons xc l ih =>
    intro h hi hc hq
    exact ih (whence_exec hK hk hi xc (hc xc (by simp))) (fun y hy => hc y (by simp [hy]))
      (quiet_exec' hK hi xc (hc xc (by simp)) hq)

end Verif
