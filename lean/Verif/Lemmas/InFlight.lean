import Verif.Spec.InFlight
import Verif.Lemmas.AuthTrace
import Verif.Lemmas.Resolve
/-!
# Sessions in flight: what every API call keeps
-/

namespace Verif
open StateInterface Service Handler
open Spec.Store (KeySpace)
open Spec.InFlight

/-! ## Setting up a client does not touch a session store -/

namespace Service

theorem noStore_updateMsg {x : Ext} {srv : Srv} (hs : srv = .providerInfo ∨ srv = .registration ∨ srv = .webfinger)
    (resp : Obj) (k : String) : Frame NoStore (updateMsg x srv resp k) := by
  rcases hs with rfl | rfl | rfl <;> simp only [updateMsg]
  · exact Frame.bind Frame.read fun c => Frame.bind (NoStore.onCtx _) fun _ => Frame.pure _
  · exact Frame.bind (NoStore.onCtx _) fun _ => Frame.pure _
  · exact Frame.bind Frame.read fun c => Frame.bind (NoStore.onCtx _) fun _ => Frame.pure _

theorem noStore_postParse {x : Ext} {srv : Srv} (hs : srv = .providerInfo ∨ srv = .registration ∨ srv = .webfinger)
    (resp : Obj) (s : String) : Frame NoStore (postParse x srv resp s) := by
  rcases hs with rfl | rfl | rfl <;> exact Frame.pure _

theorem noStore_doRequest {x : Ext} {srv : Srv} (hs : srv = .providerInfo ∨ srv = .registration ∨ srv = .webfinger)
    (args : Obj) (o : CallOpts) (kwargs : Obj) : Frame NoStore (doRequest x srv args o kwargs) := by
  refine frame_doRequest ?_ (fun r => noStore_postParse hs _ _) (fun r => noStore_postParse hs _ _) (fun m => noStore_updateMsg hs _ _)
  rcases hs with rfl | rfl | rfl
  · exact Frame.ask _
  · refine frame_buildRequest o (frame_construct args kwargs (fun kw => ?_) (fun req post => ?_))
    · simp only [preConstruct]
      refine Frame.bind Frame.read fun c => ?_
      refine Frame.bind (NoStore.onCtx _) fun b => ?_
      exact Frame.bind Frame.read fun c' => Frame.pure _
    · unfold postConstruct
      exact Frame.bind Frame.read fun c => Frame.pure _
  · exact Frame.ask _

end Service

namespace Handler

theorem noStore_providerInfo (x : Ext) : Frame NoStore (doProviderInfo x) := by
  unfold doProviderInfo
  refine Frame.bind Frame.read fun c => ?_
  refine Frame.ite (fun _ => ?_) (fun _ => ?_)
  · refine Frame.bind ?_ fun _ => ?_
    · unfold dynamicDiscovery
      refine Frame.bind (NoStore.onCtx _) fun _ => ?_
      exact Frame.bind (noStore_doRequest (Or.inl rfl) _ _ _) fun _ => Frame.lift _
    · exact Frame.bind (Frame.ask _) fun _ => Frame.lift _
  · refine Frame.bind (NoStore.onCtx _) fun _ => ?_
    exact Frame.bind (Frame.lift _) fun _ => Frame.lift _

theorem noStore_register (x : Ext) (b : Obj) : Frame NoStore (register x b) := by
  unfold register
  refine Frame.bind Frame.read fun c => ?_
  refine Frame.ite (fun _ => ?_) (fun _ => Frame.pure _)
  unfold loadRegistration
  refine Frame.bind (Frame.try_ (noStore_doRequest (Or.inr (Or.inl rfl)) _ _ _) fun e k hk => ?_) fun _ => Frame.lift _
  split at hk
  · injection hk with hk; subst hk; exact Frame.raise _
  · cases hk

/-! ## Plain configurations stay plain -/

theorem plain_share {h : Handler} (hp : PlainHandler h) (cfg : String) (b : Obj) : PlainHandler (share cfg b h) := by
  unfold share
  split
  · exact hp
  · next cc hcc =>
    split
    · refine ⟨fun n cc' hm => ?_, fun i c hm => ?_⟩
      · rcases Dict.mem_set hm with hm | hm
        · exact hp.configs n cc' hm
        · injection hm with _ hm
          subst hm
          exact hp.configs cfg cc (Dict.get?_eq_some_mem hcc)
      · simp only [List.mem_map] at hm
        obtain ⟨⟨j, d⟩, hd, he⟩ := hm
        injection he with he1 he2
        subst he2
        have := hp.clients j d hd
        unfold sharedClient
        split <;> exact this
    · exact hp

theorem plain_setClient {h : Handler} (hp : PlainHandler h) {i : String} {c : Client} (hc : PlainConf c.conf) :
    PlainHandler { h with issuer2rp := Dict.set h.issuer2rp i c } := by
  refine ⟨hp.configs, fun j d hm => ?_⟩
  rcases Dict.mem_set hm with hm | hm
  · exact hp.clients j d hm
  · injection hm with _ hm
    subst hm
    exact hc

theorem plain_onClient {α : Type} {i : String} {m : Py Client α} {h : Handler} (hp : PlainHandler h)
    (hm : ∀ c, Dict.get? h.issuer2rp i = some c → (m c).2.conf = c.conf) : PlainHandler (onClient i m h).2 := by
  unfold onClient
  cases hc : Dict.get? h.issuer2rp i with
  | none => exact hp
  | some c =>
    refine plain_share (plain_setClient hp ?_) _ _
    rw [hm c hc]
    exact hp.clients i c (Dict.get?_eq_some_mem hc)

/-! ## `client_setup` -/

theorem initClient_ok {x : Ext} {issuer : String} {h h' : Handler} {r : Except Exc Client} (hp : PlainHandler h)
    (hr : initClient x issuer h = (r, h')) :
    stores h' = stores h ∧ h'.issuer2rp = h.issuer2rp ∧ PlainHandler h' ∧
      ∀ c, r = .ok c → c.db = [] ∧ PlainConf c.conf := by
  unfold initClient at hr
  split at hr
  · next cc hcc =>
    injection hr with h1 h2
    subst h1; subst h2
    refine ⟨rfl, rfl, hp, fun c hc => ?_⟩
    injection hc with hc
    subst hc
    exact ⟨rfl, hp.configs _ cc (Dict.get?_eq_some_mem hcc)⟩
  · split at hr
    · injection hr with h1 h2
      subst h1; subst h2
      exact ⟨rfl, rfl, hp, fun c hc => by cases hc⟩
    · next cc hcc =>
      simp only at hr
      injection hr with h1 h2
      subst h1; subst h2
      have hcc' := hp.configs _ cc (Dict.get?_eq_some_mem hcc)
      refine ⟨rfl, rfl, ⟨fun n cc' hm => ?_, hp.clients⟩, fun c hc => ?_⟩
      · rcases Dict.mem_set hm with hm | hm
        · exact hp.configs n cc' hm
        · injection hm with _ hm
          subst hm
          exact hcc'
      · injection hc with hc
        subst hc
        exact ⟨rfl, hcc'⟩

theorem onNew_ok {α : Type} {m : Py Client α} (hm : Frame NoStore m) {c : Client} {h h' : Handler} {r : Except Exc (α × Client)}
    (hp : PlainHandler h) (hr : onNew c m h = (r, h')) :
    stores h' = stores h ∧ PlainHandler h' ∧ ∀ p, r = .ok p → p.2.db = c.db ∧ p.2.conf = c.conf ∧ m c = (.ok p.1, p.2) := by
  have h1 : (onNew c m h).2 = h' := congrArg Prod.snd hr
  have h2 : (m c).1.map (fun a => (a, (m c).2)) = r := congrArg Prod.fst hr
  refine ⟨?_, ?_, ?_⟩
  · rw [← h1]; exact stores_onNew
  · rw [← h1]
    unfold onNew
    exact plain_share hp _ _
  · intro p hp'
    rw [hp'] at h2
    cases h3 : (m c).1 with
    | error e => rw [h3] at h2; cases h2
    | ok a =>
      rw [h3] at h2
      injection h2 with h2
      subst h2
      exact ⟨(hm c).db, (hm c).conf, Prod.ext h3 rfl⟩

/-- `adopt` either changes no store, or puts a new empty one in place. -/
theorem adopt_cases {x : Ext} {c : Client} {issId : String} {b : Obj} {h : Handler} (hp : PlainHandler h)
    (hdb : c.db = []) (hc : PlainConf c.conf) :
    PlainHandler (adopt x c issId b h).2 ∧
    ((∃ e, (adopt x c issId b h).1 = .error e ∧ stores (adopt x c issId b h).2 = stores h) ∨
     (∃ i, (adopt x c issId b h).1 = .ok i ∧ stores (adopt x c issId b h).2 = Dict.set (stores h) i [])) := by
  unfold adopt
  rw [Py.bind_run]
  rcases h1 : onNew c (doProviderInfo x) h with ⟨r, g1⟩
  obtain ⟨s1, p1, q1⟩ := onNew_ok (noStore_providerInfo x) hp h1
  cases r with
  | error e => exact ⟨p1, Or.inl ⟨e, rfl, s1⟩⟩
  | ok r =>
    obtain ⟨d1, f1, _⟩ := q1 r rfl
    simp only [Py.modify_bind_run]
    rw [Py.bind_run]
    have p2 : PlainHandler { g1 with hash2issuer := Dict.set g1.hash2issuer issId r.2.ctx.issuer } := ⟨p1.configs, p1.clients⟩
    rcases h2 : onNew r.2 (register x b) { g1 with hash2issuer := Dict.set g1.hash2issuer issId r.2.ctx.issuer } with ⟨r2, g2⟩
    obtain ⟨s2, p3, q2⟩ := onNew_ok (noStore_register x b) p2 h2
    have s2' : stores g2 = stores h := s2.trans s1
    cases r2 with
    | error e => exact ⟨p3, Or.inl ⟨e, rfl, s2'⟩⟩
    | ok r2 =>
      obtain ⟨d2, f2, _⟩ := q2 r2 rfl
      simp only [Py.modify_bind_run, Py.pure_run]
      refine ⟨plain_setClient p3 (by rw [f2, f1]; exact hc), Or.inr ⟨r.1, rfl, ?_⟩⟩
      rw [← s2']
      have := map_set (fun c : Client => c.db) g2.issuer2rp r.1 r2.2
      simp only [stores]
      rw [this, d2, d1, hdb]

/-- `client_setup` either changes no store, or puts a new empty one in place. -/
theorem clientSetup_cases (x : Ext) (issId user : String) (b : Obj) {h : Handler} (hp : PlainHandler h) :
    PlainHandler (clientSetup x issId user b h).2 ∧
    ((∃ e, (clientSetup x issId user b h).1 = .error e ∧ stores (clientSetup x issId user b h).2 = stores h) ∨
     ((clientSetup x issId user b h).1 = .ok issId ∧ Dict.has h.issuer2rp issId = true ∧
       stores (clientSetup x issId user b h).2 = stores h) ∨
     (∃ i, (clientSetup x issId user b h).1 = .ok i ∧ Dict.has h.issuer2rp issId = false ∧
       stores (clientSetup x issId user b h).2 = Dict.set (stores h) i [])) := by
  unfold clientSetup
  split
  · exact ⟨hp, Or.inl ⟨_, rfl, rfl⟩⟩
  · split
    · next hi =>
      unfold doWebfinger
      rw [Py.bind_run, Py.bind_run]
      rcases h1 : initClient x "" h with ⟨r, g1⟩
      obtain ⟨s1, i1, p1, q1⟩ := initClient_ok hp h1
      cases r with
      | error e => exact ⟨p1, Or.inl ⟨e, rfl, s1⟩⟩
      | ok c =>
        obtain ⟨d1, f1⟩ := q1 c rfl
        simp only
        rw [Py.bind_run]
        rcases h2 : onNew c (doRequest x .webfinger [] {} [("resource", .str user)]) g1 with ⟨r2, g2⟩
        obtain ⟨s2, p2, q2⟩ := onNew_ok (noStore_doRequest (Or.inr (Or.inr rfl)) _ _ _) p1 h2
        cases r2 with
        | error e => exact ⟨p2, Or.inl ⟨e, rfl, s2.trans s1⟩⟩
        | ok r2 =>
          obtain ⟨d2, f2, _⟩ := q2 r2 rfl
          simp only [Py.pure_run, Py.read_bind_run]
          have hhas : Dict.has g2.issuer2rp issId = Dict.has h.issuer2rp issId := by
            have : Dict.get? (stores g2) issId = Dict.get? (stores h) issId := by rw [s2.trans s1]
            rw [get?_stores, get?_stores] at this
            rw [Dict.has_eq, Dict.has_eq]
            cases h3 : Dict.get? g2.issuer2rp issId <;> cases h4 : Dict.get? h.issuer2rp issId <;> rw [h3, h4] at this <;> first | rfl | cases this
          split
          · next hh =>
            exact ⟨p2, Or.inr (Or.inl ⟨rfl, by rw [← hhas]; exact hh, s2.trans s1⟩)⟩
          · next hh =>
            obtain ⟨a1, a2⟩ := adopt_cases (x := x) (issId := issId) (b := b) p2 (d2.trans d1) (by rw [f2]; exact f1)
            refine ⟨a1, ?_⟩
            rw [← s2.trans s1]
            rcases a2 with ⟨e, a2, a3⟩ | ⟨i, a2, a3⟩
            · exact Or.inl ⟨e, a2, a3⟩
            · exact Or.inr (Or.inr ⟨i, a2, by rw [← hhas]; simpa using hh, a3⟩)
    · rw [Py.read_bind_run]
      split
      · next hh => exact ⟨hp, Or.inr (Or.inl ⟨rfl, hh, rfl⟩)⟩
      · next hh =>
        rw [Py.bind_run]
        rcases h1 : initClient x issId h with ⟨r, g1⟩
        obtain ⟨s1, i1, p1, q1⟩ := initClient_ok hp h1
        cases r with
        | error e => exact ⟨p1, Or.inl ⟨e, rfl, s1⟩⟩
        | ok c =>
          obtain ⟨d1, f1⟩ := q1 c rfl
          obtain ⟨a1, a2⟩ := adopt_cases (x := x) (issId := issId) (b := b) p1 d1 f1
          refine ⟨a1, ?_⟩
          rw [← s1]
          rcases a2 with ⟨e, a2, a3⟩ | ⟨i, a2, a3⟩
          · exact Or.inl ⟨e, a2, a3⟩
          · exact Or.inr (Or.inr ⟨i, a2, by simpa using hh, a3⟩)

/-! ## The invariant -/

/-- What is known about session `k`: nobody has it (`none`), or the client kept as `i` has it, with the
authorization request and the PKCE data it was started with. -/
abbrev Where := Option (String × Except Exc Obj × Except Exc Obj)

/-- The invariant of histories around session `k`. -/
structure Inv (K : String → Prop) (k : String) (w : Where) (h : Handler) : Prop where
  nodup : (Dict.keys (stores h)).Nodup
  plain : PlainHandler h
  known : ∀ i db, Dict.get? (stores h) i = some db → Known K db
  here : ∀ i p q, w = some (i, p, q) → ∃ db, Dict.get? (stores h) i = some db ∧ getIss db k = .ok (.str i) ∧
    getItem db "auth_request" k = p ∧ getItem db "pkce" k = q
  away : ∀ j db, Dict.get? (stores h) j = some db → (∀ i p q, w = some (i, p, q) → j ≠ i) →
    getIss db k = .error .keyError

variable {K : String → Prop} {k : String} {w : Where} {h : Handler}

/-- Changing one store safely keeps the invariant. -/
theorem Inv.set (hi : Inv K k w h) {j : String} {db db' : DB} (hj : Dict.get? (stores h) j = some db)
    (hs : Known K db → Known K db' ∧ SameStart k db db') {h' : Handler} (hp : PlainHandler h')
    (hst : stores h' = Dict.set (stores h) j db') : Inv K k w h' := by
  obtain ⟨k1, k2⟩ := hs (hi.known j db hj)
  refine ⟨?_, hp, ?_, ?_, ?_⟩
  · rw [hst]; exact Dict.nodup_set hi.nodup _ _
  · intro i d hd
    rw [hst, Dict.get?_set] at hd
    split at hd
    · injection hd with hd; subst hd; exact k1
    · exact hi.known i d hd
  · intro i p q hw
    obtain ⟨d, d1, d2, d3, d4⟩ := hi.here i p q hw
    by_cases e : j = i
    · subst e
      rw [hj] at d1
      injection d1 with d1
      subst d1
      exact ⟨db', by rw [hst, Dict.get?_set_self], k2.iss.trans d2, k2.request.trans d3, k2.pkce.trans d4⟩
    · exact ⟨d, by rw [hst, Dict.get?_set_ne _ _ e]; exact d1, d2, d3, d4⟩
  · intro i d hd hn
    rw [hst, Dict.get?_set] at hd
    split at hd
    · next e =>
      subst e
      injection hd with hd; subst hd
      rw [k2.iss]
      exact hi.away _ db hj hn
    · exact hi.away i d hd hn

theorem Inv.same (hi : Inv K k w h) {h' : Handler} (hp : PlainHandler h') (hst : stores h' = stores h) : Inv K k w h' := by
  refine ⟨?_, hp, ?_, ?_, ?_⟩ <;> rw [hst]
  · exact hi.nodup
  · exact hi.known
  · exact hi.here
  · exact hi.away

/-- A new, empty store somewhere else keeps the invariant. -/
theorem Inv.fresh (hi : Inv K k w h) {j : String} (hj : ∀ i p q, w = some (i, p, q) → j ≠ i) {h' : Handler}
    (hp : PlainHandler h') (hst : stores h' = Dict.set (stores h) j []) : Inv K k w h' := by
  refine ⟨?_, hp, ?_, ?_, ?_⟩
  · rw [hst]; exact Dict.nodup_set hi.nodup _ _
  · intro i d hd
    rw [hst, Dict.get?_set] at hd
    split at hd
    · injection hd with hd; subst hd
      intro κ v h; simp [getIss, getState, Dict.get?] at h
    · exact hi.known i d hd
  · intro i p q hw
    obtain ⟨d, d1, d2⟩ := hi.here i p q hw
    exact ⟨d, by rw [hst, Dict.get?_set_ne _ _ (hj i p q hw)]; exact d1, d2⟩
  · intro i d hd hn
    rw [hst, Dict.get?_set] at hd
    split at hd
    · injection hd with hd; subst hd; rfl
    · exact hi.away i d hd hn

theorem inv_onClient {α : Type} (hi : Inv K k w h) {j : String} {m : Py Client α}
    (hm : ∀ c, Dict.get? h.issuer2rp j = some c → Known K c.db →
      Known K (m c).2.db ∧ SameStart k c.db (m c).2.db ∧ (m c).2.conf = c.conf) :
    Inv K k w (onClient j m h).2 := by
  cases hc : Dict.get? h.issuer2rp j with
  | none => rw [show onClient j m h = (.error .keyError, h) by unfold onClient; rw [hc]]; exact hi
  | some c =>
    have hcs : Dict.get? (stores h) j = some c.db := by rw [get?_stores, hc]; rfl
    have hk := hi.known j _ hcs
    refine hi.set (db' := (m c).2.db) hcs (fun hk => ⟨(hm c hc hk).1, (hm c hc hk).2.1⟩) (plain_onClient hi.plain ?_) (stores_onClient hc)
    intro c' hc'
    rw [hc] at hc'
    injection hc' with hc'
    subst hc'
    exact (hm c hc hk).2.2

/-- A resolved session value is one of the session values. -/
theorem Inv.resolved (hi : Inv K k w h) {s i : String} (hr : sessionIssuer h s = .ok i) : K s := by
  rw [sessionIssuer_stores] at hr
  have : ∀ {l : Dict DB} {v : Val}, findIn s l = .ok (some v) → (∀ p ∈ l, Known K p.2) → K s := by
    intro l
    induction l with
    | nil => intro v h; cases h
    | cons p l ih =>
      obtain ⟨j, db⟩ := p
      intro v h hk
      simp only [findIn] at h
      split at h
      · exact ih h fun q hq => hk q (by simp [hq])
      · cases h
      · next v' hv' =>
        exact hk (j, db) (by simp) s v' hv'
  cases hf : findIn s (stores h) with
  | error e => rw [hf] at hr; cases hr
  | ok o =>
    rw [hf] at hr
    cases o with
    | none => cases hr
    | some v =>
      exact this hf fun p hp => hi.known p.1 p.2 (Dict.get?_of_mem_nodup hi.nodup hp)

theorem inv_local {α : Type} (hK : KeySpace K) (hk : K k) (hi : Inv K k w h) {j s : String} (hs : K s) {m : Py Client α}
    (hm : Frame (Local s) m) : Inv K k w (onClient j m h).2 :=
  inv_onClient hi fun c _ hkn =>
    let ⟨a, b⟩ := Kept.safe_acts hK hk (Kept.safe_of_touches hs (hm c).db) hkn
    ⟨a, b, (hm c).conf⟩

theorem inv_session {α : Type} (hK : KeySpace K) (hk : K k) (hi : Inv K k w h) {s : String} {m : Py Client α}
    (hm : Frame (Local s) m) : Inv K k w (onSession s m h).2 := by
  unfold onSession
  cases hr : sessionIssuer h s with
  | error e => exact hi
  | ok i => exact inv_local hK hk hi (hi.resolved hr) hm

/-- `finalize` at a client. -/
theorem finalizeClient_kept (hK : KeySpace K) (hk : K k) (x : Ext) (issuer : String) (response b : Obj) (c : Client)
    (hkn : Known K c.db) :
    Known K (finalizeClient x issuer response b c).2.db ∧ SameStart k c.db (finalizeClient x issuer response b c).2.db ∧
      (finalizeClient x issuer response b c).2.conf = c.conf := by
  unfold finalizeClient
  rcases finalizeAuth_cases x issuer response c with ⟨e, he⟩ | ⟨resp, _, _, ⟨hie, hf⟩ | ⟨hie, κ, st, resp', k1, k2, k3, k4, hf⟩⟩
  · rw [Py.bind_error he]; exact ⟨hkn, SameStart.refl _ _, rfl⟩
  · rw [Py.bind_ok hf]
    have hsame : ∀ {α : Type} (f : α → Py Client Final) (y : Except Exc α),
        (∀ a, (f a c).2 = c) → ((Py.lift y >>= f) c).2 = c := by
      intro α f y hf
      cases y with
      | error e => rw [Py.lift_bind_error rfl]
      | ok a => rw [Py.lift_bind_ok rfl]; exact hf a
    have : ((Py.lift (Dict.getItem resp "state") >>= fun sv => if Msg.isError resp = true then do
        let e ← Py.lift (Dict.getItem resp "error")
        pure (Final.error sv e)
      else do
        let k ← Py.lift (dbKey sv)
        finalizeTokens x resp k b) c).2 = c := by
      refine hsame _ _ fun sv => ?_
      rw [if_pos hie]
      exact hsame _ _ fun _ => rfl
    rw [this]
    exact ⟨hkn, SameStart.refl _ _, rfl⟩
  · rw [Py.bind_ok hf]
    have hKκ : K κ := hkn κ _ (getIss_of k2 k3)
    have hst : storeItem resp' "auth_response" κ c.db = (.ok (), Dict.set c.db κ (.doc (Dict.set st "auth_response" (.obj resp')))) :=
      storeItem_run k2 _ _
    have hfirst : Known K (Dict.set c.db κ (.doc (Dict.set st "auth_response" (.obj resp')))) ∧
        SameStart k c.db (Dict.set c.db κ (.doc (Dict.set st "auth_response" (.obj resp')))) := by
      have := Kept.safe_step hK hk (.store resp' "auth_response" κ) c.db (Or.inr ⟨Or.inl hKκ, by decide⟩) hkn
      rw [Kept.step_snd_store, hst] at this
      exact this
    have hstate : Dict.get? resp' "state" = some (.str κ) := by
      unfold withExpiry at k4
      split at k4
      · injection k4 with k4; subst k4; exact k1
      · next v _ =>
        cases hv : toInt v with
        | error e => rw [hv] at k4; cases k4
        | ok i =>
          rw [hv] at k4
          injection k4 with k4
          subst k4
          rw [Dict.get?_set_ne _ _ (by decide)]
          exact k1
    have hie' : Msg.isError resp' = false := by
      unfold withExpiry at k4
      split at k4
      · injection k4 with k4; subst k4; exact hie
      · next v _ =>
        cases hv : toInt v with
        | error e => rw [hv] at k4; cases k4
        | ok i =>
          rw [hv] at k4
          injection k4 with k4
          subst k4
          unfold Msg.isError at hie ⊢
          rw [Dict.has_eq] at hie ⊢
          rw [Dict.get?_set_ne _ _ (by decide)]
          exact hie
    rw [Dict.getItem_eq_ok.2 hstate, Py.lift_bind_ok rfl, if_neg (by rw [hie']; simp),
      show dbKey (.str κ) = .ok κ from rfl, Py.lift_bind_ok rfl]
    have hl := local_finalizeTokens x resp' κ b { c with db := Dict.set c.db κ (.doc (Dict.set st "auth_response" (.obj resp'))) }
    obtain ⟨a1, a2⟩ := Kept.safe_acts hK hk (Kept.safe_of_touches hKκ hl.db) hfirst.1
    exact ⟨a1, hfirst.2.trans a2, hl.conf⟩

theorem safe_of_starts {N : String → Prop} {s : String} (hs : K s) (hne : s ≠ k) {db db' : DB} (ha : Acts (Starts N s) db db') :
    Acts (Safe K k) db db' := by
  refine ha.mono fun op hop => ?_
  cases op with
  | create iss key rnd =>
    have hop : (if key = "" then rnd else key) = s := hop
    show K (if key = "" then rnd else key) ∧ (if key = "" then rnd else key) ≠ k
    rw [hop]
    exact ⟨hs, hne⟩
  | store item t q =>
    obtain ⟨rfl, h2⟩ := hop
    exact Or.inl ⟨hs, hne, h2.1⟩
  | bind x v q => obtain ⟨rfl, -⟩ := hop; exact hs
  | _ => exact hop.elim

/-- `client_setup` keeps the invariant, unless it replaces the client of the session. -/
theorem inv_setup (hi : Inv K k w h) (x : Ext) (issId user : String) (b : Obj)
    (hrep : ∀ i p q, w = some (i, p, q) → (clientSetup x issId user b h).1 = .ok i → issId = i) :
    Inv K k w (clientSetup x issId user b h).2 := by
  obtain ⟨hp, hc⟩ := clientSetup_cases x issId user b hi.plain
  rcases hc with ⟨e, _, hs⟩ | ⟨_, _, hs⟩ | ⟨i, hr, hno, hs⟩
  · exact hi.same hp hs
  · exact hi.same hp hs
  · refine hi.fresh (fun i' p q hw e => ?_) hp hs
    subst e
    have := hrep i p q hw hr
    subst this
    obtain ⟨db, hdb, _⟩ := hi.here issId p q hw
    rw [get?_stores] at hdb
    rw [Dict.has_eq] at hno
    cases h3 : Dict.get? h.issuer2rp issId with
    | none => rw [h3] at hdb; cases hdb
    | some c => rw [h3] at hno; cases hno

/-- Every call keeps the invariant. -/
theorem inv_exec (hK : KeySpace K) (hk : K k) (hi : Inv K k w h) (xc : Ext × Call) (hc : CallOk K k xc)
    (hrep : ∀ i p q, w = some (i, p, q) → NotReplaced i h xc) : Inv K k w (exec xc.1 xc.2 h).2 := by
  obtain ⟨x, call⟩ := xc
  cases call with
  | begin issId user req b =>
    obtain ⟨c1, c2⟩ := hc
    show Inv K k w (begin_ x issId user req b h).2
    unfold begin_
    rw [Py.bind_run]
    have h0 := inv_setup hi x issId user b hrep
    rcases hs : clientSetup x issId user b h with ⟨r, h1⟩
    rw [hs] at h0
    cases r with
    | error e => exact h0
    | ok j =>
      simp only
      refine inv_onClient h0 fun c hc hkn => ?_
      have hb := begins_init x req b (hK.nonempty _ c1) c (h0.plain.clients j c (Dict.get?_eq_some_mem hc))
      obtain ⟨a1, a2⟩ := Kept.safe_acts hK hk (safe_of_starts c1 c2 hb.db) hkn
      exact ⟨a1, a2, hb.conf⟩
  | finalize i r b => exact inv_onClient hi fun c _ hkn => finalizeClient_kept hK hk x i r b c hkn
  | getTokens s => exact inv_session hK hk hi (local_getTokens x s)
  | refresh s sc => exact inv_session hK hk hi (local_refresh x s sc)
  | userInfo s t => exact inv_session hK hk hi (local_userInfo x s t)
  | hasActive s => exact inv_session hK hk hi (s := s) (m := ask (hasActive x s)) (Frame.ask _)
  | validToken s => exact inv_session hK hk hi (s := s) (m := ask (validAccessToken x s)) (Frame.ask _)
  | logout s u => exact inv_session hK hk hi (local_logout x s u)
  | close s i u =>
    show Inv K k w (close x s i u h).2
    unfold close
    split
    · exact inv_local hK hk hi hc (local_logout x s u)
    · exact inv_session hK hk hi (local_logout x s u)
  | clear s =>
    show Inv K k w (clearSession s h).2
    unfold clearSession onSession
    cases hr : sessionIssuer h s with
    | error e => exact hi
    | ok i =>
      refine inv_onClient hi fun c _ hkn => ?_
      have := Kept.safe_step hK hk (.remove s) c.db hc hkn
      rw [Kept.step_snd_remove] at this
      exact ⟨this.1, this.2, rfl⟩
  | backchannel i info =>
    exact inv_onClient hi (j := i) (m := ask (backchannelLogout x info)) fun c _ hkn => ⟨hkn, SameStart.refl _ _, rfl⟩

/-- Every history keeps the invariant. -/
theorem inv_run (hK : KeySpace K) (hk : K k) : ∀ (l : List (Ext × Call)) {h : Handler}, Inv K k w h →
    (∀ xc ∈ l, CallOk K k xc) → (∀ i p q, w = some (i, p, q) → NeverReplaced i l h) → Inv K k w (run l h) := by
  intro l
  induction l with
  | nil => intro h hi _ _; exact hi
  | cons xc l ih =>
    intro h hi hc hrep
    have h1 := inv_exec hK hk hi xc (hc xc (by simp)) (fun i p q hw => (hrep i p q hw).1)
    exact ih h1 (fun y hy => hc y (by simp [hy])) (fun i p q hw => (hrep i p q hw).2)

/-- A handler without clients. -/
theorem inv_new (hn : h.issuer2rp = []) (hp : PlainHandler h) : Inv K k none h := by
  have hs : stores h = [] := by unfold stores; rw [hn]; rfl
  refine ⟨?_, hp, ?_, ?_, ?_⟩ <;> rw [hs]
  · simp [Dict.keys]
  · intro i db h; cases h
  · intro i p q h; cases h
  · intro j db h; cases h

/-- Resolution under the invariant. -/
theorem inv_resolves {i : String} {p q : Except Exc Obj} (hi : Inv K k (some (i, p, q)) h) (hne : i ≠ "") :
    sessionIssuer h k = .ok i := by
  obtain ⟨db, d1, d2, _⟩ := hi.here i p q rfl
  rw [sessionIssuer_stores]
  have hf : findIn k (stores h) = .ok (some (.str i)) := by
    refine findIn_one (by simp [Val.truthy, hne]) d2 (Dict.get?_eq_some_mem d1) fun pr hpr hne' => ?_
    have hg := Dict.get?_of_mem_nodup hi.nodup hpr
    refine hi.away pr.1 pr.2 hg fun i' p' q' hw e => ?_
    injection hw with hw
    injection hw with hw _
    subst hw
    obtain ⟨a, b⟩ := pr
    simp only at e hg
    subst e
    rw [d1] at hg
    injection hg with hg
    exact hne' (by rw [hg])
  rw [hf]
  simp only
  rw [if_pos]
  rw [Dict.has_eq, d1]
  rfl

end Handler
end Verif
