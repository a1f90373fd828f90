import Verif.Lemmas.Whence
import Verif.Props.FinalizeResult
/-!
# C105: a login is only completed if it was begun here
-/

namespace Verif.Props
open Verif Verif.Service Verif.Handler Verif.StateInterface Verif.Spec.Session Verif.Spec.HandlerView
open Verif.Spec.Store Verif.Spec.InFlight

/-! ## Specification -/

/-- The random session value a call draws. -/
def drawn : Ext × Call → Option String
  | (x, .begin _ _ _ _) => some (x.rnd "init_state")
  | _ => none

/-- Random session values, and those given to `close` together with an issuer, are of the form session values have. -/
def InSpace (K : String → Prop) : Ext × Call → Prop
  | (x, .begin _ _ _ _) => K (x.rnd "init_state")
  | (_, .close s _ _) => K s
  | _ => True

/-! ## Proofs -/

theorem elsewhere_of {K : String → Prop} {k : String} {xc : Ext × Call} (h : InSpace K xc) (hne : drawn xc ≠ some k) :
    NotDrawing K k xc := by
  obtain ⟨x, call⟩ := xc
  cases call with
  | begin issId user req b => exact ⟨h, fun e => hne (by simp [drawn, e])⟩
  | close s i u => exact h
  | _ => trivial

theorem find_drawn {k : String} : ∀ {l : List (Ext × Call)}, some k ∈ l.map drawn →
    ∃ before y name user req b after, l = before ++ (y, .begin name user req b) :: after ∧ y.rnd "init_state" = k ∧
      ∀ xc ∈ before, drawn xc ≠ some k := by
  intro l
  induction l with
  | nil => intro h; simp at h
  | cons xc l ih =>
    intro h
    by_cases e : drawn xc = some k
    · obtain ⟨x, call⟩ := xc
      cases call with
      | begin name user req b =>
        simp only [drawn, Option.some.injEq] at e
        exact ⟨[], x, name, user, req, b, l, rfl, e, by simp⟩
      | _ => simp [drawn] at e
    · have h' : some k ∈ l.map drawn := by
        simp only [List.map_cons, List.mem_cons] at h
        rcases h with h | h
        · exact absurd h.symm e
        · exact h
      obtain ⟨before, y, name, user, req, b, after, h1, h2, h3⟩ := ih h'
      refine ⟨xc :: before, y, name, user, req, b, after, by rw [h1]; rfl, h2, ?_⟩
      intro z hz
      rcases List.mem_cons.1 hz with rfl | hz
      · exact e
      · exact h3 z hz

theorem not_again {k : String} {before after : List (Ext × Call)} {y : Ext × Call} (hy : drawn y = some k)
    (hd : ((before ++ y :: after).filterMap drawn).Nodup) : ∀ xc ∈ after, drawn xc ≠ some k := by
  intro xc hx e
  rw [List.filterMap_append, List.filterMap_cons, hy] at hd
  have h1 := (List.nodup_append.1 hd).2.1
  rw [List.nodup_cons] at h1
  exact h1.1 (List.mem_filterMap.2 ⟨xc, hx, e⟩)

/-- Where the ID Token `finalize` returns comes from. -/
theorem idToken_origin {K : String → Prop} (hK : KeySpace K) {x : Ext} {resp b : Obj} {k : String} (hk : K k)
    {c c' : Client} {t : Val × Val} (h : getAccessAndIdToken x resp k b c = (.ok t, c')) :
    t.2 = .null ∨ Dict.get? resp "__verified_id_token" = some t.2 ∨ NonceBoundTo c.db k t.2 := by
  have hend : ∀ {t c'}, endpointTokens x k c = (.ok t, c') → t.2 = .null ∨ NonceBoundTo c.db k t.2 := by
    intro t c' h
    unfold endpointTokens at h
    obtain ⟨r, c1, h1, h2⟩ := Py.bind_eq_ok.1 h
    obtain ⟨a, c2, h3, h4⟩ := Py.bind_eq_ok.1 h2
    obtain ⟨i, c3, h5, h6⟩ := Py.bind_eq_ok.1 h4
    obtain ⟨h5, _⟩ := Py.lift_eq_ok.1 h5
    simp only [Py.pure_run, Prod.mk.injEq, Except.ok.injEq] at h6
    obtain ⟨rfl, _⟩ := h6
    rcases C17_get_tokens hK x k hk c with ⟨⟨e, he⟩, _⟩ | ⟨r', hr', _, _, hb⟩
    · rw [h1] at he; cases he
    · rw [h1] at hr'
      injection hr' with hr'
      subst hr'
      cases i with
      | none => left; rfl
      | some v =>
        right
        refine hb v ?_
        simp only [Resp.find, Except.ok.injEq] at h5
        exact h5
  unfold getAccessAndIdToken at h
  obtain ⟨rt, c1, h1, h2⟩ := Py.bind_eq_ok.1 h
  obtain rfl : c1 = c := (congrArg Prod.snd h1).symm
  obtain ⟨i, c2, h3, h4⟩ := Py.bind_eq_ok.1 h2
  obtain rfl : c2 = c1 := by
    split at h3 <;> exact (Py.lift_eq_ok.1 h3).2.symm
  have hi : i = .null ∨ Dict.get? resp "__verified_id_token" = some i := by
    split at h3
    · exact Or.inr (Dict.getItem_eq_ok.1 (Py.lift_eq_ok.1 h3).1)
    · have := (Py.lift_eq_ok.1 h3).1
      injection this with this; exact Or.inl this.symm
  split at h4
  · obtain ⟨a, c3, h5, h6⟩ := Py.bind_eq_ok.1 h4
    obtain ⟨_, rfl⟩ := Py.lift_eq_ok.1 h5
    split at h6
    · rcases hend h6 with h | h
      · exact Or.inl h
      · exact Or.inr (Or.inr h)
    · simp only [Py.pure_run, Prod.mk.injEq, Except.ok.injEq] at h6
      obtain ⟨rfl, _⟩ := h6
      rcases hi with h | h
      · exact Or.inl h
      · exact Or.inr (Or.inl h)
  · split at h4
    · rcases hend h4 with h | h
      · exact Or.inl h
      · exact Or.inr (Or.inr h)
    · simp only [Py.pure_run, Prod.mk.injEq, Except.ok.injEq] at h4
      obtain ⟨rfl, _⟩ := h4
      rcases hi with h | h
      · exact Or.inl h
      · exact Or.inr (Or.inl h)

/-- The ID Token a successful `finalize` returns has a nonce that is bound to the session, or came with the authorization
response and has the nonce, if any, of the session's request. -/
theorem finalize_nonce {K : String → Prop} (hK : KeySpace K) {x : Ext} {issuer : String} {response b : Obj} {h : Handler}
    {info st tok idt ss : Val} (hr : (finalize x issuer response b h).1 = .ok (.done info st tok idt ss)) :
    ∃ c k, Dict.get? h.issuer2rp issuer = some c ∧ st = .str k ∧ StartedWith c k issuer ∧
      (K k → ∀ o, idt = .obj o → o ≠ [] →
        NonceBoundTo c.db k idt ∨ ∃ req, getItem c.db "auth_request" k = .ok req ∧
          ∀ n, Dict.get? req "nonce" = some n → n.truthy = true → Dict.get? o "nonce" = some n) := by
  cases hc : Dict.get? h.issuer2rp issuer with
  | none =>
    unfold finalize at hr
    rw [onClient_unknown hc] at hr; cases hr
  | some c =>
  unfold finalize at hr
  rw [fst_onClient hc] at hr
  rcases finalizeAuth_cases x issuer response c with ⟨e, he⟩ | ⟨resp, hp, _, hcase⟩
  · rw [finalizeClient_error he] at hr; cases hr
  · rcases hcase with ⟨he, hf⟩ | ⟨he, k, sess, resp', h1, h2, h3, h4, h5⟩
    · rw [finalizeClient_isError hf he] at hr
      simp only at hr
      split at hr
      · injection hr with hr; cases hr
      · cases hr
    · have hst : Dict.get? resp' "state" = some (.str k) := by rw [withExpiry_get h4 (by decide)]; exact h1
      have herr : Msg.isError resp' = false := by rw [isError_withExpiry h4]; exact he
      have hrun : finalizeClient x issuer response b c = finalizeTokens x resp' k b
          { c with db := Dict.set c.db k (.doc (Dict.set sess "auth_response" (.obj resp'))) } := by
        unfold finalizeClient
        rw [Py.bind_ok h5, Py.lift_bind_ok (Dict.getItem_eq_ok.2 hst), if_neg (by rw [herr]; decide),
          Py.lift_bind_ok (show dbKey (.str k) = .ok k from rfl)]
      rw [hrun] at hr
      generalize hc1 : ({ c with db := Dict.set c.db k (.doc (Dict.set sess "auth_response" (.obj resp'))) } : Client) = c1 at hr
      rcases hfin : finalizeTokens x resp' k b c1 with ⟨r, c'⟩
      rw [hfin] at hr
      simp only at hr
      subst hr
      unfold finalizeTokens at hfin
      obtain ⟨t, c2, g1, g2⟩ := Py.bind_eq_ok.1 hfin
      obtain ⟨i, c3, g3, g4⟩ := Py.bind_eq_ok.1 g2
      obtain ⟨u1, c4, g5, g6⟩ := Py.bind_eq_ok.1 g4
      obtain ⟨u2, c5, g7, g8⟩ := Py.bind_eq_ok.1 g6
      simp only [Py.pure_run, Prod.mk.injEq, Except.ok.injEq, Final.done.injEq] at g8
      obtain ⟨⟨rfl, rfl, rfl, rfl, rfl⟩, rfl⟩ := g8
      refine ⟨c, k, rfl, rfl, getIss_of h2 h3, ?_⟩
      intro hk o ho hne
      have hindex : ∀ n, getStateByX c1.db n .nonce = getStateByX c.db n .nonce := by
        intro n
        rw [← hc1]
        unfold getStateByX
        rw [Dict.get?_set_ne _ _ (KeySpace.ne_index hK hk _ _)]
      rcases idToken_origin hK hk g1 with ht | ht | ht
      · rw [ht] at ho; cases ho
      · right
        rw [withExpiry_get h4 (by decide), ho] at ht
        obtain ⟨req, ⟨k', hk', hreq⟩, hn⟩ := C16_same_nonce x _ _ _ c c resp o hp he ht hne
        rw [h1] at hk'
        injection hk' with hk'
        injection hk' with hk'
        subst hk'
        exact ⟨req, hreq, hn⟩
      · left
        obtain ⟨d, n, d1, d2, d3⟩ := ht
        exact ⟨d, n, d1, d2, by rw [← hindex]; exact d3⟩

theorem run_concat : ∀ (l l' : List (Ext × Call)) (h : Handler), run (l ++ l') h = run l' (run l h) := by
  intro l
  induction l with
  | nil => intro l' h; rfl
  | cons xc l ih => intro l' h; exact ih l' _

/-- Calls of a handler without clients, other than `begin`, change nothing. -/
theorem run_without_clients : ∀ (l : List (Ext × Call)) {h : Handler}, h.issuer2rp = [] → (∀ xc ∈ l, drawn xc = none) →
    (run l h).issuer2rp = [] := by
  intro l
  induction l with
  | nil => intro h hn _; exact hn
  | cons xc l ih =>
    intro h hn hd
    refine ih ?_ (fun y hy => hd y (by simp [hy]))
    have hone : ∀ {α : Type} (i : String) (m : Py Client α), (onClient i m h).2.issuer2rp = [] := by
      intro α i m
      rw [onClient_unknown (by rw [hn]; rfl)]
      exact hn
    have hses : ∀ {α : Type} (s : String) (m : Py Client α), (onSession s m h).2.issuer2rp = [] := by
      intro α s m
      unfold onSession
      split
      · exact hn
      · exact hone _ _
    obtain ⟨x, call⟩ := xc
    have := hd (x, call) (by simp)
    cases call with
    | begin name user req b => simp [drawn] at this
    | finalize i r b => exact hone _ _
    | getTokens s => exact hses _ _
    | refresh s sc => exact hses _ _
    | userInfo s t => exact hses _ _
    | hasActive s => exact hses s (ask (hasActive x s))
    | validToken s => exact hses s (ask (validAccessToken x s))
    | logout s u => exact hses _ _
    | close s i u =>
      show (close x s i u h).2.issuer2rp = []
      unfold close
      split
      · exact hone _ _
      · exact hses _ _
    | clear s => exact hses s (onDB (removeState s))
    | backchannel i info => exact hone i (ask (backchannelLogout x info))

/-- The sessions of all clients have session values of the expected form. -/
theorem sound_run {K : String → Prop} (hK : KeySpace K) {k0 : String} (hk0 : K k0) : ∀ (l : List (Ext × Call)) {h : Handler},
    Whence K k0 (fun _ _ => True) h → (∀ xc ∈ l, InSpace K xc) → Whence K k0 (fun _ _ => True) (run l h) := by
  intro l
  induction l with
  | nil => intro h hi _; exact hi
  | cons xc l ih =>
    intro h hi hin
    refine ih ?_ (fun y hy => hin y (by simp [hy]))
    have hx := hin xc (by simp)
    by_cases hd : drawn xc = some k0
    · obtain ⟨x, call⟩ := xc
      cases call with
      | begin name user req b =>
        show Whence K k0 (fun _ _ => True) (begin_ x name user req b h).2
        unfold begin_
        rw [Py.bind_run]
        have h0 := hi.setup x name user b
        rcases hs : clientSetup x name user b h with ⟨r, g⟩
        rw [hs] at h0
        cases r with
        | error e => exact h0
        | ok j =>
          simp only
          cases hc : Dict.get? g.issuer2rp j with
          | none => rw [onClient_unknown hc]; exact h0
          | some c =>
            have hcs : Dict.get? (stores g) j = some c.db := by rw [get?_stores, hc]; rfl
            have hb := begins_init x req b (hK.nonempty _ hx) c (h0.plain.clients j c (Dict.get?_eq_some_mem hc))
            refine h0.set (known_starts hx hb.db (h0.known j _ hcs)) (fun _ _ => trivial) (plain_onClient h0.plain ?_)
              (stores_onClient hc)
            intro c' hc'
            rw [hc] at hc'
            injection hc' with hc'
            subst hc'
            exact hb.conf
      | _ => simp [drawn] at hd
    · exact whence_exec hK hk0 hi xc (elsewhere_of hx hd)

/-- A session that some client has, after any calls, has a session value of the expected form. -/
theorem session_in_space {K : String → Prop} (hK : KeySpace K) {h0 : Handler} (hnew : NewHandler h0)
    {calls : List (Ext × Call)} (hin : ∀ xc ∈ calls, InSpace K xc) {i : String} {db : DB} {k : String} {v : Val}
    (hd : Dict.get? (stores (run calls h0)) i = some db) (hv : getIss db k = .ok v) : K k := by
  by_cases hex : ∃ k0, K k0
  · obtain ⟨k0, hk0⟩ := hex
    exact (sound_run hK hk0 calls (Whence.new hnew.empty hnew.plain) hin).known i db hd k v hv
  · exfalso
    have hn : (run calls h0).issuer2rp = [] := by
      refine run_without_clients calls hnew.empty fun xc hx => ?_
      have := hin xc hx
      obtain ⟨x, call⟩ := xc
      cases call with
      | begin name user req b => exact absurd ⟨_, this⟩ hex
      | _ => rfl
    rw [get?_stores, hn] at hd
    cases hd

/-- A session that some client has, after any calls, was drawn by one of them. -/
theorem session_drawn {K : String → Prop} (hK : KeySpace K) {h0 : Handler} (hnew : NewHandler h0)
    {calls : List (Ext × Call)} (hin : ∀ xc ∈ calls, InSpace K xc) {i : String} {db : DB} {k : String} {v : Val}
    (hd : Dict.get? (stores (run calls h0)) i = some db) (hv : getIss db k = .ok v) : some k ∈ calls.map drawn := by
  by_cases hm : some k ∈ calls.map drawn
  · exact hm
  · exfalso
    have hk := session_in_space hK hnew hin hd hv
    have hw : Whence K k (fun _ _ => False) (run calls h0) :=
      whence_run hK hk calls (Whence.new hnew.empty hnew.plain) (fun xc hx => elsewhere_of (hin xc hx) (fun e =>
        hm (List.mem_map.2 ⟨xc, hx, e⟩)))
    exact hw.whence i db v hd hv

theorem nodup_stores {K : String → Prop} (hK : KeySpace K) {h0 : Handler} (hnew : NewHandler h0)
    {calls : List (Ext × Call)} (hin : ∀ xc ∈ calls, InSpace K xc) : (Dict.keys (stores (run calls h0))).Nodup := by
  by_cases hex : ∃ k0, K k0
  · obtain ⟨k0, hk0⟩ := hex
    exact (sound_run hK hk0 calls (Whence.new hnew.empty hnew.plain) hin).nodup
  · have hn : (run calls h0).issuer2rp = [] := by
      refine run_without_clients calls hnew.empty fun xc hx => ?_
      have := hin xc hx
      obtain ⟨x, call⟩ := xc
      cases call with
      | begin name user req b => exact absurd ⟨_, this⟩ hex
      | _ => rfl
    unfold stores
    rw [hn]
    simp [Dict.keys]

/-- **C105** (unknown sessions).  A handler is made and any calls are made.  A value that none of the `begin` calls drew as
session value does not resolve to any client: with it, every call for a session raises and changes nothing. -/
theorem C105_unknown_session {K : String → Prop} (hK : KeySpace K) (h0 : Handler) (hnew : NewHandler h0)
    (calls : List (Ext × Call)) (hin : ∀ xc ∈ calls, InSpace K xc) (s : String) (hs : ∀ xc ∈ calls, drawn xc ≠ some s)
    (x : Ext) (scope uri : String) (tok : Val) (call : Call)
    (hcall : call ∈ [Call.getTokens s, .refresh s scope, .userInfo s tok, .hasActive s, .validToken s, .logout s uri,
      .close s "" uri, .clear s]) :
    (∃ e, (exec x call (run calls h0)).1 = .error e) ∧ (exec x call (run calls h0)).2 = run calls h0 := by
  have hnone : ∃ e, sessionIssuer (run calls h0) s = .error e := by
    cases hr : sessionIssuer (run calls h0) s with
    | error e => exact ⟨e, rfl⟩
    | ok i =>
      exfalso
      obtain ⟨j, db, v, a1, a2⟩ := kept_of_resolved (nodup_stores hK hnew hin) hr
      obtain ⟨xc, hx, e⟩ := List.mem_map.1 (session_drawn hK hnew hin a1 a2)
      exact hs xc hx e
  obtain ⟨e, he⟩ := hnone
  have hses : ∀ {α : Type} (m : Py Client α), onSession s m (run calls h0) = (.error e, run calls h0) := by
    intro α m
    unfold onSession
    rw [he]
  have hret : ∀ {α : Type} (f : α → Ret) (m : Py Handler α), m (run calls h0) = (.error e, run calls h0) →
      (∃ e, (ret f m (run calls h0)).1 = .error e) ∧ (ret f m (run calls h0)).2 = run calls h0 := by
    intro α f m hm
    unfold ret
    rw [hm]
    exact ⟨⟨e, rfl⟩, rfl⟩
  simp only [List.mem_cons, List.not_mem_nil, or_false] at hcall
  rcases hcall with rfl | rfl | rfl | rfl | rfl | rfl | rfl | rfl
  · exact hret _ _ (hses _)
  · exact hret _ _ (hses _)
  · exact hret _ _ (hses _)
  · exact hret _ _ (hses _)
  · exact hret _ _ (hses _)
  · exact hret _ _ (hses _)
  · exact hret _ _ (hses _)
  · exact hret _ _ (hses _)

/-- **C105**.  A handler is made and any calls are made, with random session values that do not repeat.  If `finalize` then
completes a login, the login was begun here: there is exactly one `begin` that drew the session value, it was for the client
of this issuer; and if the `begin` returned, with a nonce of its own, the ID Token, if there is one, has that nonce. -/
theorem C105_login_was_begun {K : String → Prop} (hK : KeySpace K) (h0 : Handler) (hnew : NewHandler h0)
    (calls : List (Ext × Call)) (hin : ∀ xc ∈ calls, InSpace K xc) (hdist : (calls.filterMap drawn).Nodup)
    (x : Ext) (issuer : String) (response b : Obj) (info st tok idt ss : Val)
    (hr : (finalize x issuer response b (run calls h0)).1 = .ok (.done info st tok idt ss)) :
    ∃ k before y name user req b' after, st = .str k ∧ calls = before ++ (y, .begin name user req b') :: after ∧
      y.rnd "init_state" = k ∧ (∀ xc ∈ before ++ after, drawn xc ≠ some k) ∧
      (clientSetup y name user b' (run before h0)).1 = .ok issuer ∧
      ∀ url h1, begin_ y name user req b' (run before h0) = (.ok (url, k), h1) →
        (∀ c, Dict.get? h1.issuer2rp issuer = some c → NoNonceGiven c req) → y.rnd "init_nonce" ≠ "" →
        "nonce" ∉ (y.msg .authorization).spaced →
        ∀ o, idt = .obj o → o ≠ [] → Dict.get? o "nonce" = some (.str (y.rnd "init_nonce")) := by
  obtain ⟨c, k, hc, rfl, hst, hnonce⟩ := finalize_nonce hK hr
  have hcs : Dict.get? (stores (run calls h0)) issuer = some c.db := by rw [get?_stores, hc]; rfl
  have hk := session_in_space hK hnew hin hcs hst
  obtain ⟨before, y, name, user, req, b', after, rfl, hy, hbefore⟩ := find_drawn (session_drawn hK hnew hin hcs hst)
  have hafter := not_again (k := k) (y := (y, .begin name user req b')) (by simp [drawn, hy]) hdist
  have hin1 : ∀ xc ∈ before, NotDrawing K k xc := fun xc hx => elsewhere_of (hin xc (List.mem_append.2 (Or.inl hx))) (hbefore xc hx)
  have hin2 : ∀ xc ∈ after, NotDrawing K k xc := fun xc hx => elsewhere_of (hin xc (List.mem_append.2 (Or.inr (List.mem_cons_of_mem _ hx)))) (hafter xc hx)
  subst hy
  have w0 : Whence K (y.rnd "init_state") (fun _ _ => False) (run before h0) :=
    whence_run hK hk before (Whence.new hnew.empty hnew.plain) hin1
  have w1 := whence_begin hK (issId := name) (user := user) (req := req) (b := b') hk w0
  have w2 := whence_run hK hk after w1 hin2
  have hrun : run (before ++ (y, .begin name user req b') :: after) h0 = run after (begin_ y name user req b' (run before h0)).2 := by
    rw [run_concat]; rfl
  rw [hrun] at hcs
  obtain ⟨hset, c1, hc1, hreq⟩ := w2.whence issuer c.db _ hcs hst
  refine ⟨_, before, y, name, user, req, b', after, rfl, rfl, rfl, ?_, hset, ?_⟩
  · intro xc hx
    rcases List.mem_append.1 hx with hx | hx
    · exact hbefore xc hx
    · exact hafter xc hx
  · intro url h1 hbegin hgiven hn hsp o ho hne
    rw [hbegin] at hc1
    obtain ⟨i, c', r, a1, a2, a3, a4, a5, _⟩ := C67_sent_and_stored_partial hK (run before h0) h1 w0.plain y name user req b' url _ hk hbegin
    rw [hset] at a1
    injection a1 with a1
    subst a1
    rw [hc1] at a2
    injection a2 with a2
    subst a2
    have hg := hgiven c1 hc1
    rcases hnonce hk o ho hne with hb | ⟨areq, q1, q2⟩
    · have hq0 : AllQuiet (fun v => v = y.rnd "init_nonce") (y.rnd "init_state") (run before h0) := by
        refine quiet_run' (A := fun _ _ => False) hK hk before (Whence.new hnew.empty hnew.plain) hin1 ?_
        intro j db hd
        rw [get?_stores, hnew.empty] at hd
        cases hd
      have hgiven' : ∀ j g d, clientSetup y name user b' (run before h0) = (.ok j, g) → Dict.get? g.issuer2rp j = some d →
          NoNonceGiven d req := by
        intro j g d e1 e2
        obtain ⟨j', g', d', b1, b2, b3, b4⟩ := begin_ok hbegin
        have hpg := (clientSetup_cases y name user b' w0.plain).1
        rw [b1] at hpg
        rw [e1] at b1 hset
        injection b1 with b0 b1
        injection b0 with b0
        injection hset with hset
        subst b0 b1 hset
        rw [e2] at b2
        injection b2 with b2
        subst b2
        obtain ⟨bh, o1⟩ := onClient_client (m := initAuthorization y req b') e2
        rw [b4] at o1
        obtain ⟨hg1, hg2⟩ := hgiven _ o1
        obtain ⟨bh, hbh⟩ := (begins_init y req b' (hK.nonempty _ hk) d (hpg.clients j d (Dict.get?_eq_some_mem e2))).ctx
        unfold reBehaviour at hg2
        rw [hbh] at hg2
        exact ⟨hg1, hg2⟩
      have hq1 : AllQuiet (fun v => v = y.rnd "init_nonce") (y.rnd "init_state") (begin_ y name user req b' (run before h0)).2 :=
        quiet_begin hK w0.plain hq0 hk (fun _ => ⟨rfl, hn, hgiven'⟩)
      have hq2 := quiet_run' hK hk after w1 hin2 hq1
      obtain ⟨d, n, d1, d2, d3⟩ := hb
      rw [ho] at d1
      injection d1 with d1
      subst d1
      rw [d2]
      have hn' : n = y.rnd "init_nonce" := by
        refine (hq2 issuer c.db hcs).nonces n ?_
        unfold getStateByX at d3
        split at d3
        · next s hs =>
          split at d3
          · cases d3
          · injection d3 with d3
            injection d3 with d3
            subst d3
            exact hs
        · cases d3
        · cases d3
      rw [hn']
    · rw [hreq, a3] at q1
      injection q1 with q1
      subst q1
      refine q2 _ ?_ (by simp [Val.truthy, hn])
      rw [← Msg.ofDict_eq_withoutEmpty]
      refine Msg.get?_ofDict_some (a5 hg hn hsp).1 ?_
      rw [← Bool.not_eq_true, Msg.emptyVal_iff]
      simp [hn]

/-- What happened before: another login, and the one that is completed now. -/
def beginsBefore : List (Ext × Call) :=
  earlier ++ [(World.ext 1000 World.s1 "n1" "", .begin "https://op.example" "" [] []),
    (World.ext 1001 World.s2 "n2" "", .begin "https://op.example" "" [] [])]

theorem beginsBefore_in : ∀ xc ∈ beginsBefore, InSpace Spec.History.Generated xc := by
  intro xc h
  simp only [beginsBefore, earlier, List.cons_append, List.nil_append, List.mem_cons, List.not_mem_nil, or_false] at h
  rcases h with rfl | rfl | rfl | rfl
  · exact gen_s3
  · trivial
  · exact gen_s1
  · exact gen_s2

/-- The claims of the ID Token a completed login returns. -/
def idTokenOf : Except Exc Final → Option Obj
  | .ok (.done _ _ _ (.obj o) _) => some o
  | _ => none

/-- Non-vacuity of C105: the login is completed, with an ID Token that has the nonce of the session; with an ID Token of the
other session it is refused, and so is a response for a session that was not begun here. -/
example :
    NewHandler World.handler ∧ (∀ xc ∈ beginsBefore, InSpace Spec.History.Generated xc) ∧ (beginsBefore.filterMap drawn).Nodup ∧
    (idTokenOf (finalize (World.ext 1002 "" "" "n1") "https://op.example" codeResponse [] (run beginsBefore World.handler)).1).map
      (fun o => Dict.get? o "nonce") = some (some (.str "n1")) ∧
    (finalize (World.ext 1002 "" "" "n2") "https://op.example" codeResponse [] (run beginsBefore World.handler)).1.isOk = false ∧
    (finalize (World.ext 1002 "" "" "n1") "https://op.example" [("code", .str "c1"), ("state", .str "unknown")] []
      (run beginsBefore World.handler)).1.isOk = false ∧
    (∀ xc ∈ beginsBefore, drawn xc ≠ some "unknown") := by
  refine ⟨newWorld, beginsBefore_in, by decide +kernel, by decide +kernel, by decide +kernel, by decide +kernel, by decide +kernel⟩

end Verif.Props
