import Verif.Lemmas.Carried
import Verif.Lemmas.Requests
import Verif.Lemmas.World
import Verif.Props.Finalize
/-!
# C123: what a call asks of the provider
-/

namespace Verif.Props
open Verif Verif.Service Verif.Handler Verif.Spec.HandlerView Verif.Spec.InFlight

/-! ## Specification -/

/-- What a call may ask of the provider at most, in this order. -/
def budget : Call → List Srv
  | .begin _ _ _ _ => [.authorization]
  | .finalize _ _ _ => [.accesstoken, .userinfo]
  | .getTokens _ => [.accesstoken]
  | .refresh _ _ => [.refreshToken]
  | .userInfo _ _ => [.userinfo]
  | .hasActive _ | .validToken _ | .logout _ _ | .close _ _ _ | .clear _ | .backchannel _ _ => []

/-- The kinds of the requests. -/
def kinds (l : List Sent) : List Srv := l.map (·.srv)

/-! ## Proof -/

/-- No more was sent than `L`, each of it at most once, in this order. -/
def Sends (L : List Srv) (c c' : Client) : Prop := ∃ l, c'.log = c.log ++ l ∧ (kinds l).Sublist L

namespace Sends

theorem nothing (L : List Srv) {c c' : Client} (h : NoSend c c') : Sends L c c' := ⟨[], by rw [List.append_nil]; exact h, by simp [kinds]⟩

theorem bind {α β : Type} {L M : List Srv} {m : Py Client α} {f : α → Py Client β} (hm : Frame (Sends L) m)
    (hf : ∀ a, Frame (Sends M) (f a)) : Frame (Sends (L ++ M)) (m >>= f) := by
  intro c
  rw [Py.bind_run]
  obtain ⟨l, h1, h2⟩ := hm c
  rcases hr : m c with ⟨r, c1⟩
  rw [hr] at h1
  change c1.log = c.log ++ l at h1
  cases r with
  | error e => exact ⟨l, h1, h2.trans (List.sublist_append_left _ _)⟩
  | ok a =>
    obtain ⟨l', h3, h4⟩ := hf a c1
    exact ⟨l ++ l', by rw [← List.append_assoc, ← h1]; exact h3, by simpa [kinds] using h2.append h4⟩

theorem before {α β : Type} {L : List Srv} {m : Py Client α} {f : α → Py Client β} (hm : Frame NoSend m)
    (hf : ∀ a, Frame (Sends L) (f a)) : Frame (Sends L) (m >>= f) :=
  bind (L := []) (fun c => nothing _ (hm c)) hf

theorem after {α β : Type} {L : List Srv} {m : Py Client α} {f : α → Py Client β} (hm : Frame (Sends L) m)
    (hf : ∀ a, Frame NoSend (f a)) : Frame (Sends L) (m >>= f) := by
  have h := bind (M := []) hm fun a c => nothing [] (hf a c)
  rwa [List.append_nil] at h

theorem quiet {α : Type} {L : List Srv} {m : Py Client α} (hm : Frame NoSend m) : Frame (Sends L) m := fun c => nothing _ (hm c)

theorem less {α : Type} {L M : List Srv} {m : Py Client α} (h : L.Sublist M) (hm : Frame (Sends L) m) : Frame (Sends M) m := by
  intro c
  obtain ⟨l, h1, h2⟩ := hm c
  exact ⟨l, h1, h2.trans h⟩

theorem try_ {α : Type} {L : List Srv} {m : Py Client α} {g : Exc → Option (Py Client α)} (hm : Frame (Sends L) m)
    (hg : ∀ e k, g e = some k → Frame NoSend k) : Frame (Sends L) (Py.try_ m g) := by
  intro c
  unfold Py.try_
  obtain ⟨l, h1, h2⟩ := hm c
  rcases hr : m c with ⟨r, c1⟩
  rw [hr] at h1
  change c1.log = c.log ++ l at h1
  cases r with
  | ok a => exact ⟨l, h1, h2⟩
  | error e =>
    cases hk : g e with
    | none => simp only [hk]; exact ⟨l, h1, h2⟩
    | some k => simp only [hk]; exact ⟨l, Eq.trans (hg e k hk c1) h1, h2⟩

end Sends

theorem quiet_addCodeChallenge (x : Ext) (a : Obj) : Frame NoSend (addCodeChallenge x a) := by
  unfold addCodeChallenge
  refine Frame.bind Frame.read fun c => ?_
  refine Frame.ite (fun _ => Frame.raise _) (fun _ => ?_)
  exact Frame.bind (Frame.lift _) fun _ => Frame.bind (Frame.lift _) fun _ => Frame.bind (noSend_onDB _) fun _ => Frame.pure _

theorem quiet_pickRedirect (a : Obj) : Frame NoSend (pickRedirect a) := by
  unfold pickRedirect
  exact Frame.bind (Frame.ask _) fun _ => Frame.pure _

theorem quiet_preConstruct (x : Ext) (srv : Srv) (args kwargs : Obj) : Frame NoSend (preConstruct x srv args kwargs) := by
  cases srv <;> simp only [preConstruct] <;> first
    | exact Frame.pure _
    | exact Frame.bind (Frame.ask _) fun _ => Frame.pure _
    | exact Frame.bind (Frame.ask _) fun _ => Frame.bind (Frame.ask _) fun _ => Frame.pure _
    | exact Frame.bind (Frame.ask _) fun _ => Frame.bind Frame.read fun _ => Frame.bind (Frame.lift _) fun _ => Frame.pure _
    | skip
  · refine Frame.bind ?_ fun _ => Frame.bind (quiet_pickRedirect _) fun _ => Frame.bind Frame.read fun _ =>
      Frame.bind (Frame.lift _) fun _ => Frame.ite (fun _ => Frame.bind (quiet_addCodeChallenge _ _) fun _ => Frame.pure _)
        (fun _ => Frame.pure _)
    unfold setState
    exact Frame.bind (Frame.lift _) fun _ => Frame.bind Frame.read fun _ => Frame.bind (noSend_onDB _) fun _ => Frame.pure _
  · refine Frame.bind (Frame.ask _) fun _ => Frame.bind (Frame.ask _) fun _ => Frame.bind ?_ fun _ => Frame.pure _
    unfold addState
    exact Frame.bind (Frame.lift _) fun _ => Frame.bind (Frame.lift _) fun _ => Frame.bind (Frame.lift _) fun _ =>
      Frame.bind (noSend_onDB _) fun _ => Frame.pure _
  · exact Frame.bind Frame.read fun _ => Frame.bind (noSend_onCtx _) fun _ => Frame.bind Frame.read fun _ => Frame.pure _
  · exact Frame.bind (quiet_pickRedirect _) fun _ => Frame.bind (Frame.lift _) fun _ => Frame.bind Frame.read fun _ =>
      Frame.ite (fun _ => Frame.bind (quiet_addCodeChallenge _ _) fun _ => Frame.pure _) (fun _ => Frame.pure _)

/-- Making a request sends nothing, except for authorization requests that are pushed. -/
theorem quiet_getRequestParameters (x : Ext) {srv : Srv} (h1 : srv ≠ .authorization) (h2 : srv ≠ .oauth2Authorization) (args : Obj)
    (o : CallOpts) (kwargs : Obj) : Frame NoSend (getRequestParameters x srv args o kwargs) := by
  unfold getRequestParameters
  split
  · exact Frame.ask _
  · exact Frame.ask _
  · exact Frame.ask _
  · refine frame_buildRequest o (frame_construct args kwargs (fun _ => quiet_preConstruct _ _ _ _) fun req post => ?_)
    unfold postConstruct
    refine Frame.bind Frame.read fun c => ?_
    cases srv <;> simp only <;> first
      | contradiction
      | exact Frame.pure _
      | exact Frame.ite (fun _ => Frame.ask _) (fun _ => Frame.pure _)

theorem sends_push (x : Ext) (r : Obj) : Frame (Sends [.authorization]) (pushAuthorization x r) := by
  unfold pushAuthorization
  refine Sends.before Frame.read fun c => Sends.before (Frame.lift _) fun b => Sends.before (Frame.lift _) fun uv =>
    Sends.before (Frame.lift _) fun u => Sends.after ?_ fun _ => Frame.lift _
  intro c
  exact ⟨[_], rfl, by simp [kinds]⟩

theorem sends_authorization (x : Ext) (args : Obj) (o : CallOpts) (kwargs : Obj) :
    Frame (Sends [.authorization]) (getRequestParameters x .authorization args o kwargs) := by
  show Frame (Sends [.authorization]) (buildRequest x .authorization args o kwargs)
  unfold buildRequest
  refine Sends.before Frame.read fun c => Sends.before (Frame.ask _) fun _ => Sends.after ?_ fun _ =>
    Frame.bind (frame_getHeaders _ _ _ _ _ _) fun _ => Frame.ask _
  unfold construct
  refine Sends.before Frame.read fun c => Sends.before (quiet_preConstruct _ _ _ _) fun r => Sends.before (Frame.ask _) fun g => ?_
  unfold postConstruct
  refine Sends.before Frame.read fun c => Sends.before ?_ fun r => ?_
  · unfold authorizationPost bindNonce
    refine Frame.bind ?_ fun _ => ?_
    · refine Frame.bind (Frame.lift _) fun b => ?_
      refine Frame.ite (fun _ => ?_) (fun _ => Frame.pure _)
      exact Frame.bind (Frame.lift _) fun _ => Frame.bind (Frame.lift _) fun _ => Frame.bind (Frame.lift _) fun _ =>
        Frame.bind (Frame.lift _) fun _ => noSend_onDB _
    · exact Frame.bind (Frame.lift _) fun _ => Frame.bind (Frame.lift _) fun _ => Frame.bind (Frame.lift _) fun _ =>
        Frame.bind (noSend_onDB _) fun _ => Frame.ask _
  · split
    · exact sends_push _ _
    · exact Sends.quiet (Frame.pure _)

theorem sends_doRequest (x : Ext) {srv : Srv} (h1 : srv ≠ .authorization) (h2 : srv ≠ .oauth2Authorization) (args : Obj) (o : CallOpts)
    (kwargs : Obj) : Frame (Sends [srv]) (doRequest x srv args o kwargs) := by
  intro c
  rcases doRequest_log (quiet_getRequestParameters x h1 h2 args o kwargs) c with h | ⟨info, c1, _, h⟩
  · exact Sends.nothing _ h
  · exact ⟨[_], h, by simp [kinds, sentFor]⟩

theorem sends_init (x : Ext) (req b : Obj) : Frame (Sends [.authorization]) (initAuthorization x req b) := by
  unfold initAuthorization
  refine Sends.before (Frame.ask _) fun _ => Sends.before Frame.read fun c => Sends.before (noSend_onDB _) fun _ =>
    Sends.before (noSend_onDB _) fun _ => ?_
  split
  · exact Sends.quiet (Frame.raise _)
  · exact Sends.before (noSend_onCtx _) fun _ => Sends.after (sends_authorization _ _ _ _) fun _ => Frame.pure _

theorem sends_getTokens (x : Ext) (k : String) : Frame (Sends [.accesstoken]) (getTokens x k) := by
  unfold getTokens
  exact Sends.before (Frame.ask _) fun _ => Sends.before (Frame.ask _) fun _ =>
    Sends.after (sends_doRequest x (by decide) (by decide) _ _ _) fun _ => Frame.bind (Frame.lift _) fun _ => Frame.pure _

theorem sends_refresh (x : Ext) (k sc : String) : Frame (Sends [.refreshToken]) (refreshAccessToken x k sc) := by
  unfold refreshAccessToken
  exact Sends.before (Frame.ask _) fun _ =>
    Sends.after (sends_doRequest x (by decide) (by decide) _ _ _) fun _ => Frame.bind (Frame.lift _) fun _ => Frame.pure _

theorem sends_userInfo (x : Ext) (k : String) (t : Val) : Frame (Sends [.userinfo]) (getUserInfo x k t) := by
  unfold getUserInfo
  exact Sends.before (Frame.ask _) fun _ =>
    Sends.after (sends_doRequest x (by decide) (by decide) _ _ _) fun _ => Frame.bind (Frame.lift _) fun _ => Frame.pure _

theorem quiet_logout (x : Ext) (k u : String) : Frame NoSend (Handler.logout x k u) := by
  unfold Handler.logout
  exact Frame.bind Frame.read fun _ => Frame.ite (fun _ => Frame.raise _) fun _ =>
    quiet_getRequestParameters x (by decide) (by decide) _ _ _

theorem quiet_finalizeAuth (x : Ext) (issuer : String) (r : Obj) : Frame NoSend (finalizeAuth x issuer r) := by
  unfold finalizeAuth
  refine Frame.bind Frame.read fun _ => Frame.ite (fun _ => Frame.raise _) fun _ => ?_
  refine Frame.bind (frame_parseResponse _ _ fun _ => noSend_postParse _ _ _ _) fun _ => Frame.bind (Frame.lift _) fun _ => ?_
  refine Frame.ite (fun _ => Frame.pure _) fun _ => ?_
  exact Frame.bind (Frame.ask _) fun _ => Frame.bind (noSend_updateMsg _ _ _ _) fun _ => Frame.bind (noSend_onDB _) fun _ => Frame.pure _

theorem sends_finalize (x : Ext) (issuer : String) (r b : Obj) :
    Frame (Sends [.accesstoken, .userinfo]) (finalizeClient x issuer r b) := by
  unfold finalizeClient
  refine Sends.before (quiet_finalizeAuth _ _ _) fun _ => Sends.before (Frame.lift _) fun _ => ?_
  split
  · exact Sends.quiet (Frame.bind (Frame.lift _) fun _ => Frame.pure _)
  · refine Sends.before (Frame.lift _) fun k => ?_
    unfold finalizeTokens
    refine Sends.bind (L := [.accesstoken]) (M := [.userinfo]) ?_ fun t => Sends.after ?_ fun _ => Frame.bind ?_ fun _ =>
      Frame.bind ?_ fun _ => Frame.pure _
    · unfold getAccessAndIdToken
      have he : Frame (Sends [.accesstoken]) (endpointTokens x k) := by
        unfold endpointTokens
        exact Sends.after (sends_getTokens x k) fun _ => Frame.bind (Frame.lift _) fun _ => Frame.bind (Frame.lift _) fun _ => Frame.pure _
      refine Sends.before (Frame.ask _) fun rt => Sends.before (Frame.lift _) fun idt => ?_
      split
      · refine Sends.before (Frame.lift _) fun tok => ?_
        split
        · exact he
        · exact Sends.quiet (Frame.pure _)
      · split
        · exact he
        · exact Sends.quiet (Frame.pure _)
    · unfold collectUserInfo
      refine Sends.before Frame.read fun c => ?_
      split
      · exact Sends.after (sends_userInfo _ _ _) fun _ => Frame.pure _
      · refine Sends.quiet (Frame.ite (fun _ => ?_) fun _ => Frame.pure _)
        split
        · exact Frame.pure _
        · exact Frame.raise _
    · unfold bindSid
      refine Frame.bind Frame.read fun c => Frame.ite (fun _ => ?_) fun _ => Frame.pure _
      split
      · exact Frame.pure _
      · exact Frame.raise _
      · exact Frame.bind (Frame.lift _) fun _ => noSend_onDB _
    · unfold bindSub
      exact Frame.bind (Frame.lift _) fun _ => Frame.bind (Frame.lift _) fun _ => noSend_onDB _

instance : ShareRel NoSend where
  share _ _ c := by unfold sharedClient; split <;> rfl

/-- What was sent by the client kept as `i`. -/
def logOf (h : Handler) (i : String) : Option (List Sent) := (view h i).map Prod.snd

/-- The client kept as `i` has sent no more than `L`. -/
def Adds (L : List Srv) (i : String) (log : List Sent) (h' : Handler) : Prop :=
  ∃ l, logOf h' i = some (log ++ l) ∧ (kinds l).Sublist L

theorem logOf_of {h : Handler} {i : String} {c : Client} (hc : Dict.get? h.issuer2rp i = some c) : logOf h i = some c.log := by
  simp [logOf, view, hc]

theorem of_logOf {h : Handler} {i : String} {log : List Sent} (hl : logOf h i = some log) :
    ∃ c, Dict.get? h.issuer2rp i = some c ∧ c.log = log := by
  unfold logOf view at hl
  cases hc : Dict.get? h.issuer2rp i with
  | none => rw [hc] at hl; cases hl
  | some c => rw [hc] at hl; exact ⟨c, rfl, by simpa using hl⟩

theorem adds_onClient {α : Type} {L : List Srv} {i j : String} {log : List Sent} {h : Handler} {m : Py Client α}
    (hl : logOf h i = some log) (hm : Frame (Sends L) m) : Adds L i log (onClient j m h).2 := by
  cases hj : Dict.get? h.issuer2rp j with
  | none => rw [onClient_unknown hj]; exact ⟨[], by rw [List.append_nil]; exact hl, by simp [kinds]⟩
  | some d =>
    unfold Adds logOf
    rw [view_onClient hj]
    split
    · next e =>
      subst e
      rw [logOf_of hj] at hl
      injection hl with hl
      obtain ⟨l, h1, h2⟩ := hm d
      exact ⟨l, by simp [h1, hl], h2⟩
    · exact ⟨[], by rw [List.append_nil]; exact hl, by simp [kinds]⟩

theorem adds_onSession {α : Type} {L : List Srv} {i k : String} {log : List Sent} {h : Handler} {m : Py Client α}
    (hl : logOf h i = some log) (hm : Frame (Sends L) m) : Adds L i log (onSession k m h).2 := by
  unfold onSession
  cases hs : sessionIssuer h k with
  | error e => exact ⟨[], by rw [List.append_nil]; exact hl, by simp [kinds]⟩
  | ok j => exact adds_onClient hl hm

/-! ## C123 -/

/-- **C123** (one call).  In any call the client of a provider sends no more than what the call is there for: in this order and
each at most once.  The other calls send nothing.  Hypothesis: the call does not replace the client (`begin` for a provider found by
WebFinger can: C70). -/
theorem C123_call (x : Ext) (call : Call) (h : Handler) (i : String) (log : List Sent) (hl : logOf h i = some log)
    (hn : NotReplaced i h (x, call)) :
    ∃ l, logOf (exec x call h).2 i = some (log ++ l) ∧ (kinds l).Sublist (budget call) := by
  show Adds (budget call) i log (exec x call h).2
  cases call with
  | begin issId user req b =>
    show Adds _ i log (begin_ x issId user req b h).2
    obtain ⟨c, hc, rfl⟩ := of_logOf hl
    unfold begin_
    rw [Py.bind_run]
    have h0 : HasRel NoSend i c (clientSetup x issId user b h).2 := hasRel_setup x issId user b ⟨c, hc, rfl⟩ hn
    rcases hs : clientSetup x issId user b h with ⟨r, h1⟩
    rw [hs] at h0
    obtain ⟨c', e1, e2⟩ := h0
    have hl1 : logOf h1 i = some c.log := by rw [logOf_of e1]; exact congrArg some e2
    cases r with
    | error e => exact ⟨[], by rw [List.append_nil]; exact hl1, by simp [kinds]⟩
    | ok j => exact adds_onClient hl1 (sends_init x req b)
  | finalize j r b => exact adds_onClient hl (m := finalizeClient x j r b) (sends_finalize x j r b)
  | getTokens k => exact adds_onSession hl (sends_getTokens x k)
  | refresh k sc => exact adds_onSession hl (sends_refresh x k sc)
  | userInfo k t => exact adds_onSession hl (sends_userInfo x k t)
  | hasActive k => exact adds_onSession hl (m := ask (hasActive x k)) (Sends.quiet (Frame.ask _))
  | validToken k => exact adds_onSession hl (m := ask (validAccessToken x k)) (Sends.quiet (Frame.ask _))
  | logout k u => exact adds_onSession hl (Sends.quiet (quiet_logout x k u))
  | close k j u =>
    show Adds _ i log (close x k j u h).2
    unfold close
    split
    · exact adds_onClient hl (Sends.quiet (quiet_logout x k u))
    · exact adds_onSession hl (Sends.quiet (quiet_logout x k u))
  | clear k => exact adds_onSession hl (Sends.quiet (noSend_onDB _))
  | backchannel j info => exact adds_onClient hl (m := ask (backchannelLogout x info)) (Sends.quiet (Frame.ask _))

/-- **C123** (histories).  Whatever the calls, the sessions, the answers and failures: what the client of a provider sends in a
history is no more than what the calls are there for, one after the other. -/
theorem C123_history (l : List (Ext × Call)) (h : Handler) (i : String) (log : List Sent) (hl : logOf h i = some log)
    (hn : NeverReplaced i l h) :
    ∃ sent, logOf (run l h) i = some (log ++ sent) ∧ (kinds sent).Sublist (l.flatMap fun xc => budget xc.2) := by
  induction l generalizing h log with
  | nil => exact ⟨[], by rw [List.append_nil]; exact hl, by simp [kinds]⟩
  | cons xc l ih =>
    obtain ⟨a, a1, a2⟩ := C123_call xc.1 xc.2 h i log hl hn.1
    obtain ⟨b, b1, b2⟩ := ih _ _ a1 hn.2
    refine ⟨a ++ b, by rw [← List.append_assoc]; exact b1, ?_⟩
    simpa [kinds] using a2.append b2

/-- The calls that may send a request of the kind. -/
def allows (s : Srv) (xc : Ext × Call) : Bool := decide (s ∈ budget xc.2)

theorem count_budget (s : Srv) (call : Call) : (budget call).count s = if s ∈ budget call then 1 else 0 := by
  cases call <;> cases s <;> rfl

/-- **C123** (counting).  There are no more requests of a kind than calls that are there for it: no more token requests than
`finalize` and `get_tokens`, no more refresh requests than `refresh_access_token`, and so on. -/
theorem C123_count (l : List (Ext × Call)) (h : Handler) (i : String) (log : List Sent) (hl : logOf h i = some log)
    (hn : NeverReplaced i l h) (s : Srv) :
    ∃ sent, logOf (run l h) i = some (log ++ sent) ∧ (sent.filter (fun r => decide (r.srv = s))).length ≤ (l.filter (allows s)).length := by
  obtain ⟨sent, h1, h2⟩ := C123_history l h i log hl hn
  refine ⟨sent, h1, ?_⟩
  have e1 : (sent.filter (fun r => decide (r.srv = s))).length = (kinds sent).count s := by
    unfold kinds
    rw [List.count_eq_countP, List.countP_map, List.countP_eq_length_filter]
    congr 1
  have e2 : (l.filter (allows s)).length = (l.flatMap fun xc => budget xc.2).count s := by
    clear hl hn h1 h2 e1
    induction l with
    | nil => rfl
    | cons xc l ih =>
      rw [List.flatMap_cons, List.count_append, count_budget, ← ih, List.filter_cons]
      unfold allows
      split
      · next e => rw [if_pos (by simpa using e)]; simp; omega
      · next e => rw [if_neg (by simpa using e)]; simp
  rw [e1, e2]
  exact h2.count_le s

theorem sends_providerInfo (x : Ext) : Frame (Sends [.providerInfo]) (doProviderInfo x) := by
  unfold doProviderInfo dynamicDiscovery
  refine Sends.before Frame.read fun c => ?_
  split
  · refine Sends.after ?_ fun _ => Frame.bind (Frame.ask _) fun _ => Frame.lift _
    exact Sends.before (noSend_onCtx _) fun _ => Sends.after (sends_doRequest x (by decide) (by decide) _ _ _) fun _ => Frame.lift _
  · exact Sends.quiet (Frame.bind (noSend_onCtx _) fun _ => Frame.bind (Frame.lift _) fun _ => Frame.lift _)

theorem sends_register (x : Ext) (b : Obj) : Frame (Sends [.registration]) (register x b) := by
  unfold register loadRegistration
  refine Sends.before Frame.read fun c => ?_
  split
  · refine Sends.after (Sends.try_ (sends_doRequest x (by decide) (by decide) _ _ _) fun e k h => ?_) fun _ => Frame.lift _
    split at h
    · injection h with h; subst h; exact Frame.raise _
    · cases h
  · exact Sends.quiet (Frame.pure _)

theorem logOf_onNew {α : Type} (d : Client) (m : Py Client α) (h : Handler) (i : String) : logOf (onNew d m h).2 i = logOf h i := by
  unfold onNew logOf
  rw [view_share]

theorem logOf_initClient (x : Ext) (issuer : String) (h : Handler) (i : String) : logOf (initClient x issuer h).2 i = logOf h i := by
  unfold initClient
  split
  · rfl
  · split <;> rfl

theorem initClient_log {x : Ext} {issuer : String} {h h' : Handler} {d : Client} (hi : initClient x issuer h = (.ok d, h')) : d.log = [] := by
  unfold initClient at hi
  split at hi
  · injection hi with hi _; injection hi with hi; subst hi; rfl
  · split at hi
    · cases hi
    · injection hi with hi _; injection hi with hi; subst hi; rfl

theorem onNew_ok {α : Type} {d : Client} {m : Py Client α} {h h' : Handler} {r : α × Client} (e : onNew d m h = (.ok r, h')) :
    r.2 = (m d).2 := by
  unfold onNew at e
  injection e with e _
  cases hr : (m d).1 with
  | error e' => rw [hr] at e; cases e
  | ok a => rw [hr] at e; injection e with e; rw [← e]

theorem Sends.kinds {L M : List Srv} {c c' : Client} (h : Sends M c c') (hc : (kinds c.log).Sublist L) :
    (Props.kinds c'.log).Sublist (L ++ M) := by
  obtain ⟨l, h1, h2⟩ := h
  rw [h1]
  simpa [Props.kinds] using hc.append h2

theorem adopt_kinds {x : Ext} {d : Client} {issId : String} {b : Obj} {h : Handler} {L : List Srv} (hd : (kinds d.log).Sublist L)
    {i : String} {log : List Sent} (hl : logOf (adopt x d issId b h).2 i = some log) :
    logOf h i = some log ∨ (kinds log).Sublist (L ++ [.providerInfo] ++ [.registration]) := by
  unfold adopt at hl
  rw [Py.bind_run] at hl
  have g1 := logOf_onNew d (doProviderInfo x) h i
  rcases hr : onNew d (doProviderInfo x) h with ⟨r, h1⟩
  rw [hr] at hl g1
  cases r with
  | error e => exact Or.inl (g1.symm.trans hl)
  | ok r =>
    simp only [Py.modify_bind_run] at hl
    have k1 := (sends_providerInfo x d).kinds hd
    rw [← onNew_ok hr] at k1
    rw [Py.bind_run] at hl
    have g2 := logOf_onNew r.2 (register x b) { h1 with hash2issuer := Dict.set h1.hash2issuer issId r.2.ctx.issuer } i
    rcases hs : onNew r.2 (register x b) { h1 with hash2issuer := Dict.set h1.hash2issuer issId r.2.ctx.issuer } with ⟨s, h2⟩
    rw [hs] at hl g2
    have g3 : logOf h2 i = logOf h i := g2.trans g1
    cases s with
    | error e => exact Or.inl (g3.symm.trans hl)
    | ok s =>
      simp only [Py.modify_bind_run, Py.pure_run] at hl
      have k2 := (sends_register x b r.2).kinds k1
      rw [← onNew_ok hs] at k2
      unfold logOf view at hl
      simp only [Dict.get?_set] at hl
      split at hl
      · right
        simp only [Option.map_some] at hl
        injection hl with hl
        rw [← hl]
        exact k2
      · exact Or.inl (g3.symm.trans hl)

theorem setup_kinds {x : Ext} {issId user : String} {b : Obj} {h : Handler} {i : String} {log : List Sent}
    (hl : logOf (clientSetup x issId user b h).2 i = some log) :
    logOf h i = some log ∨ (kinds log).Sublist [.webfinger, .providerInfo, .registration] := by
  unfold clientSetup at hl
  split at hl
  · exact Or.inl hl
  · split at hl
    · unfold doWebfinger at hl
      rw [Py.bind_run, Py.bind_run] at hl
      have g1 := logOf_initClient x "" h i
      rcases hr : initClient x "" h with ⟨r, h1⟩
      rw [hr] at hl g1
      cases r with
      | error e => exact Or.inl (g1.symm.trans hl)
      | ok d =>
        simp only at hl
        rw [Py.bind_run] at hl
        have g2 := logOf_onNew d (doRequest x .webfinger [] {} [("resource", .str user)]) h1 i
        rcases hs : onNew d (doRequest x .webfinger [] {} [("resource", .str user)]) h1 with ⟨s, h2⟩
        rw [hs] at hl g2
        have g3 : logOf h2 i = logOf h i := g2.trans g1
        cases s with
        | error e => exact Or.inl (g3.symm.trans hl)
        | ok s =>
          simp only [Py.pure_run, Py.read_bind_run] at hl
          split at hl
          · exact Or.inl (g3.symm.trans hl)
          · have k1 := (sends_doRequest x (srv := .webfinger) (by decide) (by decide) [] {} [("resource", .str user)] d).kinds (L := [])
              (by rw [initClient_log hr]; simp [kinds])
            rw [← onNew_ok hs] at k1
            rcases adopt_kinds k1 hl with k | k
            · exact Or.inl (g3.symm.trans k)
            · exact Or.inr k
    · rw [Py.read_bind_run] at hl
      split at hl
      · exact Or.inl hl
      · rw [Py.bind_run] at hl
        have g1 := logOf_initClient x issId h i
        rcases hr : initClient x issId h with ⟨r, h1⟩
        rw [hr] at hl g1
        cases r with
        | error e => exact Or.inl (g1.symm.trans hl)
        | ok d =>
          rcases adopt_kinds (L := []) (by rw [initClient_log hr]; simp [kinds]) hl with k | k
          · exact Or.inl (g1.symm.trans k)
          · exact Or.inr (k.trans (by decide))

/-- **C123** (beginning).  `begin` may have to find the provider, ask for its metadata and register: the client it makes has sent
at most one request for each, and at most one pushed authorization request.  Every other client, and the one found in place, sends
at most the pushed request. -/
theorem C123_begin (x : Ext) (issId user : String) (req b : Obj) (h : Handler) (i : String) (log' : List Sent)
    (hl : logOf (exec x (.begin issId user req b) h).2 i = some log') :
    (∃ log l, logOf h i = some log ∧ log' = log ++ l ∧ (kinds l).Sublist [.authorization]) ∨
    (kinds log').Sublist [.webfinger, .providerInfo, .registration, .authorization] := by
  have hrun : logOf (begin_ x issId user req b h).2 i = some log' := hl
  unfold begin_ at hrun
  rw [Py.bind_run] at hrun
  have key : ∀ log, logOf (clientSetup x issId user b h).2 i = some log → ∀ l, log' = log ++ l → (kinds l).Sublist [.authorization] →
      (∃ log l, logOf h i = some log ∧ log' = log ++ l ∧ (kinds l).Sublist [.authorization]) ∨
      (kinds log').Sublist [.webfinger, .providerInfo, .registration, .authorization] := by
    intro log h1 l h2 h3
    rcases setup_kinds h1 with k | k
    · exact Or.inl ⟨log, l, k, h2, h3⟩
    · right
      rw [h2]
      simpa [kinds] using k.append h3
  rcases hs : clientSetup x issId user b h with ⟨r, h1⟩
  rw [hs] at hrun key
  cases r with
  | error e => exact key log' hrun [] (by simp) (by simp [kinds])
  | ok j =>
    simp only at hrun
    cases h2 : logOf h1 i with
    | none =>
      exfalso
      cases hj : Dict.get? h1.issuer2rp j with
      | none => rw [onClient_unknown hj] at hrun; exact absurd (h2.symm.trans hrun) (by simp)
      | some d =>
        unfold logOf at hrun
        rw [view_onClient hj] at hrun
        split at hrun
        · next e => subst e; rw [logOf_of hj] at h2; cases h2
        · exact absurd (h2.symm.trans hrun) (by simp)
    | some log =>
      obtain ⟨l, h3, h4⟩ := adds_onClient (j := j) h2 (sends_init x req b)
      rw [h3] at hrun
      injection hrun with hrun
      exact key log h2 l hrun.symm h4

/-! ## Examples -/

/-- The requests of a history. -/
def kindsAt (h : Handler) (i : String) : List Srv := ((logOf h i).map kinds).getD []

/-- A login, a refresh and a logout. -/
def visit : List (Ext × Call) :=
  [(World.ext 1000 World.s1 "n1" "n1", .begin "https://op.example" "" [] []),
   (World.ext 1001 "" "" "n1", .finalize "https://op.example" [("code", .str "c1"), ("state", .str World.s1)] []),
   (World.ext 1002 "" "" "n1", .refresh World.s1 ""),
   (World.ext 1003 "" "" "n1", .hasActive World.s1),
   (World.ext 1004 "" "" "n1", .logout World.s1 "")]

set_option maxRecDepth 100000 in
/-- Non-vacuity of C123: what is allowed is what is sent. -/
example : kindsAt (run (visit.take 1) World.handler) "https://op.example" = [.providerInfo, .registration] ∧
    kindsAt (run visit World.handler) "https://op.example" = [.providerInfo, .registration, .accesstoken, .userinfo, .refreshToken] := by
  constructor <;> decide +kernel

set_option maxRecDepth 100000 in
example : NeverReplaced "https://op.example" (visit.drop 1) (run (visit.take 1) World.handler) ∧
    (logOf (run (visit.take 1) World.handler) "https://op.example").isSome = true :=
  ⟨⟨trivial, trivial, trivial, trivial, trivial⟩, by decide +kernel⟩

end Verif.Props
