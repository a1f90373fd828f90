import Verif.Lemmas.Finalize
import Verif.Lemmas.World
import Verif.Spec.Handler
import Verif.Props.TokenRequest
import Verif.Props.Logout
import Verif.Props.Userinfo
import Verif.Props.Store
/-!
# C13, C14, C15, C18, C19: accepting an authorization response
-/

namespace Verif.Props
open Verif Verif.Service Verif.Handler Verif.StateInterface Verif.Spec.HandlerView

/-! ## A call at one client -/

theorem view_share (cfg : String) (b : Obj) (h : Handler) (i : String) : view (share cfg b h) i = view h i := by
  have := congrArg (Option.map (fun t : DB × List Sent × List Srv => (t.1, t.2.1))) (share_db cfg b h i)
  simpa only [Option.map_map, Function.comp_def, view] using this

/-- What a call at the client of an issuer does to what can be seen. -/
theorem view_onClient {α : Type} {issuer : String} {m : Py Client α} {h : Handler} {c : Client}
    (hc : Dict.get? h.issuer2rp issuer = some c) (i : String) :
    view (onClient issuer m h).2 i = if i = issuer then some ((m c).2.db, (m c).2.log) else view h i := by
  unfold onClient
  rw [hc]
  simp only [view_share]
  unfold view
  split
  · next e => subst e; simp
  · next e => simp only [Dict.get?_set_ne _ _ (Ne.symm e)]

theorem fst_onClient {α : Type} {issuer : String} {m : Py Client α} {h : Handler} {c : Client}
    (hc : Dict.get? h.issuer2rp issuer = some c) : (onClient issuer m h).1 = (m c).1 := by
  unfold onClient; rw [hc]

theorem onClient_unknown {α : Type} {issuer : String} {m : Py Client α} {h : Handler}
    (hc : Dict.get? h.issuer2rp issuer = none) : onClient issuer m h = (.error .keyError, h) := by
  unfold onClient; rw [hc]

theorem untouched_onClient {α : Type} {issuer : String} {m : Py Client α} {h : Handler} {c : Client}
    (hc : Dict.get? h.issuer2rp issuer = some c) (h1 : (m c).2.db = c.db) (h2 : (m c).2.log = c.log) :
    Untouched h (onClient issuer m h).2 := by
  intro i
  rw [view_onClient hc, h1, h2]
  split
  · next e => subst e; simp [view, hc]
  · rfl

/-! ## Properties -/

/-- The authorization response as the client parsed and verified it. -/
def ParsedAs (x : Ext) (c : Client) (response resp : Obj) : Prop :=
  (parseResponse x .authorization (.dict response) "dict" "" c).1 = .ok (.msg resp)

theorem parsedAs_iff {x : Ext} {c : Client} {response resp : Obj} : ParsedAs x c response resp ↔
    parseResponse x .authorization (.dict response) "dict" "" c = (.ok (.msg resp), c) := by
  have := same_parse_authorization x (.dict response) "dict" "" c
  unfold ParsedAs
  constructor
  · intro h; exact Prod.ext h this
  · intro h; rw [h]

/-- Session `k` of the client was started with the provider `issuer`. -/
def StartedWith (c : Client) (k issuer : String) : Prop := getIss c.db k = .ok (.str issuer)

theorem finalizeClient_error {x : Ext} {issuer : String} {response b : Obj} {c : Client} {e : Exc}
    (h : finalizeAuth x issuer response c = (.error e, c)) :
    finalizeClient x issuer response b c = (.error e, c) := by
  unfold finalizeClient; rw [Py.bind_error h]

theorem finalizeClient_isError {x : Ext} {issuer : String} {response b resp : Obj} {c : Client}
    (h : finalizeAuth x issuer response c = (.ok resp, c)) (he : Msg.isError resp = true) :
    finalizeClient x issuer response b c =
      (match Dict.get? resp "state", Dict.get? resp "error" with
       | some s, some e => .ok (.error s e)
       | _, _ => .error .keyError, c) := by
  unfold finalizeClient
  rw [Py.bind_ok h]
  cases hs : Dict.get? resp "state" with
  | none =>
    have e1 : Dict.getItem resp "state" = .error .keyError := by simp [Dict.getItem, hs]
    rw [Py.lift_bind_error e1]
  | some s =>
    have e1 : Dict.getItem resp "state" = .ok s := by simp [Dict.getItem, hs]
    rw [Py.lift_bind_ok e1, if_pos he]
    cases hr : Dict.get? resp "error" with
    | none => simp [Msg.isError, Dict.has_eq, hr] at he
    | some v =>
      have e2 : Dict.getItem resp "error" = .ok v := by simp [Dict.getItem, hr]
      rw [Py.lift_bind_ok e2]
      rfl

/-- **C13**.  `finalize` leaves every session of every client alone and sends nothing, and raises or reports
an error response; or the response, as parsed and verified, is no error response and names a session that
the client of the issuer has, and that was started with this very issuer. -/
theorem C13_only_for_its_issuer (x : Ext) (issuer : String) (response b : Obj) (h : Handler) :
    (Untouched h (finalize x issuer response b h).2 ∧
      ((∃ e, (finalize x issuer response b h).1 = .error e) ∨
       (∃ s e, (finalize x issuer response b h).1 = .ok (.error s e)))) ∨
    (∃ c resp k, Dict.get? h.issuer2rp issuer = some c ∧ ParsedAs x c response resp ∧
      Dict.has resp "error" = false ∧ Dict.get? resp "state" = some (.str k) ∧ StartedWith c k issuer) := by
  unfold finalize
  cases hc : Dict.get? h.issuer2rp issuer with
  | none => left; rw [onClient_unknown hc]; exact ⟨fun _ => rfl, Or.inl ⟨_, rfl⟩⟩
  | some c =>
    rcases finalizeAuth_cases x issuer response c with ⟨e, he⟩ | ⟨resp, hp, _, hcase⟩
    · left
      have hf := finalizeClient_error (b := b) he
      refine ⟨untouched_onClient hc (by rw [hf]) (by rw [hf]), Or.inl ⟨e, ?_⟩⟩
      rw [fst_onClient hc, hf]
    · rcases hcase with ⟨he, hf⟩ | ⟨he, k, st, resp', h1, h2, h3, h4, h5⟩
      · left
        have hf := finalizeClient_isError (b := b) hf he
        refine ⟨untouched_onClient hc (by rw [hf]) (by rw [hf]), ?_⟩
        rw [fst_onClient hc, hf]
        simp only
        split
        · exact Or.inr ⟨_, _, rfl⟩
        · exact Or.inl ⟨_, rfl⟩
      · right
        exact ⟨c, resp, k, rfl, parsedAs_iff.2 hp, he, h1, getIss_of h2 h3⟩

/-- **C13** (other providers).  `finalize` never touches the sessions of the clients of other issuers. -/
theorem C13_other_clients (x : Ext) (issuer : String) (response b : Obj) (h : Handler) (i : String)
    (hi : i ≠ issuer) : view (finalize x issuer response b h).2 i = view h i := by
  unfold finalize
  cases hc : Dict.get? h.issuer2rp issuer with
  | none => rw [onClient_unknown hc]
  | some c => rw [view_onClient hc, if_neg hi]

/-- **C13** (refusal).  A response for a session that was started with another issuer is refused. -/
theorem C13_other_issuer_refused (x : Ext) (issuer : String) (response b resp : Obj) (h : Handler) (c : Client)
    (k : String) (i : Val) (hc : Dict.get? h.issuer2rp issuer = some c) (hp : ParsedAs x c response resp)
    (he : Dict.has resp "error" = false) (hs : Dict.get? resp "state" = some (.str k))
    (hi : getIss c.db k = .ok i) (hne : i ≠ .str issuer) :
    (∃ e, (finalize x issuer response b h).1 = .error e) ∧ Untouched h (finalize x issuer response b h).2 := by
  have hfa : ∃ e, finalizeAuth x issuer response c = (.error e, c) := by
    rcases finalizeAuth_cases x issuer response c with h' | ⟨resp0, hp0, _, hcase⟩
    · exact h'
    · rw [parsedAs_iff, hp0] at hp
      obtain rfl : resp0 = resp := by simpa using hp
      rcases hcase with ⟨he', _⟩ | ⟨_, k', st, resp', h1, h2, h3, h4, h5⟩
      · rw [Msg.isError, he] at he'; cases he'
      · rw [hs] at h1
        obtain rfl : k = k' := by simpa using h1
        rw [getIss_of h2 h3] at hi
        injection hi with hi
        exact absurd hi.symm hne
  obtain ⟨e, hfa⟩ := hfa
  have hf := finalizeClient_error (b := b) hfa
  unfold finalize
  exact ⟨⟨e, by rw [fst_onClient hc, hf]⟩, untouched_onClient hc (by rw [hf]) (by rw [hf])⟩

/-- The response names no session of the client: no state, or one that is not in the store. -/
def NoSession (c : Client) (resp : Obj) : Prop :=
  Dict.get? resp "state" = none ∨
  ∃ k, Dict.get? resp "state" = some (.str k) ∧ getState c.db k = .error .keyError

/-- **C14**.  A response that is no error response and has no state, or a state the client has no session for,
makes `finalize` raise; nothing is sent and no session changes. -/
theorem C14_unknown_state_refused (x : Ext) (issuer : String) (response b : Obj) (h : Handler)
    (hno : ∀ c resp, Dict.get? h.issuer2rp issuer = some c → ParsedAs x c response resp →
      Dict.has resp "error" = false ∧ NoSession c resp) :
    (∃ e, (finalize x issuer response b h).1 = .error e) ∧ Untouched h (finalize x issuer response b h).2 := by
  unfold finalize
  cases hc : Dict.get? h.issuer2rp issuer with
  | none => rw [onClient_unknown hc]; exact ⟨⟨_, rfl⟩, fun _ => rfl⟩
  | some c =>
    have hfa : ∃ e, finalizeAuth x issuer response c = (.error e, c) := by
      rcases finalizeAuth_cases x issuer response c with h' | ⟨resp, hp, _, hcase⟩
      · exact h'
      · obtain ⟨hne, hns⟩ := hno c resp hc (parsedAs_iff.2 hp)
        rcases hcase with ⟨he', _⟩ | ⟨_, k', st, resp', h1, h2, h3, h4, h5⟩
        · rw [Msg.isError, hne] at he'; cases he'
        · rcases hns with hns | ⟨k, hk, hg⟩
          · rw [hns] at h1; cases h1
          · rw [hk] at h1
            obtain rfl : k = k' := by simpa using h1
            rw [hg] at h2; cases h2
    obtain ⟨e, hfa⟩ := hfa
    have hf := finalizeClient_error (b := b) hfa
    exact ⟨⟨e, by rw [fst_onClient hc, hf]⟩, untouched_onClient hc (by rw [hf]) (by rw [hf])⟩

/-- **C14** (cleared sessions).  After any history of the store that ended with the removal of a session, a
response for that session is one the client has no session for. -/
theorem C14_cleared_is_unknown {K : String → Prop} (hK : Spec.Store.KeySpace K) (ops : List Op)
    (hops : ∀ op ∈ ops, Spec.Store.OpOk K op) (k : String) (hk : K k) (c : Client) (resp : Obj)
    (hdb : c.db = (step (.remove k) (dbAfter ops)).2) (hs : Dict.get? resp "state" = some (.str k)) :
    NoSession c resp :=
  Or.inr ⟨k, hs, by rw [hdb]; exact C06_record_gone hK ops hops k hk⟩

/-- **C15**.  An error response changes no session and sends nothing; state and error are returned, and if it
has no state the exception is `KeyError`. -/
theorem C15_error_response (x : Ext) (issuer : String) (response b resp : Obj) (h : Handler) (c : Client)
    (hs : .authorization ∈ c.services)
    (hc : Dict.get? h.issuer2rp issuer = some c) (hp : ParsedAs x c response resp)
    (err : Val) (he : Dict.get? resp "error" = some err) :
    Untouched h (finalize x issuer response b h).2 ∧
    (∀ s, Dict.get? resp "state" = some s → (finalize x issuer response b h).1 = .ok (.error s err)) ∧
    (Dict.get? resp "state" = none → (finalize x issuer response b h).1 = .error .keyError) := by
  have hie : Msg.isError resp = true := by simp [Msg.isError, Dict.has_eq, he]
  have hfa : finalizeAuth x issuer response c = (.ok resp, c) := by
    rw [parsedAs_iff] at hp
    unfold finalizeAuth
    rw [Py.read_bind_run, if_neg (by simpa using hs), Py.bind_ok hp,
      Py.lift_bind_ok (show asMsg (.msg resp) = .ok resp from rfl), if_pos hie]
    rfl
  have hf := finalizeClient_isError (b := b) hfa hie
  unfold finalize
  refine ⟨untouched_onClient hc (by rw [hf]) (by rw [hf]), ?_, ?_⟩
  · intro s hs'
    rw [fst_onClient hc, hf, hs', he]
  · intro hs'
    rw [fst_onClient hc, hf, hs']

/-! ## Examples -/

/-- The handler after a session was started. -/
def started : Handler :=
  (exec (World.ext 1000 World.s1 "n1" "n1") (.begin "https://op.example" "" [] []) World.handler).2

/-- An authorization response for that session. -/
def codeResponse : Obj := [("code", .str "c1"), ("state", .str World.s1)]

/-- A client of another provider that knows a session of its own under the same state. -/
def confused : Handler :=
  { started with issuer2rp := started.issuer2rp ++ [("https://other.example", { services := World.services, db := [(World.s1, .doc [("iss", .str "https://op.example")])] })] }

/-- Non-vacuity of C13, C14, C15: a response that is accepted; one for another issuer; an unknown state; no
state; an error response with and without state. -/
example :
    (finalize (World.ext 1001 "" "" "n1") "https://op.example" codeResponse [] started).1.isOk = true ∧
    (finalize (World.ext 1001 "" "" "n1") "https://other.example" codeResponse [] confused).1 = .error .valueError ∧
    (finalize (World.ext 1001 "" "" "n1") "https://op.example" [("code", .str "c"), ("state", .str "zz")] [] started).1
      = .error .keyError ∧
    (finalize (World.ext 1001 "" "" "n1") "https://op.example" [("code", .str "c")] [] started).1 = .error .keyError ∧
    (finalize (World.ext 1001 "" "" "n1") "https://op.example" [("error", .str "denied"), ("state", .str "zz")] [] started).1
      = .ok (.error (.str "zz") (.str "denied")) ∧
    (finalize (World.ext 1001 "" "" "n1") "https://op.example" [("error", .str "denied")] [] started).1
      = .error .keyError := by
  refine ⟨by rfl, by rfl, by rfl, by rfl, by rfl, by rfl⟩

/-- **C18** is violated: the same authorization response is accepted twice (and its code is sent to the token
endpoint twice). -/
theorem C18_replay_violated :
    (finalize (World.ext 1001 "" "" "n1") "https://op.example" codeResponse [] started).1.isOk = true ∧
    (finalize (World.ext 1002 "" "" "n1") "https://op.example" codeResponse []
      (finalize (World.ext 1001 "" "" "n1") "https://op.example" codeResponse [] started).2).1.isOk = true ∧
    ((view (finalize (World.ext 1002 "" "" "n1") "https://op.example" codeResponse []
      (finalize (World.ext 1001 "" "" "n1") "https://op.example" codeResponse [] started).2).2
        "https://op.example").map (fun v => (v.2.filter (fun s => s.srv == .accesstoken)).length)) = some 2 := by
  refine ⟨by rfl, by rfl, by rfl⟩

/-- **C18**, what holds: once the session is cleared, a replayed response is refused, sends nothing and
changes nothing.  Missing: before the session is cleared nothing remembers that a response was used. -/
theorem C18_after_clear_partial {K : String → Prop} (hK : Spec.Store.KeySpace K) (ops : List Op)
    (hops : ∀ op ∈ ops, Spec.Store.OpOk K op) (k : String) (hk : K k) (x : Ext) (issuer : String)
    (response b resp : Obj) (h : Handler) (c : Client) (hc : Dict.get? h.issuer2rp issuer = some c)
    (hdb : c.db = (step (.remove k) (dbAfter ops)).2) (hp : ParsedAs x c response resp)
    (he : Dict.has resp "error" = false) (hs : Dict.get? resp "state" = some (.str k)) :
    (∃ e, (finalize x issuer response b h).1 = .error e) ∧ Untouched h (finalize x issuer response b h).2 := by
  refine C14_unknown_state_refused x issuer response b h fun c' resp' hc' hp' => ?_
  rw [hc] at hc'
  obtain rfl : c = c' := by simpa using hc'
  rw [parsedAs_iff] at hp hp'
  rw [hp] at hp'
  obtain rfl : resp = resp' := by simpa using hp'
  exact ⟨he, C14_cleared_is_unknown hK ops hops k hk c resp hdb hs⟩

/-! ## C19 -/

/-- Where the tokens come from, by the words of the response type (OpenID Connect Core, 3). -/
inductive Source where
  /-- neither -/
  | absent
  /-- from the authorization response -/
  | front
  /-- from the token endpoint -/
  | endpoint
  deriving DecidableEq, Repr

/-- The set of words of a response type. -/
def IsSet (rt ws : List String) : Prop := ∀ w, w ∈ rt ↔ w ∈ ws

/-- Sources of access token and ID Token; `collect`: the caller asks for the tokens of the token endpoint. -/
inductive Flow (rt : List String) (collect : Bool) : Source → Source → Prop where
  | code : IsSet rt ["code"] → Flow rt collect .endpoint .endpoint
  | codeIdToken : IsSet rt ["code", "id_token"] → Flow rt collect .endpoint .endpoint
  | idToken : IsSet rt ["id_token"] → Flow rt collect .absent .front
  | token : IsSet rt ["token"] → collect = false → Flow rt collect .front .absent
  | idTokenToken : IsSet rt ["id_token", "token"] → collect = false → Flow rt collect .front .front
  | codeToken : IsSet rt ["code", "token"] → collect = false → Flow rt collect .front .absent
  | codeIdTokenToken : IsSet rt ["code", "id_token", "token"] → collect = false → Flow rt collect .front .front
  | collected : IsSet rt ["token"] ∨ IsSet rt ["id_token", "token"] ∨ IsSet rt ["code", "token"] ∨
      IsSet rt ["code", "id_token", "token"] → collect = true → Flow rt collect .endpoint .endpoint

theorem sameSet_iff (rt ws : List String) : sameSet rt ws = true ↔ IsSet rt ws := by
  unfold sameSet IsSet
  simp only [Bool.and_eq_true, List.all_eq_true, decide_eq_true_eq]
  constructor
  · rintro ⟨h1, h2⟩ w; exact ⟨h1 w, h2 w⟩
  · intro h; exact ⟨fun w hw => (h w).1 hw, fun w hw => (h w).2 hw⟩

theorem sameSet_congr {rt ws : List String} (h : IsSet rt ws) (vs : List String) : sameSet rt vs = sameSet ws vs := by
  rw [Bool.eq_iff_iff, sameSet_iff, sameSet_iff]
  unfold IsSet at *
  constructor
  · intro h' w; rw [← h w, h' w]
  · intro h' w; rw [h w, h' w]

theorem endpointTokens_ok {x : Ext} {k : String} {c c' : Client} {a i : Val}
    (h : endpointTokens x k c = (.ok (a, i), c')) :
    ∃ r o, getTokens x k c = (.ok r, c') ∧ r.item "access_token" = .ok a ∧
      r.find "__verified_id_token" = .ok o ∧ i = o.getD .null := by
  unfold endpointTokens at h
  obtain ⟨r, c1, h1, h2⟩ := Py.bind_eq_ok.1 h
  obtain ⟨a', c2, h3, h4⟩ := Py.bind_eq_ok.1 h2
  obtain ⟨h3', rfl⟩ := Py.lift_eq_ok.1 h3
  obtain ⟨o, c3, h5, h6⟩ := Py.bind_eq_ok.1 h4
  obtain ⟨h5', rfl⟩ := Py.lift_eq_ok.1 h5
  simp only [Py.pure_run, Prod.mk.injEq, Except.ok.injEq] at h6
  obtain ⟨⟨rfl, rfl⟩, rfl⟩ := h6
  exact ⟨r, o, h1, h3', h5', rfl⟩

/-- The value a token has, from a source. -/
def From (front endpoint : Option Val) : Source → Val → Prop
  | .absent, v => v = .null
  | .front, v => front = some v
  | .endpoint, v => v = endpoint.getD .null

/-- **C19**.  When the tokens of a session are determined, both come from where the response type stored with
the session says; only if that is the token endpoint is a request sent. -/
theorem C19_sources (x : Ext) (resp : Obj) (k : String) (b : Obj) (c c' : Client) (tok idt : Val) (areq : Obj) (rtv : Val)
    (h : getAccessAndIdToken x resp k b c = (.ok (tok, idt), c'))
    (hreq : getItem c.db "auth_request" k = .ok areq) (hrt : Dict.get? areq "response_type" = some rtv)
    (s1 s2 : Source) (hf : Flow (wordsOf rtv) (Util.truthyO (Dict.get? b "collect_tokens")) s1 s2) :
    ∃ tresp : Option Resp,
      (∀ r, tresp = some r → getTokens x k c = (.ok r, c')) ∧
      ((s1 = .endpoint ∨ s2 = .endpoint) ↔ tresp.isSome) ∧
      (tresp = none → c' = c) ∧
      From (Dict.get? resp "access_token") (tresp.bind (fun r => (r.item "access_token").toOption)) s1 tok ∧
      From (Dict.get? resp "__verified_id_token")
        (tresp.bind (fun r => ((r.find "__verified_id_token").toOption).bind id)) s2 idt := by
  unfold getAccessAndIdToken at h
  have e0 : storedResponseType k c = .ok (wordsOf rtv) := by
    unfold storedResponseType
    rw [hreq]
    simp [Dict.getItem, hrt, Except.map]
  rw [ask_bind_ok e0] at h
  obtain ⟨idt0, c1, h1, h2⟩ := Py.bind_eq_ok.1 h
  obtain ⟨h1', rfl⟩ := Py.lift_eq_ok.1 h1
  have hend : endpointTokens x k c = (.ok (tok, idt), c') → s1 = .endpoint → s2 = .endpoint → ∃ tresp : Option Resp,
      (∀ r, tresp = some r → getTokens x k c = (.ok r, c')) ∧
      ((s1 = .endpoint ∨ s2 = .endpoint) ↔ tresp.isSome) ∧
      (tresp = none → c' = c) ∧
      From (Dict.get? resp "access_token") (tresp.bind (fun r => (r.item "access_token").toOption)) s1 tok ∧
      From (Dict.get? resp "__verified_id_token")
        (tresp.bind (fun r => ((r.find "__verified_id_token").toOption).bind id)) s2 idt := by
    intro he e1 e2
    obtain ⟨r, o, g1, g2, g3, g4⟩ := endpointTokens_ok he
    subst e1; subst e2
    refine ⟨some r, ?_, by simp, by simp, ?_, ?_⟩
    · rintro r' hr'; injection hr' with hr'; rw [← hr']; exact g1
    · simp [From, g2, Except.toOption]
    · simp [From, g3, g4, Except.toOption]
  have hfront : c' = c → s1 ≠ .endpoint → s2 ≠ .endpoint →
      From (Dict.get? resp "access_token") none s1 tok → From (Dict.get? resp "__verified_id_token") none s2 idt →
      ∃ tresp : Option Resp,
      (∀ r, tresp = some r → getTokens x k c = (.ok r, c')) ∧
      ((s1 = .endpoint ∨ s2 = .endpoint) ↔ tresp.isSome) ∧
      (tresp = none → c' = c) ∧
      From (Dict.get? resp "access_token") (tresp.bind (fun r => (r.item "access_token").toOption)) s1 tok ∧
      From (Dict.get? resp "__verified_id_token")
        (tresp.bind (fun r => ((r.find "__verified_id_token").toOption).bind id)) s2 idt := by
    intro e1 e2 e3 e4 e5
    exact ⟨none, by simp, by simp [e2, e3], fun _ => e1, e4, e5⟩
  have hacc : ∀ {ws : List String}, IsSet (wordsOf rtv) ws → accessTokenInFront (wordsOf rtv) = accessTokenInFront ws ∧
      tokensFromEndpoint (wordsOf rtv) = tokensFromEndpoint ws ∧ idTokenInFront (wordsOf rtv) = idTokenInFront ws := by
    intro ws hws
    simp only [accessTokenInFront, tokensFromEndpoint, idTokenInFront, sameSet_congr hws, and_self]
  cases hf with
  | code hs =>
    obtain ⟨a1, a2, a3⟩ := hacc hs
    rw [a1, a2, if_neg (by decide), if_pos (by decide)] at h2
    exact hend h2 rfl rfl
  | codeIdToken hs =>
    obtain ⟨a1, a2, a3⟩ := hacc hs
    rw [a1, a2, if_neg (by decide), if_pos (by decide)] at h2
    exact hend h2 rfl rfl
  | idToken hs =>
    obtain ⟨a1, a2, a3⟩ := hacc hs
    rw [a1, a2, if_neg (by decide), if_neg (by decide)] at h2
    rw [a3, if_pos (by decide)] at h1'
    simp only [Py.pure_run, Prod.mk.injEq, Except.ok.injEq] at h2
    obtain ⟨⟨rfl, rfl⟩, rfl⟩ := h2
    exact hfront rfl (by decide) (by decide) rfl (Dict.getItem_eq_ok.1 h1')
  | token hs hc =>
    obtain ⟨a1, a2, a3⟩ := hacc hs
    rw [a1, if_pos (by decide)] at h2
    obtain ⟨t, c2, h3, h4⟩ := Py.bind_eq_ok.1 h2
    obtain ⟨h3', rfl⟩ := Py.lift_eq_ok.1 h3
    rw [a3, if_neg (by decide)] at h1'
    have hc' : collects b = false := hc
    rw [if_neg (by rw [hc']; decide)] at h4
    simp only [Py.pure_run, Prod.mk.injEq, Except.ok.injEq] at h4
    obtain ⟨⟨rfl, rfl⟩, rfl⟩ := h4
    injection h1' with h1'
    exact hfront rfl (by decide) (by decide) (Dict.getItem_eq_ok.1 h3') h1'.symm
  | idTokenToken hs hc =>
    obtain ⟨a1, a2, a3⟩ := hacc hs
    rw [a1, if_pos (by decide)] at h2
    obtain ⟨t, c2, h3, h4⟩ := Py.bind_eq_ok.1 h2
    obtain ⟨h3', rfl⟩ := Py.lift_eq_ok.1 h3
    rw [a3, if_pos (by decide)] at h1'
    have hc' : collects b = false := hc
    rw [if_neg (by rw [hc']; decide)] at h4
    simp only [Py.pure_run, Prod.mk.injEq, Except.ok.injEq] at h4
    obtain ⟨⟨rfl, rfl⟩, rfl⟩ := h4
    exact hfront rfl (by decide) (by decide) (Dict.getItem_eq_ok.1 h3') (Dict.getItem_eq_ok.1 h1')
  | codeToken hs hc =>
    obtain ⟨a1, a2, a3⟩ := hacc hs
    rw [a1, if_pos (by decide)] at h2
    obtain ⟨t, c2, h3, h4⟩ := Py.bind_eq_ok.1 h2
    obtain ⟨h3', rfl⟩ := Py.lift_eq_ok.1 h3
    rw [a3, if_neg (by decide)] at h1'
    have hc' : collects b = false := hc
    rw [if_neg (by rw [hc']; decide)] at h4
    simp only [Py.pure_run, Prod.mk.injEq, Except.ok.injEq] at h4
    obtain ⟨⟨rfl, rfl⟩, rfl⟩ := h4
    injection h1' with h1'
    exact hfront rfl (by decide) (by decide) (Dict.getItem_eq_ok.1 h3') h1'.symm
  | codeIdTokenToken hs hc =>
    obtain ⟨a1, a2, a3⟩ := hacc hs
    rw [a1, if_pos (by decide)] at h2
    obtain ⟨t, c2, h3, h4⟩ := Py.bind_eq_ok.1 h2
    obtain ⟨h3', rfl⟩ := Py.lift_eq_ok.1 h3
    rw [a3, if_pos (by decide)] at h1'
    have hc' : collects b = false := hc
    rw [if_neg (by rw [hc']; decide)] at h4
    simp only [Py.pure_run, Prod.mk.injEq, Except.ok.injEq] at h4
    obtain ⟨⟨rfl, rfl⟩, rfl⟩ := h4
    exact hfront rfl (by decide) (by decide) (Dict.getItem_eq_ok.1 h3') (Dict.getItem_eq_ok.1 h1')
  | collected hs hc =>
    have a1 : accessTokenInFront (wordsOf rtv) = true := by
      rcases hs with hs | hs | hs | hs <;> (rw [(hacc hs).1]; decide)
    rw [a1, if_pos rfl] at h2
    obtain ⟨t, c2, h3, h4⟩ := Py.bind_eq_ok.1 h2
    obtain ⟨h3', rfl⟩ := Py.lift_eq_ok.1 h3
    have hc' : collects b = true := hc
    rw [if_pos hc'] at h4
    exact hend h4 rfl rfl

/-- Non-vacuity of C19: the code flow with the World provider, and a front channel flow. -/
example :
    (∃ tok idt c', ∃ c, Dict.get? started.issuer2rp "https://op.example" = some c ∧
      getAccessAndIdToken (World.ext 1001 "" "" "n1") codeResponse World.s1 []
        { c with db := (storeItem codeResponse "auth_response" World.s1 c.db).2 } = (.ok (tok, idt), c') ∧
      tok = .str "AT1") ∧
    (getAccessAndIdToken (World.ext 1001 "" "" "n1") [("access_token", .str "front"), ("__verified_id_token", .obj [("sub", .str "a")])]
      "s" [] { db := [("s", .doc [("auth_request", .obj [("response_type", .list [.str "token", .str "id_token"])])])] }).1
      = .ok (.str "front", .obj [("sub", .str "a")]) ∧
    Flow (wordsOf (.list [.str "token", .str "id_token"])) false .front .front := by
  refine ⟨⟨_, _, _, _, rfl, rfl, rfl⟩, by rfl, .idTokenToken ?_ rfl⟩
  intro w
  simp [wordsOf, Val.str?, or_comm]

/-! ## C20 while finalizing -/

/-- Only requests of service `srv` were sent. -/
def OnlySends (srv : Srv) (c c' : Client) : Prop := ∃ l, c'.log = c.log ++ l ∧ ∀ s ∈ l, s.srv = srv

instance (srv : Srv) : FrameRel (OnlySends srv) where
  refl _ := ⟨[], by simp, by simp⟩
  trans := by
    rintro s t u ⟨l, e, h⟩ ⟨l', e', h'⟩
    refine ⟨l ++ l', by rw [e', e, List.append_assoc], ?_⟩
    intro s hs
    rcases List.mem_append.1 hs with hs | hs
    · exact h s hs
    · exact h' s hs

theorem OnlySends.of_noSend {srv : Srv} {α : Type} {m : Py Client α} (h : Frame NoSend m) : Frame (OnlySends srv) m := by
  intro c
  exact ⟨[], by rw [show (m c).2.log = c.log from h c]; simp, by simp⟩

theorem onlySends_userInfo (x : Ext) (k : String) (t : Val) : Frame (OnlySends .userinfo) (getUserInfo x k t) := by
  unfold getUserInfo
  refine Frame.bind (Frame.ask _) fun _ => ?_
  refine Frame.bind ?_ fun _ => Frame.bind (Frame.lift _) fun _ => Frame.pure _
  intro c
  rcases doRequest_log (x := x) (srv := .userinfo) (args := [("access_token", t)]) (o := {}) (kwargs := [("state", .str k)])
    (frame_request_reading (Or.inr (Or.inr (Or.inl rfl))) _ _ _) c with h | ⟨info, c1, _, h⟩
  · exact ⟨[], by rw [h]; simp, by simp⟩
  · exact ⟨_, h, by simp [sentFor]⟩

theorem onlySends_collect (x : Ext) (k : String) (t i : Val) : Frame (OnlySends .userinfo) (collectUserInfo x k t i) := by
  unfold collectUserInfo
  refine Frame.bind Frame.read fun c => ?_
  refine Frame.ite (fun _ => ?_) (fun _ => ?_)
  · exact Frame.bind (onlySends_userInfo _ _ _) fun _ => Frame.pure _
  · refine Frame.ite (fun _ => ?_) (fun _ => Frame.pure _)
    split
    · exact Frame.pure _
    · exact Frame.raise _

theorem onlySends_bindSid (srv : Srv) (k : String) (i : Val) : Frame (OnlySends srv) (bindSid k i) := by
  unfold bindSid
  refine Frame.bind Frame.read fun c => ?_
  refine Frame.ite (fun _ => ?_) (fun _ => Frame.pure _)
  split
  · exact Frame.pure _
  · exact Frame.raise _
  · exact Frame.bind (Frame.lift _) fun _ => OnlySends.of_noSend (noSend_onDB _)

theorem onlySends_bindSub (srv : Srv) (k : String) (i u : Val) : Frame (OnlySends srv) (bindSub k i u) := by
  unfold bindSub
  refine Frame.bind (Frame.lift _) fun _ => ?_
  exact Frame.bind (Frame.lift _) fun _ => OnlySends.of_noSend (noSend_onDB _)

/-- Whatever finalizing sends: a token request of the session, or userinfo requests. -/
theorem finalizeTokens_sends (x : Ext) (resp : Obj) (k : String) (b : Obj) (c : Client) (hm : PlainTokenRequest x)
    (hid : c.ctx.clientId ≠ "") :
    ∃ l, (finalizeTokens x resp k b c).2.log = c.log ++ l ∧
      ∀ s ∈ l, s.srv = .userinfo ∨ TokenRequestOf x c k s := by
  have hget : ∃ l, (getAccessAndIdToken x resp k b c).2.log = c.log ++ l ∧ ∀ s ∈ l, TokenRequestOf x c k s := by
    have hend : ∃ l, (endpointTokens x k c).2.log = c.log ++ l ∧ ∀ s ∈ l, TokenRequestOf x c k s := by
      have hl : (endpointTokens x k c).2.log = (getTokens x k c).2.log := by
        unfold endpointTokens
        rw [Py.bind_run]
        rcases getTokens x k c with ⟨r, c1⟩
        cases r with
        | error e => rfl
        | ok r =>
          have : Frame NoSend (do
              let at_ ← Py.lift (r.item "access_token")
              let idt ← Py.lift (r.find (Msg.verifiedName "id_token"))
              return (at_, idt.getD .null)) :=
            Frame.bind (Frame.lift _) fun _ => Frame.bind (Frame.lift _) fun _ => Frame.pure _
          exact this c1
      rw [hl]
      rcases C20_token_request x c k hm hid with h | ⟨s, h, hs⟩
      · exact ⟨[], by rw [h]; simp, by simp⟩
      · exact ⟨[s], h, by simpa using hs⟩
    have hno : ∀ e : Except Exc (Val × Val), ∃ l, (e, c).2.log = c.log ++ l ∧ ∀ s ∈ l, TokenRequestOf x c k s :=
      fun e => ⟨[], by simp, by simp⟩
    unfold getAccessAndIdToken
    cases h1 : storedResponseType k c with
    | error e => rw [ask_bind_error h1]; exact hno _
    | ok rt =>
      rw [ask_bind_ok h1]
      cases h2 : (if idTokenInFront rt then Dict.getItem resp (Msg.verifiedName "id_token") else .ok .null) with
      | error e => rw [Py.lift_bind_error rfl]; exact hno _
      | ok idt =>
        rw [Py.lift_bind_ok rfl]
        split
        · cases h3 : Dict.getItem resp "access_token" with
          | error e => rw [Py.lift_bind_error rfl]; exact hno _
          | ok t =>
            rw [Py.lift_bind_ok rfl]
            split
            · exact hend
            · exact hno _
        · split
          · exact hend
          · exact hno _
  obtain ⟨l1, e1, hl1⟩ := hget
  unfold finalizeTokens
  rw [Py.bind_run]
  rcases hg : getAccessAndIdToken x resp k b c with ⟨r, c1⟩
  rw [hg] at e1
  simp only at e1
  cases r with
  | error e => exact ⟨l1, e1, fun s hs => Or.inr (hl1 s hs)⟩
  | ok t =>
    have hrest : Frame (OnlySends .userinfo) (do
        let info ← collectUserInfo x k t.1 t.2
        bindSid k t.2
        bindSub k t.2 info
        return Final.done info (.str k) t.1 t.2 ((Dict.get? resp "session_state").getD (.str ""))) :=
      Frame.bind (onlySends_collect _ _ _ _) fun _ => Frame.bind (onlySends_bindSid _ _ _) fun _ =>
        Frame.bind (onlySends_bindSub _ _ _ _) fun _ => Frame.pure _
    obtain ⟨l2, e2, hl2⟩ := hrest c1
    refine ⟨l1 ++ l2, ?_, ?_⟩
    · rw [← List.append_assoc, ← e1]; exact e2
    · intro s hs
      rcases List.mem_append.1 hs with hs | hs
      · exact Or.inr (hl1 s hs)
      · exact Or.inl (hl2 s hs)

theorem withExpiry_get {x : Ext} {resp resp' : Obj} (h : withExpiry x resp = .ok resp') {p : String}
    (hp : p ≠ "__expires_at") : Dict.get? resp' p = Dict.get? resp p := by
  unfold withExpiry at h
  split at h
  · injection h with h; rw [h]
  · next v _ =>
    cases ht : toInt v with
    | error e => rw [ht] at h; cases h
    | ok i =>
      rw [ht] at h
      injection h with h
      rw [← h, Dict.get?_set_ne _ _ (Ne.symm hp)]

theorem withExpiry_nodup {x : Ext} {resp resp' : Obj} (h : withExpiry x resp = .ok resp')
    (hn : (Dict.keys resp).Nodup) : (Dict.keys resp').Nodup := by
  unfold withExpiry at h
  split at h
  · injection h with h; rw [← h]; exact hn
  · next v _ =>
    cases ht : toInt v with
    | error e => rw [ht] at h; cases h
    | ok i =>
      rw [ht] at h
      injection h with h
      rw [← h]; exact Dict.nodup_set hn _ _

/-- **C20** (while finalizing).  Every token request sent while a response is finalized goes to the token
endpoint of the issuer's client and carries the code of that very response, the redirect URI of the
authorization request of the session the response names, the grant type and the client's id (or a client
assertion instead of the id).  `hd`: a message has every parameter once. -/
theorem C20_finalize (x : Ext) (issuer : String) (response b : Obj) (h : Handler) (c : Client)
    (hc : Dict.get? h.issuer2rp issuer = some c) (hm : PlainTokenRequest x) (hid : c.ctx.clientId ≠ "")
    (hd : ∀ resp, ParsedAs x c response resp → (Dict.keys resp).Nodup) :
    ∃ db l, view (finalize x issuer response b h).2 issuer = some (db, c.log ++ l) ∧
      ∀ s ∈ l, s.srv = .userinfo ∨
        (s.srv = .accesstoken ∧ ∃ resp k areq url req code ru,
          ParsedAs x c response resp ∧ Dict.get? resp "state" = some (.str k) ∧
          Discovery.serviceEndpoint c.ctx .accesstoken = .ok (.str url) ∧ Spec.Wire.Carries x s url req ∧
          Dict.get? resp "code" = some code ∧ Dict.get? req "code" = some code ∧
          getItem c.db "auth_request" k = .ok areq ∧
          Dict.get? areq "redirect_uri" = some ru ∧ Dict.get? req "redirect_uri" = some ru ∧
          Dict.get? req "grant_type" = some (.str "authorization_code") ∧
          (Dict.get? req "client_id" = some (.str c.ctx.clientId) ∨
            (Dict.get? req "client_id" = none ∧ (Dict.get? req "client_assertion").isSome))) := by
  unfold finalize
  simp only [view_onClient hc, if_true]
  have hsame : (finalizeClient x issuer response b c).2 = c →
      ∃ db l, some ((finalizeClient x issuer response b c).2.db, (finalizeClient x issuer response b c).2.log)
        = some (db, c.log ++ l) ∧ ∀ s ∈ l, False := by
    intro e; exact ⟨c.db, [], by rw [e]; simp, by simp⟩
  rcases finalizeAuth_cases x issuer response c with ⟨e, he⟩ | ⟨resp, hp, _, hcase⟩
  · obtain ⟨db, l, e, hl⟩ := hsame (by rw [finalizeClient_error he])
    exact ⟨db, l, e, fun s hs => (hl s hs).elim⟩
  · rcases hcase with ⟨he, hf⟩ | ⟨he, k, st, resp', h1, h2, h3, h4, h5⟩
    · obtain ⟨db, l, e, hl⟩ := hsame (by rw [finalizeClient_isError hf he])
      exact ⟨db, l, e, fun s hs => (hl s hs).elim⟩
    · have hst : Dict.get? resp' "state" = some (.str k) := by rw [withExpiry_get h4 (by decide)]; exact h1
      have herr : Msg.isError resp' = false := by
        rw [← he]; unfold Msg.isError; rw [Dict.has_eq, Dict.has_eq, withExpiry_get h4 (by decide)]
      have hrun : finalizeClient x issuer response b c = finalizeTokens x resp' k b
          { c with db := Dict.set c.db k (.doc (Dict.set st "auth_response" (.obj resp'))) } := by
        unfold finalizeClient
        rw [Py.bind_ok h5, Py.lift_bind_ok (Dict.getItem_eq_ok.2 hst), if_neg (by rw [herr]; decide),
          Py.lift_bind_ok (show dbKey (.str k) = .ok k from rfl)]
      rw [hrun]
      obtain ⟨l, e, hl⟩ := finalizeTokens_sends x resp' k b
        { c with db := Dict.set c.db k (.doc (Dict.set st "auth_response" (.obj resp'))) } hm hid
      refine ⟨_, l, by rw [e], ?_⟩
      intro s hs
      rcases hl s hs with h | ⟨hsrv, url, req, r0, areq, code, ru, g1, g2, g3, g4, g5, g6, g7, g8, g9, g10⟩
      · exact Or.inl h
      · right
        refine ⟨hsrv, resp, k, areq, url, req, code, ru, parsedAs_iff.2 hp, h1, g1, g2, ?_, g7, ?_, g6, g8, g9, g10⟩
        · have hg := storeItem_getItem (u := ()) (storeItem_run h2 resp' "auth_response")
          rw [hg] at g3
          injection g3 with g3
          subst g3
          rw [← withExpiry_get h4 (by decide)]
          cases hcode : Dict.get? resp' "code" with
          | none => rw [Msg.get?_ofDict_none hcode] at g4; cases g4
          | some v =>
            cases hv : Msg.emptyVal v with
            | false => rw [Msg.get?_ofDict_some hcode hv] at g4; exact g4
            | true =>
              rw [Msg.get?_ofDict (withExpiry_nodup h4 (hd _ (parsedAs_iff.2 hp))), hcode] at g4
              simp [Option.filter, hv] at g4
        · rw [← g5]
          unfold getItem
          rw [getState_set _ _ (set_noEmpty (getState_noEmpty h2) _ _), h2]
          simp only
          rw [Dict.get?_set_ne _ _ (by decide)]

/-- Non-vacuity of C20: the World's messages and client satisfy the hypotheses, and a token request with the code of
the response is sent. -/
example :
    PlainTokenRequest (World.ext 1001 "" "" "n1") ∧
    (∃ c, Dict.get? started.issuer2rp "https://op.example" = some c ∧ c.ctx.clientId = "client1" ∧
      ∀ resp, ParsedAs (World.ext 1001 "" "" "n1") c codeResponse resp → (Dict.keys resp).Nodup) ∧
    ((view (finalize (World.ext 1001 "" "" "n1") "https://op.example" codeResponse [] started).2 "https://op.example").map
      (fun v => (v.2.filter (fun s => s.srv == .accesstoken)).map (fun s => s.url))) = some ["https://op.example/token"] := by
  refine ⟨⟨rfl, by decide⟩, ⟨_, rfl, rfl, ?_⟩, by rfl⟩
  intro resp h
  have e : (Except.ok (.msg codeResponse) : Except Exc Resp) = .ok (.msg resp) := h
  injection e with e
  injection e with e
  subst e
  decide

end Verif.Props
