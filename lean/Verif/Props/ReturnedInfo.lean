import Verif.Props.OneSubject
/-!
# C116: user information is what the provider said about the user
-/

namespace Verif.Props
open Verif Verif.Service Verif.Handler Verif.StateInterface

/-! ## Specification -/

/-- The user information `m` is what the provider said: for it request `s` was sent to the userinfo service's endpoint
(after those in `log`), the answer was a success, its body could be parsed and was verified, and unless it refers to
claims of other sources, `m` is what was verified. -/
structure SaidByProvider (x : Ext) (ctx : Ctx) (log : List Sent) (s : Sent) (m : Obj) : Prop where
  asked : s.srv = .userinfo
  said : ∃ resp f parsed v, x.http log s = .ok resp ∧ (200 ≤ resp.status ∧ resp.status ≤ 206) ∧
    parseInfo x ctx .userinfo (.text resp.text) f = .ok parsed ∧
    x.verify ctx .userinfo parsed (gatherVerify ctx .userinfo) = .ok v ∧
    (Dict.get? v "_claim_sources" = none → m = v)

/-- The userinfo service is not configured to take web pages for an answer. -/
def NoPages (c : Client) : Prop := attr c .userinfo "response_body_type" (responseBodyType .userinfo) ≠ "html"

/-! ## C116 -/

/-- The configuration and the requests sent are the same. -/
def SameSetting (c c' : Client) : Prop := c'.conf = c.conf ∧ c'.log = c.log ∧ c'.ctx = c.ctx

instance : FrameRel SameSetting where
  refl _ := ⟨rfl, rfl, rfl⟩
  trans h h' := ⟨h'.1.trans h.1, h'.2.1.trans h.2.1, h'.2.2.trans h.2.2⟩

instance : DpopRel SameSetting where
  dpop := frame_dpopKey fun _ _ _ => ⟨rfl, rfl, rfl⟩

theorem orElse_same (a : String) : orElse (orElse "" a) a = a := by
  unfold orElse
  simp

/-- Parsing never gives a HTTP response. -/
theorem parse_not_http {x : Ext} {srv : Srv} {i : Info} {f k : String} {c : Client} {q : HttpResp} :
    ¬ (parseResponse x srv i f k c).1 = .ok (.http q) := by
  intro h
  cases hj : isJose (formatOf c srv f) with
  | true =>
    unfold parseResponse at h
    simp only [Py.read_bind_run, hj, if_true] at h
    cases i with
    | text s =>
      simp only [Py.lift_run] at h
      cases postParseText_ok h
    | dict o => cases h
  | false =>
    rw [parseResponse_plain hj] at h
    cases hp : parseInfo x c.ctx srv i (formatOf c srv f) with
    | error e => rw [hp] at h; cases h
    | ok o =>
      rw [hp] at h
      simp only at h
      rcases hr : verified x srv o k c with ⟨r, c'⟩
      rw [hr] at h
      simp only at h
      subst h
      unfold verified at hr
      obtain ⟨o2, c7, h7, h8⟩ := Py.bind_eq_ok.1 hr
      split at h8 <;> cases h8

/-- Parsing user information never gives a text. -/
theorem parse_not_text {x : Ext} {i : Info} {f k t : String} {c : Client} :
    ¬ (parseResponse x .userinfo i f k c).1 = .ok (.text t) := by
  intro h
  cases hj : isJose (formatOf c .userinfo f) with
  | true =>
    unfold parseResponse at h
    simp only [Py.read_bind_run, hj, if_true] at h
    cases i with
    | text s =>
      simp only [Py.lift_run] at h
      simp [postParseText] at h
    | dict o => cases h
  | false =>
    rw [parseResponse_plain hj] at h
    cases hp : parseInfo x c.ctx .userinfo i (formatOf c .userinfo f) with
    | error e => rw [hp] at h; cases h
    | ok o =>
      rw [hp] at h
      simp only at h
      rcases hr : verified x .userinfo o k c with ⟨r, c'⟩
      rw [hr] at h
      simp only at h
      subst h
      unfold verified at hr
      obtain ⟨o2, c7, h7, h8⟩ := Py.bind_eq_ok.1 hr
      split at h8 <;> cases h8

/-- What a userinfo request that succeeds returns. -/
theorem userinfo_cases {x : Ext} {k : String} {tok : Val} {c c' : Client} {r : Resp} {e0 : Exc} (hn : getState c.db "" = .error e0)
    (h : getUserInfo x k tok c = (.ok r, c')) :
    (∃ info c1 resp, SameDb c c1 ∧ SameSetting c c1 ∧ x.http c1.log (sentOf .userinfo info) = .ok resp ∧ 300 ≤ resp.status ∧ resp.status < 400 ∧
      r = .http resp ∧ c' = afterSend c1 (sentOf .userinfo info)) ∨
    (∃ t, r = .text t ∧ ¬ NoPages c) ∨
    ∃ m info c1 resp f, r = .msg m ∧ Dict.has m "error" = false ∧ SameDb c c1 ∧ SameSetting c c1 ∧
      x.http c1.log (sentOf .userinfo info) = .ok resp ∧ 200 ≤ resp.status ∧ resp.status ≤ 206 ∧
      parseResponse x .userinfo (.text resp.text) f k (afterSend c1 (sentOf .userinfo info)) = (.ok (.msg m), c') := by
  unfold getUserInfo at h
  obtain ⟨u, c0, h0, h⟩ := Py.bind_eq_ok.1 h
  have hc0 : c0 = c := by simp only [ask, Prod.mk.injEq] at h0; exact h0.2.symm
  rw [hc0] at h
  clear hc0 h0 c0
  obtain ⟨r', c2, h1, h⟩ := Py.bind_eq_ok.1 h
  obtain ⟨u2, c3, h2, h⟩ := Py.bind_eq_ok.1 h
  obtain ⟨hre, rfl⟩ := Py.lift_eq_ok.1 h2
  simp only [Py.pure_run, Prod.mk.injEq, Except.ok.injEq] at h
  obtain ⟨rfl, rfl⟩ := h
  have hne : r'.isError = false := by
    cases hE : r'.isError with
    | false => rfl
    | true =>
      unfold refuseError at hre
      rw [if_pos hE] at hre
      cases r' <;> cases hre
  unfold doRequest at h1
  rw [Py.read_bind_run] at h1
  split at h1
  · cases h1
  obtain ⟨info, c4, h3, h1⟩ := Py.bind_eq_ok.1 h1
  have hs4 : SameDb c c4 := by
    have := frame_request_reading (R := SameDb) (x := x) (srv := .userinfo) (Or.inr (Or.inr (Or.inl rfl))) [("access_token", tok)] {} [("state", .str k)] c
    rw [h3] at this
    exact this
  have hset : SameSetting c c4 := by
    have := frame_request_reading (R := SameSetting) (x := x) (srv := .userinfo) (Or.inr (Or.inr (Or.inl rfl))) [("access_token", tok)] {} [("state", .str k)] c
    rw [h3] at this
    exact this
  change serviceRequest x .userinfo info _ k c4 = _ at h1
  unfold serviceRequest at h1
  obtain ⟨r, c5, h4, h1⟩ := Py.bind_eq_ok.1 h1
  have hr : r = r' ∧ c5 = c2 := by
    split at h1
    · simp only [Py.pure_run, Prod.mk.injEq, Except.ok.injEq] at h1
      exact h1
    · unfold update at h1
      cases r with
      | msg o =>
        simp only [updateMsg] at h1
        obtain ⟨o', c6, h5, h6⟩ := Py.bind_eq_ok.1 h1
        simp only [Py.pure_run, Prod.mk.injEq, Except.ok.injEq] at h5 h6
        obtain ⟨rfl, rfl⟩ := h5
        exact h6
      | http o =>
        simp only [updateMsg] at h1
        obtain ⟨o', c6, h5, h6⟩ := Py.bind_eq_ok.1 h1
        simp only [Py.pure_run, Prod.mk.injEq, Except.ok.injEq] at h5 h6
        obtain ⟨rfl, rfl⟩ := h5
        exact h6
      | text o =>
        simp only [Py.pure_run, Prod.mk.injEq, Except.ok.injEq] at h1
        exact h1
  obtain ⟨rfl, rfl⟩ := hr
  cases hh : x.http c4.log (sentOf .userinfo info) with
  | error e =>
    unfold getResponse at h4
    obtain ⟨r, c6, h5, h6⟩ := Py.bind_eq_ok.1 h4
    have h7 : x.http c4.log (sentOf .userinfo info) = .ok r := congrArg Prod.fst h5
    rw [hh] at h7
    cases h7
  | ok resp =>
    rw [getResponse_run hh] at h4
    have hs5 : SameDb c (afterSend c4 (sentOf .userinfo info)) := ⟨hs4.1, hs4.2.1, hs4.2.2⟩
    split at h4
    · next hred =>
      simp only [Py.pure_run, Prod.mk.injEq, Except.ok.injEq] at h4
      exact Or.inl ⟨info, c4, resp, hs4, hset, hh, hred.1, hred.2, h4.1.symm, h4.2.symm⟩
    · split at h4
      · next hhtml =>
        simp only [Py.pure_run, Prod.mk.injEq, Except.ok.injEq] at h4
        refine Or.inr (Or.inl ⟨_, h4.1.symm, fun hno => ?_⟩)
        have e : attr c4 .userinfo "response_body_type" (responseBodyType .userinfo) =
            attr c .userinfo "response_body_type" (responseBodyType .userinfo) := by
          unfold attr confOf
          rw [hset.1]
        have h2 := hhtml.2
        rw [e] at h2
        exact hno ((orElse_same _).symm.trans h2)
      · unfold parseRequestResponse at h4
        split at h4
        · next hok =>
          have hst : 200 ≤ resp.status ∧ resp.status ≤ 206 := by
            simp only [SUCCESSFUL, List.mem_cons, List.not_mem_nil, or_false] at hok
            omega
          cases r with
          | msg m => exact Or.inr (Or.inr ⟨m, info, c4, resp, _, rfl, hne, hs4, hset, hh, hst.1, hst.2, h4⟩)
          | text t => exact absurd (congrArg Prod.fst h4) parse_not_text
          | http q =>
            exfalso
            exact parse_not_http (congrArg Prod.fst h4)
        · split at h4
          · cases h4
          · split at h4
            · exfalso
              obtain ⟨er, c6, h5, h6⟩ := Py.bind_eq_ok.1 h4
              obtain ⟨hw, rfl⟩ := Py.lift_eq_ok.1 h6
              have hharm : ∀ bt, Harmless (Py.try_ (parseResponse x .userinfo (.text resp.text) (errorType resp) "")
                  (errorFallback x .userinfo resp bt)) (afterSend c4 (sentOf .userinfo info)) :=
                fun bt => Harmless.try_ (parse_nobody (by rw [hs5.1]; exact hn)) fun e m' hm => nobody_fallback (by rw [hs5.1]; exact hn) e m' hm
              rcases (hharm _).2 er (by rw [h5]) with ⟨o, rfl, ho⟩ | ⟨s, rfl⟩
              · simp only [withStatus, Except.ok.injEq] at hw
                rw [← hw] at hne
                simp only [Resp.isError] at hne
                unfold Msg.isError at hne ho
                rw [Dict.has_eq, Dict.get?_set_ne _ _ (by decide)] at hne
                rw [Dict.has_eq, hne] at ho
                cases ho
              · cases hw
            · cases h4

/-- **C116**, as far as it holds.  The userinfo service takes no web pages and there is no nameless session.  If
`get_user_info` returns something, one request was sent, and either that was answered with a redirect, or what is returned
is what the provider said, and it is kept with the session. -/
theorem C116_userinfo_partial (x : Ext) (k : String) (tok : Val) (c c' : Client) (r : Resp) (e0 : Exc)
    (hn : getState c.db "" = .error e0) (hp : NoPages c) (h : getUserInfo x k tok c = (.ok r, c')) :
    ∃ s, c'.log = c.log ++ [s] ∧
      ((∃ resp, x.http c.log s = .ok resp ∧ 300 ≤ resp.status ∧ resp.status < 400 ∧ r = .http resp) ∨
       ∃ m, r = .msg m ∧ SaidByProvider x c.ctx c.log s m ∧ Dict.has m "error" = false ∧
         getItem c'.db "user_info" k = .ok (Msg.ofDict m)) := by
  rcases userinfo_cases hn h with ⟨info, c1, resp, -, hs, h1, h2, h3, rfl, rfl⟩ | ⟨t, -, hno⟩ |
    ⟨m, info, c1, resp, f, rfl, hne, -, hs, h1, h2, h3, h4⟩
  · exact ⟨sentOf .userinfo info, by rw [← hs.2.1]; rfl, Or.inl ⟨resp, by rw [← hs.2.1]; exact h1, h2, h3, rfl⟩⟩
  · exact absurd hp hno
  · obtain ⟨parsed, v, args, a1, a2, a3, a4, a5, a6⟩ := userinfo_accepted h4 hne
    have hlog : c'.log = c1.log ++ [sentOf .userinfo info] := by
      have := frame_parseResponse (R := NoSend) (x := x) (srv := .userinfo) (state := k) (.text resp.text) f (fun r => noSend_postParse x .userinfo r k) (afterSend c1 (sentOf .userinfo info))
      rw [h4] at this
      exact this
    refine ⟨sentOf .userinfo info, by rw [hlog, hs.2.1], Or.inr ⟨m, rfl, ⟨rfl, resp, _, parsed, v, by rw [← hs.2.1]; exact h1, ⟨h2, h3⟩,
      by rw [← hs.2.2]; exact a1, by rw [← hs.2.2]; exact a2, ?_⟩, hne, a6⟩⟩
    intro hc
    unfold allSources at a5
    rw [hc] at a5
    injection a5 with a5
    exact a5.symm

/-- **C116** is violated by redirects: if the request for the user's claims can be made and is answered with a redirect,
whatever its address and body, `get_user_info` succeeds and returns the HTTP response where the claims should be. -/
theorem C116_redirect_violated (x : Ext) (k : String) (tok : Val) (c c1 : Client) (info : ReqInfo) (resp : HttpResp)
    (hu : .userinfo ∈ c.services) (hl : lookedUp k tok c = .ok ())
    (hreq : getRequestParameters x .userinfo [("access_token", tok)] {} [("state", .str k)] c = (.ok info, c1))
    (hh : x.http c1.log (sentOf .userinfo info) = .ok resp) (hs : 300 ≤ resp.status ∧ resp.status < 400) :
    getUserInfo x k tok c = (.ok (.http resp), afterSend c1 (sentOf .userinfo info)) := by
  have hserv : ∀ bt, serviceRequest x .userinfo info bt k c1 = (.ok (.http resp), afterSend c1 (sentOf .userinfo info)) := by
    intro bt
    unfold serviceRequest
    rw [Py.bind_run, getResponse_run hh, if_pos hs]
    rfl
  unfold getUserInfo
  rw [ask_bind_ok hl]
  refine (Py.bind_ok (a := Resp.http resp) (s' := afterSend c1 (sentOf .userinfo info)) ?_).trans rfl
  unfold doRequest
  rw [Py.read_bind_run, if_neg (by simpa using hu), Py.bind_ok hreq]
  exact hserv _

/-! ## Examples -/

/-- A world in which the userinfo endpoint has moved. -/
def movedWorld : Ext := { World.ext 1001 "" "" "n1" with
  http := fun _ s => .ok (if s.srv = .userinfo then { status := 302, headers := [("location", "https://other.example/")], text := "" }
    else World.answer s) }

/-- `finalize` succeeds there, and its user information is a HTTP response. -/
example : (finalize movedWorld "https://op.example" [("code", .str "c1"), ("state", .str World.s1)] [] started).1.toOption =
    some (.done (.obj [("http_response", .obj [("__object__", .str "Response")])]) (.str World.s1) (.str "AT1")
      (.obj aliceToken) (.str "")) := by
  decide +kernel

/-- Non-vacuity: in the small world `get_user_info` meets the hypotheses of `C116_userinfo_partial` and returns claims. -/
example : getState waitingClient.db "" = .error .keyError ∧ NoPages waitingClient ∧
    (getUserInfo (World.ext 1001 "" "" "n1") World.s1 (.str "AT1") waitingClient).1.toOption =
      some (.msg aliceClaims) := by
  refine ⟨by rfl, (by unfold NoPages; decide), by decide +kernel⟩

end Verif.Props
