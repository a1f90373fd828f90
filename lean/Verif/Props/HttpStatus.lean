import Verif.Props.Responses
/-!
# C40: HTTP failures are not processed as success
-/

namespace Verif.Props
open Verif Handler Service

/-- The HTTP request made of request information. -/
def sentOf (srv : Srv) (info : ReqInfo) : Sent :=
  { srv := srv, url := info.url, method := info.method, headers := info.headers, body := info.body }

/-- The client after a request was sent, and nothing else happened. -/
def afterSend (c : Client) (s : Sent) : Client := { c with log := c.log ++ [s] }

/-- The body of the answer is, in whatever format, an error message (or no message at all). -/
def OnlyErrors (x : Ext) (ctx : Ctx) (srv : Srv) (text : String) : Prop :=
  ∀ f o, parseInfo x ctx srv (.text text) f = .ok o → Dict.has o "error" = true

theorem parse_onlyErrors {x : Ext} {srv : Srv} {text f state : String} {c : Client}
    (h : OnlyErrors x c.ctx srv text) :
    (parseResponse x srv (.text text) f state c).2 = c ∧
    ∀ r, (parseResponse x srv (.text text) f state c).1 = .ok r →
      (∃ o, r = .msg o ∧ Msg.isError o = true) ∨ ∃ s, r = .text s := by
  cases hj : isJose (formatOf c srv f) with
  | false =>
    rw [parseResponse_plain hj]
    cases hp : parseInfo x c.ctx srv (.text text) (formatOf c srv f) with
    | error e => exact ⟨rfl, fun r h => by cases h⟩
    | ok o =>
      simp only
      rw [verified_error (h _ _ hp)]
      refine ⟨rfl, fun r hr => ?_⟩
      injection hr with hr
      exact Or.inl ⟨o, hr.symm, h _ _ hp⟩
  | true =>
    unfold parseResponse
    simp only [Py.read_bind_run, hj, if_true, Py.lift_run]
    refine ⟨trivial, fun r hr => ?_⟩
    exact Or.inr ⟨_, postParseText_ok hr⟩

/-- A computation that leaves the state, and only returns error messages or texts. -/
def Harmless (m : Py Client Resp) (c : Client) : Prop :=
  (m c).2 = c ∧ ∀ r, (m c).1 = .ok r → (∃ o, r = .msg o ∧ Msg.isError o = true) ∨ ∃ s, r = .text s

theorem Harmless.try_ {m : Py Client Resp} {h : Exc → Option (Py Client Resp)} {c : Client}
    (hm : Harmless m c) (hh : ∀ e k, h e = some k → Harmless k c) : Harmless (Py.try_ m h) c := by
  unfold Harmless Py.try_ at *
  rcases hr : m c with ⟨r, c'⟩
  rw [hr] at hm
  obtain ⟨rfl, hm2⟩ := hm
  cases r with
  | ok a => exact ⟨rfl, hm2⟩
  | error e =>
    simp only
    cases he : h e with
    | none => exact ⟨rfl, fun r h => by cases h⟩
    | some k => exact hh e k he

theorem Harmless.raise (e : Exc) (c : Client) : Harmless (Py.raise e) c :=
  ⟨rfl, fun r h => by cases h⟩

theorem harmless_fallback {x : Ext} {srv : Srv} {r : HttpResp} {bt : String} {c : Client}
    (h : OnlyErrors x c.ctx srv r.text) (e : Exc) (k : Py Client Resp)
    (hk : errorFallback x srv r bt e = some k) : Harmless k c := by
  unfold errorFallback at hk
  split at hk
  · split at hk
    · injection hk with hk; subst hk
      refine Harmless.try_ (parse_onlyErrors h) fun e' k' hk' => ?_
      split at hk'
      · injection hk' with hk'; subst hk'; exact Harmless.raise _ _
      · cases hk'
    · injection hk with hk; subst hk; exact Harmless.raise _ _
  · split at hk
    · injection hk with hk; subst hk
      refine ⟨rfl, fun r hr => ?_⟩
      injection hr with hr
      exact Or.inl ⟨_, hr.symm, rfl⟩
    · cases hk

theorem getResponse_run {x : Ext} {srv : Srv} {info : ReqInfo} {bt state : String} {c : Client}
    {resp : HttpResp} (h : x.http c.log (sentOf srv info) = .ok resp) :
    getResponse x srv info bt state c =
      (if 300 ≤ resp.status ∧ resp.status < 400 then (pure (.http resp) : Py Client Resp)
       else if resp.status < 300 ∧ orElse bt (attr c srv "response_body_type" (responseBodyType srv)) = "html"
         then pure (.text resp.text)
       else parseRequestResponse x srv resp (if resp.status < 300 then
         orElse bt (attr c srv "response_body_type" (responseBodyType srv)) else bt) state)
        (afterSend c (sentOf srv info)) := by
  unfold getResponse
  rw [Py.bind_run]
  have : send x { srv := srv, url := info.url, method := info.method, headers := info.headers, body := info.body } c
      = (.ok resp, afterSend c (sentOf srv info)) := by
    exact Prod.ext h rfl
  rw [this]
  rfl

/-- **C40** (no answer).  If the HTTP library raises, so does the request; nothing is stored. -/
theorem C40_no_answer (x : Ext) (srv : Srv) (info : ReqInfo) (bt state : String) (c : Client) (e : Exc)
    (h : x.http c.log (sentOf srv info) = .error e) :
    serviceRequest x srv info bt state c = (.error e, afterSend c (sentOf srv info)) := by
  unfold serviceRequest getResponse
  have : send x { srv := srv, url := info.url, method := info.method, headers := info.headers, body := info.body } c
      = (.error e, afterSend c (sentOf srv info)) := by
    exact Prod.ext h rfl
  rw [Py.bind_run, Py.bind_run, this]

/-- **C40** (server errors and unknown codes).  Every status from 500 on, and every one below 300 that is
not 200 to 206 (unless the answer is a page to be shown), raises, and nothing is stored. -/
theorem C40_failure_raises (x : Ext) (srv : Srv) (info : ReqInfo) (bt state : String) (c : Client)
    (resp : HttpResp) (h : x.http c.log (sentOf srv info) = .ok resp)
    (hs : 500 ≤ resp.status ∨ (resp.status < 300 ∧ ¬ (200 ≤ resp.status ∧ resp.status ≤ 206) ∧
      orElse bt (attr c srv "response_body_type" (responseBodyType srv)) ≠ "html")) :
    ∃ e, serviceRequest x srv info bt state c = (.error e, afterSend c (sentOf srv info)) := by
  unfold serviceRequest
  rw [Py.bind_run, getResponse_run h]
  have h3 : ¬ (300 ≤ resp.status ∧ resp.status < 400) := by omega
  have h4 : ¬ (resp.status < 300 ∧ orElse bt (attr c srv "response_body_type" (responseBodyType srv)) = "html") := by
    rintro ⟨h1, h2⟩
    rcases hs with hs | ⟨_, _, h5⟩
    · omega
    · exact h5 h2
  have h5 : resp.status ∉ SUCCESSFUL := by
    simp only [SUCCESSFUL, List.mem_cons, List.not_mem_nil, or_false]; omega
  rw [if_neg h3, if_neg h4]
  unfold parseRequestResponse
  rw [if_neg h5]
  by_cases h6 : resp.status = 500
  · rw [if_pos h6]; exact ⟨_, rfl⟩
  · rw [if_neg h6, if_neg (by omega)]; exact ⟨_, rfl⟩

/-- **C40** (client errors; what holds).  A 4xx answer whose body is an error message, or not a message at
all, is reported as an error message with its status, or raises; nothing is stored. -/
theorem C40_client_error_partial (x : Ext) (srv : Srv) (info : ReqInfo) (bt state : String) (c : Client)
    (resp : HttpResp) (h : x.http c.log (sentOf srv info) = .ok resp)
    (hs : 400 ≤ resp.status ∧ resp.status < 500) (hb : OnlyErrors x c.ctx srv resp.text) :
    (serviceRequest x srv info bt state c).2 = afterSend c (sentOf srv info) ∧
    ∀ r, (serviceRequest x srv info bt state c).1 = .ok r →
      ∃ o, r = .msg o ∧ Dict.has o "error" = true ∧ Dict.get? o "status_code" = some (.int resp.status) := by
  have hb' : OnlyErrors x (afterSend c (sentOf srv info)).ctx srv resp.text := hb
  unfold serviceRequest
  rw [Py.bind_run, getResponse_run h]
  have h3 : ¬ (300 ≤ resp.status ∧ resp.status < 400) := by omega
  have h4 : ¬ (resp.status < 300 ∧ orElse bt (attr c srv "response_body_type" (responseBodyType srv)) = "html") := by
    omega
  have h5 : resp.status ∉ SUCCESSFUL := by
    simp only [SUCCESSFUL, List.mem_cons, List.not_mem_nil, or_false]; omega
  have h7 : ¬ resp.status < 300 := by omega
  rw [if_neg h3, if_neg h4, if_neg h7]
  unfold parseRequestResponse
  rw [if_neg h5, if_neg (by omega), if_pos hs]
  rw [Py.bind_run]
  have hh := Harmless.try_ (parse_onlyErrors (f := errorType resp) (state := "") hb')
    (fun e k hk => harmless_fallback (bt := bt) hb' e k hk)
  obtain ⟨h8, h9⟩ := hh
  rcases hr : Py.try_ (parseResponse x srv (.text resp.text) (errorType resp) "")
    (errorFallback x srv resp bt) (afterSend c (sentOf srv info)) with ⟨r, c'⟩
  rw [hr] at h8 h9
  simp only at h8
  subst h8
  cases r with
  | error e => exact ⟨rfl, fun r h => by cases h⟩
  | ok r =>
    rcases h9 r rfl with ⟨o, rfl, ho⟩ | ⟨s, rfl⟩
    · have hio : Msg.isError (Dict.set o "status_code" (.int resp.status)) = true := by
        unfold Msg.isError at ho ⊢
        rw [Dict.has_eq] at ho ⊢
        rw [Dict.get?_set_ne _ _ (by decide)]; exact ho
      simp only [withStatus, Py.lift_run, Resp.isError, hio, if_true, Py.pure_run]
      refine ⟨trivial, fun r hr => ?_⟩
      injection hr with hr
      exact ⟨_, hr.symm, hio, Dict.get?_set_self _ _ _⟩
    · simp only [withStatus, Py.lift_run]
      exact ⟨trivial, fun r h => by cases h⟩

/-- The store is the same. -/
def SameStore (c c' : Client) : Prop := c'.db = c.db

instance : FrameRel SameStore where
  refl _ := rfl
  trans h h' := Eq.trans h' h

theorem sameStore_onCtx {α : Type} (m : Py Ctx α) : Frame SameStore (onCtx m) := fun _ => rfl

/-- A redirect is stored in no session. -/
theorem redirect_not_stored (x : Ext) (srv : Srv) (r : HttpResp) (k : String) : Frame SameStore (update x srv (.http r) k) := by
  cases srv <;> simp only [update, updateMsg] <;> first
    | exact Frame.raise _
    | exact Frame.bind (Frame.pure _) fun _ => Frame.pure _
    | exact Frame.bind (Frame.bind (sameStore_onCtx _) fun _ => Frame.pure _) fun _ => Frame.pure _
    | exact Frame.bind (Frame.bind Frame.read fun _ => Frame.bind (sameStore_onCtx _) fun _ => Frame.pure _) fun _ => Frame.pure _

/-- A text is stored in no session. -/
theorem text_not_stored (x : Ext) (srv : Srv) (s k : String) : Frame SameStore (update x srv (.text s) k) := by
  cases srv <;> simp only [update] <;> first
    | exact Frame.raise _
    | exact Frame.pure _

/-- **C40** (what leads to a stored result).  If a request of any service, or the storing of an
authorization response, changed a session store, the answer was one of 200 to 206, or a 4xx whose body is a
message without error. -/
theorem C40_stored_only_if (x : Ext) (srv : Srv) (info : ReqInfo) (bt state : String) (c : Client)
    (h : (serviceRequest x srv info bt state c).2.db ≠ c.db) :
    ∃ resp, x.http c.log (sentOf srv info) = .ok resp ∧
      ((200 ≤ resp.status ∧ resp.status ≤ 206) ∨
       (400 ≤ resp.status ∧ resp.status < 500 ∧ ¬ OnlyErrors x c.ctx srv resp.text)) := by
  cases hh : x.http c.log (sentOf srv info) with
  | error e => rw [C40_no_answer x srv info bt state c e hh] at h; exact absurd rfl h
  | ok resp =>
    refine ⟨resp, rfl, ?_⟩
    by_cases h1 : 200 ≤ resp.status ∧ resp.status ≤ 206
    · exact Or.inl h1
    right
    by_cases h2 : 400 ≤ resp.status ∧ resp.status < 500
    · refine ⟨h2.1, h2.2, fun ho => h ?_⟩
      rw [(C40_client_error_partial x srv info bt state c resp hh h2 ho).1]; rfl
    · exfalso
      by_cases h3 : 300 ≤ resp.status ∧ resp.status < 400
      · apply h
        unfold serviceRequest
        rw [Py.bind_run, getResponse_run hh, if_pos h3]
        simp only [Py.pure_run, Resp.isError, Bool.false_eq_true, if_false]
        exact redirect_not_stored x srv resp state _
      · by_cases h4 : resp.status < 300 ∧
            orElse bt (attr c srv "response_body_type" (responseBodyType srv)) = "html"
        · apply h
          unfold serviceRequest
          rw [Py.bind_run, getResponse_run hh, if_neg h3, if_pos h4]
          simp only [Py.pure_run]
          split
          · rfl
          · exact text_not_stored x srv resp.text state _
        · have hs : 500 ≤ resp.status ∨ (resp.status < 300 ∧ ¬ (200 ≤ resp.status ∧ resp.status ≤ 206) ∧
              orElse bt (attr c srv "response_body_type" (responseBodyType srv)) ≠ "html") := by
            by_cases h5 : 500 ≤ resp.status
            · exact Or.inl h5
            · exact Or.inr ⟨by omega, h1, fun e => h4 ⟨by omega, e⟩⟩
          obtain ⟨e, he⟩ := C40_failure_raises x srv info bt state c resp hh hs
          rw [he] at h; exact h rfl

/-- A world in which every answer has the given status and body. -/
def answering (status : Int) (body : String) : Ext :=
  { World.ext 1000 "" "" "n1" with
    http := fun _ _ => .ok { status := status, headers := [("content-type", "application/json")], text := body } }

/-- **C40** violated: a 400 answer whose body is a token response without error is stored as one. -/
theorem C40_client_error_violated :
    ∃ c' r o, serviceRequest (answering 400 "renewed") .refreshToken { url := "https://op/token" } "json" "s"
        { db := tokenDb } = (.ok (.msg r), c') ∧
      Dict.get? r "status_code" = some (.int 400) ∧
      StateInterface.getItem c'.db "token_response" "s" = .ok o ∧
      Dict.get? o "access_token" = some (.str "AT2") :=
  ⟨_, _, _, rfl, rfl, rfl, rfl⟩

/-- Non-vacuity of C40: 400 with an error, 500, 299 and 200. -/
example :
    (serviceRequest (answering 400 "bad") .refreshToken { url := "u" } "json" "s" { db := tokenDb }).1
      = .ok (.msg [("error", .str "invalid_grant"), ("status_code", .int 400)]) ∧
    (serviceRequest (answering 500 "renewed") .refreshToken { url := "u" } "json" "s" { db := tokenDb }).1
      = .error .parseError ∧
    (serviceRequest (answering 299 "renewed") .refreshToken { url := "u" } "json" "s" { db := tokenDb }).1
      = .error .oidcServiceError ∧
    (serviceRequest (answering 200 "renewed") .refreshToken { url := "u" } "json" "s" { db := tokenDb }).1.isOk
      = true ∧
    (serviceRequest (answering 200 "renewed") .refreshToken { url := "u" } "json" "s" { db := tokenDb }).2.db
      ≠ tokenDb := by
  refine ⟨rfl, rfl, rfl, by decide +kernel, by decide +kernel⟩

end Verif.Props
