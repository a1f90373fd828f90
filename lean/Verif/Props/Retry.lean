import Verif.Props.Ready
/-!
# C90: a login that failed can be repeated

Nothing an attempt to finalize a session leaves behind stands in the way of a later one.
-/

namespace Verif.Props
open Verif Verif.Service Verif.Handler Verif.StateInterface Verif.Spec.Session Verif.Spec.HandlerView Verif.Spec.Wire
open Verif.Spec.Store (KeySpace)
open Verif.Spec.InFlight

/-! ## Specification -/

/-- The response `response` and the provider (seen through the outside world `y`) are honest: the response can be parsed
and verified by the client `c`, is no error, belongs to session `k` and has a code; the token endpoint gives an access token
`t` and an ID Token `idt` with the nonce of the session for it; the userinfo endpoint gives the claims `u` of the user. -/
structure HonestLogin (y : Ext) (c : Client) (k n : String) (areq : Obj) (ver : Val) (response resp idt u : Obj)
    (t sub : String) : Prop where
  equipped : Equipped y c
  asks : AsksUserinfo y c
  token : t ≠ ""
  parsed : ParsedAs y c response resp
  noError : Msg.isError resp = false
  session : Dict.get? resp "state" = some (.str k)
  expiry : ∃ r, withExpiry y resp = .ok r
  idToken : GoodIdToken idt sub
  code : ∃ code ru rtv, Dict.get? resp "code" = some code ∧ (code ≠ .str "" ∧ code ≠ .list [.str ""]) ∧
    Dict.get? areq "redirect_uri" = some ru ∧ Dict.get? areq "response_type" = some rtv ∧
    (IsSet (wordsOf rtv) ["code"] ∨ IsSet (wordsOf rtv) ["code", "id_token"]) ∧ HonestTokens y c code ru ver n t idt
  claims : HonestClaims y c t sub u

/-- An attempt to finalize: the outside world, the issuer, the response, the behaviour arguments. -/
abbrev Attempt := Ext × String × Obj × Obj

/-- The call of an attempt. -/
def Attempt.call : Attempt → Ext × Call
  | (x, i, r, b) => (x, .finalize i r b)

/-! ## C90 -/

theorem login_of {K : String → Prop} (hK : KeySpace K) {h : Handler} {c : Client} {i k n : String} {areq : Obj} {ver : Val}
    (hc : Dict.get? h.issuer2rp i = some c) (ha : .authorization ∈ c.services) (hk : K k) (hw : Waiting c i k areq n ver)
    {y : Ext} {response resp idt u : Obj} {t sub : String} (hh : HonestLogin y c k n areq ver response resp idt u t sub)
    (b : Obj) : (finalize y i response b h).1 =
      .ok (.done (.obj u) (.str k) (.str t) (.obj idt) ((Dict.get? resp "session_state").getD (.str ""))) := by
  obtain ⟨code, ru, rtv, h1, h2, h3, h4, h5, h6⟩ := hh.code
  obtain ⟨_, _, _, _, _, r, _⟩ := C81_code_login hK y i response b h c hc ha hh.equipped hh.asks k n t sub hk hh.token areq resp
    idt u code ru ver rtv hw h3 h4 h5 hh.parsed hh.noError hh.session h1 h2 hh.expiry hh.idToken h6 hh.claims
  exact r

/-- **C90**.  `begin` returned the session `k` of the client kept as `i`.  Whatever is done then (`after`) — sessions, `k`
itself among them, are finalized with any response, whether that succeeds, fails or breaks off, tokens are fetched,
refreshed, other sessions are begun and cleared — as long as `k` is not cleared, the client not replaced and the generated
states and nonces are others: when an honest response to the request of `k` comes, `finalize` succeeds with the user's
claims, the session and the tokens. -/
theorem C90_repeated_login {K : String → Prop} (hK : KeySpace K) (h0 : Handler) (hnew : NewHandler h0)
    (before : List (Ext × Call)) (x : Ext) (issuer user : String) (req b : Obj) (url k : String) (h1 : Handler)
    (hbefore : ∀ xc ∈ before, CallOk K k xc) (hkx : K (x.rnd "init_state"))
    (hv : x.rnd "code_verifier" ≠ "") (hn : x.rnd "init_nonce" ≠ "")
    (hmsg : (Dict.keys (x.msg .authorization).defaults).Nodup ∧ "nonce" ∉ (x.msg .authorization).spaced)
    (hbegin : begin_ x issuer user req b (run before h0) = (.ok (url, k), h1))
    (i : String) (hsetup : (clientSetup x issuer user b (run before h0)).1 = .ok i) (hne : i ≠ "")
    (hname : NamedAfterIssuer h1 i) (hgiven : ∀ c, Dict.get? h1.issuer2rp i = some c → NoNonceGiven c req)
    (hservice : ∀ c, Dict.get? h1.issuer2rp i = some c → .authorization ∈ c.services)
    (after : List (Ext × Call)) (hafter : ∀ xc ∈ after, CallOk K k xc)
    (hkeep : NeverReplaced i after h1)
    (hfresh : FreshNonces (x.rnd "init_nonce") before h0 ∧ FreshNonces (x.rnd "init_nonce") after h1) :
    ∃ c' areq ver, Dict.get? (run after h1).issuer2rp i = some c' ∧
      Dict.get? areq "state" = some (.str k) ∧ Dict.get? areq "nonce" = some (.str (x.rnd "init_nonce")) ∧
      getItem c'.db "auth_request" k = .ok areq ∧
      ∀ (y : Ext) (response resp idt u b' : Obj) (t sub : String),
        HonestLogin y c' k (x.rnd "init_nonce") areq ver response resp idt u t sub →
        (finalize y i response b' (run after h1)).1 =
          .ok (.done (.obj u) (.str k) (.str t) (.obj idt) ((Dict.get? resp "session_state").getD (.str ""))) := by
  have hk : K k := by
    obtain ⟨_, _, _, _, _, b3, _⟩ := begin_ok hbegin
    exact init_key b3 ▸ hkx
  obtain ⟨c, c', areq, ver, a1, a2, _, a4, _, a6, a7, _, a9⟩ := C81_waits_among_others hK h0 hnew before x issuer user req b url k h1
    hbefore hkx hv hn hmsg hbegin i hsetup hne hname hgiven after hafter hkeep hfresh
  refine ⟨c', areq, ver, a2, a6, a7, a9.request, fun y response resp idt u b' t sub hh => ?_⟩
  exact login_of hK a2 (by rw [a4]; exact hservice c a1) hk a9 hh b'

theorem attempts_ok {K : String → Prop} {k i n : String} : ∀ (l : List Attempt) (h : Handler),
    (∀ xc ∈ l.map Attempt.call, CallOk K k xc) ∧ NeverReplaced i (l.map Attempt.call) h ∧ FreshNonces n (l.map Attempt.call) h
  | [], _ => ⟨fun _ h => (by cases h), trivial, trivial⟩
  | (x, j, r, b) :: l, h => by
    obtain ⟨h1, h2, h3⟩ := attempts_ok (K := K) (k := k) (i := i) (n := n) l (exec x (.finalize j r b) h).2
    refine ⟨fun xc hm => ?_, ⟨trivial, h2⟩, ⟨trivial, h3⟩⟩
    rcases List.mem_cons.1 hm with rfl | hm
    · trivial
    · exact h1 xc hm

/-- **C90**, right after `begin`.  Any number of attempts to finalize, for any sessions, with any responses and whatever
the provider and the network make of them, leave the session so that an honest response can still be finalized. -/
theorem C90_after_attempts {K : String → Prop} (hK : KeySpace K) (h0 : Handler) (hnew : NewHandler h0)
    (before : List (Ext × Call)) (x : Ext) (issuer user : String) (req b : Obj) (url k : String) (h1 : Handler)
    (hbefore : ∀ xc ∈ before, CallOk K k xc) (hkx : K (x.rnd "init_state"))
    (hv : x.rnd "code_verifier" ≠ "") (hn : x.rnd "init_nonce" ≠ "")
    (hmsg : (Dict.keys (x.msg .authorization).defaults).Nodup ∧ "nonce" ∉ (x.msg .authorization).spaced)
    (hbegin : begin_ x issuer user req b (run before h0) = (.ok (url, k), h1))
    (i : String) (hsetup : (clientSetup x issuer user b (run before h0)).1 = .ok i) (hne : i ≠ "")
    (hname : NamedAfterIssuer h1 i) (hgiven : ∀ c, Dict.get? h1.issuer2rp i = some c → NoNonceGiven c req)
    (hservice : ∀ c, Dict.get? h1.issuer2rp i = some c → .authorization ∈ c.services)
    (hfresh : FreshNonces (x.rnd "init_nonce") before h0) (attempts : List Attempt) :
    ∃ c' areq ver, Dict.get? (run (attempts.map Attempt.call) h1).issuer2rp i = some c' ∧
      Dict.get? areq "state" = some (.str k) ∧ Dict.get? areq "nonce" = some (.str (x.rnd "init_nonce")) ∧
      getItem c'.db "auth_request" k = .ok areq ∧
      ∀ (y : Ext) (response resp idt u b' : Obj) (t sub : String),
        HonestLogin y c' k (x.rnd "init_nonce") areq ver response resp idt u t sub →
        (finalize y i response b' (run (attempts.map Attempt.call) h1)).1 =
          .ok (.done (.obj u) (.str k) (.str t) (.obj idt) ((Dict.get? resp "session_state").getD (.str ""))) := by
  obtain ⟨g1, g2, g3⟩ := attempts_ok (K := K) (k := k) (i := i) (n := x.rnd "init_nonce") attempts h1
  exact C90_repeated_login hK h0 hnew before x issuer user req b url k h1 hbefore hkx hv hn hmsg hbegin i hsetup hne hname hgiven
    hservice _ g1 g2 ⟨hfresh, g3⟩

/-! ## Non-vacuity -/

/-- The network is down. -/
def down (x : Ext) : Ext := { x with http := fun _ _ => .error (.external "ConnectionError") }

/-- The attempts: the provider's error; a response for nobody; the token endpoint cannot be reached; the ID Token has
another nonce. -/
def failures : List Attempt :=
  [(World.ext 1005 "" "" "n1", "https://op.example", [("error", .str "login_required"), ("state", .str World.s1)], []),
   (World.ext 1006 "" "" "n1", "https://op.example", [("code", .str "c1"), ("state", .str "unknown")], []),
   (down (World.ext 1007 "" "" "n1"), "https://op.example", codeResponse, []),
   (World.ext 1008 "" "" "other", "https://op.example", codeResponse, [])]

/-- The client after the failures. -/
def triedClient : Client :=
  (Dict.get? (run (failures.map Attempt.call) inFlight).issuer2rp "https://op.example").getD default

/-- All of them fail (the first is reported as the provider's error). -/
example : failures.map (fun a => ((finalize a.1 a.2.1 a.2.2.1 a.2.2.2 inFlight).1.map (fun r => match r with
      | .done .. => true
      | _ => false)).toOption) = [some false, none, none, none] := by rfl

theorem world_honestLogin (ver : Val) : HonestLogin (World.ext 1010 "" "" "n1") triedClient World.s1 "n1" madeRequest ver
    codeResponse codeResponse aliceToken [("sub", .str "alice"), ("name", .str "Alice")] "AT1" "alice" := by
  refine ⟨?_, ⟨by decide, ⟨"https://op.example/userinfo", by rfl⟩, by rfl, Or.inl (by rfl), ⟨by decide, by rfl⟩⟩, by decide, by rfl, by rfl,
    by rfl, ⟨_, rfl⟩, ⟨by rfl, fun v hv => ⟨"sid1", ?_⟩⟩,
    ⟨.str "c1", .str "https://rp.example/cb", .list [.str "code"], by rfl, ⟨by decide, by decide⟩, by rfl, by rfl, Or.inl (by intro w; rfl),
      ⟨World.answer { srv := .accesstoken, url := "", method := "" },
    [("access_token", .str "AT1"), ("token_type", .str "Bearer"), ("expires_in", .int 300),
      ("refresh_token", .str "RT1"), ("id_token", .str "header.payload.signature")],
    [("access_token", .str "AT1"), ("token_type", .str "Bearer"), ("expires_in", .int 300),
      ("refresh_token", .str "RT1"), ("id_token", .str "header.payload.signature"), ("__verified_id_token", .obj aliceToken)],
    ?_, ?_, by rfl, by rfl, by rfl, _, rfl⟩, by rfl⟩,
    ⟨World.answer { srv := .userinfo, url := "", method := "" }, [("sub", .str "alice"), ("name", .str "Alice")], ?_, ?_, by rfl, by rfl, by rfl⟩⟩
  · refine ⟨by decide, ⟨"https://op.example/token", by rfl⟩, by decide, ?_, Or.inl (by rfl), ⟨by rfl, by decide⟩, by decide⟩
    exact C81_secret_authenticates _ _ ⟨by rfl, by decide⟩ "client_secret_basic" (by rfl) (Or.inl rfl) (by decide)
  · have e : Dict.get? aliceToken "sid" = some (.str "sid1") := rfl
    rw [e] at hv
    injection hv with hv
    exact hv.symm
  · intro log s hs
    show Except.ok (World.answer s) = _
    unfold World.answer
    rw [hs.1]
  · exact ⟨by decide, by decide, by decide, by rfl, by rfl, by rfl, by rfl⟩
  · intro log s hs
    show Except.ok (World.answer s) = _
    unfold World.answer
    rw [hs.1]
  · exact ⟨by decide, by decide, by decide, by rfl, by rfl, by rfl, by rfl⟩

/-- Non-vacuity: in the small world the login can be finalized after the failures. -/
example : ∃ c' areq ver, Dict.get? (run (failures.map Attempt.call) inFlight).issuer2rp "https://op.example" = some c' ∧
    getItem c'.db "auth_request" World.s1 = .ok areq ∧
    HonestLogin (World.ext 1010 "" "" "n1") c' World.s1 "n1" areq ver codeResponse codeResponse aliceToken
      [("sub", .str "alice"), ("name", .str "Alice")] "AT1" "alice" ∧
    (finalize (World.ext 1010 "" "" "n1") "https://op.example" codeResponse [] (run (failures.map Attempt.call) inFlight)).1 =
      .ok (.done (.obj [("sub", .str "alice"), ("name", .str "Alice")]) (.str World.s1) (.str "AT1") (.obj aliceToken) (.str "")) := by
  obtain ⟨c', areq, ver, a1, _, _, a4, a5⟩ := C90_after_attempts C10_generated_keys_are_safe World.handler newWorld earlier
    (World.ext 1000 World.s1 "n1" "") "https://op.example" "" [] [] _ World.s1 inFlight earlier_ok gen_s1
    (by decide) (by decide) ⟨by decide, by decide⟩ (by rfl) "https://op.example" (by rfl) (by decide) inFlight_named
    (fun c hc => ⟨rfl, by
      have h1 : (Dict.get? inFlight.issuer2rp "https://op.example").map
          (fun c => Dict.get? (confObj c.ctx.config "request_args") "nonce") = some none := by rfl
      rw [hc] at h1
      injection h1⟩)
    (fun c hc => by
      have h1 : (Dict.get? inFlight.issuer2rp "https://op.example").map (fun c => decide (.authorization ∈ c.services)) = some true := by rfl
      rw [hc] at h1
      injection h1 with h1
      exact of_decide_eq_true h1)
    earlier_fresh failures
  have ec : c' = triedClient := by unfold triedClient; rw [a1]; rfl
  have er : areq = madeRequest := by
    rw [ec] at a4
    have : getItem triedClient.db "auth_request" World.s1 = .ok madeRequest := by rfl
    rw [this] at a4
    injection a4 with a4
    exact a4.symm
  subst ec er
  exact ⟨_, _, ver, a1, a4, world_honestLogin ver, a5 _ _ _ _ _ [] _ _ (world_honestLogin ver)⟩

end Verif.Props
