import Verif.Lemmas.ClientAuth
/-!
# Client authentication: C30 – C37
-/

namespace Verif.Props
open Verif Verif.ClientAuth

/-- A client used in the examples. -/
def exCtx : Ctx :=
  { issuer := "https://op.example.org", clientId := "rp:1", clientSecret := "s e~cret",
    providerInfo := [("issuer", .str "https://op.example.org"),
      ("token_endpoint", .str "https://op.example.org/token")] }

/-- `oidcmsg.oauth2.AccessTokenRequest`. -/
def exTokenRequest : MsgType :=
  { name := "AccessTokenRequest",
    params := ["grant_type", "code", "redirect_uri", "client_id", "client_secret", "state"],
    required := ["grant_type", "code", "redirect_uri"], isAccessTokenRequest := true }

def exEnv : Env := { ctx := exCtx, msg := exTokenRequest, serviceName := "accesstoken" }

def exRequest : Obj :=
  [("grant_type", .str "authorization_code"), ("code", .str "c"), ("client_secret", .str "s e~cret")]

/-! ## C30 -/

/-- C30: the receiver of the Basic header recovers exactly the user id (argument, else the client's
id) and the password (argument, else the request's secret, else the client's). -/
theorem C30_header_decodes (env : Env) (kwargs : Obj) (headers headers' : Dict String)
    (request request' : Obj)
    (h : construct env "client_secret_basic" kwargs headers request = .ok (headers', request')) :
    ∃ user passwd header,
      Spec.firstOf [Dict.get? kwargs "user", some (.str env.ctx.clientId)] = some (.str user) ∧
      Spec.firstOf [Dict.get? kwargs "password", Dict.get? request "client_secret",
        some (.str env.ctx.clientSecret)] = some (.str passwd) ∧
      Dict.get? headers' "Authorization" = some header ∧
      Spec.decodeBasic true header = some (Quote.utf8 user, Quote.utf8 passwd) := by
  obtain ⟨u, p, hu, hp, hh, -⟩ := basic_ok (by simpa [construct] using h)
  refine ⟨u, p, _, ?_, ?_, by rw [hh, Dict.get?_set_self], decodeBasic_token u p⟩
  · unfold getUser at hu; rw [← hu]
    cases Dict.get? kwargs "user" <;> rfl
  · unfold getPasswd at hp; rw [← hp]
    cases Dict.get? kwargs "password" with
    | some x => rfl
    | none => cases Dict.get? request "client_secret" <;> rfl

/-- the encoded example credentials succeed and are sent -/
example : ∃ h r, construct exEnv "client_secret_basic" [] [] exRequest = .ok (h, r) := ⟨_, _, rfl⟩

/-- C30: the other headers stay as they are. -/
theorem C30_other_headers (env : Env) (kwargs : Obj) (headers headers' : Dict String)
    (request request' : Obj) (k : String) (hk : k ≠ "Authorization")
    (h : construct env "client_secret_basic" kwargs headers request = .ok (headers', request')) :
    Dict.get? headers' k = Dict.get? headers k := by
  obtain ⟨u, p, -, -, hh, -⟩ := basic_ok (by simpa [construct] using h)
  rw [hh, Dict.get?_set_ne _ _ (Ne.symm hk)]

/-- C30: different credentials give different headers. -/
theorem C30_header_injective (u p u' p' : String) (h : basicToken u p = basicToken u' p') :
    u = u' ∧ p = p' := by
  have h1 := decodeBasic_token u p
  rw [h, decodeBasic_token] at h1
  simp only [Option.some.injEq, Prod.mk.injEq] at h1
  exact ⟨(Quote.utf8_inj h1.1).symm, (Quote.utf8_inj h1.2).symm⟩

/-- The client id of a request after `client_secret_basic`. -/
def expectedClientId (env : Env) (request : Obj) : Option Val :=
  if env.msg.isAccessTokenRequest ∧ Dict.get? request "grant_type" = some (.str "authorization_code")
  then Spec.firstOf [Dict.get? request "client_id", some (.str env.ctx.clientId)]
  else if "client_id" ∈ env.msg.params ∧ "client_id" ∈ env.msg.required
  then Dict.get? request "client_id" else none

/-- C30: the secret has left the request; the client id is there for authorization-code token
requests, otherwise only if it was there and the request type requires it; nothing else changes. -/
theorem C30_request (env : Env) (kwargs : Obj) (headers headers' : Dict String)
    (request request' : Obj)
    (h : construct env "client_secret_basic" kwargs headers request = .ok (headers', request')) :
    Dict.get? request' "client_secret" = none ∧
    Dict.get? request' "client_id" = expectedClientId env request ∧
    Spec.SameExcept ["client_secret", "client_id"] request request' := by
  obtain ⟨u, p, -, -, -, hm⟩ := basic_ok (by simpa [construct] using h)
  have gt : Dict.get? (Dict.del request "client_secret") "grant_type" = Dict.get? request "grant_type" :=
    Dict.get?_del_ne _ (by decide)
  have ci : Dict.get? (Dict.del request "client_secret") "client_id" = Dict.get? request "client_id" :=
    Dict.get?_del_ne _ (by decide)
  have dropOk : ∀ r : Obj, r = (if (env.msg.requires "client_id").getD false
        then Dict.del request "client_secret"
        else Dict.del (Dict.del request "client_secret") "client_id") →
      Dict.get? r "client_secret" = none ∧
      Dict.get? r "client_id" = (if "client_id" ∈ env.msg.params ∧ "client_id" ∈ env.msg.required
        then Dict.get? request "client_id" else none) ∧
      Spec.SameExcept ["client_secret", "client_id"] request r := by
    rintro r rfl
    have hreq : (env.msg.requires "client_id").getD false = true ↔
        ("client_id" ∈ env.msg.params ∧ "client_id" ∈ env.msg.required) := by
      unfold MsgType.requires
      by_cases h1 : "client_id" ∈ env.msg.params <;> simp [h1]
    by_cases hr : ("client_id" ∈ env.msg.params ∧ "client_id" ∈ env.msg.required)
    · rw [if_pos (hreq.2 hr), if_pos hr]
      refine ⟨Dict.get?_del_self _ _, ci, ?_⟩
      intro k hk
      simp only [List.mem_cons, List.not_mem_nil, or_false, not_or] at hk
      exact Dict.get?_del_ne _ (Ne.symm hk.1)
    · rw [if_neg (fun h => hr (hreq.1 h)), if_neg hr]
      refine ⟨?_, Dict.get?_del_self _ _, ?_⟩
      · rw [Dict.get?_del_ne _ (by decide)]; exact Dict.get?_del_self _ _
      · intro k hk
        simp only [List.mem_cons, List.not_mem_nil, or_false, not_or] at hk
        rw [Dict.get?_del_ne _ (Ne.symm hk.2), Dict.get?_del_ne _ (Ne.symm hk.1)]
  unfold basicModify withOrWithoutClientId at hm
  rw [gt] at hm
  unfold expectedClientId
  by_cases ha : env.msg.isAccessTokenRequest = true
  · rw [if_pos ha] at hm
    cases hg : Dict.get? request "grant_type" with
    | none => rw [hg] at hm; cases hm
    | some g =>
      rw [hg] at hm
      simp only at hm
      by_cases hgc : g = .str "authorization_code"
      · rw [if_pos hgc] at hm
        rw [if_pos ⟨ha, by rw [hgc]⟩]
        unfold Dict.has at hm
        rw [ci] at hm
        cases hc : Dict.get? request "client_id" with
        | some c =>
          rw [hc] at hm
          simp only [Option.isSome_some, if_true, Except.ok.injEq] at hm
          subst hm
          refine ⟨Dict.get?_del_self _ _, by rw [ci, hc]; rfl, ?_⟩
          intro k hk
          simp only [List.mem_cons, List.not_mem_nil, or_false, not_or] at hk
          exact Dict.get?_del_ne _ (Ne.symm hk.1)
        | none =>
          rw [hc] at hm
          simp only [Option.isSome_none, Bool.false_eq_true, if_false, Except.ok.injEq] at hm
          subst hm
          refine ⟨?_, by rw [Dict.get?_set_self]; rfl, ?_⟩
          · rw [Dict.get?_set_ne _ _ (by decide)]; exact Dict.get?_del_self _ _
          · intro k hk
            simp only [List.mem_cons, List.not_mem_nil, or_false, not_or] at hk
            rw [Dict.get?_set_ne _ _ (Ne.symm hk.2), Dict.get?_del_ne _ (Ne.symm hk.1)]
      · rw [if_neg hgc] at hm
        simp only [Except.ok.injEq] at hm
        rw [if_neg (by rintro ⟨-, h2⟩; exact hgc (Option.some.inj h2))]
        exact dropOk _ hm.symm
  · rw [if_neg ha] at hm
    simp only [Except.ok.injEq] at hm
    rw [if_neg (by rintro ⟨h1, -⟩; exact ha h1)]
    exact dropOk _ hm.symm

/-! ## C31 -/

/-- C31, partial: the header is the standard base64 text exactly if no `~` stands at an index
`≡ 2 (mod 3)` of the credentials text.  (Missing: it is not standard otherwise, see
`C31_violated_tilde`.) -/
theorem C31_standard_iff_partial (user passwd : String) :
    basicToken user passwd =
        String.ofList (Base64.encode false (asciiBytes (credentials user passwd))) ↔
      ∀ i, (credentials user passwd)[3 * i + 2]? ≠ some '~' :=
  basicToken_standard_iff user passwd

/-- C31 is violated by the code: a client id `ab~` gives a header a standard decoder rejects. -/
theorem C31_violated_tilde :
    Spec.decodeBasic false ("Basic " ++ basicToken "ab~" "secret") = none ∧
    Spec.decodeBasic true ("Basic " ++ basicToken "ab~" "secret")
      = some (Quote.utf8 "ab~", Quote.utf8 "secret") := by
  exact ⟨by decide +kernel, decodeBasic_token _ _⟩

/-! ## C32 -/

/-- C32: after `client_secret_post` the request has the client's id and the secret found first of:
request, argument, client; nothing else changed, no header set. -/
theorem C32_post (env : Env) (kwargs : Obj) (headers headers' : Dict String) (request request' : Obj)
    (h : construct env "client_secret_post" kwargs headers request = .ok (headers', request')) :
    headers' = headers ∧
    Dict.get? request' "client_id" = some (.str env.ctx.clientId) ∧
    Dict.get? request' "client_secret" = Spec.firstOf [Dict.get? request "client_secret",
      Dict.get? kwargs "client_secret", some (.str env.ctx.clientSecret)] ∧
    Spec.SameExcept ["client_secret", "client_id"] request request' := by
  have h : clientSecretPost env kwargs headers request = .ok (headers', request') := by
    simpa [construct] using h
  unfold clientSecretPost postModify at h
  have setId : ∀ r : Obj, Spec.SameExcept ["client_secret", "client_id"] request r →
      Dict.get? (Dict.set r "client_id" (.str env.ctx.clientId)) "client_id"
        = some (.str env.ctx.clientId) ∧
      Dict.get? (Dict.set r "client_id" (.str env.ctx.clientId)) "client_secret"
        = Dict.get? r "client_secret" ∧
      Spec.SameExcept ["client_secret", "client_id"] request
        (Dict.set r "client_id" (.str env.ctx.clientId)) := by
    intro r hr
    refine ⟨Dict.get?_set_self _ _ _, Dict.get?_set_ne _ _ (by decide), ?_⟩
    intro k hk
    have h2 := hr k hk
    simp only [List.mem_cons, List.not_mem_nil, or_false, not_or] at hk
    rw [Dict.get?_set_ne _ _ (Ne.symm hk.2), h2]
  have setSec : ∀ s : Val, Spec.SameExcept ["client_secret", "client_id"] request
      (Dict.set request "client_secret" s) := by
    intro s k hk
    simp only [List.mem_cons, List.not_mem_nil, or_false, not_or] at hk
    rw [Dict.get?_set_ne _ _ (Ne.symm hk.1)]
  unfold Dict.has at h
  cases hs : Dict.get? request "client_secret" with
  | some s =>
    rw [hs] at h
    simp only [Option.isSome_some, if_true, Except.map, Except.ok.injEq, Prod.mk.injEq] at h
    obtain ⟨rfl, rfl⟩ := h
    obtain ⟨h1, h2, h3⟩ := setId request (fun k _ => rfl)
    exact ⟨rfl, h1, by rw [h2, hs]; rfl, h3⟩
  | none =>
    rw [hs] at h
    simp only [Option.isSome_none, Bool.false_eq_true, if_false] at h
    cases hk : Dict.get? kwargs "client_secret" with
    | some s =>
      rw [hk] at h
      simp only [Except.map, Except.ok.injEq, Prod.mk.injEq] at h
      obtain ⟨rfl, rfl⟩ := h
      obtain ⟨h1, h2, h3⟩ := setId _ (setSec s)
      exact ⟨rfl, h1, by rw [h2, Dict.get?_set_self]; rfl, h3⟩
    | none =>
      rw [hk] at h
      simp only at h
      by_cases hc : env.ctx.clientSecret ≠ ""
      · rw [if_pos hc] at h
        simp only [Except.map, Except.ok.injEq, Prod.mk.injEq] at h
        obtain ⟨rfl, rfl⟩ := h
        obtain ⟨h1, h2, h3⟩ := setId _ (setSec _)
        exact ⟨rfl, h1, by rw [h2, Dict.get?_set_self]; rfl, h3⟩
      · rw [if_neg hc] at h; cases h

example : ∃ h r, construct exEnv "client_secret_post" [] [] [("code", .str "c")] = .ok (h, r) :=
  ⟨_, _, rfl⟩

/-- C32: it fails exactly if there is no secret anywhere, and then with an authentication failure. -/
theorem C32_post_fails_iff (env : Env) (kwargs : Obj) (headers : Dict String) (request : Obj) (e : Exc) :
    construct env "client_secret_post" kwargs headers request = .error e ↔
      e = .authnFailure ∧ Dict.get? request "client_secret" = none ∧
      Dict.get? kwargs "client_secret" = none ∧ env.ctx.clientSecret = "" := by
  have hc : construct env "client_secret_post" kwargs headers request =
      clientSecretPost env kwargs headers request := by simp [construct]
  rw [hc]
  unfold clientSecretPost postModify Dict.has
  cases hs : Dict.get? request "client_secret" with
  | some s => simp [Except.map]
  | none =>
    cases hk : Dict.get? kwargs "client_secret" with
    | some s => simp [Except.map]
    | none =>
      by_cases hc : env.ctx.clientSecret = ""
      · simp [Except.map, hc, eq_comm]
      · simp [Except.map, hc]

/-! ## C33 -/

/-- C33: after JWT client authentication (either method) the request has no secret; the client id is
there only if the request type requires it; the assertion is the given one, else the one already in
the request, else a newly made one; and everything else is unchanged.  No headers are set. -/
theorem C33_request (env : Env) (m : JwtMethod) (kwargs : Obj) (headers' : Dict String)
    (request request' : Obj) (h : jwtAuthn env m kwargs request = .ok (headers', request')) :
    headers' = [] ∧
    Dict.get? request' "client_secret" = none ∧
    Dict.get? request' "client_id" =
      (if "client_id" ∈ env.msg.required then Dict.get? request "client_id" else none) ∧
    (∃ a, Dict.get? request' "client_assertion" = some a ∧
      (Spec.firstOf [Dict.get? kwargs "client_assertion", Dict.get? request "client_assertion"] = some a ∨
       (Dict.get? kwargs "client_assertion" = none ∧ Dict.get? request "client_assertion" = none ∧
        ∃ t, constructAssertion env m kwargs = .ok t ∧ a = .str t))) ∧
    Spec.SameExcept ["client_secret", "client_id", "client_assertion", "client_assertion_type"]
      request request' := by
  unfold jwtAuthn jwtModify at h
  cases hw : withAssertion env m kwargs request with
  | error e => rw [hw] at h; cases h
  | ok r =>
    rw [hw] at h
    simp only at h
    have main : (∃ a, Dict.get? r "client_assertion" = some a ∧
        (Spec.firstOf [Dict.get? kwargs "client_assertion", Dict.get? request "client_assertion"] = some a ∨
         (Dict.get? kwargs "client_assertion" = none ∧ Dict.get? request "client_assertion" = none ∧
          ∃ t, constructAssertion env m kwargs = .ok t ∧ a = .str t))) ∧
        Spec.SameExcept ["client_assertion", "client_assertion_type"] request r := by
      unfold withAssertion at hw
      cases hk : Dict.get? kwargs "client_assertion" with
      | some a =>
        rw [hk] at hw
        simp only at hw
        split at hw <;>
        · simp only [Except.ok.injEq] at hw; subst hw
          refine ⟨⟨a, ?_, .inl rfl⟩, ?_⟩
          · rw [Dict.get?_set_ne _ _ (by decide), Dict.get?_set_self]
          · intro k hk
            simp only [List.mem_cons, List.not_mem_nil, or_false, not_or] at hk
            rw [Dict.get?_set_ne _ _ (Ne.symm hk.2), Dict.get?_set_ne _ _ (Ne.symm hk.1)]
      | none =>
        rw [hk] at hw
        simp only at hw
        unfold Dict.has at hw
        cases hr : Dict.get? request "client_assertion" with
        | some a =>
          rw [hr] at hw
          simp only [Option.isSome_some, if_true] at hw
          split at hw
          · simp only [Except.ok.injEq] at hw; subst hw
            exact ⟨⟨a, hr, .inl rfl⟩, fun k _ => rfl⟩
          · simp only [Except.ok.injEq] at hw; subst hw
            refine ⟨⟨a, ?_, .inl rfl⟩, ?_⟩
            · rw [Dict.get?_set_ne _ _ (by decide), hr]
            · intro k hk
              simp only [List.mem_cons, List.not_mem_nil, or_false, not_or] at hk
              rw [Dict.get?_set_ne _ _ (Ne.symm hk.2)]
        | none =>
          rw [hr] at hw
          simp only [Option.isSome_none, Bool.false_eq_true, if_false] at hw
          cases ha : constructAssertion env m kwargs with
          | error e => rw [ha] at hw; cases hw
          | ok t =>
            rw [ha] at hw
            simp only [Except.map, Except.ok.injEq] at hw; subst hw
            refine ⟨⟨.str t, ?_, .inr ⟨rfl, rfl, t, rfl, rfl⟩⟩, ?_⟩
            · rw [Dict.get?_set_ne _ _ (by decide), Dict.get?_set_self]
            · intro k hk
              simp only [List.mem_cons, List.not_mem_nil, or_false, not_or] at hk
              rw [Dict.get?_set_ne _ _ (Ne.symm hk.2), Dict.get?_set_ne _ _ (Ne.symm hk.1)]
    obtain ⟨⟨a, ha, hacase⟩, hsame⟩ := main
    unfold MsgType.requires at h
    split at h
    · cases h
    · next hreq =>
      simp only [Except.map, Except.ok.injEq, Prod.mk.injEq] at h
      obtain ⟨rfl, rfl⟩ := h
      have : "client_id" ∈ env.msg.required := by
        split at hreq
        · simpa using hreq
        · cases hreq
      refine ⟨rfl, Dict.get?_del_self _ _, ?_, ⟨a, ?_, hacase⟩, ?_⟩
      · rw [if_pos this, Dict.get?_del_ne _ (by decide), hsame _ (by decide)]
      · rw [Dict.get?_del_ne _ (by decide), ha]
      · intro k hk
        simp only [List.mem_cons, List.not_mem_nil, or_false, not_or] at hk
        rw [Dict.get?_del_ne _ (Ne.symm hk.1)]
        exact hsame k (by simp [hk.2.2.1, hk.2.2.2])
    · next hreq =>
      simp only [Except.map, Except.ok.injEq, Prod.mk.injEq] at h
      obtain ⟨rfl, rfl⟩ := h
      have : ¬ "client_id" ∈ env.msg.required := by
        split at hreq
        · simpa using hreq
        · cases hreq
      refine ⟨rfl, ?_, ?_, ⟨a, ?_, hacase⟩, ?_⟩
      · rw [Dict.get?_del_ne _ (by decide)]; exact Dict.get?_del_self _ _
      · rw [if_neg this]; exact Dict.get?_del_self _ _
      · rw [Dict.get?_del_ne _ (by decide), Dict.get?_del_ne _ (by decide), ha]
      · intro k hk
        simp only [List.mem_cons, List.not_mem_nil, or_false, not_or] at hk
        rw [Dict.get?_del_ne _ (Ne.symm hk.2.1), Dict.get?_del_ne _ (Ne.symm hk.1)]
        exact hsame k (by simp [hk.2.2.1, hk.2.2.2])

/-- C33: a newly made assertion names the client as issuer and subject, has the audience and
algorithm chosen for the endpoint, expires the given lifetime (600 s by default) after it was made,
and is signed with at least one key; its type is jwt-bearer. -/
theorem C33_new_assertion (env : Env) (m : JwtMethod) (kwargs : Obj) (t : String)
    (h : constructAssertion env m kwargs = .ok t) :
    ∃ A : Assertion, env.keys.sign A = .ok t ∧ A.iss = env.ctx.clientId ∧ A.sub = env.ctx.clientId ∧
      audienceAndAlgorithm env m kwargs = .ok (A.aud, A.alg) ∧ A.keys ≠ [] ∧ A.iat = env.keys.now ∧
      A.exp = env.keys.now + (((Dict.get? kwargs "lifetime").bind Val.int?).getD 600) ∧
      A.jti = env.keys.jti := by
  unfold constructAssertion at h
  cases ha : audienceAndAlgorithm env m kwargs with
  | error e => rw [ha] at h; cases h
  | ok p =>
    obtain ⟨aud, alg⟩ := p
    rw [ha] at h
    simp only at h
    cases hk : getSigningKey env.keys alg ((Dict.get? kwargs "kid").bind Val.str?) with
    | error e => rw [hk] at h; cases h
    | ok ks =>
      rw [hk] at h
      simp only at h
      split at h
      · cases h
      · next hne =>
        exact ⟨_, h, rfl, rfl, rfl, by intro e; apply hne; simp only at e; rw [e]; rfl, rfl, rfl, rfl⟩

/-- C33: without an explicit type, the assertion type of a new or given assertion is jwt-bearer. -/
theorem C33_assertion_type (env : Env) (m : JwtMethod) (kwargs : Obj) (headers' : Dict String)
    (request request' : Obj) (h : jwtAuthn env m kwargs request = .ok (headers', request'))
    (hk : Dict.get? kwargs "client_assertion_type" = none)
    (hr : Dict.get? request "client_assertion_type" = none) :
    Dict.get? request' "client_assertion_type"
      = some (.str "urn:ietf:params:oauth:client-assertion-type:jwt-bearer") := by
  unfold jwtAuthn jwtModify at h
  cases hw : withAssertion env m kwargs request with
  | error e => rw [hw] at h; cases h
  | ok r =>
    rw [hw] at h
    simp only at h
    have main : Dict.get? r "client_assertion_type" = some (.str JWT_BEARER) := by
      unfold withAssertion Dict.has at hw
      rw [hk, hr] at hw
      split at hw
      · simp only [Except.ok.injEq] at hw; subst hw; exact Dict.get?_set_self _ _ _
      · split at hw
        · simp only [Option.isSome_none, Bool.false_eq_true, if_false, Except.ok.injEq] at hw
          subst hw; exact Dict.get?_set_self _ _ _
        · cases ha : constructAssertion env m kwargs with
          | error e => rw [ha] at hw; cases hw
          | ok t =>
            rw [ha] at hw
            simp only [Except.map, Except.ok.injEq] at hw; subst hw
            exact Dict.get?_set_self _ _ _
    split at h
    · cases h
    · simp only [Except.map, Except.ok.injEq, Prod.mk.injEq] at h
      obtain ⟨-, rfl⟩ := h
      rw [Dict.get?_del_ne _ (by decide), main]; rfl
    · simp only [Except.map, Except.ok.injEq, Prod.mk.injEq] at h
      obtain ⟨-, rfl⟩ := h
      rw [Dict.get?_del_ne _ (by decide), Dict.get?_del_ne _ (by decide), main]; rfl

/-- An environment that can sign. -/
def exJwtEnv : Env :=
  { exEnv with keys := { signingKeys := fun _ => [⟨"k1", "RSA"⟩], sign := fun a => .ok ("jwt for " ++ a.iss) } }

example : ∃ h r, jwtAuthn exJwtEnv .privateKeyJwt [("authn_endpoint", .str "token_endpoint")]
    exRequest = .ok (h, r) := ⟨_, _, rfl⟩

/-! ## C34, C35: bearer tokens -/

/-- The token a bearer method finds, by the documented priority rules. -/
def tokenSpec (env : Env) (kwargs request : Obj) (typ : String) : Except Exc Val :=
  match Spec.firstOf [Dict.get? request typ, Dict.get? kwargs "access_token"] with
  | some t => .ok t
  | none => storedToken env kwargs

/-- C35: the token is the one in the request, else the one passed, else the one stored for the
session; it is an error if there is none of these. -/
theorem C35_precedence (env : Env) (kwargs request : Obj) (typ : String) :
    (findToken env kwargs request typ).map Prod.fst = tokenSpec env kwargs request typ := by
  unfold findToken tokenSpec
  cases Dict.get? request typ with
  | some t => rfl
  | none =>
    cases Dict.get? kwargs "access_token" with
    | some t => rfl
    | none =>
      simp only [Spec.firstOf]
      cases storedToken env kwargs <;> rfl

/-- C35: the stored token is that of the last of authorization, token and refresh response that has
one; a verified form of it would be preferred; none stored (or no session) is a `KeyError`. -/
theorem C35_stored (env : Env) (kwargs : Obj) (key : String) (st : Obj)
    (hk : Dict.get? kwargs "key" = some (.str key))
    (hs : StateInterface.getState env.db key = .ok st)
    (a t r : Obj)
    (ha : Dict.get? st "auth_response" = some (.obj a))
    (ht : Dict.get? st "token_response" = some (.obj t))
    (hr : Dict.get? st "refresh_token_response" = some (.obj r)) :
    storedToken env kwargs =
      match Spec.firstOf
        [Dict.get? (Msg.ofDict r) "__verified_access_token", Dict.get? (Msg.ofDict r) "access_token",
         Dict.get? (Msg.ofDict t) "__verified_access_token", Dict.get? (Msg.ofDict t) "access_token",
         Dict.get? (Msg.ofDict a) "__verified_access_token", Dict.get? (Msg.ofDict a) "access_token"]
      with
      | some v => .ok v
      | none => .error .keyError := by
  unfold storedToken StateInterface.multipleExtendRequestArgs
  rw [hk]
  simp only [asStr, hs, StateInterface.multiExtendLoop, ha, ht, hr, List.foldl_cons, List.foldl_nil,
    StateInterface.copyParam, Bool.false_eq_true, if_false]
  have hv : Msg.verifiedName "access_token" = "__verified_access_token" := rfl
  rw [hv]
  cases Dict.get? (Msg.ofDict r) "__verified_access_token" <;>
  cases Dict.get? (Msg.ofDict r) "access_token" <;>
  cases Dict.get? (Msg.ofDict t) "__verified_access_token" <;>
  cases Dict.get? (Msg.ofDict t) "access_token" <;>
  cases Dict.get? (Msg.ofDict a) "__verified_access_token" <;>
  cases Dict.get? (Msg.ofDict a) "access_token" <;>
  simp [Spec.firstOf, Dict.getItem, Dict.get?_set_self, Dict.get?]

/-- C35: with no session key, or an unknown session, there is no stored token. -/
theorem C35_stored_missing (env : Env) (kwargs : Obj)
    (h : Dict.get? kwargs "key" = none ∨
      ∃ key, Dict.get? kwargs "key" = some (.str key) ∧ Dict.get? env.db key = none) :
    storedToken env kwargs = .error .keyError := by
  unfold storedToken
  rcases h with h | ⟨key, h, hd⟩
  · rw [h]
  · rw [h]
    simp [asStr, StateInterface.multipleExtendRequestArgs, StateInterface.getState, hd]

/-- C34: the bearer header is `Bearer ` and the (non-empty) token found by the priority rules, the
token is not a request parameter afterwards and everything else is unchanged.  For the refresh
service the token parameter is the refresh token. -/
theorem C34_bearer_header (env : Env) (kwargs : Obj) (headers headers' : Dict String)
    (request request' : Obj) (typ : String)
    (htyp : typ = if env.serviceName = "refresh_token" then "refresh_token" else "access_token")
    (h : construct env "bearer_header" kwargs headers request = .ok (headers', request')) :
    ∃ t, tokenSpec env kwargs request typ = .ok t ∧ t.truthy = true ∧
      Dict.get? headers' "Authorization" = some (bearer t) ∧
      Dict.get? request' typ = none ∧ Spec.SameExcept [typ] request request' := by
  have h : bearerHeader env kwargs headers request = .ok (headers', request') := by
    simpa [construct] using h
  unfold bearerHeader at h
  simp only [← htyp] at h
  have hp := C35_precedence env kwargs request typ
  cases hf : findToken env kwargs request typ with
  | error e => rw [hf] at h; cases h
  | ok p =>
    obtain ⟨t, r⟩ := p
    rw [hf] at h hp
    simp only at h
    split at h
    · next ht =>
      simp only [Except.ok.injEq, Prod.mk.injEq] at h
      obtain ⟨rfl, rfl⟩ := h
      refine ⟨t, hp.symm, ht, Dict.get?_set_self _ _ _, ?_, ?_⟩
      · unfold findToken at hf
        cases hg : Dict.get? request typ with
        | some x => rw [hg] at hf; cases hf; exact Dict.get?_del_self _ _
        | none =>
          rw [hg] at hf
          simp only at hf
          split at hf
          · cases hf; exact hg
          · cases hst : storedToken env kwargs with
            | error e => rw [hst] at hf; cases hf
            | ok x => rw [hst] at hf; cases hf; exact hg
      · intro k hk
        simp only [List.mem_cons, List.not_mem_nil, or_false] at hk
        unfold findToken at hf
        cases hg : Dict.get? request typ with
        | some x => rw [hg] at hf; cases hf; exact Dict.get?_del_ne _ (Ne.symm hk)
        | none =>
          rw [hg] at hf
          simp only at hf
          split at hf
          · cases hf; rfl
          · cases hst : storedToken env kwargs with
            | error e => rw [hst] at hf; cases hf
            | ok x => rw [hst] at hf; cases hf; rfl
    · cases h

example : ∃ h r, construct { exEnv with serviceName := "userinfo" } "bearer_header"
    [("access_token", .str "tok")] [] [] = .ok (h, r) := ⟨_, _, rfl⟩

/-- C34: what a receiver picks out of a bearer header is the token. -/
theorem C34_receiver (tok : String) : bearerAuth [] (bearer (.str tok)) = .ok (.str tok) := by
  unfold bearerAuth bearer
  have : Str.startsWith ("Bearer " ++ tok) "Bearer " = true := (Str.startsWith_iff _ _).2 ⟨_, rfl⟩
  simp [Dict.get?, this]

/-- C34: with bearer_header, no token anywhere is an error (never an unauthenticated request). -/
theorem C34_no_token (env : Env) (kwargs : Obj) (headers : Dict String) (request : Obj)
    (h1 : Dict.get? request "access_token" = none) (h2 : Dict.get? request "refresh_token" = none)
    (h3 : Dict.get? kwargs "access_token" = none) (h4 : storedToken env kwargs = .error .keyError) :
    construct env "bearer_header" kwargs headers request = .error .keyError ∧
    construct env "bearer_body" kwargs headers request = .error .keyError := by
  constructor
  · have : construct env "bearer_header" kwargs headers request =
        bearerHeader env kwargs headers request := by simp [construct]
    rw [this]; unfold bearerHeader findToken
    split <;> simp [h1, h2, h3, h4, Except.map]
  · have : construct env "bearer_body" kwargs headers request =
        bearerBody env kwargs headers request := by simp [construct]
    rw [this]; unfold bearerBody bearerBodyModify findToken
    simp [h1, h3, h4, Except.map]

/-- C34: with bearer_body the access token of the request afterwards is the (non-empty) one found
for it; no header is set. -/
theorem C34_bearer_body (env : Env) (kwargs : Obj) (headers headers' : Dict String)
    (request request' : Obj) (t : Val)
    (ht : tokenSpec env kwargs request "access_token" = .ok t) (hne : t.truthy = true)
    (h : construct env "bearer_body" kwargs headers request = .ok (headers', request')) :
    headers' = headers ∧ Dict.get? request' "access_token" = some t ∧
      Spec.SameExcept ["access_token"] request request' := by
  have h : bearerBody env kwargs headers request = .ok (headers', request') := by
    simpa [construct] using h
  have hp := C35_precedence env kwargs request "access_token"
  unfold bearerBody bearerBodyModify at h
  cases hf : findToken env kwargs request "access_token" with
  | error e => rw [hf] at h; cases h
  | ok p =>
    obtain ⟨t', r⟩ := p
    rw [hf, ht] at hp
    have : t' = t := by simpa [Except.map] using hp
    subst this
    rw [hf] at h
    simp only [hne, if_true, Except.map, Except.ok.injEq, Prod.mk.injEq] at h
    obtain ⟨rfl, rfl⟩ := h
    refine ⟨rfl, Dict.get?_set_self _ _ _, ?_⟩
    intro k hk
    simp only [List.mem_cons, List.not_mem_nil, or_false] at hk
    rw [Dict.get?_set_ne _ _ (Ne.symm hk)]
    unfold findToken at hf
    cases hg : Dict.get? request "access_token" with
    | some x => rw [hg] at hf; cases hf; exact Dict.get?_del_ne _ (Ne.symm hk)
    | none =>
      rw [hg] at hf
      simp only at hf
      split at hf
      · cases hf; rfl
      · cases hst : storedToken env kwargs with
        | error e => rw [hst] at hf; cases hf
        | ok x => rw [hst] at hf; cases hf; rfl

/-! ## C36 -/

/-- C36: the validity check is exact: a secret is invalid iff it has an expiry and that is before the
time asked about. -/
theorem C36_valid_iff (ctx : Ctx) (when now : Int) :
    validServiceContext ctx when now = false ↔
      ctx.clientSecretExpiresAt ≠ 0 ∧ ctx.clientSecretExpiresAt < (if when = 0 then now else when) := by
  unfold validServiceContext
  by_cases hw : when = 0 <;> simp [hw]

/-- C36 is violated by the code: no authentication method looks at the expiry, whatever the clock
says. -/
theorem C36_violated_expiry_ignored (env : Env) (method : String) (kwargs : Obj)
    (headers : Dict String) (request : Obj) (expires : Int) :
    construct { env with ctx := { env.ctx with clientSecretExpiresAt := expires } } method kwargs
      headers request = construct env method kwargs headers request := rfl

/-! ## C37 -/

/-- C37, partial: away from the token endpoint the algorithm is the explicitly given one, else the
default of the method, and the audience is the issuer of the provider's metadata.  (Missing: at the
token endpoint an explicitly given algorithm comes last, see the next theorems.) -/
theorem C37_other_endpoint_partial (env : Env) (m : JwtMethod) (kwargs : Obj) (iss : Val)
    (he : Dict.get? kwargs "authn_endpoint" ≠ some (.str "token_endpoint"))
    (hi : Dict.get? env.ctx.providerInfo "issuer" = some iss) :
    (Dict.get? kwargs "algorithm" = none →
      audienceAndAlgorithm env m kwargs = .ok (iss, m.defaultAlg)) ∧
    (∀ a, a ≠ "" → Dict.get? kwargs "algorithm" = some (.str a) →
      audienceAndAlgorithm env m kwargs = .ok (iss, a)) := by
  unfold audienceAndAlgorithm Dict.getItem chooseAlgorithm
  rw [if_neg he, hi]
  constructor
  · intro h; rw [h]; rfl
  · intro a ha h; rw [h]; simp [Val.truthy, ha, asStr, Except.map]

/-- C33/C37, by method name: away from the token endpoint, with no assertion and no algorithm given,
`client_secret_jwt` puts an assertion signed with HS256 into the request and `private_key_jwt` one
signed with RS256, both naming the client as issuer and subject and the provider's issuer as
audience. -/
theorem C37_method_names (env : Env) (kwargs : Obj) (headers headers' : Dict String)
    (request request' : Obj) (iss : Val) (method alg : String)
    (hm : (method, alg) ∈ [("client_secret_jwt", "HS256"), ("private_key_jwt", "RS256")])
    (h : construct env method kwargs headers request = .ok (headers', request'))
    (he : Dict.get? kwargs "authn_endpoint" ≠ some (.str "token_endpoint"))
    (ha : Dict.get? kwargs "algorithm" = none)
    (hk : Dict.get? kwargs "client_assertion" = none)
    (hr : Dict.get? request "client_assertion" = none)
    (hi : Dict.get? env.ctx.providerInfo "issuer" = some iss) :
    ∃ (A : Assertion) (t : String), env.keys.sign A = .ok t ∧
      Dict.get? request' "client_assertion" = some (.str t) ∧
      A.alg = alg ∧ A.aud = iss ∧ A.iss = env.ctx.clientId ∧ A.sub = env.ctx.clientId := by
  have key : ∀ m : JwtMethod, jwtAuthn env m kwargs request = .ok (headers', request') →
      m.defaultAlg = alg →
      ∃ (A : Assertion) (t : String), env.keys.sign A = .ok t ∧
      Dict.get? request' "client_assertion" = some (.str t) ∧
      A.alg = alg ∧ A.aud = iss ∧ A.iss = env.ctx.clientId ∧ A.sub = env.ctx.clientId := by
    intro m hj hd
    obtain ⟨-, -, -, ⟨a, h1, h2⟩, -⟩ := C33_request env m kwargs headers' request request' hj
    rcases h2 with h2 | ⟨-, -, t, ht, rfl⟩
    · rw [hk, hr] at h2; simp [Spec.firstOf] at h2
    · obtain ⟨A, hs, e1, e2, e3, -⟩ := C33_new_assertion env m kwargs t ht
      have := (C37_other_endpoint_partial env m kwargs iss he hi).1 ha
      rw [this, hd] at e3
      cases e3
      exact ⟨A, t, hs, h1, rfl, rfl, e1, e2⟩
  simp only [List.mem_cons, Prod.mk.injEq, List.not_mem_nil, or_false] at hm
  unfold construct at h
  rcases hm with ⟨rfl, rfl⟩ | ⟨rfl, rfl⟩
  · exact key .clientSecretJwt (by simpa using h) rfl
  · exact key .privateKeyJwt (by simpa using h) rfl

example : ∃ h r, construct exJwtEnv "client_secret_jwt" [] [] exRequest = .ok (h, r) := ⟨_, _, rfl⟩

/-- C37: without metadata naming the audience there is an error. -/
theorem C37_no_audience (env : Env) (m : JwtMethod) (kwargs : Obj)
    (he : Dict.get? kwargs "authn_endpoint" ≠ some (.str "token_endpoint"))
    (hi : Dict.get? env.ctx.providerInfo "issuer" = none) :
    audienceAndAlgorithm env m kwargs = .error .keyError := by
  unfold audienceAndAlgorithm Dict.getItem
  rw [if_neg he, hi]

/-- C37: at the token endpoint the audience is the provider's token endpoint, and a registered
algorithm is used. -/
theorem C37_token_endpoint_registered (env : Env) (m : JwtMethod) (kwargs : Obj) (ep : Val) (a : String)
    (he : Dict.get? kwargs "authn_endpoint" = some (.str "token_endpoint"))
    (hp : Dict.get? env.ctx.providerInfo "token_endpoint" = some ep) (ha : a ≠ "")
    (hr : Dict.get? env.ctx.registrationResponse "token_endpoint_auth_signing_alg" = some (.str a)) :
    audienceAndAlgorithm env m kwargs = .ok (ep, a) := by
  unfold audienceAndAlgorithm Dict.getItem tokenEndpointAlg
  rw [if_pos he, hp]
  have : env.ctx.registrationResponse.isEmpty = false := by
    cases h : env.ctx.registrationResponse with
    | nil => rw [h] at hr; simp at hr
    | cons => rfl
  simp [this, hr, Val.truthy, ha, asStr, Except.map]

/-- C37: at the token endpoint without registration: the client's preferred algorithm; else the first
one of the provider's list that is supported and has a key; else the explicitly given one, else the
method's default. -/
theorem C37_token_endpoint_unregistered (env : Env) (m : JwtMethod) (kwargs : Obj) (ep : Val)
    (he : Dict.get? kwargs "authn_endpoint" = some (.str "token_endpoint"))
    (hp : Dict.get? env.ctx.providerInfo "token_endpoint" = some ep)
    (hr : env.ctx.registrationResponse = []) :
    (∀ a, a ≠ "" →
      Dict.get? env.ctx.clientPreferences "token_endpoint_auth_signing_alg" = some (.str a) →
      audienceAndAlgorithm env m kwargs = .ok (ep, a)) ∧
    (∀ l, Dict.get? env.ctx.clientPreferences "token_endpoint_auth_signing_alg" = none →
      Dict.get? env.ctx.providerInfo "token_endpoint_auth_signing_alg_values_supported"
        = some (.list l) →
      audienceAndAlgorithm env m kwargs =
        match firstUsable env.keys l with
        | some a => .ok (ep, a)
        | none => (chooseAlgorithm m kwargs).map (fun a => (ep, a))) := by
  unfold audienceAndAlgorithm Dict.getItem tokenEndpointAlg tokenEndpointAlg.fromProvider
  rw [if_pos he, hp, hr]
  constructor
  · intro a ha h; rw [h]; simp [Val.truthy, ha, asStr, Except.map]
  · intro l h1 h2; rw [h1, h2]; simp only [List.isEmpty_nil, Bool.not_true, Bool.false_eq_true, if_false, listOf]
    cases firstUsable env.keys l <;> rfl

/-- The first usable algorithm: supported, has a key, and none before it is both. -/
theorem C37_first_usable (keys : KeyEnv) (l : List String) (a : String)
    (h : firstUsable keys (l.map .str) = some a) :
    ∃ before after, l = before ++ a :: after ∧ keys.signerAlg a = true ∧ keys.signingKeys a ≠ [] ∧
      ∀ b ∈ before, ¬ (keys.signerAlg b = true ∧ keys.signingKeys b ≠ []) := by
  induction l with
  | nil => simp [firstUsable] at h
  | cons x l ih =>
    simp only [List.map_cons, firstUsable] at h
    split at h
    · next hx =>
      cases h
      simp only [Bool.and_eq_true, Bool.not_eq_true', List.isEmpty_eq_false_iff] at hx
      exact ⟨[], l, rfl, hx.1, hx.2, by simp⟩
    · next hx =>
      obtain ⟨b, af, rfl, h1, h2, h3⟩ := ih h
      refine ⟨x :: b, af, rfl, h1, h2, ?_⟩
      intro y hy
      rcases List.mem_cons.1 hy with rfl | hy
      · rintro ⟨e1, e2⟩; apply hx; simp [e1, e2]
      · exact h3 y hy

/-- C37 is violated by the code: at the token endpoint an explicitly given algorithm is ignored if
one is registered; with nothing known, client_secret_jwt is signed with RS256, not with its default
HS256; and a registration response without the algorithm is a `KeyError`. -/
theorem C37_violated_token_endpoint :
    audienceAndAlgorithm
      { exEnv with ctx := { exCtx with registrationResponse :=
          [("token_endpoint_auth_signing_alg", .str "RS256")] } }
      .privateKeyJwt [("authn_endpoint", .str "token_endpoint"), ("algorithm", .str "ES256")]
      = .ok (.str "https://op.example.org/token", "RS256") ∧
    audienceAndAlgorithm exEnv .clientSecretJwt [("authn_endpoint", .str "token_endpoint")]
      = .ok (.str "https://op.example.org/token", "RS256") ∧
    audienceAndAlgorithm
      { exEnv with ctx := { exCtx with registrationResponse := [("client_id", .str "x")] } }
      .privateKeyJwt [("authn_endpoint", .str "token_endpoint")] = .error .keyError :=
  ⟨rfl, rfl, rfl⟩

end Verif.Props
