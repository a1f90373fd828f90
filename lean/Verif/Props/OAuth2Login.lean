import Verif.Props.Flows
/-!
# C115: logging in with an OAuth2 server

doc/source/rp_handler.rst:526-600 has GitHub as an example: a server that issues access tokens only and has an address
where the user's claims can be asked for.
-/

namespace Verif.Props
open Verif Verif.Service Verif.Handler Verif.StateInterface Verif.Spec.Session Verif.Spec.HandlerView Verif.Spec.Wire

/-! ## Specification -/

/-- The server answers the token request with an access token `t` and no ID Token. -/
def BearerTokens (x : Ext) (c : Client) (code ru ver : Val) (t : String) : Prop :=
  ∃ rt p v, (∀ log s, CodeRequest x c code ru ver s → x.http log s = .ok rt) ∧ Understood x c .accesstoken rt p v ∧
    Msg.isError v = false ∧ Dict.get? v "access_token" = some (.str t) ∧
    Dict.get? v "__verified_id_token" = none ∧ Dict.get? v "id_token" = none ∧ ∃ r, withExpiry x v = .ok r

/-- An object names a user: it has a subject, a text. -/
def NamesUser (v : Val) : Prop := ∃ o s, v = .obj o ∧ Dict.get? o "sub" = some (.str s)

/-! ## Steps -/

/-- An access token is fetched and stored. -/
theorem getTokens_bearer {K : String → Prop} (hK : Spec.Store.KeySpace K) {x : Ext} {c : Client} (hq : Equipped x c)
    {k t : String} (hk : K k) {st areq resp : Obj} {db : DB}
    {code ru ver : Val} (hst : getState db k = .ok st)
    (h1 : getItem db "auth_request" k = .ok areq) (h2 : getItem db "auth_response" k = .ok resp)
    (hcode : Dict.get? resp "code" = some code) (hru : Dict.get? areq "redirect_uri" = some ru)
    (hpk : Dict.has c.ctx.addOn "pkce" = true →
      ∃ item, getItem db "pkce" k = .ok item ∧ Dict.get? item "code_verifier" = some ver)
    (hh : BearerTokens x c code ru ver t) :
    ∃ s r, CodeRequest x c code ru ver s ∧
      getTokens x k { c with db := db } = (.ok (.msg r), { c with
        db := Dict.set db k (.doc (Dict.set st "token_response" (.obj r)))
        log := c.log ++ [s] }) ∧
      Dict.get? r "access_token" = some (.str t) ∧ Dict.get? r "__verified_id_token" = none ∧ Dict.get? r "id_token" = none := by
  obtain ⟨rt, p, v, a1, a2, a3, a4, a5, a5', r, a6⟩ := hh
  obtain ⟨args, am, info, b1, b2, b3, b4⟩ := token_request_progress hq hst h1 h2 hcode hru (hK.nonempty k hk) hpk
  have hv : v ≠ [] := by rintro rfl; cases a4
  have hdo := doRequest_progress (x := x) (c := { c with db := db }) (srv := .accesstoken) (m := v)
    (c2 := { c with db := db, log := c.log ++ [sentFor .accesstoken info] }) (o := { authnMethod := am })
    (k := k) hq.accesstoken rfl b3 (a1 _ _ b4) a2 rfl hv a3
  have hbind : bindIdToken v k { c with db := db, log := c.log ++ [sentFor .accesstoken info] }
      = (.ok (), { c with db := db, log := c.log ++ [sentFor .accesstoken info] }) := by
    unfold bindIdToken
    rw [show Dict.get? v (Msg.verifiedName "id_token") = none from a5]
    rfl
  have hupd : updateMsg x .accesstoken v k { c with db := db, log := c.log ++ [sentFor .accesstoken info] }
      = (.ok r, { c with db := Dict.set db k (.doc (Dict.set st "token_response" (.obj r))),
                         log := c.log ++ [sentFor .accesstoken info] }) := by
    simp only [updateMsg]
    rw [Py.bind_ok hbind]
    unfold storeResponse
    rw [Py.lift_bind_ok a6, Py.bind_ok (a := ()) (s' := { c with
      db := Dict.set db k (.doc (Dict.set st "token_response" (.obj r))), log := c.log ++ [sentFor .accesstoken info] })]
    · rfl
    · unfold onDB
      rw [storeItem_run hst]
  rw [hupd] at hdo
  simp only at hdo
  refine ⟨sentFor .accesstoken info, r, b4, ?_, ?_, ?_, ?_⟩
  · unfold getTokens
    rw [ask_bind_ok b1, ask_bind_ok b2, Py.bind_ok hdo]
    have : refuseError (.msg r) = .ok () := by
      unfold refuseError
      simp [Resp.isError, isError_withExpiry a6, a3]
    rw [Py.lift_bind_ok this]
    rfl
  · rw [withExpiry_get a6 (by decide)]; exact a4
  · rw [withExpiry_get a6 (by decide)]; exact a5
  · rw [withExpiry_get a6 (by decide)]; exact a5'

/-- No response of the session has an ID Token. -/
theorem no_id_token_at_all {db : DB} {k : String} {st resp' r : Obj} (hst : getState db k = .ok st)
    (h1 : Dict.get? st "auth_response" = some (.obj resp')) (h2 : Dict.get? st "token_response" = some (.obj r))
    (h3 : Dict.get? st "refresh_token_response" = none)
    (h4 : Dict.get? resp' "__verified_id_token" = none ∧ Dict.get? resp' "id_token" = none)
    (h5 : Dict.get? r "__verified_id_token" = none ∧ Dict.get? r "id_token" = none) (u a : Obj)
    (ha : multipleExtendRequestArgs db [] k ["id_token"] RESPONSES = .ok a) : sameSub a u = .ok () := by
  unfold multipleExtendRequestArgs at ha
  rw [hst] at ha
  have hn : ∀ (o : Obj) p, Dict.get? o p = none → Dict.get? (Msg.ofDict o) p = none := by
    intro o p hp
    rw [Dict.get?_eq_none_iff] at hp ⊢
    intro hm
    refine hp ?_
    unfold Msg.ofDict at hm
    simp only [Dict.keys, List.mem_map, List.mem_filter] at hm ⊢
    obtain ⟨q, ⟨hq, _⟩, e⟩ := hm
    exact ⟨q, hq, e⟩
  have := multiExtend_unchanged db k st hst "id_token" RESPONSES (fun i hi r' hr => by
    simp only [RESPONSES, List.mem_cons, List.not_mem_nil, or_false] at hi
    rcases hi with rfl | rfl | rfl
    · simp [getItem, hst, h1, asItem] at hr
      subst hr
      exact ⟨hn _ _ h4.1, hn _ _ h4.2⟩
    · simp [getItem, hst, h2, asItem] at hr
      subst hr
      exact ⟨hn _ _ h5.1, hn _ _ h5.2⟩
    · simp [getItem, hst, h3, asItem] at hr) [] a ha
  rw [this]
  rfl

/-! ## C115 -/

/-- **C115**, as far as it holds: if the claims have a subject.  Session `k` waits for its response (response type `code`) at
an equipped client; the response is one the client can parse and verify, is no error, names the session and has a code;
the server gives an access token and no ID Token, and answers with the user's claims, *among them a subject*.  Then
`finalize` succeeds after the token request and the request for the claims, returns the claims, the session and the access
token, no ID Token, and the subject leads to the session from then on. -/
theorem C115_oauth2_login_partial {K : String → Prop} (hK : Spec.Store.KeySpace K) (x : Ext) (issuer : String) (response b : Obj)
    (h : Handler) (c : Client) (hc : Dict.get? h.issuer2rp issuer = some c) (ha : .authorization ∈ c.services)
    (hq : Equipped x c) (hu : AsksUserinfo x c)
    (k n t sub : String) (hk : K k) (ht : t ≠ "") (areq resp u : Obj) (code ru ver rtv : Val)
    (hw : Waiting c issuer k areq n ver) (hru : Dict.get? areq "redirect_uri" = some ru)
    (hrt : Dict.get? areq "response_type" = some rtv) (hset : IsSet (wordsOf rtv) ["code"])
    (hp : ParsedAs x c response resp) (he : Msg.isError resp = false) (hstate : Dict.get? resp "state" = some (.str k))
    (hcode : Dict.get? resp "code" = some code) (hce : code ≠ .str "" ∧ code ≠ .list [.str ""])
    (hidt : Dict.get? resp "__verified_id_token" = none ∧ Dict.get? resp "id_token" = none)
    (hexp : ∃ r, withExpiry x resp = .ok r)
    (hh : BearerTokens x c code ru ver t) (hcl : HonestClaims x c t sub u) :
    ∃ s1 s2 db', CodeRequest x c code ru ver s1 ∧ AsksWith c x t s2 ∧
      (finalize x issuer response b h).1 =
        .ok (.done (.obj u) (.str k) (.str t) .null ((Dict.get? resp "session_state").getD (.str ""))) ∧
      view (finalize x issuer response b h).2 issuer = some (db', c.log ++ [s1, s2]) ∧
      getStateByX db' sub .subjectId = .ok (.raw k) := by
  obtain ⟨resp', hresp'⟩ := hexp
  obtain ⟨st, hst, hiss⟩ := getIss_ok hw.started
  obtain ⟨r1, r2, r3, r4, r5, r6, r7⟩ := responded (resp' := resp') hK hk hw hst
  obtain ⟨s1, r, c1, c2, c3, c4, c5⟩ := getTokens_bearer hK (c := c) hq hk r1 r2 r3
    (Msg.get?_ofDict_some (by rw [withExpiry_get hresp' (by decide)]; exact hcode) (notEmpty hce)) hru r4 hh
  have hfront : idTokenInFront (wordsOf rtv) = false ∧ accessTokenInFront (wordsOf rtv) = false ∧
      tokensFromEndpoint (wordsOf rtv) = true := by
    unfold idTokenInFront accessTokenInFront tokensFromEndpoint
    simp only [sameSet_congr hset]
    decide
  have hget : getAccessAndIdToken x resp' k b { c with db := Dict.set c.db k (.doc (Dict.set st "auth_response" (.obj resp'))) }
      = (.ok (.str t, .null), { c with
          db := Dict.set (Dict.set c.db k (.doc (Dict.set st "auth_response" (.obj resp')))) k
            (.doc (Dict.set (Dict.set st "auth_response" (.obj resp')) "token_response" (.obj r)))
          log := c.log ++ [s1] }) := by
    unfold getAccessAndIdToken
    rw [ask_bind_ok (stored_type r2 hrt), Py.lift_bind_ok (a := Val.null) (by rw [hfront.1]; rfl)]
    simp only [hfront.2.1, hfront.2.2, Bool.false_eq_true, if_false, if_true]
    unfold endpointTokens
    rw [Py.bind_ok c2, Py.lift_bind_ok (find_progress c3).1,
      Py.lift_bind_ok (show Resp.find (.msg r) (Msg.verifiedName "id_token") = .ok none by
        unfold Resp.find; simp [Resp.toVal, show Dict.get? r (Msg.verifiedName "id_token") = none from c4])]
    rfl
  have hst2 := getState_set (Dict.set c.db k (.doc (Dict.set st "auth_response" (.obj resp')))) k
    (set_noEmpty (getState_noEmpty r1) "token_response" r)
  have g1 : Dict.get? (Dict.set (Dict.set st "auth_response" (.obj resp')) "token_response" (.obj r)) "refresh_token_response" = none := by
    rw [Dict.get?_set_ne _ _ (by decide), Dict.get?_set_ne _ _ (by decide)]; exact r7
  have g2 : Dict.get? (Dict.set (Dict.set st "auth_response" (.obj resp')) "token_response" (.obj r)) "auth_response" = some (.obj resp') := by
    rw [Dict.get?_set_ne _ _ (by decide)]; exact Dict.get?_set_self _ _ _
  obtain ⟨s2, d1, d2⟩ := getUserInfo_asked hu ht hst2 (by
      intro t ht
      simp only [RESPONSES, List.mem_cons, List.not_mem_nil, or_false] at ht
      rcases ht with rfl | rfl | rfl
      · exact Or.inr ⟨resp', g2⟩
      · exact Or.inr ⟨r, Dict.get?_set_self _ _ _⟩
      · exact Or.inl g1)
    (no_id_token_at_all hst2 g2 (Dict.get?_set_self _ _ _) g1
      ⟨by rw [withExpiry_get hresp' (by decide)]; exact hidt.1, by rw [withExpiry_get hresp' (by decide)]; exact hidt.2⟩
      ⟨c4, c5⟩ u) hcl (c.log ++ [s1])
  have hcol : collectUserInfo x k (.str t) .null { c with
          db := Dict.set (Dict.set c.db k (.doc (Dict.set st "auth_response" (.obj resp')))) k
            (.doc (Dict.set (Dict.set st "auth_response" (.obj resp')) "token_response" (.obj r)))
          log := c.log ++ [s1] } = (.ok (.obj u), { c with
          db := Dict.set (Dict.set (Dict.set c.db k (.doc (Dict.set st "auth_response" (.obj resp')))) k
            (.doc (Dict.set (Dict.set st "auth_response" (.obj resp')) "token_response" (.obj r)))) k
            (.doc (Dict.set (Dict.set (Dict.set st "auth_response" (.obj resp')) "token_response" (.obj r)) "user_info" (.obj u)))
          log := c.log ++ [s1] ++ [s2] }) := by
    unfold collectUserInfo
    rw [Py.read_bind_run, if_pos ⟨hu.userinfo, by simp [Val.truthy, ht]⟩, Py.bind_ok d2]
    rfl
  obtain ⟨_, _, _, _, _, hsub, _⟩ := hcl
  obtain ⟨db5, e1, e2, e3⟩ := finalize_tail_claims hK hk hsub hget hcol (by
    intro s
    rw [Dict.get?_set_ne _ _ (KeySpace.ne_ref hK hk hk), Dict.get?_set_ne _ _ (KeySpace.ne_ref hK hk hk)]
    exact r6 s)
  obtain ⟨f1, f2⟩ := finalize_head hc ha hp he hstate hst hw.started hresp' e1
  refine ⟨s1, s2, db5, c1, d1, ?_, ?_, e2⟩
  · rw [f1, withExpiry_get hresp' (by decide)]
  · rw [f2]; simp

theorem bindSub_ok {k : String} {idt info : Val} {c c' : Client} (h : bindSub k idt info c = (.ok (), c')) :
    NamesUser (if idt.truthy then idt else info) := by
  unfold bindSub at h
  obtain ⟨v, c1, h1, h2⟩ := Py.bind_eq_ok.1 h
  obtain ⟨h1', rfl⟩ := Py.lift_eq_ok.1 h1
  obtain ⟨s, c2, h3, h4⟩ := Py.bind_eq_ok.1 h2
  obtain ⟨h3', rfl⟩ := Py.lift_eq_ok.1 h3
  have hv : v = .str s := by
    cases v <;> simp [asStr] at h3'
    rw [h3']
  subst hv
  have key : ∀ w, valItem w "sub" = .ok (.str s) → NamesUser w := by
    intro w hw
    cases w <;> simp [valItem] at hw
    exact ⟨_, s, rfl, hw⟩
  by_cases ht : idt.truthy = true
  · rw [if_pos ht] at h1' ⊢
    exact key _ h1'
  · rw [if_neg ht] at h1' ⊢
    exact key _ h1'

/-- **C115** is violated by servers whose claims have no `sub` (GitHub's have `id` and `login`, LinkedIn's have `id`; the
services of provider/github.py and provider/linkedin.py describe such claims): whatever happens before, `finalize` never
succeeds unless the ID Token — or, where there is none, the user's claims — has a subject. -/
theorem C115_subject_needed_violated (x : Ext) (issuer : String) (response b : Obj) (h : Handler)
    (info st tok idt ss : Val) (hf : (finalize x issuer response b h).1 = .ok (.done info st tok idt ss)) :
    NamesUser (if idt.truthy then idt else info) := by
  unfold finalize at hf
  cases hc : Dict.get? h.issuer2rp issuer with
  | none =>
    rw [show onClient issuer (finalizeClient x issuer response b) h = (.error .keyError, h) by
      unfold onClient; rw [hc]] at hf
    cases hf
  | some c =>
    rw [fst_onClient hc] at hf
    rcases hr : finalizeClient x issuer response b c with ⟨r, c'⟩
    rw [hr] at hf
    simp only at hf
    subst hf
    unfold finalizeClient at hr
    obtain ⟨resp, c1, -, hr⟩ := Py.bind_eq_ok.1 hr
    obtain ⟨sv, c2, -, hr⟩ := Py.bind_eq_ok.1 hr
    split at hr
    · obtain ⟨e, c3, -, hr⟩ := Py.bind_eq_ok.1 hr
      cases hr
    · obtain ⟨k, c3, -, hr⟩ := Py.bind_eq_ok.1 hr
      unfold finalizeTokens at hr
      obtain ⟨t, c4, -, hr⟩ := Py.bind_eq_ok.1 hr
      obtain ⟨i, c5, -, hr⟩ := Py.bind_eq_ok.1 hr
      obtain ⟨_, c6, -, hr⟩ := Py.bind_eq_ok.1 hr
      obtain ⟨⟨⟩, c7, hb, hr⟩ := Py.bind_eq_ok.1 hr
      have hb' := bindSub_ok hb
      simp only [Py.pure_run, Prod.mk.injEq, Except.ok.injEq, Final.done.injEq] at hr
      obtain ⟨⟨rfl, -, -, rfl, -⟩, -⟩ := hr
      exact hb'

/-! ## Examples -/

/-- A server that issues access tokens only; its claims are those given. -/
def oauth2World (claims : Obj) : Ext := { World.ext 1001 "" "" "n1" with
  http := fun _ s => .ok { World.answer s with text := if s.srv = .accesstoken then "cc" else if s.srv = .userinfo then "user" else "par" }
  deser := fun _ _ _ i => match i with
    | .dict o => .ok o
    | .text t => if t = "user" then .ok claims else World.parse i }

/-- The claims GitHub has about a user. -/
def githubUser : Obj := [("login", .str "octocat"), ("id", .int 1), ("name", .str "monalisa octocat")]

/-- The claims of a server that has subjects. -/
def aliceAt : Obj := [("sub", .str "alice"), ("name", .str "Alice")]

/-- Non-vacuity: a code login at a server without ID Tokens meets all hypotheses of `C115_oauth2_login_partial`. -/
example : ∃ s1 s2 db', CodeRequest (oauth2World aliceAt) waitingClient (.str "c1") (.str "https://rp.example/cb") (.str "") s1 ∧
    AsksWith waitingClient (oauth2World aliceAt) "CC1" s2 ∧
    (finalize (oauth2World aliceAt) "https://op.example" [("code", .str "c1"), ("state", .str World.s1)] [] started).1 =
      .ok (.done (.obj aliceAt) (.str World.s1) (.str "CC1") .null (.str "")) ∧
    view (finalize (oauth2World aliceAt) "https://op.example" [("code", .str "c1"), ("state", .str World.s1)] [] started).2
      "https://op.example" = some (db', waitingClient.log ++ [s1, s2]) ∧
    getStateByX db' "alice" .subjectId = .ok (.raw World.s1) := by
  refine C115_oauth2_login_partial C10_generated_keys_are_safe (oauth2World aliceAt) "https://op.example"
    [("code", .str "c1"), ("state", .str World.s1)] [] started waitingClient (by rfl) (by decide)
    ⟨by decide, ⟨"https://op.example/token", by rfl⟩, by decide,
      C81_secret_authenticates _ _ ⟨by rfl, by decide⟩ "client_secret_basic" (by rfl) (Or.inl rfl) (by decide), Or.inl (by rfl),
      ⟨by rfl, by decide⟩, by decide⟩
    ⟨by decide, ⟨"https://op.example/userinfo", by rfl⟩, by rfl, Or.inl (by rfl), ⟨by decide, by rfl⟩⟩
    World.s1 "n1" "CC1" "alice" gen_s1 (by decide) madeRequest [("code", .str "c1"), ("state", .str World.s1)] aliceAt
    (.str "c1") (.str "https://rp.example/cb") (.str "") (.list [.str "code"]) world_waits (by rfl) (by rfl) (fun w => by rfl)
    (by rfl) (by rfl) (by rfl) (by rfl) ⟨by decide, by decide⟩ ⟨by rfl, by rfl⟩ ⟨_, rfl⟩
    ⟨{ World.answer { srv := .accesstoken, url := "", method := "" } with text := "cc" },
      [("access_token", .str "CC1"), ("token_type", .str "Bearer"), ("expires_in", .int 60), ("refresh_token", .str "CR1")],
      [("access_token", .str "CC1"), ("token_type", .str "Bearer"), ("expires_in", .int 60), ("refresh_token", .str "CR1")],
      ?_, ⟨by decide, by decide, by decide, by rfl, by rfl, by rfl, by rfl⟩, by rfl, by rfl, by rfl, by rfl, _, rfl⟩
    ⟨{ World.answer { srv := .userinfo, url := "", method := "" } with text := "user" }, aliceAt, ?_,
      ⟨by decide, by decide, by decide, by rfl, by rfl, by rfl, by rfl⟩, by rfl, by rfl, by rfl⟩
  · intro log s hs
    show Except.ok _ = _
    rw [hs.1]
    rfl
  · intro log s hs
    show Except.ok _ = _
    rw [hs.1]
    rfl

/-- The same login at GitHub: code and access token are accepted and stored, the user's claims are fetched and stored, and
then the login fails. -/
example : (finalize (oauth2World githubUser) "https://op.example" [("code", .str "c1"), ("state", .str World.s1)] [] started).1.isOk = false ∧
    ((view (finalize (oauth2World githubUser) "https://op.example" [("code", .str "c1"), ("state", .str World.s1)] [] started).2
      "https://op.example").bind (fun p => (getItem p.1 "user_info" World.s1).toOption)) = some githubUser := by
  decide +kernel

/-- And no ID Token: the claims are what `finalize` would have to take the subject from. -/
example : ¬ NamesUser (.obj githubUser) := by
  rintro ⟨o, s, h1, h2⟩
  cases h1
  cases h2

end Verif.Props
