import Verif.Props.Honest
/-!
# C113: every response type can be used to log in
-/

namespace Verif.Props
open Verif Verif.Service Verif.Handler Verif.StateInterface Verif.Spec.Session Verif.Spec.HandlerView Verif.Spec.Wire

/-! ## Steps -/

/-- The stored response type of a session whose authorization response was stored. -/
theorem stored_type {c : Client} {k : String} {db : DB} {areq : Obj} {rtv : Val}
    (h : getItem db "auth_request" k = .ok areq) (hrt : Dict.get? areq "response_type" = some rtv) :
    storedResponseType k { c with db := db } = .ok (wordsOf rtv) := by
  unfold storedResponseType
  simp only
  rw [h]
  simp only [Dict.getItem_eq_ok.2 hrt]
  rfl

/-- Without ID Token the subject of the user information is bound. -/
theorem finalize_tail_claims {K : String → Prop} (hK : Spec.Store.KeySpace K) {x : Ext} {k sub : String} {tok : Val} {b resp u : Obj}
    {c1 c2 : Client} {db3 : DB} {log3 : List Sent} (hk : K k) (hsub : Dict.get? u "sub" = some (.str sub))
    (htok : getAccessAndIdToken x resp k b c1 = (.ok (tok, .null), c2))
    (hcol : collectUserInfo x k tok .null c2 = (.ok (.obj u), { c2 with db := db3, log := log3 }))
    (href3 : ∀ s, Dict.get? db3 (refKey k) ≠ some (.raw s)) :
    ∃ db5, finalizeTokens x resp k b c1 =
        (.ok (.done (.obj u) (.str k) tok .null ((Dict.get? resp "session_state").getD (.str ""))),
          { c2 with db := db5, log := log3 }) ∧
      getStateByX db5 sub .subjectId = .ok (.raw k) ∧ getState db5 k = getState db3 k := by
  obtain ⟨db5, f1, f2, f3, f4⟩ := storeX2State_progress (v := sub) (t := .subjectId) href3
  have hs1 : bindSid k .null { c2 with db := db3, log := log3 } = (.ok (), { c2 with db := db3, log := log3 }) := by
    unfold bindSid
    rw [Py.read_bind_run, if_neg (by simp [Val.truthy])]
    rfl
  have hs2 : bindSub k .null (.obj u) { c2 with db := db3, log := log3 } = (.ok (), { c2 with db := db5, log := log3 }) := by
    unfold bindSub
    rw [Py.lift_bind_ok (a := Val.str sub) (by simp only [Val.truthy, valItem]; exact Dict.getItem_eq_ok.2 hsub),
      Py.lift_bind_ok (show asStr (.str sub) = .ok sub from rfl)]
    unfold onDB
    simp only [f1]
  refine ⟨db5, ?_, ?_, ?_⟩
  · unfold finalizeTokens
    rw [Py.bind_ok htok, Py.bind_ok hcol, Py.bind_ok hs1, Py.bind_ok hs2]
    rfl
  · unfold getStateByX
    rw [f4]
    simp [hK.nonempty k hk]
  · exact getState_congr (f3 k (KeySpace.ne_index hK hk _ _) (KeySpace.ne_ref hK hk hk))

/-- The tokens of the token endpoint, after the authorization response was stored. -/
theorem endpoint_tokens {K : String → Prop} (hK : Spec.Store.KeySpace K) {x : Ext} {issuer : String} {c : Client}
    (hq : Equipped x c) {k n t sub : String} (hk : K k) {st areq resp resp' idt : Obj} {code ru ver : Val}
    (hw : Waiting c issuer k areq n ver) (hst : getState c.db k = .ok st) (hru : Dict.get? areq "redirect_uri" = some ru)
    (hcode : Dict.get? resp "code" = some code) (hce : code ≠ .str "" ∧ code ≠ .list [.str ""])
    (hexp : withExpiry x resp = .ok resp') (hid : GoodIdToken idt sub)
    (hh : HonestTokens x c code ru ver n t idt) :
    ∃ s1 db2 r, CodeRequest x c code ru ver s1 ∧
      endpointTokens x k { c with db := Dict.set c.db k (.doc (Dict.set st "auth_response" (.obj resp'))) }
        = (.ok (.str t, .obj idt), { c with db := db2, log := c.log ++ [s1] }) ∧
      getState db2 k = .ok (Dict.set (Dict.set st "auth_response" (.obj resp')) "token_response" (.obj r)) ∧
      (∀ s, Dict.get? db2 (refKey k) ≠ some (.raw s)) ∧
      Dict.get? r "__verified_id_token" = some (.obj idt) := by
  obtain ⟨r1, r2, r3, r4, r5, r6, r7⟩ := responded (resp' := resp') hK hk hw hst
  obtain ⟨s1, db2, r, c1, c2, c3, c4, c5, c6, c7⟩ := getTokens_progress hK (c := c) hq hk r1 r2 r3
    (Msg.get?_ofDict_some (by rw [withExpiry_get hexp (by decide)]; exact hcode) (notEmpty hce)) hru r4 r5 r6 hh hid
  refine ⟨s1, db2, r, c1, ?_, c3, c4, c6⟩
  unfold endpointTokens
  rw [Py.bind_ok c2, Py.lift_bind_ok (find_progress c5).1,
    Py.lift_bind_ok (show Resp.find (.msg r) (Msg.verifiedName "id_token") = _ from (find_progress c6).2)]
  rfl

/-! ## C113 -/

/-- **C113**, `id_token`.  Session `k` waits for its response; the response that comes is one the client can parse and
verify, is no error, names the session and has an ID Token.  Then `finalize` succeeds and sends nothing: it returns the
claims of the ID Token (those of the user, not those about the token), the session, no access token and the ID Token; the
subject leads to the session from then on. -/
theorem C113_id_token {K : String → Prop} (hK : Spec.Store.KeySpace K) (x : Ext) (issuer : String) (response b : Obj)
    (h : Handler) (c : Client) (hc : Dict.get? h.issuer2rp issuer = some c) (ha : .authorization ∈ c.services)
    (k n sub : String) (hk : K k) (areq resp idt : Obj) (ver rtv : Val)
    (hw : Waiting c issuer k areq n ver) (hrt : Dict.get? areq "response_type" = some rtv)
    (hset : IsSet (wordsOf rtv) ["id_token"])
    (hp : ParsedAs x c response resp) (he : Msg.isError resp = false) (hstate : Dict.get? resp "state" = some (.str k))
    (hidt : Dict.get? resp "__verified_id_token" = some (.obj idt))
    (hexp : ∃ r, withExpiry x resp = .ok r) (hid : GoodIdToken idt sub) :
    ∃ db' claims,
      (finalize x issuer response b h).1 =
        .ok (.done (.obj claims) (.str k) .null (.obj idt) ((Dict.get? resp "session_state").getD (.str ""))) ∧
      view (finalize x issuer response b h).2 issuer = some (db', c.log) ∧
      getStateByX db' sub .subjectId = .ok (.raw k) ∧
      ((Dict.keys idt).Nodup → ∀ p, Dict.get? claims p =
        if p ∈ x.openidParams ∨ p ∉ x.idTokenParams then Dict.get? idt p else none) := by
  obtain ⟨resp', hresp'⟩ := hexp
  obtain ⟨st, hst, hiss⟩ := getIss_ok hw.started
  obtain ⟨r1, r2, r3, r4, r5, r6, r7⟩ := responded (resp' := resp') hK hk hw hst
  have hidt' : Dict.get? resp' "__verified_id_token" = some (.obj idt) := by rw [withExpiry_get hresp' (by decide)]; exact hidt
  have hfront : idTokenInFront (wordsOf rtv) = true ∧ accessTokenInFront (wordsOf rtv) = false ∧
      tokensFromEndpoint (wordsOf rtv) = false := by
    unfold idTokenInFront accessTokenInFront tokensFromEndpoint
    simp only [sameSet_congr hset]
    decide
  have hget : getAccessAndIdToken x resp' k b { c with db := Dict.set c.db k (.doc (Dict.set st "auth_response" (.obj resp'))) }
      = (.ok (.null, .obj idt), { c with db := Dict.set c.db k (.doc (Dict.set st "auth_response" (.obj resp'))) }) := by
    unfold getAccessAndIdToken
    rw [ask_bind_ok (stored_type r2 hrt), Py.lift_bind_ok (a := Val.obj idt) (by rw [hfront.1]; exact Dict.getItem_eq_ok.2 hidt')]
    simp only [hfront.2.1, hfront.2.2, Bool.false_eq_true, if_false]
    rfl
  have hid' : (Val.obj idt).truthy = true := by
    cases hi : idt with
    | nil => have := hid.subject; rw [hi] at this; cases this
    | cons => rfl
  have hcol : collectUserInfo x k .null (.obj idt) { c with db := Dict.set c.db k (.doc (Dict.set st "auth_response" (.obj resp'))) } =
      (.ok (.obj (userinfoInIdToken x idt)), { c with db := Dict.set c.db k (.doc (Dict.set st "auth_response" (.obj resp'))) }) := by
    unfold collectUserInfo
    rw [Py.read_bind_run, if_neg (by simp [Val.truthy]), if_pos hid']
    rfl
  obtain ⟨db5, e1, e2, e3⟩ := finalize_tail hK (log3 := c.log) hk hid hget hcol r6
  obtain ⟨f1, f2⟩ := finalize_head hc ha hp he hstate hst hw.started hresp' e1
  refine ⟨db5, userinfoInIdToken x idt, ?_, ?_, e2, fun hn p => ?_⟩
  · rw [f1, withExpiry_get hresp' (by decide)]
  · rw [f2]
  · exact claims_of_id_token x idt hn p

/-- The session has no other responses. -/
theorem no_id_token {db : DB} {k : String} {st resp' : Obj} (hst : getState db k = .ok st)
    (h1 : Dict.get? st "auth_response" = some (.obj resp')) (h2 : Dict.get? st "token_response" = none)
    (h3 : Dict.get? st "refresh_token_response" = none)
    (h4 : Dict.get? resp' "__verified_id_token" = none ∧ Dict.get? resp' "id_token" = none) (u a : Obj)
    (ha : multipleExtendRequestArgs db [] k ["id_token"] RESPONSES = .ok a) : sameSub a u = .ok () := by
  unfold multipleExtendRequestArgs at ha
  rw [hst] at ha
  have hn : ∀ p, Dict.get? resp' p = none → Dict.get? (Msg.ofDict resp') p = none := by
    intro p hp
    rw [Dict.get?_eq_none_iff] at hp ⊢
    intro hm
    refine hp ?_
    unfold Msg.ofDict at hm
    simp only [Dict.keys, List.mem_map, List.mem_filter] at hm ⊢
    obtain ⟨q, ⟨hq, _⟩, e⟩ := hm
    exact ⟨q, hq, e⟩
  have := multiExtend_unchanged db k st hst "id_token" RESPONSES (fun i hi r hr => by
    simp only [RESPONSES, List.mem_cons, List.not_mem_nil, or_false] at hi
    rcases hi with rfl | rfl | rfl
    · simp [getItem, hst, h1, asItem] at hr
      subst hr
      exact ⟨hn _ h4.1, hn _ h4.2⟩
    · simp [getItem, hst, h2, asItem] at hr
    · simp [getItem, hst, h3, asItem] at hr) [] a ha
  rw [this]
  rfl

/-- **C113**, `token` and `code token`.  The response has an access token and no ID Token: `finalize` succeeds after one
request, for the user's claims, and returns them, the session, the access token and no ID Token; the subject of the
claims leads to the session from then on. -/
theorem C113_token {K : String → Prop} (hK : Spec.Store.KeySpace K) (x : Ext) (issuer : String) (response b : Obj)
    (h : Handler) (c : Client) (hc : Dict.get? h.issuer2rp issuer = some c) (ha : .authorization ∈ c.services)
    (hu : AsksUserinfo x c)
    (k n t sub : String) (hk : K k) (ht : t ≠ "") (areq resp u : Obj) (ver rtv : Val)
    (hw : Waiting c issuer k areq n ver) (hrt : Dict.get? areq "response_type" = some rtv)
    (hset : IsSet (wordsOf rtv) ["token"] ∨ IsSet (wordsOf rtv) ["code", "token"])
    (hb : Dict.get? b "collect_tokens" = none) (htr : getItem c.db "token_response" k = .error .keyError)
    (hp : ParsedAs x c response resp) (he : Msg.isError resp = false) (hstate : Dict.get? resp "state" = some (.str k))
    (htok : Dict.get? resp "access_token" = some (.str t))
    (hidt : Dict.get? resp "__verified_id_token" = none ∧ Dict.get? resp "id_token" = none)
    (hexp : ∃ r, withExpiry x resp = .ok r) (hcl : HonestClaims x c t sub u) :
    ∃ s2 db', AsksWith c x t s2 ∧
      (finalize x issuer response b h).1 =
        .ok (.done (.obj u) (.str k) (.str t) .null ((Dict.get? resp "session_state").getD (.str ""))) ∧
      view (finalize x issuer response b h).2 issuer = some (db', c.log ++ [s2]) ∧
      getStateByX db' sub .subjectId = .ok (.raw k) := by
  obtain ⟨resp', hresp'⟩ := hexp
  obtain ⟨st, hst, hiss⟩ := getIss_ok hw.started
  obtain ⟨r1, r2, r3, r4, r5, r6, r7⟩ := responded (resp' := resp') hK hk hw hst
  have htok' : Dict.get? resp' "access_token" = some (.str t) := by rw [withExpiry_get hresp' (by decide)]; exact htok
  have hfront : idTokenInFront (wordsOf rtv) = false ∧ accessTokenInFront (wordsOf rtv) = true := by
    unfold idTokenInFront accessTokenInFront
    rcases hset with e | e <;> simp only [sameSet_congr e] <;> decide
  have hget : getAccessAndIdToken x resp' k b { c with db := Dict.set c.db k (.doc (Dict.set st "auth_response" (.obj resp'))) }
      = (.ok (.str t, .null), { c with db := Dict.set c.db k (.doc (Dict.set st "auth_response" (.obj resp'))) }) := by
    unfold getAccessAndIdToken
    rw [ask_bind_ok (stored_type r2 hrt), Py.lift_bind_ok (a := Val.null) (by rw [hfront.1]; rfl)]
    simp only [hfront.2, if_true]
    rw [Py.lift_bind_ok (Dict.getItem_eq_ok.2 htok')]
    have : collects b = false := by unfold collects; rw [hb]; rfl
    rw [this]
    rfl
  have g2 : Dict.get? (Dict.set st "auth_response" (.obj resp')) "token_response" = none := by
    rw [Dict.get?_set_ne _ _ (by decide)]; exact item_none hst htr
  have g3 : Dict.get? (Dict.set st "auth_response" (.obj resp')) "refresh_token_response" = none := by
    rw [Dict.get?_set_ne _ _ (by decide)]; exact r7
  obtain ⟨s2, d1, d2⟩ := getUserInfo_asked hu ht r1 (by
      intro t ht
      simp only [RESPONSES, List.mem_cons, List.not_mem_nil, or_false] at ht
      rcases ht with rfl | rfl | rfl
      · exact Or.inr ⟨resp', Dict.get?_set_self _ _ _⟩
      · exact Or.inl g2
      · exact Or.inl g3)
    (no_id_token r1 (Dict.get?_set_self _ _ _) g2 g3 ⟨by rw [withExpiry_get hresp' (by decide)]; exact hidt.1,
      by rw [withExpiry_get hresp' (by decide)]; exact hidt.2⟩ u) hcl c.log
  have hcol : collectUserInfo x k (.str t) .null { c with db := Dict.set c.db k (.doc (Dict.set st "auth_response" (.obj resp'))) } =
      (.ok (.obj u), { c with
        db := Dict.set (Dict.set c.db k (.doc (Dict.set st "auth_response" (.obj resp')))) k
          (.doc (Dict.set (Dict.set st "auth_response" (.obj resp')) "user_info" (.obj u)))
        log := c.log ++ [s2] }) := by
    unfold collectUserInfo
    rw [Py.read_bind_run, if_pos ⟨hu.userinfo, by simp [Val.truthy, ht]⟩, Py.bind_ok d2]
    rfl
  obtain ⟨_, _, _, _, _, hsub, _⟩ := hcl
  obtain ⟨db5, e1, e2, e3⟩ := finalize_tail_claims hK hk hsub hget hcol (by
    intro s
    rw [Dict.get?_set_ne _ _ (KeySpace.ne_ref hK hk hk)]
    exact r6 s)
  obtain ⟨f1, f2⟩ := finalize_head hc ha hp he hstate hst hw.started hresp' e1
  refine ⟨s2, db5, d1, ?_, ?_, e2⟩
  · rw [f1, withExpiry_get hresp' (by decide)]
  · rw [f2]

/-- **C113**, collecting tokens.  A hybrid flow with an access token in front (`code token`, `code id_token token`), and the
caller asks to collect tokens: the response has a code, an access token and, if asked for, an ID Token, and the provider
is honest.  Then `finalize` returns the access token and the ID Token of the token endpoint, after the token request and
the userinfo request with that token. -/
theorem C113_collected {K : String → Prop} (hK : Spec.Store.KeySpace K) (x : Ext) (issuer : String) (response b : Obj)
    (h : Handler) (c : Client) (hc : Dict.get? h.issuer2rp issuer = some c) (ha : .authorization ∈ c.services)
    (hq : Equipped x c) (hu : AsksUserinfo x c)
    (k n t sub : String) (hk : K k) (ht : t ≠ "") (areq resp idt u : Obj) (code ru ver rtv : Val)
    (hw : Waiting c issuer k areq n ver) (hru : Dict.get? areq "redirect_uri" = some ru)
    (hrt : Dict.get? areq "response_type" = some rtv)
    (hset : IsSet (wordsOf rtv) ["code", "token"] ∨
      (IsSet (wordsOf rtv) ["code", "id_token", "token"] ∧ (Dict.get? resp "__verified_id_token").isSome))
    (hb : ∃ v, Dict.get? b "collect_tokens" = some v ∧ v.truthy = true)
    (hp : ParsedAs x c response resp) (he : Msg.isError resp = false) (hstate : Dict.get? resp "state" = some (.str k))
    (hcode : Dict.get? resp "code" = some code) (hce : code ≠ .str "" ∧ code ≠ .list [.str ""])
    (htok : (Dict.get? resp "access_token").isSome)
    (hexp : ∃ r, withExpiry x resp = .ok r) (hid : GoodIdToken idt sub)
    (hh : HonestTokens x c code ru ver n t idt) (hcl : HonestClaims x c t sub u) :
    ∃ s1 s2 db', CodeRequest x c code ru ver s1 ∧ AsksWith c x t s2 ∧
      (finalize x issuer response b h).1 =
        .ok (.done (.obj u) (.str k) (.str t) (.obj idt) ((Dict.get? resp "session_state").getD (.str ""))) ∧
      view (finalize x issuer response b h).2 issuer = some (db', c.log ++ [s1, s2]) ∧
      getStateByX db' sub .subjectId = .ok (.raw k) := by
  obtain ⟨resp', hresp'⟩ := hexp
  obtain ⟨st, hst, hiss⟩ := getIss_ok hw.started
  obtain ⟨r1, r2, r3, r4, r5, r6, r7⟩ := responded (resp' := resp') hK hk hw hst
  obtain ⟨s1, db2, r, c1, c2, c3, c4, c6⟩ := endpoint_tokens hK hq hk hw hst hru hcode hce hresp' hid hh
  obtain ⟨bv, hb1, hb2⟩ := hb
  obtain ⟨tv, htv⟩ := Option.isSome_iff_exists.1 htok
  have hcollect : collects b = true := by unfold collects; rw [hb1]; exact hb2
  have hget : getAccessAndIdToken x resp' k b { c with db := Dict.set c.db k (.doc (Dict.set st "auth_response" (.obj resp'))) }
      = (.ok (.str t, .obj idt), { c with db := db2, log := c.log ++ [s1] }) := by
    have hidv : ∃ v, (if idTokenInFront (wordsOf rtv) = true then Dict.getItem resp' (Msg.verifiedName "id_token") else .ok .null) = .ok v := by
      rcases hset with e | ⟨e, hv⟩
      · have : idTokenInFront (wordsOf rtv) = false := by
          unfold idTokenInFront; simp only [sameSet_congr e]; decide
        rw [this]
        exact ⟨_, rfl⟩
      · split
        · obtain ⟨v, hv⟩ := Option.isSome_iff_exists.1 hv
          exact ⟨v, Dict.getItem_eq_ok.2 (by
            rw [show Msg.verifiedName "id_token" = "__verified_id_token" from by decide, withExpiry_get hresp' (by decide)]; exact hv)⟩
        · exact ⟨_, rfl⟩
    obtain ⟨v, hv⟩ := hidv
    have hfront : accessTokenInFront (wordsOf rtv) = true := by
      unfold accessTokenInFront
      rcases hset with e | ⟨e, _⟩ <;> simp only [sameSet_congr e] <;> decide
    unfold getAccessAndIdToken
    rw [ask_bind_ok (stored_type r2 hrt), Py.lift_bind_ok hv]
    simp only [hfront, if_true]
    rw [Py.lift_bind_ok (Dict.getItem_eq_ok.2 (show Dict.get? resp' "access_token" = some tv by rw [withExpiry_get hresp' (by decide)]; exact htv))]
    rw [hcollect]
    exact c2
  have g1 : Dict.get? (Dict.set (Dict.set st "auth_response" (.obj resp')) "token_response" (.obj r)) "refresh_token_response" = none := by
    rw [Dict.get?_set_ne _ _ (by decide), Dict.get?_set_ne _ _ (by decide)]; exact r7
  obtain ⟨s2, d1, d2⟩ := getUserInfo_progress hu ht c3 (by
      intro t ht
      simp only [RESPONSES, List.mem_cons, List.not_mem_nil, or_false] at ht
      rcases ht with rfl | rfl | rfl
      · exact Or.inr ⟨resp', by rw [Dict.get?_set_ne _ _ (by decide)]; exact Dict.get?_set_self _ _ _⟩
      · exact Or.inr ⟨r, Dict.get?_set_self _ _ _⟩
      · exact Or.inl g1)
    (latest_token c3 (Dict.get?_set_self _ _ _) g1 c6) hid hcl (c.log ++ [s1])
  have hcol : collectUserInfo x k (.str t) (.obj idt) { c with db := db2, log := c.log ++ [s1] } =
      (.ok (.obj u), { c with
        db := Dict.set db2 k (.doc (Dict.set (Dict.set (Dict.set st "auth_response" (.obj resp')) "token_response" (.obj r)) "user_info" (.obj u)))
        log := c.log ++ [s1] ++ [s2] }) := by
    unfold collectUserInfo
    rw [Py.read_bind_run, if_pos ⟨hu.userinfo, by simp [Val.truthy, ht]⟩, Py.bind_ok d2]
    rfl
  obtain ⟨db5, e1, e2, e3⟩ := finalize_tail hK hk hid hget hcol (by
    intro s
    rw [Dict.get?_set_ne _ _ (KeySpace.ne_ref hK hk hk)]
    exact c4 s)
  obtain ⟨f1, f2⟩ := finalize_head hc ha hp he hstate hst hw.started hresp' e1
  refine ⟨s1, s2, db5, c1, d1, ?_, ?_, e2⟩
  · rw [f1, withExpiry_get hresp' (by decide)]
  · rw [f2]; simp

/-! ## What does not work -/

theorem finalize_head_error {x : Ext} {issuer k : String} {response resp resp' st b : Obj} {h : Handler} {c c' : Client} {e : Exc}
    (hc : Dict.get? h.issuer2rp issuer = some c)
    (hs : .authorization ∈ c.services) (hp : ParsedAs x c response resp) (he : Msg.isError resp = false)
    (hk : Dict.get? resp "state" = some (.str k)) (hst : getState c.db k = .ok st) (hi : StartedWith c k issuer)
    (hw : withExpiry x resp = .ok resp')
    (hrest : finalizeTokens x resp' k b { c with db := Dict.set c.db k (.doc (Dict.set st "auth_response" (.obj resp'))) } = (.error e, c')) :
    (finalize x issuer response b h).1 = .error e ∧ view (finalize x issuer response b h).2 issuer = some (c'.db, c'.log) := by
  have hrun : finalizeClient x issuer response b c = (.error e, c') := by
    unfold finalizeClient
    rw [Py.bind_ok (finalizeAuth_progress hs hp he hk hst hi hw),
      Py.lift_bind_ok (Dict.getItem_eq_ok.2 (by rw [withExpiry_get hw (by decide)]; exact hk)),
      if_neg (by rw [isError_withExpiry hw, he]; decide), Py.lift_bind_ok (show dbKey (.str k) = .ok k from rfl), hrest]
  constructor
  · unfold finalize
    rw [fst_onClient hc, hrun]
  · unfold finalize
    rw [view_onClient hc, hrun]
    simp

/-- **C113** is violated for `token` and `code token` at a client without userinfo service (a plain OAuth2 use): whatever
the response, however honest the provider, `finalize` raises `KeyError` — there is no ID Token and nobody to ask for the
subject, and it insists on one. -/
theorem C113_token_without_userinfo_violated {K : String → Prop} (hK : Spec.Store.KeySpace K) (x : Ext) (issuer : String)
    (response b : Obj) (h : Handler) (c : Client) (hc : Dict.get? h.issuer2rp issuer = some c) (ha : .authorization ∈ c.services)
    (hu : .userinfo ∉ c.services)
    (k n : String) (hk : K k) (areq resp : Obj) (ver rtv tok : Val)
    (hw : Waiting c issuer k areq n ver) (hrt : Dict.get? areq "response_type" = some rtv)
    (hset : IsSet (wordsOf rtv) ["token"] ∨ IsSet (wordsOf rtv) ["code", "token"])
    (hb : Dict.get? b "collect_tokens" = none)
    (hp : ParsedAs x c response resp) (he : Msg.isError resp = false) (hstate : Dict.get? resp "state" = some (.str k))
    (htok : Dict.get? resp "access_token" = some tok) (hexp : ∃ r, withExpiry x resp = .ok r) :
    (finalize x issuer response b h).1 = .error .keyError := by
  obtain ⟨resp', hresp'⟩ := hexp
  obtain ⟨st, hst, hiss⟩ := getIss_ok hw.started
  obtain ⟨r1, r2, r3, r4, r5, r6, r7⟩ := responded (resp' := resp') hK hk hw hst
  have htok' : Dict.get? resp' "access_token" = some tok := by rw [withExpiry_get hresp' (by decide)]; exact htok
  have hfront : idTokenInFront (wordsOf rtv) = false ∧ accessTokenInFront (wordsOf rtv) = true := by
    unfold idTokenInFront accessTokenInFront
    rcases hset with e | e <;> simp only [sameSet_congr e] <;> decide
  have hget : getAccessAndIdToken x resp' k b { c with db := Dict.set c.db k (.doc (Dict.set st "auth_response" (.obj resp'))) }
      = (.ok (tok, .null), { c with db := Dict.set c.db k (.doc (Dict.set st "auth_response" (.obj resp'))) }) := by
    unfold getAccessAndIdToken
    rw [ask_bind_ok (stored_type r2 hrt), Py.lift_bind_ok (a := Val.null) (by rw [hfront.1]; rfl)]
    simp only [hfront.2, if_true]
    rw [Py.lift_bind_ok (Dict.getItem_eq_ok.2 htok')]
    have : collects b = false := by unfold collects; rw [hb]; rfl
    rw [this]
    rfl
  refine (finalize_head_error (e := .keyError) (c' := { c with db := Dict.set c.db k (.doc (Dict.set st "auth_response" (.obj resp'))) })
    hc ha hp he hstate hst hw.started hresp' ?_).1
  have hcol : collectUserInfo x k tok .null { c with db := Dict.set c.db k (.doc (Dict.set st "auth_response" (.obj resp'))) } =
      (.ok (.obj []), { c with db := Dict.set c.db k (.doc (Dict.set st "auth_response" (.obj resp'))) }) := by
    unfold collectUserInfo
    rw [Py.read_bind_run, if_neg (fun h => hu h.1), if_neg (by simp [Val.truthy])]
    rfl
  have hs1 : bindSid k .null { c with db := Dict.set c.db k (.doc (Dict.set st "auth_response" (.obj resp'))) } =
      (.ok (), { c with db := Dict.set c.db k (.doc (Dict.set st "auth_response" (.obj resp'))) }) := by
    unfold bindSid
    rw [Py.read_bind_run, if_neg (by simp [Val.truthy])]
    rfl
  unfold finalizeTokens
  rw [Py.bind_ok hget, Py.bind_ok hcol, Py.bind_ok hs1]
  rfl

/-- **C113** is violated for `id_token token` and `token` when the caller asks to collect tokens: such a response has no
code to exchange, `finalize` raises `KeyError` although all the tokens that the response type promises were there. -/
theorem C113_implicit_collected_violated {K : String → Prop} (hK : Spec.Store.KeySpace K) (x : Ext) (issuer : String)
    (response b : Obj) (h : Handler) (c : Client) (hc : Dict.get? h.issuer2rp issuer = some c) (ha : .authorization ∈ c.services)
    (k n : String) (hk : K k) (areq resp : Obj) (ver rtv tok idt : Val)
    (hw : Waiting c issuer k areq n ver) (hrt : Dict.get? areq "response_type" = some rtv)
    (hset : IsSet (wordsOf rtv) ["id_token", "token"])
    (hb : ∃ v, Dict.get? b "collect_tokens" = some v ∧ v.truthy = true)
    (hp : ParsedAs x c response resp) (he : Msg.isError resp = false) (hstate : Dict.get? resp "state" = some (.str k))
    (htok : Dict.get? resp "access_token" = some tok) (hidt : Dict.get? resp "__verified_id_token" = some idt)
    (hcode : Dict.get? resp "code" = none) (hexp : ∃ r, withExpiry x resp = .ok r) :
    (finalize x issuer response b h).1 = .error .keyError := by
  obtain ⟨resp', hresp'⟩ := hexp
  obtain ⟨st, hst, hiss⟩ := getIss_ok hw.started
  obtain ⟨r1, r2, r3, r4, r5, r6, r7⟩ := responded (resp' := resp') hK hk hw hst
  have htok' : Dict.get? resp' "access_token" = some tok := by rw [withExpiry_get hresp' (by decide)]; exact htok
  have hidt' : Dict.get? resp' "__verified_id_token" = some idt := by rw [withExpiry_get hresp' (by decide)]; exact hidt
  have hcode' : Dict.get? (Msg.ofDict resp') "code" = none := by
    have : Dict.get? resp' "code" = none := by rw [withExpiry_get hresp' (by decide)]; exact hcode
    rw [Dict.get?_eq_none_iff] at this ⊢
    intro hm
    refine this ?_
    unfold Msg.ofDict at hm
    simp only [Dict.keys, List.mem_map, List.mem_filter] at hm ⊢
    obtain ⟨q, ⟨hq, _⟩, e⟩ := hm
    exact ⟨q, hq, e⟩
  obtain ⟨bv, hb1, hb2⟩ := hb
  have hcollect : collects b = true := by unfold collects; rw [hb1]; exact hb2
  have hfront : idTokenInFront (wordsOf rtv) = true ∧ accessTokenInFront (wordsOf rtv) = true := by
    unfold idTokenInFront accessTokenInFront
    simp only [sameSet_congr hset]; decide
  refine (finalize_head_error (e := .keyError) (c' := { c with db := Dict.set c.db k (.doc (Dict.set st "auth_response" (.obj resp'))) })
    hc ha hp he hstate hst hw.started hresp' ?_).1
  have harg : tokenArgs k { c with db := Dict.set c.db k (.doc (Dict.set st "auth_response" (.obj resp'))) } = .error .keyError := by
    unfold tokenArgs
    simp only
    rw [r3, r2]
    simp only [Dict.getItem, hcode']
  have hend : endpointTokens x k { c with db := Dict.set c.db k (.doc (Dict.set st "auth_response" (.obj resp'))) } =
      (.error .keyError, { c with db := Dict.set c.db k (.doc (Dict.set st "auth_response" (.obj resp'))) }) := by
    unfold endpointTokens
    refine Py.bind_error ?_
    unfold getTokens
    refine Py.bind_error ?_
    unfold ask
    rw [harg]
  unfold finalizeTokens
  refine Py.bind_error ?_
  unfold getAccessAndIdToken
  rw [ask_bind_ok (stored_type r2 hrt), Py.lift_bind_ok (a := idt) (by rw [hfront.1]; exact Dict.getItem_eq_ok.2 hidt')]
  simp only [hfront.2, if_true]
  rw [Py.lift_bind_ok (Dict.getItem_eq_ok.2 htok')]
  rw [hcollect]
  exact hend

/-! ## Examples -/

/-- A session of the small world begun with another response type. -/
def startedAs (rt : List Val) (services : List Srv) : Handler :=
  (exec (World.ext 1000 World.s1 "n1" "n1") (.begin "https://op.example" "" [("response_type", .list rt)] [])
    { World.handler with configs := [("", { World.conf with services := services })] }).2

/-- Its client. -/
def clientAs (rt : List Val) (services : List Srv) : Client :=
  (Dict.get? (startedAs rt services).issuer2rp "https://op.example").getD default

/-- The request it made. -/
def requestAs (rt : List Val) (services : List Srv) : Obj :=
  ((getItem (clientAs rt services).db "auth_request" World.s1).toOption).getD []

/-- Without userinfo service. -/
def bareServices : List Srv := [.webfinger, .providerInfo, .registration, .authorization, .accesstoken, .refreshToken, .endSession]

theorem waitsAs (rt : List Val) (services : List Srv)
    (h1 : StartedWith (clientAs rt services) World.s1 "https://op.example")
    (h2 : getItem (clientAs rt services).db "auth_request" World.s1 = .ok (requestAs rt services))
    (h3 : getStateByX (clientAs rt services).db "n1" .nonce = .ok (.raw World.s1))
    (h4 : ∃ refs, Dict.get? (clientAs rt services).db ("ref" ++ World.s1 ++ "ref") = some (.doc refs))
    (h5 : getItem (clientAs rt services).db "refresh_token_response" World.s1 = .error .keyError)
    (h6 : Dict.has (clientAs rt services).ctx.addOn "pkce" = false) :
    Waiting (clientAs rt services) "https://op.example" World.s1 (requestAs rt services) "n1" (.str "") :=
  ⟨h1, h2, h3, h4, h5, fun h => by rw [h6] at h; cases h⟩

/-- The claims that the small world has about the user. -/
def aliceClaims : Obj := [("sub", .str "alice"), ("name", .str "Alice")]

theorem asksAs (rt : List Val) (h1 : .userinfo ∈ (clientAs rt World.services).services)
    (h2 : Discovery.serviceEndpoint (clientAs rt World.services).ctx .userinfo = .ok (.str "https://op.example/userinfo"))
    (h3 : HeaderToken (clientAs rt World.services)) (h4 : Dict.has (clientAs rt World.services).ctx.addOn "dpop" = false) :
    AsksUserinfo (World.ext 1001 "" "" "n1") (clientAs rt World.services) :=
  ⟨h1, ⟨_, h2⟩, h3, Or.inl (by simp [usesDpop, h4]), ⟨by decide, by rfl⟩⟩

/-- The provider of the small world is honest about the user. -/
theorem claimsAs (c : Client) (t : String) (hu : Understood (World.ext 1001 "" "" "n1") c .userinfo
      (World.answer { srv := .userinfo, url := "", method := "" }) aliceClaims aliceClaims) :
    HonestClaims (World.ext 1001 "" "" "n1") c t "alice" aliceClaims := by
  refine ⟨World.answer { srv := .userinfo, url := "", method := "" }, aliceClaims, ?_, hu, by rfl, by rfl, by rfl⟩
  intro log s hs
  show Except.ok (World.answer s) = _
  unfold World.answer
  rw [hs.1]

theorem goodAlice : GoodIdToken aliceToken "alice" := by
  refine ⟨by rfl, fun v hv => ⟨"sid1", ?_⟩⟩
  have e : Dict.get? aliceToken "sid" = some (.str "sid1") := rfl
  rw [e] at hv
  injection hv with hv
  exact hv.symm

/-- Non-vacuity: the response type `id_token` in the small world meets all hypotheses of `C113_id_token`. -/
example : ∃ db' claims, (finalize (World.ext 1001 "" "" "n1") "https://op.example"
      [("id_token", .str "t"), ("state", .str World.s1)] [] (startedAs [.str "id_token"] World.services)).1 =
        .ok (.done (.obj claims) (.str World.s1) .null (.obj aliceToken) (.str "")) ∧
    getStateByX db' "alice" .subjectId = .ok (.raw World.s1) ∧ Dict.get? claims "sub" = some (.str "alice") := by
  obtain ⟨db', claims, h1, h2, h3, h4⟩ := C113_id_token C10_generated_keys_are_safe (World.ext 1001 "" "" "n1") "https://op.example"
    [("id_token", .str "t"), ("state", .str World.s1)] [] (startedAs [.str "id_token"] World.services)
    (clientAs [.str "id_token"] World.services) (by rfl) (by decide) World.s1 "n1" "alice" gen_s1
    (requestAs [.str "id_token"] World.services)
    [("id_token", .str "t"), ("state", .str World.s1), ("__verified_id_token", .obj aliceToken)] aliceToken (.str "")
    (.list [.str "id_token"]) (waitsAs _ _ (by rfl) (by rfl) (by rfl) ⟨_, by rfl⟩ (by rfl) (by rfl)) (by rfl)
    (fun w => by rfl) (by rfl) (by rfl) (by rfl) (by rfl) ⟨_, rfl⟩ goodAlice
  exact ⟨db', claims, h1, h3, by rw [h4 (by decide)]; rfl⟩

/-- The same for `token`. -/
example : ∃ s2 db', AsksWith (clientAs [.str "token"] World.services) (World.ext 1001 "" "" "n1") "AT0" s2 ∧
    (finalize (World.ext 1001 "" "" "n1") "https://op.example"
      [("access_token", .str "AT0"), ("state", .str World.s1)] [] (startedAs [.str "token"] World.services)).1 =
        .ok (.done (.obj aliceClaims) (.str World.s1) (.str "AT0") .null (.str "")) ∧
    view (finalize (World.ext 1001 "" "" "n1") "https://op.example"
      [("access_token", .str "AT0"), ("state", .str World.s1)] [] (startedAs [.str "token"] World.services)).2 "https://op.example" =
      some (db', (clientAs [.str "token"] World.services).log ++ [s2]) ∧
    getStateByX db' "alice" .subjectId = .ok (.raw World.s1) :=
  C113_token C10_generated_keys_are_safe (World.ext 1001 "" "" "n1") "https://op.example"
    [("access_token", .str "AT0"), ("state", .str World.s1)] [] (startedAs [.str "token"] World.services)
    (clientAs [.str "token"] World.services) (by rfl) (by decide) (asksAs _ (by decide) (by rfl) (by rfl) (by rfl))
    World.s1 "n1" "AT0" "alice" gen_s1 (by decide)
    (requestAs [.str "token"] World.services)
    [("access_token", .str "AT0"), ("state", .str World.s1)] aliceClaims (.str "")
    (.list [.str "token"]) (waitsAs _ _ (by rfl) (by rfl) (by rfl) ⟨_, by rfl⟩ (by rfl) (by rfl)) (by rfl)
    (Or.inl (fun w => by rfl)) (by rfl) (by rfl) (by rfl) (by rfl) (by rfl) (by rfl) ⟨by rfl, by rfl⟩ ⟨_, rfl⟩
    (claimsAs _ _ ⟨by decide, by decide, by decide, by rfl, by rfl, by rfl, by rfl⟩)

/-- And for `code id_token token` with tokens collected: those of the token endpoint are returned. -/
example : ∃ s1 s2 db', CodeRequest (World.ext 1001 "" "" "n1") (clientAs [.str "code", .str "id_token", .str "token"] World.services)
      (.str "c1") (.str "https://rp.example/cb") (.str "") s1 ∧
    AsksWith (clientAs [.str "code", .str "id_token", .str "token"] World.services) (World.ext 1001 "" "" "n1") "AT1" s2 ∧
    (finalize (World.ext 1001 "" "" "n1") "https://op.example"
      [("code", .str "c1"), ("access_token", .str "AT0"), ("id_token", .str "t"), ("state", .str World.s1)]
      [("collect_tokens", .bool true)] (startedAs [.str "code", .str "id_token", .str "token"] World.services)).1 =
        .ok (.done (.obj aliceClaims) (.str World.s1) (.str "AT1") (.obj aliceToken) (.str "")) ∧
    view (finalize (World.ext 1001 "" "" "n1") "https://op.example"
      [("code", .str "c1"), ("access_token", .str "AT0"), ("id_token", .str "t"), ("state", .str World.s1)]
      [("collect_tokens", .bool true)] (startedAs [.str "code", .str "id_token", .str "token"] World.services)).2 "https://op.example" =
      some (db', (clientAs [.str "code", .str "id_token", .str "token"] World.services).log ++ [s1, s2]) ∧
    getStateByX db' "alice" .subjectId = .ok (.raw World.s1) := by
  refine C113_collected C10_generated_keys_are_safe (World.ext 1001 "" "" "n1") "https://op.example"
    [("code", .str "c1"), ("access_token", .str "AT0"), ("id_token", .str "t"), ("state", .str World.s1)]
    [("collect_tokens", .bool true)] (startedAs [.str "code", .str "id_token", .str "token"] World.services)
    (clientAs [.str "code", .str "id_token", .str "token"] World.services) (by rfl) (by decide)
    ⟨by decide, ⟨"https://op.example/token", by rfl⟩, by decide,
      C81_secret_authenticates _ _ ⟨by rfl, by decide⟩ "client_secret_basic" (by rfl) (Or.inl rfl) (by decide), Or.inl (by rfl),
      ⟨by rfl, by decide⟩, by decide⟩
    (asksAs _ (by decide) (by rfl) (by rfl) (by rfl)) World.s1 "n1" "AT1" "alice" gen_s1 (by decide)
    (requestAs [.str "code", .str "id_token", .str "token"] World.services)
    [("code", .str "c1"), ("access_token", .str "AT0"), ("id_token", .str "t"), ("state", .str World.s1),
      ("__verified_id_token", .obj aliceToken)] aliceToken aliceClaims (.str "c1") (.str "https://rp.example/cb") (.str "")
    (.list [.str "code", .str "id_token", .str "token"])
    (waitsAs _ _ (by rfl) (by rfl) (by rfl) ⟨_, by rfl⟩ (by rfl) (by rfl)) (by rfl) (by rfl)
    (Or.inr ⟨fun w => by rfl, by rfl⟩) ⟨_, rfl, rfl⟩ (by rfl) (by rfl) (by rfl) (by rfl) ⟨by decide, by decide⟩ (by rfl) ⟨_, rfl⟩
    goodAlice ⟨⟨World.answer { srv := .accesstoken, url := "", method := "" },
      [("access_token", .str "AT1"), ("token_type", .str "Bearer"), ("expires_in", .int 300),
        ("refresh_token", .str "RT1"), ("id_token", .str "header.payload.signature")],
      [("access_token", .str "AT1"), ("token_type", .str "Bearer"), ("expires_in", .int 300),
        ("refresh_token", .str "RT1"), ("id_token", .str "header.payload.signature"), ("__verified_id_token", .obj aliceToken)],
      ?_, ?_, by rfl, by rfl, by rfl, _, rfl⟩, by rfl⟩
    (claimsAs _ _ ⟨by decide, by decide, by decide, by rfl, by rfl, by rfl, by rfl⟩)
  · intro log s hs
    show Except.ok (World.answer s) = _
    unfold World.answer
    rw [hs.1]
  · exact ⟨by decide, by decide, by decide, by rfl, by rfl, by rfl, by rfl⟩

/-- The hypotheses of the two violations can be met, too. -/
example : (finalize (World.ext 1001 "" "" "n1") "https://op.example"
      [("access_token", .str "AT0"), ("state", .str World.s1)] [] (startedAs [.str "token"] bareServices)).1 = .error .keyError ∧
    (finalize (World.ext 1001 "" "" "n1") "https://op.example"
      [("access_token", .str "AT0"), ("id_token", .str "t"), ("state", .str World.s1)] [("collect_tokens", .bool true)]
      (startedAs [.str "id_token", .str "token"] World.services)).1 = .error .keyError :=
  ⟨C113_token_without_userinfo_violated C10_generated_keys_are_safe (World.ext 1001 "" "" "n1") "https://op.example"
    [("access_token", .str "AT0"), ("state", .str World.s1)] [] (startedAs [.str "token"] bareServices)
    (clientAs [.str "token"] bareServices) (by rfl) (by decide) (by decide) World.s1 "n1" gen_s1
    (requestAs [.str "token"] bareServices) [("access_token", .str "AT0"), ("state", .str World.s1)] (.str "") (.list [.str "token"])
    (.str "AT0") (waitsAs _ _ (by rfl) (by rfl) (by rfl) ⟨_, by rfl⟩ (by rfl) (by rfl)) (by rfl)
    (Or.inl (fun w => by rfl)) (by rfl) (by rfl) (by rfl) (by rfl) (by rfl) ⟨_, rfl⟩,
   C113_implicit_collected_violated C10_generated_keys_are_safe (World.ext 1001 "" "" "n1") "https://op.example"
    [("access_token", .str "AT0"), ("id_token", .str "t"), ("state", .str World.s1)] [("collect_tokens", .bool true)]
    (startedAs [.str "id_token", .str "token"] World.services)
    (clientAs [.str "id_token", .str "token"] World.services) (by rfl) (by decide) World.s1 "n1" gen_s1
    (requestAs [.str "id_token", .str "token"] World.services)
    [("access_token", .str "AT0"), ("id_token", .str "t"), ("state", .str World.s1), ("__verified_id_token", .obj aliceToken)]
    (.str "") (.list [.str "id_token", .str "token"])
    (.str "AT0") (.obj aliceToken) (waitsAs _ _ (by rfl) (by rfl) (by rfl) ⟨_, by rfl⟩ (by rfl) (by rfl)) (by rfl)
    (fun w => by rfl) ⟨_, rfl, rfl⟩ (by rfl) (by rfl) (by rfl) (by rfl) (by rfl) (by rfl) ⟨_, rfl⟩⟩

end Verif.Props
