import Verif.Props.Flows
import Verif.Props.HttpStatus
import Verif.Props.FinalizeResult
/-!
# C114: a login is about one user
-/

namespace Verif.Props
open Verif Verif.Service Verif.Handler Verif.StateInterface Verif.Spec.Session Verif.Spec.HandlerView Verif.Spec.Wire

/-! ## What the userinfo service takes -/

/-- Without a session named `''`, user information parsed for no session is an error message or an exception. -/
theorem parse_nobody {x : Ext} {text f : String} {c : Client} {e : Exc} (h : getState c.db "" = .error e) :
    Harmless (parseResponse x .userinfo (.text text) f "") c := by
  unfold Harmless
  cases hj : isJose (formatOf c .userinfo f) with
  | true =>
    unfold parseResponse
    simp only [Py.read_bind_run, hj, if_true, Py.lift_run]
    refine ⟨trivial, fun r hr => ?_⟩
    exact Or.inr ⟨_, postParseText_ok hr⟩
  | false =>
    rw [parseResponse_plain hj]
    cases hp : parseInfo x c.ctx .userinfo (.text text) (formatOf c .userinfo f) with
    | error e => exact ⟨rfl, fun r h => by cases h⟩
    | ok o =>
      simp only
      cases he : Msg.isError o with
      | true =>
        rw [verified_error he]
        refine ⟨rfl, fun r hr => ?_⟩
        injection hr with hr
        exact Or.inl ⟨o, hr.symm, he⟩
      | false =>
        unfold verified checkedResponse
        rw [he]
        simp only [Bool.false_eq_true, if_false]
        rw [Py.bind_run, Py.bind_run]
        cases hv : x.verify c.ctx .userinfo o (gatherVerify c.ctx .userinfo) with
        | error e => simp only [ask, hv]; exact ⟨trivial, fun r h => by cases h⟩
        | ok v =>
          have e1 : ask (fun c => x.verify c.ctx .userinfo o (gatherVerify c.ctx .userinfo)) c = (.ok v, c) := by
            simp only [ask, hv]
          rw [e1]
          simp only [postParse]
          have hu : userinfoChecked x v "" c = .error e := by
            unfold userinfoChecked multipleExtendRequestArgs
            rw [h]
          rw [Py.bind_error (show ask (userinfoChecked x v "") c = (.error e, c) from by unfold ask; rw [hu])]
          exact ⟨rfl, fun r h => by cases h⟩

/-- A userinfo answer with an error status is an error message or an exception. -/
theorem nobody_fallback {x : Ext} {r : HttpResp} {bt : String} {c : Client} {e0 : Exc} (h : getState c.db "" = .error e0)
    (e : Exc) (m : Py Client Resp) (hk : errorFallback x .userinfo r bt e = some m) : Harmless m c := by
  unfold errorFallback at hk
  split at hk
  · split at hk
    · injection hk with hk; subst hk
      refine Harmless.try_ (parse_nobody h) fun e' k' hk' => ?_
      split at hk'
      · injection hk' with hk'; subst hk'; exact Harmless.raise _ _
      · cases hk'
    · injection hk with hk; subst hk; exact Harmless.raise _ _
  · split at hk
    · injection hk with hk; subst hk
      refine ⟨rfl, fun r hr => ?_⟩
      injection hr with hr
      exact Or.inl ⟨_, hr.symm, rfl⟩
    · cases hk

/-- User information that `get_user_info` returns as a message was parsed, verified and compared for this session. -/
theorem userinfo_taken {x : Ext} {k : String} {tok : Val} {c c' : Client} {m : Obj} {e0 : Exc} (hn : getState c.db "" = .error e0)
    (h : getUserInfo x k tok c = (.ok (.msg m), c')) :
    Dict.has m "error" = false ∧
    ∃ text f c1, SameDb c c1 ∧ parseResponse x .userinfo (.text text) f k c1 = (.ok (.msg m), c') := by
  unfold getUserInfo at h
  obtain ⟨u, c0, h0, h⟩ := Py.bind_eq_ok.1 h
  have hc0 : c0 = c := by simp only [ask, Prod.mk.injEq] at h0; exact h0.2.symm
  rw [hc0] at h
  clear hc0 h0 c0
  revert c
  intro c0 hn _ h
  obtain ⟨r, c2, h1, h⟩ := Py.bind_eq_ok.1 h
  obtain ⟨u2, c3, h2, h⟩ := Py.bind_eq_ok.1 h
  obtain ⟨hre, rfl⟩ := Py.lift_eq_ok.1 h2
  simp only [Py.pure_run, Prod.mk.injEq, Except.ok.injEq] at h
  obtain ⟨rfl, rfl⟩ := h
  have hne : Msg.isError m = false := by
    cases hE : Msg.isError m with
    | false => rfl
    | true =>
      unfold refuseError at hre
      rw [if_pos (show (Resp.msg m).isError = true from hE)] at hre
      cases hre
  refine ⟨hne, ?_⟩
  unfold doRequest at h1
  rw [Py.read_bind_run] at h1
  split at h1
  · cases h1
  obtain ⟨info, c4, h3, h1⟩ := Py.bind_eq_ok.1 h1
  have hs4 : SameDb c0 c4 := by
    have := frame_request_reading (R := SameDb) (x := x) (srv := .userinfo) (Or.inr (Or.inr (Or.inl rfl))) [("access_token", tok)] {} [("state", .str k)] c0
    rw [h3] at this
    exact this
  change serviceRequest x .userinfo info _ k c4 = _ at h1
  unfold serviceRequest at h1
  obtain ⟨r, c5, h4, h1⟩ := Py.bind_eq_ok.1 h1
  have hr : r = .msg m ∧ c5 = c2 := by
    split at h1
    · simp only [Py.pure_run, Prod.mk.injEq, Except.ok.injEq] at h1
      exact h1
    · unfold update at h1
      cases r with
      | msg o =>
        simp only [updateMsg] at h1
        obtain ⟨o', c6, h5, h6⟩ := Py.bind_eq_ok.1 h1
        simp only [Py.pure_run, Prod.mk.injEq, Except.ok.injEq] at h5 h6
        obtain ⟨rfl, rfl⟩ := h5
        exact h6
      | http o =>
        obtain ⟨o', c6, h5, h6⟩ := Py.bind_eq_ok.1 h1
        cases h6
      | text o =>
        simp only [Py.pure_run, Prod.mk.injEq, Except.ok.injEq] at h1
        exact h1
  obtain ⟨rfl, rfl⟩ := hr
  cases hh : x.http c4.log (sentOf .userinfo info) with
  | error e =>
    unfold getResponse at h4
    obtain ⟨r, c6, h5, h6⟩ := Py.bind_eq_ok.1 h4
    have h7 : x.http c4.log (sentOf .userinfo info) = .ok r := congrArg Prod.fst h5
    rw [hh] at h7
    cases h7
  | ok resp =>
    rw [getResponse_run hh] at h4
    have hs5 : SameDb c0 (afterSend c4 (sentOf .userinfo info)) := ⟨hs4.1, hs4.2.1, hs4.2.2⟩
    split at h4
    · simp only [Py.pure_run, Prod.mk.injEq, Except.ok.injEq] at h4
      cases h4.1
    · split at h4
      · simp only [Py.pure_run, Prod.mk.injEq, Except.ok.injEq] at h4
        cases h4.1
      · unfold parseRequestResponse at h4
        split at h4
        · exact ⟨_, _, _, hs5, h4⟩
        · split at h4
          · cases h4
          · split at h4
            · exfalso
              obtain ⟨er, c6, h5, h6⟩ := Py.bind_eq_ok.1 h4
              obtain ⟨hw, rfl⟩ := Py.lift_eq_ok.1 h6
              have hharm : ∀ bt, Harmless (Py.try_ (parseResponse x .userinfo (.text resp.text) (errorType resp) "")
                  (errorFallback x .userinfo resp bt)) (afterSend c4 (sentOf .userinfo info)) :=
                fun bt => Harmless.try_ (parse_nobody (by rw [hs5.1]; exact hn)) fun e m' hm => nobody_fallback (by rw [hs5.1]; exact hn) e m' hm
              rcases (hharm _).2 er (by rw [h5]) with ⟨o, rfl, ho⟩ | ⟨s, rfl⟩
              · simp only [withStatus, Except.ok.injEq, Resp.msg.injEq] at hw
                rw [← hw] at hne
                unfold Msg.isError at hne ho
                rw [Dict.has_eq, Dict.get?_set_ne _ _ (by decide)] at hne
                rw [Dict.has_eq, hne] at ho
                cases ho
              · cases hw
            · cases h4

/-- Who may look for the nameless session still finds what was there. -/
def NobodyElse (c c' : Client) : Prop := Dict.get? c'.db "" = Dict.get? c.db ""

instance : FrameRel NobodyElse where
  refl _ := rfl
  trans h h' := Eq.trans h' h

instance : ClientRel NobodyElse where
  send _ _ := fun _ => rfl
  dpop := frame_dpopKey fun _ _ _ => rfl

theorem nobody_endpointTokens {K : String → Prop} (hK : Spec.Store.KeySpace K) (x : Ext) {k : String} (hk : K k) :
    Frame NobodyElse (endpointTokens x k) := by
  have hne : k ≠ "" := hK.nonempty k hk
  unfold endpointTokens
  refine Frame.bind ?_ fun _ => Frame.bind (Frame.lift _) fun _ => Frame.bind (Frame.lift _) fun _ => Frame.pure _
  unfold getTokens
  refine Frame.bind (Frame.ask _) fun _ => Frame.bind (Frame.ask _) fun _ => ?_
  refine Frame.bind ?_ fun _ => Frame.bind (Frame.lift _) fun _ => Frame.pure _
  refine frame_doRequest (frame_request_reading (Or.inl rfl) _ _ _) (fun r => Frame.pure _) (fun r => Frame.pure _) (fun m => ?_)
  unfold updateMsg
  refine Frame.bind ?_ fun _ => ?_
  · unfold bindIdToken
    split
    · exact Frame.pure _
    · refine Frame.bind (Frame.ask _) fun _ => Frame.bind (Frame.lift _) fun _ => Frame.bind (Frame.lift _) fun s => ?_
      intro c
      have h1 : indexKey .subjectId s ≠ "" := by
        intro h
        have := congrArg String.length h
        simp [indexKey, String.length_append] at this
      have h2 : refKey (stateOf [("state", Val.str k)]) ≠ "" := by
        intro h
        have := congrArg String.length h
        simp [refKey, String.length_append] at this
      show Dict.get? (storeX2State s (stateOf [("state", Val.str k)]) .subjectId c.db).2 "" = _
      unfold storeX2State
      simp only
      split
      · simp only [Dict.get?_set_ne _ _ h2, Dict.get?_set_ne _ _ h1]
      · simp only [Dict.get?_set_ne _ _ h2, Dict.get?_set_ne _ _ h1]
      · simp only [Dict.get?_set_ne _ _ h1]
    · exact Frame.raise _
  · unfold storeResponse
    refine Frame.bind (Frame.lift _) fun r => Frame.bind ?_ fun _ => Frame.pure _
    intro c
    unfold NobodyElse onDB storeItem
    split
    · exact Dict.get?_set_ne _ _ hne
    · exact Dict.get?_set_ne _ _ hne
    · rfl

theorem nobody_getAccessAndIdToken {K : String → Prop} (hK : Spec.Store.KeySpace K) (x : Ext) {k : String} (hk : K k) (resp b : Obj) :
    Frame NobodyElse (getAccessAndIdToken x resp k b) := by
  unfold getAccessAndIdToken
  refine Frame.bind (Frame.ask _) fun rt => Frame.bind (Frame.lift _) fun idt => ?_
  refine Frame.ite (fun _ => ?_) (fun _ => ?_)
  · refine Frame.bind (Frame.lift _) fun _ => ?_
    exact Frame.ite (fun _ => nobody_endpointTokens hK x hk) (fun _ => Frame.pure _)
  · exact Frame.ite (fun _ => nobody_endpointTokens hK x hk) (fun _ => Frame.pure _)

/-! ## C114 -/

/-- Where the ID Token that `finalize` returns came from: it is the one of the latest response of the session that has one. -/
theorem returned_is_latest {K : String → Prop} (hK : Spec.Store.KeySpace K) {x : Ext} {k : String} (hk : K k) {resp b idt : Obj}
    {tok : Val} {c c' : Client}
    (hresp : getItem c.db "auth_response" k = .ok (Spec.Store.withoutEmpty resp))
    (htr : getItem c.db "token_response" k = .error .keyError) (hrr : getItem c.db "refresh_token_response" k = .error .keyError)
    (h : getAccessAndIdToken x resp k b c = (.ok (tok, .obj idt), c')) : LatestIdToken c'.db k idt := by
  have hend : ∀ c', endpointTokens x k c = (.ok (tok, .obj idt), c') → LatestIdToken c'.db k idt := by
    intro c' h
    unfold endpointTokens at h
    obtain ⟨r, c1, h1, h⟩ := Py.bind_eq_ok.1 h
    obtain ⟨a, c2, h2, h⟩ := Py.bind_eq_ok.1 h
    obtain ⟨_, rfl⟩ := Py.lift_eq_ok.1 h2
    obtain ⟨i, c3, h3, h⟩ := Py.bind_eq_ok.1 h
    obtain ⟨hf, rfl⟩ := Py.lift_eq_ok.1 h3
    simp only [Py.pure_run, Prod.mk.injEq, Except.ok.injEq] at h
    obtain ⟨⟨_, hi⟩, rfl⟩ := h
    rcases C17_get_tokens hK x k hk c with ⟨⟨e, he⟩, _⟩ | ⟨o, ho, hs, hother, _⟩
    · rw [h1] at he; cases he
    · rw [h1] at ho hs hother
      injection ho with ho
      subst ho
      have hv : Dict.get? o "__verified_id_token" = some (.obj idt) := by
        cases i with
        | none => cases hi
        | some v =>
          simp only [Option.getD_some] at hi
          subst hi
          simp only [Resp.find, Except.ok.injEq] at hf
          exact hf
      refine ⟨["auth_response"], "token_response", ["refresh_token_response"], rfl, ⟨_, hs, ?_⟩, ?_⟩
      · rw [← Msg.ofDict_eq_withoutEmpty]
        exact Msg.get?_ofDict_some hv rfl
      · intro later hl r hr
        simp only [List.mem_cons, List.not_mem_nil, or_false] at hl
        subst hl
        rw [hother _ (by decide), hrr] at hr
        cases hr
  have hfront : ∀ rt, (if idTokenInFront rt then Dict.getItem resp (Msg.verifiedName "id_token") else .ok .null) = Except.ok (.obj idt) →
      LatestIdToken c.db k idt := by
    intro rt h
    split at h
    · refine ⟨[], "auth_response", ["token_response", "refresh_token_response"], rfl, ⟨_, hresp, ?_⟩, ?_⟩
      · rw [← Msg.ofDict_eq_withoutEmpty]
        exact Msg.get?_ofDict_some (Dict.getItem_eq_ok.1 h) rfl
      · intro later hl r hr
        simp only [List.mem_cons, List.not_mem_nil, or_false] at hl
        rcases hl with rfl | rfl
        · rw [htr] at hr; cases hr
        · rw [hrr] at hr; cases hr
    · cases h
  unfold getAccessAndIdToken at h
  obtain ⟨rt, c1, h1, h⟩ := Py.bind_eq_ok.1 h
  have hc1 : c1 = c := by simp only [ask, Prod.mk.injEq] at h1; exact h1.2.symm
  rw [hc1] at h
  obtain ⟨v, c2, h2, h⟩ := Py.bind_eq_ok.1 h
  obtain ⟨hv, rfl⟩ := Py.lift_eq_ok.1 h2
  split at h
  · obtain ⟨t, c3, h3, h⟩ := Py.bind_eq_ok.1 h
    obtain ⟨h3, rfl⟩ := Py.lift_eq_ok.1 h3
    split at h
    · exact hend _ h
    · simp only [Py.pure_run, Prod.mk.injEq, Except.ok.injEq] at h
      obtain ⟨⟨_, rfl⟩, rfl⟩ := h
      exact hfront _ hv
  · split at h
    · exact hend _ h
    · simp only [Py.pure_run, Prod.mk.injEq, Except.ok.injEq] at h
      obtain ⟨⟨_, rfl⟩, rfl⟩ := h
      exact hfront _ hv

/-- **C114** (what holds).  `finalize` completes a login that was waiting for its response and returns an ID Token.  If the
provider does not refer to other sources of claims, then the user information returned has no subject at all or the one of
the ID Token, and that subject leads to the session. -/
theorem C114_one_subject_partial {K : String → Prop} (hK : Spec.Store.KeySpace K) (x : Ext) (issuer : String) (response b : Obj)
    (h : Handler) (c : Client) (hc : Dict.get? h.issuer2rp issuer = some c) (k : String) (hk : K k)
    (htr : getItem c.db "token_response" k = .error .keyError) (hrr : getItem c.db "refresh_token_response" k = .error .keyError)
    (hnobody : getState c.db "" = .error .keyError)
    (hsources : ∀ text f p kw v, parseInfo x c.ctx .userinfo (.text text) f = .ok p → x.verify c.ctx .userinfo p kw = .ok v →
      Dict.get? v "_claim_sources" = none)
    (info tok ss : Val) (idt : Obj) (hsome : idt ≠ []) (hid : (Dict.keys idt).Nodup)
    (hr : (finalize x issuer response b h).1 = .ok (.done info (.str k) tok (.obj idt) ss)) :
    ∃ sub, Dict.get? idt "sub" = some (.str sub) ∧
      (∀ o v, info = .obj o → Dict.get? o "sub" = some v → v = .str sub) ∧
      ∃ db log, view (finalize x issuer response b h).2 issuer = some (db, log) ∧ getStateByX db sub .subjectId = .ok (.raw k) := by
  have hne : k ≠ "" := hK.nonempty k hk
  unfold finalize at hr ⊢
  rw [fst_onClient hc] at hr
  rw [view_onClient hc, if_pos rfl]
  rcases finalizeAuth_cases x issuer response c with ⟨e, he⟩ | ⟨resp, hp, _, hcase⟩
  · rw [finalizeClient_error he] at hr; cases hr
  rcases hcase with ⟨he, hf⟩ | ⟨he, k', sess, resp', h1, h2, h3, h4, h5⟩
  · rw [finalizeClient_isError hf he] at hr
    simp only at hr
    split at hr
    · injection hr with hr; cases hr
    · cases hr
  have hst : Dict.get? resp' "state" = some (.str k') := by rw [withExpiry_get h4 (by decide)]; exact h1
  have herr : Msg.isError resp' = false := by rw [isError_withExpiry h4]; exact he
  have hrun : finalizeClient x issuer response b c = finalizeTokens x resp' k' b
      { c with db := Dict.set c.db k' (.doc (Dict.set sess "auth_response" (.obj resp'))) } := by
    unfold finalizeClient
    rw [Py.bind_ok h5, Py.lift_bind_ok (Dict.getItem_eq_ok.2 hst), if_neg (by rw [herr]; decide),
      Py.lift_bind_ok (show dbKey (.str k') = .ok k' from rfl)]
  rw [hrun] at hr ⊢
  generalize hc1 : ({ c with db := Dict.set c.db k' (.doc (Dict.set sess "auth_response" (.obj resp'))) } : Client) = c1 at hr ⊢
  rcases hfin : finalizeTokens x resp' k' b c1 with ⟨r, c'⟩
  rw [hfin] at hr
  simp only at hr
  subst hr
  unfold finalizeTokens at hfin
  obtain ⟨t, c2, g1, g2⟩ := Py.bind_eq_ok.1 hfin
  obtain ⟨i, c3, g3, g4⟩ := Py.bind_eq_ok.1 g2
  obtain ⟨u1, c4, g5, g6⟩ := Py.bind_eq_ok.1 g4
  obtain ⟨u2, c5, g7, g8⟩ := Py.bind_eq_ok.1 g6
  obtain ⟨t1, t2⟩ := t
  simp only [Py.pure_run, Prod.mk.injEq, Except.ok.injEq, Final.done.injEq, Val.str.injEq] at g8
  obtain ⟨⟨rfl, rfl, rfl, rfl, rfl⟩, rfl⟩ := g8
  have hstored : getItem c1.db "auth_response" k' = .ok (Spec.Store.withoutEmpty resp') := by
    rw [← hc1, ← Msg.ofDict_eq_withoutEmpty]
    exact storeItem_getItem (u := ()) (storeItem_run h2 resp' "auth_response")
  have hother : ∀ t, t ≠ "auth_response" → getItem c1.db t k' = getItem c.db t k' := by
    intro t ht
    rw [← hc1]
    have := storeItem_other resp' "auth_response" k' c.db t k' (Or.inr (Ne.symm ht))
    rw [storeItem_run h2 resp' "auth_response"] at this
    exact this
  have hlatest := returned_is_latest hK hk hstored (by rw [hother _ (by decide)]; exact htr)
    (by rw [hother _ (by decide)]; exact hrr) g1
  have hn2 : getState c2.db "" = .error .keyError := by
    have hn := nobody_getAccessAndIdToken hK x hk resp' b c1
    rw [g1] at hn
    rw [← hnobody]
    refine getState_congr (Eq.trans hn ?_)
    rw [← hc1]
    exact Dict.get?_set_ne _ _ hne
  have hctx2 : c2.ctx = c.ctx := by
    have := (local_getAccessAndIdToken x resp' k' b c1).ctx
    rw [g1] at this
    rw [this, ← hc1]
  -- the subject
  unfold bindSub at g7
  obtain ⟨v, c6, g9, g10⟩ := Py.bind_eq_ok.1 g7
  obtain ⟨hv, rfl⟩ := Py.lift_eq_ok.1 g9
  obtain ⟨s, c7, g11, g12⟩ := Py.bind_eq_ok.1 g10
  obtain ⟨hs, rfl⟩ := Py.lift_eq_ok.1 g11
  obtain rfl : v = .str s := by cases v <;> simp [asStr] at hs; rw [hs]
  have hid' : Val.truthy (.obj idt) = true → Dict.get? idt "sub" = some (.str s) := by
    intro ht
    rw [if_pos ht] at hv
    exact Dict.getItem_eq_ok.1 hv
  have hsub : Dict.get? idt "sub" = some (.str s) := by
    cases hi : idt with
    | cons p l => rw [← hi]; exact hid' (by rw [hi]; rfl)
    | nil => exact absurd hi hsome
  refine ⟨s, hsub, ?_, c5.db, c5.log, rfl, ?_⟩
  · intro o v ho hvs
    unfold collectUserInfo at g3
    rw [Py.read_bind_run] at g3
    split at g3
    · obtain ⟨r, c6, g13, g14⟩ := Py.bind_eq_ok.1 g3
      simp only [Py.pure_run, Prod.mk.injEq, Except.ok.injEq] at g14
      obtain ⟨g14, rfl⟩ := g14
      rw [ho] at g14
      cases r with
      | text t => cases g14
      | http t =>
        simp only [Resp.toVal, Val.obj.injEq] at g14
        subst g14
        cases hvs
      | msg m =>
        simp only [Resp.toVal, Val.obj.injEq] at g14
        subst g14
        obtain ⟨q1, inf, f, c7, q2, q3⟩ := userinfo_taken hn2 g13
        obtain ⟨parsed, w, args, a1, a2, a3, a4, a5, a6⟩ := userinfo_accepted q3 q1
        rw [q2.1] at a3
        have hl := latest_found hlatest a3
        have hw : m = w := by
          unfold allSources at a5
          rw [hsources inf _ parsed (gatherVerify c7.ctx .userinfo) w (by rw [← hctx2, ← q2.2.1]; exact a1)
            (by rw [← hctx2, ← q2.2.1]; exact a2)] at a5
          injection a5 with a5
          exact a5.symm
        subst hw
        unfold sameSub at a4
        rw [hl] at a4
        simp only [hsub, hvs] at a4
        split at a4
        · next h' => exact h'
        · cases a4
    · split at g3
      · simp only [Py.pure_run, Prod.mk.injEq, Except.ok.injEq] at g3
        obtain ⟨g3, _⟩ := g3
        rw [ho] at g3
        injection g3 with g3
        rw [← g3, claims_of_id_token x idt hid] at hvs
        split at hvs
        · rw [hsub] at hvs; injection hvs with hvs; exact hvs.symm
        · cases hvs
      · simp only [Py.pure_run, Prod.mk.injEq, Except.ok.injEq] at g3
        obtain ⟨g3, _⟩ := g3
        rw [ho] at g3
        injection g3 with g3
        rw [← g3] at hvs
        cases hvs
  · have hb := C04_bound_resolves c4.db .subjectId s k' hne
    unfold onDB at g12
    simp only [Prod.mk.injEq] at g12
    rw [← g12.2]
    exact hb

/-! ## What does not hold -/

/-- **C114** is violated: in the hybrid flow `code id_token` the subject of the ID Token that came with the response is
compared with nothing.  Whatever it says, if the provider's token endpoint then answers as for the user `sub`, `finalize`
succeeds and the session is that of `sub` (OpenID Connect Core 3.3.3.6 wants the subjects of the two ID Tokens to be the
same). -/
theorem C114_front_token_violated {K : String → Prop} (hK : Spec.Store.KeySpace K) (x : Ext) (issuer : String) (response b : Obj)
    (h : Handler) (c : Client) (hc : Dict.get? h.issuer2rp issuer = some c) (ha : .authorization ∈ c.services)
    (hq : Equipped x c) (hu : AsksUserinfo x c)
    (k n t sub other : String) (hk : K k) (ht : t ≠ "") (areq resp idt front u : Obj) (code ru ver rtv : Val)
    (hw : Waiting c issuer k areq n ver) (hru : Dict.get? areq "redirect_uri" = some ru)
    (hrt : Dict.get? areq "response_type" = some rtv) (hset : IsSet (wordsOf rtv) ["code", "id_token"])
    (hp : ParsedAs x c response resp) (he : Msg.isError resp = false) (hstate : Dict.get? resp "state" = some (.str k))
    (_hfront : Dict.get? resp "__verified_id_token" = some (.obj front)) (_hother : Dict.get? front "sub" = some (.str other))
    (_hdiffers : other ≠ sub)
    (hcode : Dict.get? resp "code" = some code) (hce : code ≠ .str "" ∧ code ≠ .list [.str ""])
    (hexp : ∃ r, withExpiry x resp = .ok r) (hid : GoodIdToken idt sub)
    (hh : HonestTokens x c code ru ver n t idt) (hcl : HonestClaims x c t sub u) :
    (∃ ss, (finalize x issuer response b h).1 = .ok (.done (.obj u) (.str k) (.str t) (.obj idt) ss)) ∧
    ∃ db log, view (finalize x issuer response b h).2 issuer = some (db, log) ∧ getStateByX db sub .subjectId = .ok (.raw k) := by
  obtain ⟨s1, s2, db', _, _, h3, h4, h5, _⟩ := C81_code_login hK x issuer response b h c hc ha hq hu k n t sub hk ht areq resp idt u
    code ru ver rtv hw hru hrt (Or.inr hset) hp he hstate hcode hce hexp hid hh hcl
  exact ⟨⟨_, h3⟩, _, _, h4, h5⟩

/-- A world in which the ID Tokens at one service are about `mallory`. -/
def twoUsers (now : Int) (at_ : Srv) : Ext :=
  { World.ext now "" "" "n1" with
    verify := fun _ srv o _ =>
      if srv = at_ ∧ Dict.has o "id_token" = true then
        .ok (Dict.set o "__verified_id_token" (.obj [("sub", .str "mallory"), ("nonce", .str "n1"), ("exp", .int 2000)]))
      else World.check "n1" o
    http := fun _ s => .ok { World.answer s with text := if s.srv = .refreshToken then "tokens" else (World.answer s).text } }

/-- The response of the hybrid flow. -/
def hybridResponse : Obj := [("code", .str "c1"), ("id_token", .str "t"), ("state", .str World.s1)]

/-- Non-vacuity: in the small world the ID Token that comes with the response is `mallory`'s, the one of the token endpoint
is `alice`'s; the hypotheses of `C114_front_token_violated` are met. -/
example : (∃ ss, (finalize (twoUsers 1001 .authorization) "https://op.example" hybridResponse []
      (startedAs [.str "code", .str "id_token"] World.services)).1 =
        .ok (.done (.obj aliceClaims) (.str World.s1) (.str "AT1") (.obj aliceToken) ss)) ∧
    ∃ db log, view (finalize (twoUsers 1001 .authorization) "https://op.example" hybridResponse []
      (startedAs [.str "code", .str "id_token"] World.services)).2 "https://op.example" = some (db, log) ∧
      getStateByX db "alice" .subjectId = .ok (.raw World.s1) := by
  refine C114_front_token_violated C10_generated_keys_are_safe (twoUsers 1001 .authorization) "https://op.example"
    hybridResponse [] (startedAs [.str "code", .str "id_token"] World.services)
    (clientAs [.str "code", .str "id_token"] World.services) (by rfl) (by decide)
    ⟨by decide, ⟨"https://op.example/token", by rfl⟩, by decide,
      C81_secret_authenticates _ _ ⟨by rfl, by decide⟩ "client_secret_basic" (by rfl) (Or.inl rfl) (by decide), Or.inl (by rfl),
      ⟨by rfl, by decide⟩, by decide⟩
    ⟨by decide, ⟨"https://op.example/userinfo", by rfl⟩, by rfl, Or.inl (by rfl), ⟨by decide, by rfl⟩⟩
    World.s1 "n1" "AT1" "alice" "mallory" gen_s1 (by decide)
    (requestAs [.str "code", .str "id_token"] World.services)
    (hybridResponse ++ [("__verified_id_token", .obj [("sub", .str "mallory"), ("nonce", .str "n1"), ("exp", .int 2000)])])
    aliceToken [("sub", .str "mallory"), ("nonce", .str "n1"), ("exp", .int 2000)]
    aliceClaims (.str "c1") (.str "https://rp.example/cb") (.str "")
    (.list [.str "code", .str "id_token"])
    (waitsAs _ _ (by rfl) (by rfl) (by rfl) ⟨_, by rfl⟩ (by rfl) (by rfl)) (by rfl) (by rfl)
    (fun w => by rfl) (by rfl) (by rfl) (by rfl) (by rfl) (by rfl) (by decide) (by rfl) ⟨by decide, by decide⟩ ⟨_, rfl⟩
    goodAlice ⟨⟨World.answer { srv := .accesstoken, url := "", method := "" },
      [("access_token", .str "AT1"), ("token_type", .str "Bearer"), ("expires_in", .int 300),
        ("refresh_token", .str "RT1"), ("id_token", .str "header.payload.signature")],
      [("access_token", .str "AT1"), ("token_type", .str "Bearer"), ("expires_in", .int 300),
        ("refresh_token", .str "RT1"), ("id_token", .str "header.payload.signature"), ("__verified_id_token", .obj aliceToken)],
      ?_, ?_, by rfl, by rfl, by rfl, _, rfl⟩, by rfl⟩
    ⟨World.answer { srv := .userinfo, url := "", method := "" }, aliceClaims, ?_, ?_, by rfl, by rfl, by rfl⟩
  · intro log s hs
    show Except.ok { World.answer s with text := if s.srv = Srv.refreshToken then "tokens" else (World.answer s).text } = _
    unfold World.answer
    rw [hs.1]
    rfl
  · exact ⟨by decide, by decide, by decide, by rfl, by rfl, by rfl, by rfl⟩
  · intro log s hs
    show Except.ok { World.answer s with text := if s.srv = Srv.refreshToken then "tokens" else (World.answer s).text } = _
    unfold World.answer
    rw [hs.1]
    rfl
  · exact ⟨by decide, by decide, by decide, by rfl, by rfl, by rfl, by rfl⟩

/-- The session of `alice`, finalized. -/
def aliceIn : Handler := (finalize (World.ext 1001 "" "" "n1") "https://op.example" codeResponse [] started).2

/-- What is stored for the session of the small world. -/
def storedOf (h : Handler) (item : String) : Option Obj :=
  (view h "https://op.example").bind (fun v => (getItem v.1 item World.s1).toOption)

/-- **C114** is violated: a refresh may change the user.  The ID Token that comes with refreshed tokens is compared with
nothing (OpenID Connect Core 12.2 wants its subject to be that of the first one): it is stored with the session of `alice`,
whose subject index still says `alice`, and from then on the user information of `alice` is refused, but that of `mallory`
would be taken. -/
theorem C114_refresh_violated :
    ((exec (twoUsers 1200 .refreshToken) (.refresh World.s1 "") aliceIn).1).isOk = true ∧
    (storedOf (exec (twoUsers 1200 .refreshToken) (.refresh World.s1 "") aliceIn).2 "token_response").bind
      (fun o => Dict.get? o "__verified_id_token") =
        some (.obj [("sub", .str "mallory"), ("nonce", .str "n1"), ("exp", .int 2000)]) ∧
    ((view (exec (twoUsers 1200 .refreshToken) (.refresh World.s1 "") aliceIn).2 "https://op.example").map
      (fun v => ((getStateByX v.1 "alice" .subjectId).toOption, (getStateByX v.1 "mallory" .subjectId).toOption))) =
        some (some (.raw World.s1), none) ∧
    ((exec (World.ext 1201 "" "" "n1") (.userInfo World.s1 (.str "AT1"))
      (exec (twoUsers 1200 .refreshToken) (.refresh World.s1 "") aliceIn).2).1).isOk = false := by
  refine ⟨by decide +kernel, by decide +kernel, by decide +kernel, by decide +kernel⟩

/-- Non-vacuity of `C114_one_subject_partial`: the login of the small world. -/
example : ∃ sub, Dict.get? aliceToken "sub" = some (.str sub) ∧
    (∀ o v, Val.obj aliceClaims = .obj o → Dict.get? o "sub" = some v → v = .str sub) ∧
    ∃ db log, view (finalize (World.ext 1001 "" "" "n1") "https://op.example" codeResponse [] started).2 "https://op.example" =
      some (db, log) ∧ getStateByX db sub .subjectId = .ok (.raw World.s1) := by
  refine C114_one_subject_partial C10_generated_keys_are_safe (World.ext 1001 "" "" "n1") "https://op.example" codeResponse []
    started waitingClient (by rfl) World.s1 gen_s1 (by rfl) (by rfl) (by rfl) ?_ (.obj aliceClaims) (.str "AT1") (.str "") aliceToken
    (by decide) (by decide) (by rfl)
  intro text f p kw v hp hv
  have hb : ∀ t o, World.parse (.text t) = .ok o → Dict.get? o "_claim_sources" = none := by
    intro t o ho
    have : ∃ q ∈ World.bodies, o = q.2 := by
      unfold World.parse at ho
      simp only at ho
      split at ho
      · next q hq =>
        injection ho with ho
        exact ⟨_, Dict.get?_eq_some_mem hq, ho.symm⟩
      · cases ho
    obtain ⟨q, hq, rfl⟩ := this
    have hall : ∀ q ∈ World.bodies, Dict.get? q.2 "_claim_sources" = none := by decide
    exact hall q hq
  have hr : ∀ i f o, doResponse (World.ext 1001 "" "" "n1") waitingClient.ctx .userinfo i f = .ok o → World.parse i = .ok o := by
    intro i f o ho
    unfold doResponse at ho
    change (match World.parse i with
      | .ok o => Except.ok o
      | .error e => if f = "json" then
          match World.parse i with
          | .ok o => .ok o
          | .error _ => .error e
        else .error e) = _ at ho
    cases hq : World.parse i with
    | ok o' => rw [hq] at ho; exact ho
    | error e =>
      rw [hq] at ho
      simp only [ite_self] at ho
      cases ho
  have hpn : Dict.get? p "_claim_sources" = none := by
    unfold parseInfo at hp
    simp only at hp
    split at hp
    · exact hb _ _ (hr _ _ _ hp)
    · split at hp
      · split at hp
        · next o ho =>
          have h1 := hr _ _ _ hp
          have h2 : World.parse (.text text) = .ok o := ho
          injection h1 with h1
          rw [← h1]
          exact hb _ _ h2
        · cases hp
      · exact hb _ _ (hr _ _ _ hp)
  change World.check "n1" p = .ok v at hv
  unfold World.check at hv
  split at hv
  · cases hv
    rw [Dict.get?_set_ne _ _ (by decide)]
    exact hpn
  · cases hv
    exact hpn

end Verif.Props
