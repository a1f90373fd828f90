import Verif.Props.SessionTokens
import Verif.Lemmas.AuthTrace
/-!
# C68: what `finalize` returns and leaves behind
-/

namespace Verif.Props
open Verif Verif.Service Verif.Handler Verif.StateInterface Verif.Spec.Session Verif.Spec.HandlerView Verif.Spec.Store

/-- The item `t` of session `k` is what it was. -/
def KeepItem (k t : String) (c c' : Client) : Prop := getItem c'.db t k = getItem c.db t k

instance (k t : String) : FrameRel (KeepItem k t) where
  refl _ := rfl
  trans h h' := Eq.trans h' h

instance (k t : String) : ClientRel (KeepItem k t) where
  send _ _ := fun _ => rfl
  dpop := frame_dpopKey fun _ _ _ => rfl

theorem storeItem_error_db {item : Obj} {t k : String} {db : DB} {e : Exc} (h : (storeItem item t k db).1 = .error e) :
    (storeItem item t k db).2 = db := by
  unfold storeItem at h ⊢
  split <;> first | rfl | simp_all

theorem storeItem_other (item : Obj) (t' k' : String) (db : DB) (t k : String) (h : k' ≠ k ∨ t' ≠ t) :
    getItem (storeItem item t' k' db).2 t k = getItem db t k := by
  by_cases hk : k' = k
  · subst hk
    have ht : t' ≠ t := by
      rcases h with h | h
      · exact absurd rfl h
      · exact h
    cases hs : (storeItem item t' k' db).1 with
    | error e => rw [storeItem_error_db hs]
    | ok u => exact (C02_store_then_read item t' k' db hs).2 t (Ne.symm ht)
  · exact (C01_store_isolated item t' k' db k hk).2.2 t

theorem keep_getTokens {K : String → Prop} (hK : KeySpace K) (x : Ext) {k : String} (hk : K k) {t : String}
    (ht : t ≠ "token_response") : Frame (KeepItem k t) (getTokens x k) := by
  intro c
  rcases C17_get_tokens hK x k hk c with ⟨_, h⟩ | ⟨r, _, _, h, _⟩
  · exact h t
  · exact h t ht

theorem keep_postParse (x : Ext) (k t s : String) (r : Obj) (ht : t ≠ "user_info") :
    Frame (KeepItem k t) (postParse x .userinfo r s) := by
  unfold postParse
  refine Frame.bind (Frame.ask _) fun r' => ?_
  refine Frame.bind ?_ fun _ => Frame.pure _
  intro c
  exact storeItem_other r' "user_info" s c.db t k (Or.inr (Ne.symm ht))

theorem keep_userInfo (x : Ext) (k t k' : String) (v : Val) (ht : t ≠ "user_info") :
    Frame (KeepItem k t) (getUserInfo x k' v) := by
  unfold getUserInfo
  refine Frame.bind (Frame.ask _) fun _ => ?_
  refine Frame.bind ?_ fun _ => Frame.bind (Frame.lift _) fun _ => Frame.pure _
  refine frame_doRequest (frame_request_reading (Or.inr (Or.inr (Or.inl rfl))) _ _ _) (fun r => keep_postParse _ _ _ _ _ ht)
    (fun r => keep_postParse _ _ _ _ _ ht) (fun m => Frame.pure _)

theorem keep_bind {K : String → Prop} (hK : KeySpace K) {k : String} (hk : K k) (t v : String) (y : XTyp) :
    Frame (KeepItem k t) (onDB (storeX2State v k y)) := by
  intro c
  exact (C01_bind_isolated hK y v k hk c.db k hk).2.2 t

theorem keep_getAccessAndIdToken {K : String → Prop} (hK : KeySpace K) (x : Ext) {k : String} (hk : K k) {t : String}
    (ht : t ≠ "token_response") (resp b : Obj) : Frame (KeepItem k t) (getAccessAndIdToken x resp k b) := by
  have hend : Frame (KeepItem k t) (endpointTokens x k) := by
    unfold endpointTokens
    refine Frame.bind (keep_getTokens hK x hk ht) fun _ => ?_
    refine Frame.bind (Frame.lift _) fun _ => ?_
    exact Frame.bind (Frame.lift _) fun _ => Frame.pure _
  unfold getAccessAndIdToken
  refine Frame.bind (Frame.ask _) fun rt => ?_
  refine Frame.bind (Frame.lift _) fun idt => ?_
  refine Frame.ite (fun _ => ?_) (fun _ => ?_)
  · refine Frame.bind (Frame.lift _) fun _ => ?_
    exact Frame.ite (fun _ => hend) (fun _ => Frame.pure _)
  · exact Frame.ite (fun _ => hend) (fun _ => Frame.pure _)

theorem keep_collect (x : Ext) (k t k' : String) (v i : Val) (ht : t ≠ "user_info") :
    Frame (KeepItem k t) (collectUserInfo x k' v i) := by
  unfold collectUserInfo
  refine Frame.bind Frame.read fun c => ?_
  refine Frame.ite (fun _ => ?_) (fun _ => ?_)
  · exact Frame.bind (keep_userInfo _ _ _ _ _ ht) fun _ => Frame.pure _
  · refine Frame.ite (fun _ => ?_) (fun _ => Frame.pure _)
    split
    · exact Frame.pure _
    · exact Frame.raise _

theorem keep_bindSid {K : String → Prop} (hK : KeySpace K) {k : String} (hk : K k) (t : String) (i : Val) :
    Frame (KeepItem k t) (bindSid k i) := by
  unfold bindSid
  refine Frame.bind Frame.read fun c => ?_
  refine Frame.ite (fun _ => ?_) (fun _ => Frame.pure _)
  split
  · exact Frame.pure _
  · exact Frame.raise _
  · exact Frame.bind (Frame.lift _) fun _ => keep_bind hK hk _ _ _

/-- The subject of a finalized session: the one of the ID Token, without ID Token that of the user info. -/
def SubjectOf (idt info : Val) (sub : String) : Prop :=
  if idt.truthy then ∃ o, idt = .obj o ∧ Dict.get? o "sub" = some (.str sub)
  else ∃ o, info = .obj o ∧ Dict.get? o "sub" = some (.str sub)

/-- The provider says that its sessions have an id: the metadata about back-channel logout say so or, if they say nothing,
those about front-channel logout. -/
def SessionIds (metadata : Obj) : Prop :=
  (∃ v, Dict.get? metadata "backchannel_logout_session_supported" = some v ∧ v.truthy = true) ∨
  (Dict.get? metadata "backchannel_logout_session_supported" = none ∧
    ∃ v, Dict.get? metadata "frontchannel_logout_session_supported" = some v ∧ v.truthy = true)

theorem sidSupport_of {pi : Obj} (h : SessionIds pi) : sidSupport pi = true := by
  unfold sidSupport
  rcases h with ⟨v, h1, h2⟩ | ⟨h0, v, h1, h2⟩
  · rw [h1]; exact h2
  · rw [h0, h1]; exact h2

theorem onlySends_getAccessAndIdToken (x : Ext) (resp : Obj) (k : String) (b : Obj) :
    Frame (OnlySends .accesstoken) (getAccessAndIdToken x resp k b) := by
  have hend : Frame (OnlySends .accesstoken) (endpointTokens x k) := by
    unfold endpointTokens getTokens
    refine Frame.bind ?_ fun _ => Frame.bind (Frame.lift _) fun _ => Frame.bind (Frame.lift _) fun _ => Frame.pure _
    refine Frame.bind (Frame.ask _) fun args => Frame.bind (Frame.ask _) fun am => ?_
    refine Frame.bind ?_ fun _ => Frame.bind (Frame.lift _) fun _ => Frame.pure _
    intro c
    rcases doRequest_log (x := x) (srv := .accesstoken) (args := args) (o := { authnMethod := am }) (kwargs := [("state", .str k)])
      (frame_request_reading (Or.inl rfl) _ _ _) c with h | ⟨info, c1, _, h⟩
    · exact ⟨[], by rw [h]; simp, by simp⟩
    · exact ⟨_, h, by simp [sentFor]⟩
  unfold getAccessAndIdToken
  refine Frame.bind (Frame.ask _) fun rt => ?_
  refine Frame.bind (Frame.lift _) fun idt => ?_
  refine Frame.ite (fun _ => ?_) (fun _ => ?_)
  · refine Frame.bind (Frame.lift _) fun _ => ?_
    exact Frame.ite (fun _ => hend) (fun _ => Frame.pure _)
  · exact Frame.ite (fun _ => hend) (fun _ => Frame.pure _)

/-- Without access token the user's claims are not asked for. -/
theorem collect_without_token {x : Ext} {k : String} {t i : Val} (ht : t.truthy = false) (c : Client) :
    (collectUserInfo x k t i c).2 = c := by
  unfold collectUserInfo
  rw [Py.read_bind_run, if_neg (by rw [ht]; simp)]
  split
  · split <;> rfl
  · rfl

/-- **C68**.  When `finalize` succeeds: the state returned is the one of the (parsed and verified) response,
the subject of the ID Token (else of the user info) returned resolves to that session, the response is stored
with it, and the session was started with this issuer.  If the provider says that its sessions have ids, the id in the ID
Token resolves to the session as well.  Only when there is an access token, the userinfo endpoint was asked. -/
theorem C68_result {K : String → Prop} (hK : KeySpace K) (x : Ext) (issuer : String) (response b : Obj) (h : Handler)
    (info st tok idt ss : Val) (hr : (finalize x issuer response b h).1 = .ok (.done info st tok idt ss)) :
    ∃ c resp k stored db log, Dict.get? h.issuer2rp issuer = some c ∧ ParsedAs x c response resp ∧
      Dict.get? resp "state" = some (.str k) ∧ st = .str k ∧ StartedWith c k issuer ∧
      view (finalize x issuer response b h).2 issuer = some (db, log) ∧
      (K k →
        (∃ sub, SubjectOf idt info sub ∧ getStateByX db sub .subjectId = .ok (.raw k)) ∧
        (SessionIds c.ctx.providerInfo → ∀ o sid, idt = .obj o → Dict.get? o "sid" = some (.str sid) →
          getStateByX db sid .sessionId = .ok (.raw k)) ∧
        (tok.truthy = false → ∃ l, log = c.log ++ l ∧ ∀ s ∈ l, s.srv = .accesstoken) ∧
        getItem db "auth_response" k = .ok (withoutEmpty stored) ∧
        ∀ p, p ≠ "__expires_at" → Dict.get? stored p = Dict.get? resp p) := by
  cases hc : Dict.get? h.issuer2rp issuer with
  | none =>
    unfold finalize at hr
    rw [onClient_unknown hc] at hr; cases hr
  | some c =>
  unfold finalize at hr ⊢
  rw [fst_onClient hc] at hr
  rw [view_onClient hc, if_pos rfl]
  rcases finalizeAuth_cases x issuer response c with ⟨e, he⟩ | ⟨resp, hp, _, hcase⟩
  · rw [finalizeClient_error he] at hr; cases hr
  · rcases hcase with ⟨he, hf⟩ | ⟨he, k, sess, resp', h1, h2, h3, h4, h5⟩
    · rw [finalizeClient_isError hf he] at hr
      simp only at hr
      split at hr
      · injection hr with hr; cases hr
      · cases hr
    · have hst : Dict.get? resp' "state" = some (.str k) := by rw [withExpiry_get h4 (by decide)]; exact h1
      have herr : Msg.isError resp' = false := by rw [isError_withExpiry h4]; exact he
      have hrun : finalizeClient x issuer response b c = finalizeTokens x resp' k b
          { c with db := Dict.set c.db k (.doc (Dict.set sess "auth_response" (.obj resp'))) } := by
        unfold finalizeClient
        rw [Py.bind_ok h5, Py.lift_bind_ok (Dict.getItem_eq_ok.2 hst), if_neg (by rw [herr]; decide),
          Py.lift_bind_ok (show dbKey (.str k) = .ok k from rfl)]
      rw [hrun] at hr ⊢
      generalize hc1 : ({ c with db := Dict.set c.db k (.doc (Dict.set sess "auth_response" (.obj resp'))) } : Client) = c1 at hr ⊢
      have hstored : getItem c1.db "auth_response" k = .ok (withoutEmpty resp') := by
        rw [← hc1, ← Msg.ofDict_eq_withoutEmpty]
        exact storeItem_getItem (u := ()) (storeItem_run h2 resp' "auth_response")
      rcases hfin : finalizeTokens x resp' k b c1 with ⟨r, c'⟩
      rw [hfin] at hr
      simp only at hr
      subst hr
      unfold finalizeTokens at hfin
      obtain ⟨t, c2, g1, g2⟩ := Py.bind_eq_ok.1 hfin
      obtain ⟨i, c3, g3, g4⟩ := Py.bind_eq_ok.1 g2
      obtain ⟨u1, c4, g5, g6⟩ := Py.bind_eq_ok.1 g4
      obtain ⟨u2, c5, g7, g8⟩ := Py.bind_eq_ok.1 g6
      simp only [Py.pure_run, Prod.mk.injEq, Except.ok.injEq, Final.done.injEq] at g8
      obtain ⟨⟨rfl, rfl, rfl, rfl, rfl⟩, rfl⟩ := g8
      refine ⟨c, resp, k, resp', c5.db, c5.log, rfl, parsedAs_iff.2 hp, h1, rfl, getIss_of h2 h3, rfl, ?_⟩
      intro hk
      have f1 := keep_getAccessAndIdToken hK x hk (t := "auth_response") (by decide) resp' b c1
      rw [g1] at f1
      have f2 := keep_collect x k "auth_response" k t.1 t.2 (by decide) c2
      rw [g3] at f2
      have f3 := keep_bindSid hK hk "auth_response" t.2 c3
      rw [g5] at f3
      unfold bindSub at g7
      obtain ⟨v, c6, g9, g10⟩ := Py.bind_eq_ok.1 g7
      obtain ⟨g9', rfl⟩ := Py.lift_eq_ok.1 g9
      obtain ⟨s, c7, g11, g12⟩ := Py.bind_eq_ok.1 g10
      obtain ⟨g11', rfl⟩ := Py.lift_eq_ok.1 g11
      have f4 := keep_bind hK hk "auth_response" s .subjectId c4
      rw [g12] at f4
      obtain rfl : v = .str s := by cases v <;> simp [asStr] at g11'; rw [g11']
      refine ⟨⟨s, ?_, ?_⟩, ?_, ?_, ?_, fun p hpe => withExpiry_get h4 hpe⟩
      · unfold SubjectOf
        split
        · next ht =>
          rw [if_pos ht] at g9'
          cases h' : t.2 <;> rw [h'] at g9' <;> simp [valItem] at g9'
          exact ⟨_, rfl, g9'⟩
        · next ht =>
          rw [if_neg ht] at g9'
          cases h' : i <;> rw [h'] at g9' <;> simp [valItem] at g9'
          exact ⟨_, rfl, g9'⟩
      · have hb := C04_bound_resolves c4.db .subjectId s k (hK.nonempty k hk)
        unfold onDB at g12
        simp only [Prod.mk.injEq] at g12
        rw [← g12.2]
        exact hb
      · intro hsup o sid ho hsid
        have hc2 := (local_getAccessAndIdToken x resp' k b c1).ctx
        rw [g1] at hc2
        have hc3 := (local_collectUserInfo x k t.1 t.2 c2).ctx
        rw [g3] at hc3
        have hctx : c3.ctx = c.ctx := by rw [hc3, hc2, ← hc1]
        unfold bindSid at g5
        have htr : (Val.obj o).truthy = true := by
          cases o with
          | nil => cases hsid
          | cons => rfl
        rw [Py.read_bind_run, if_pos (by rw [hctx, sidSupport_of hsup, ho, htr]; rfl), ho] at g5
        simp only [valItem, Dict.getItem_eq_ok.2 hsid] at g5
        rw [Py.lift_bind_ok (show asStr (.str sid) = .ok sid from rfl)] at g5
        have e1 : c4.db = (storeX2State sid k .sessionId c3.db).2 := by
          unfold onDB at g5
          simp only [Prod.mk.injEq] at g5
          rw [← g5.2]
        have e2 : c5.db = (storeX2State s k .subjectId c4.db).2 := by
          unfold onDB at g12
          simp only [Prod.mk.injEq] at g12
          rw [← g12.2]
        have e3 : Dict.get? c4.db (indexKey .sessionId sid) = some (.raw k) := by rw [e1]; exact get?_bind_self _ _ _ _
        have e4 := get?_bind_index c4.db .subjectId .sessionId s sid k e3
        rw [← e2] at e4
        unfold getStateByX
        rw [e4]
        simp [hK.nonempty k hk]
      · intro ht
        have o1 := onlySends_getAccessAndIdToken x resp' k b c1
        rw [g1] at o1
        obtain ⟨l, o1, o2⟩ := o1
        have o3 := collect_without_token (x := x) (k := k) (i := t.2) ht c2
        rw [g3] at o3
        have o4 : c4.log = c3.log := by
          have h0 : Frame NoSend (bindSid k t.2) := by
            unfold bindSid
            refine Frame.bind Frame.read fun c => ?_
            refine Frame.ite (fun _ => ?_) (fun _ => Frame.pure _)
            split
            · exact Frame.pure _
            · exact Frame.raise _
            · exact Frame.bind (Frame.lift _) fun _ => noSend_onDB _
          have := h0 c3
          rw [g5] at this
          exact this
        have o5 : c5.log = c4.log := by
          have := noSend_onDB (storeX2State s k .subjectId) c4
          rw [g12] at this
          exact this
        refine ⟨l, ?_, o2⟩
        rw [o5, o4, show c3 = c2 from o3, o1, ← hc1]
      · rw [← hstored]
        exact f4.trans (f3.trans (f2.trans f1))

/-- Non-vacuity of C68. -/
example :
    Spec.History.Generated World.s1 ∧
    (∃ info tok idt ss, (finalize (World.ext 1001 "" "" "n1") "https://op.example" codeResponse [] started).1
      = .ok (.done info (.str World.s1) tok idt ss)) ∧
    (view finalized "https://op.example").map (fun v => (getStateByX v.1 "alice" .subjectId).toOption) = some (some (.raw World.s1)) := by
  refine ⟨⟨by decide, by decide⟩, ⟨_, _, _, _, by rfl⟩, by rfl⟩

end Verif.Props
