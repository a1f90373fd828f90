import Verif.Lemmas.Exchange
import Verif.Lemmas.World
import Verif.Props.Finalize
/-!
# C17, C24: the tokens stored for a session
-/

namespace Verif.Props
open Verif Verif.Service Verif.Handler Verif.StateInterface Verif.Spec.Session Verif.Spec.HandlerView Verif.Spec.Wire

/-! ## C17 -/

/-- The (verified) ID Token `v` has a nonce that was bound to session `k`. -/
def NonceBoundTo (db : DB) (k : String) (v : Val) : Prop :=
  ∃ idt n, v = .obj idt ∧ Dict.get? idt "nonce" = some (.str n) ∧ getStateByX db n .nonce = .ok (.raw k)

theorem bindIdToken_ok {resp : Obj} {k : String} {c c' : Client} {u : Unit} {v : Val}
    (h : bindIdToken resp k c = (.ok u, c')) (hv : Dict.get? resp "__verified_id_token" = some v) :
    NonceBoundTo c.db k v ∧ ∃ idt sub, v = .obj idt ∧ Dict.get? idt "sub" = some (.str sub) ∧
      c' = { c with db := (storeX2State sub k .subjectId c.db).2 } := by
  unfold bindIdToken at h
  rw [show Dict.get? resp (Msg.verifiedName "id_token") = some v from hv] at h
  cases v <;> simp only [Py.raise_run, Prod.mk.injEq, reduceCtorEq, false_and] at h
  next idt =>
  obtain ⟨_, c1, h1, h2⟩ := Py.bind_eq_ok.1 h
  simp only [ask, Prod.mk.injEq] at h1
  obtain ⟨h1, rfl⟩ := h1
  obtain ⟨sv, c2, h3, h4⟩ := Py.bind_eq_ok.1 h2
  obtain ⟨h3', rfl⟩ := Py.lift_eq_ok.1 h3
  obtain ⟨s, c3, h5, h6⟩ := Py.bind_eq_ok.1 h4
  obtain ⟨h5', rfl⟩ := Py.lift_eq_ok.1 h5
  constructor
  · unfold nonceOfSession at h1
    split at h1
    · next n hn =>
      split at h1
      · next p hp =>
        split at h1
        · next e => subst e; exact ⟨idt, n, rfl, hn, hp⟩
        · cases h1
      · cases h1
      · cases h1
    · cases h1
  · refine ⟨idt, s, rfl, ?_, ?_⟩
    · rw [Dict.getItem_eq_ok.1 h3']
      cases sv <;> simp [asStr] at h5'
      rw [h5']
    · unfold onDB at h6
      simp only [Prod.mk.injEq] at h6
      exact h6.2.symm

theorem bindIdToken_refused {resp : Obj} {k : String} {c : Client} {v : Val}
    (hv : Dict.get? resp "__verified_id_token" = some v) (hn : ¬ NonceBoundTo c.db k v) :
    ∃ e, bindIdToken resp k c = (.error e, c) := by
  unfold bindIdToken
  rw [show Dict.get? resp (Msg.verifiedName "id_token") = some v from hv]
  cases v <;> simp only <;> first | exact ⟨_, rfl⟩ | skip
  next idt =>
  have : ∃ e, nonceOfSession c.db idt k = .error e := by
    unfold nonceOfSession
    split
    · next n hg =>
      split
      · next p hp =>
        split
        · next e => subst e; exact absurd ⟨idt, n, rfl, hg, hp⟩ hn
        · exact ⟨_, rfl⟩
      · exact ⟨_, rfl⟩
      · exact ⟨_, rfl⟩
    · exact ⟨_, rfl⟩
  obtain ⟨e, he⟩ := this
  exact ⟨e, by rw [ask_bind_error (by simpa using he)]⟩

/-- **C17** (a token response that arrives).  If its verified ID Token has no nonce that is bound to the
session it arrives for (another session's, an unknown one, none at all, or what claims to be an ID Token is
none), taking it in raises and nothing at all changes. -/
theorem C17_refused (x : Ext) (resp : Obj) (k : String) (c : Client) (v : Val)
    (hv : Dict.get? resp "__verified_id_token" = some v) (hn : ¬ NonceBoundTo c.db k v) :
    ∃ e, updateMsg x .accesstoken resp k c = (.error e, c) := by
  obtain ⟨e, he⟩ := bindIdToken_refused hv hn
  exact ⟨e, by simp only [updateMsg]; rw [Py.bind_error he]⟩

/-- **C17** (histories).  As `C17_refused`, in terms of what happened before: the nonce of the token was not
bound to this session when it was bound last. -/
theorem C17_other_session_refused {K : String → Prop} (hK : Spec.Store.KeySpace K) (ops : List Op)
    (hops : ∀ op ∈ ops, Spec.Store.OpOk K op) (x : Ext) (resp idt : Obj) (n k : String) (c : Client)
    (hdb : c.db = dbAfter ops) (hv : Dict.get? resp "__verified_id_token" = some (.obj idt))
    (hnonce : Dict.get? idt "nonce" = some (.str n)) (hb : Spec.History.lastBind .nonce n ops ≠ some k) :
    ∃ e, updateMsg x .accesstoken resp k c = (.error e, c) := by
  refine C17_refused x resp k c _ hv ?_
  rintro ⟨idt', n', e, hn', hg⟩
  injection e with e
  subst e
  rw [hnonce] at hn'
  obtain rfl : n = n' := by simpa using hn'
  rw [hdb] at hg
  rcases C03_lookup_sound hK ops hops .nonce n with ⟨k', h1, h2⟩ | h
  · rw [hg] at h1
    obtain rfl : k = k' := by simpa using h1
    exact hb h2
  · rw [hg] at h; cases h

theorem getItem_updateCtx {db db' : DB} {k : String} (h : getState db' k = getState db k) (t : String) :
    getItem db' t k = getItem db t k := by
  unfold getItem; rw [h]

/-- What taking in a token response does to the session's items. -/
theorem tokenUpdate_cases {K : String → Prop} (hK : Spec.Store.KeySpace K) {k : String} (hk : K k) (x : Ext)
    (resp : Obj) (c : Client) :
    ((∃ e, (updateMsg x .accesstoken resp k c).1 = .error e) ∧
      ∀ t, getItem (updateMsg x .accesstoken resp k c).2.db t k = getItem c.db t k) ∨
    (∃ r, (updateMsg x .accesstoken resp k c).1 = .ok r ∧ withExpiry x resp = .ok r ∧
      getItem (updateMsg x .accesstoken resp k c).2.db "token_response" k = .ok (Spec.Store.withoutEmpty r) ∧
      (∀ t, t ≠ "token_response" → getItem (updateMsg x .accesstoken resp k c).2.db t k = getItem c.db t k) ∧
      (∀ v, Dict.get? resp "__verified_id_token" = some v → NonceBoundTo c.db k v)) := by
  simp only [updateMsg]
  rw [Py.bind_run]
  rcases hb : bindIdToken resp k c with ⟨r, c1⟩
  have hkeep : ∀ t, getItem c1.db t k = getItem c.db t k := by
    have hl := local_bindIdToken k resp c
    cases hv : Dict.get? resp "__verified_id_token" with
    | none =>
      unfold bindIdToken at hb
      rw [show Dict.get? resp (Msg.verifiedName "id_token") = none from hv] at hb
      simp only [Py.pure_run, Prod.mk.injEq] at hb
      rw [← hb.2]
      intro t; rfl
    | some v =>
      by_cases hn : NonceBoundTo c.db k v
      · obtain ⟨idt, n, rfl, hn1, hn2⟩ := hn
        cases r with
        | ok u =>
          obtain ⟨-, idt, sub, -, -, rfl⟩ := bindIdToken_ok hb hv
          exact (C01_bind_isolated hK .subjectId sub k hk c.db k hk).2.2
        | error e =>
          unfold bindIdToken at hb
          rw [show Dict.get? resp (Msg.verifiedName "id_token") = _ from hv] at hb
          simp only at hb
          rcases Py.bind_eq_error.1 hb with h | ⟨_, c2, h1, h2⟩
          · simp only [ask, Prod.mk.injEq] at h; rw [← h.2]; intro t; rfl
          · simp only [ask, Prod.mk.injEq] at h1
            obtain ⟨-, rfl⟩ := h1
            rcases Py.bind_eq_error.1 h2 with h | ⟨_, c3, h1, h3⟩
            · simp only [Py.lift_run, Prod.mk.injEq] at h; rw [← h.2]; intro t; rfl
            · obtain ⟨-, rfl⟩ := Py.lift_eq_ok.1 h1
              rcases Py.bind_eq_error.1 h3 with h | ⟨s, c4, h1, h4⟩
              · simp only [Py.lift_run, Prod.mk.injEq] at h; rw [← h.2]; intro t; rfl
              · obtain ⟨-, rfl⟩ := Py.lift_eq_ok.1 h1
                unfold onDB at h4
                simp only [Prod.mk.injEq] at h4
                rw [← h4.2]
                exact (C01_bind_isolated hK .subjectId s k hk c.db k hk).2.2
      · obtain ⟨e, he⟩ := bindIdToken_refused hv hn
        rw [hb] at he
        simp only [Prod.mk.injEq] at he
        rw [he.2]; intro t; rfl
  cases r with
  | error e => left; exact ⟨⟨e, rfl⟩, hkeep⟩
  | ok u =>
    simp only
    unfold storeResponse
    cases hw : withExpiry x resp with
    | error e => left; rw [Py.lift_bind_error rfl]; exact ⟨⟨e, rfl⟩, hkeep⟩
    | ok r =>
      rw [Py.lift_bind_ok rfl]
      have hrun : onDB (storeItem r "token_response" k) c1
          = ((storeItem r "token_response" k c1.db).1, { c1 with db := (storeItem r "token_response" k c1.db).2 }) := rfl
      cases hs : (storeItem r "token_response" k c1.db).1 with
      | error e =>
        left
        rw [hs] at hrun
        rw [Py.bind_error hrun]
        refine ⟨⟨e, rfl⟩, ?_⟩
        have : (storeItem r "token_response" k c1.db).2 = c1.db := by
          unfold storeItem at hs ⊢
          split <;> first | rfl | simp_all
        simp only [this]
        exact hkeep
      | ok u =>
        right
        rw [hs] at hrun
        rw [Py.bind_ok hrun]
        obtain ⟨g1, g2⟩ := C02_store_then_read r "token_response" k c1.db hs
        refine ⟨r, rfl, rfl, g1, ?_, ?_⟩
        · intro t ht; exact (g2 t ht).trans (hkeep t)
        · intro v hv; exact (bindIdToken_ok hb hv).1

theorem isError_withExpiry {x : Ext} {resp r : Obj} (h : withExpiry x resp = .ok r) : Msg.isError r = Msg.isError resp := by
  unfold Msg.isError; rw [Dict.has_eq, Dict.has_eq, withExpiry_get h (by decide)]

/-- **C17** (fetching tokens).  Whatever the provider answers when tokens are fetched for a session: no item
of the session changes and the call raises; or the answer is stored as the session's token response and, if
it has a verified ID Token, that token's nonce was bound to exactly this session. -/
theorem C17_get_tokens {K : String → Prop} (hK : Spec.Store.KeySpace K) (x : Ext) (k : String) (hk : K k)
    (c : Client) :
    ((∃ e, (getTokens x k c).1 = .error e) ∧ ∀ t, getItem (getTokens x k c).2.db t k = getItem c.db t k) ∨
    (∃ r, (getTokens x k c).1 = .ok (.msg r) ∧
      getItem (getTokens x k c).2.db "token_response" k = .ok (Spec.Store.withoutEmpty r) ∧
      (∀ t, t ≠ "token_response" → getItem (getTokens x k c).2.db t k = getItem c.db t k) ∧
      (∀ v, Dict.get? r "__verified_id_token" = some v → NonceBoundTo c.db k v)) := by
  unfold getTokens
  cases ha : tokenArgs k c with
  | error e => left; rw [ask_bind_error ha]; exact ⟨⟨e, rfl⟩, fun _ => rfl⟩
  | ok args =>
  rw [ask_bind_ok ha]
  cases hb : clientAuthnMethod c.ctx.behaviour with
  | error e => left; rw [ask_bind_error (by simpa using hb)]; exact ⟨⟨e, rfl⟩, fun _ => rfl⟩
  | ok am =>
  rw [ask_bind_ok (by simpa using hb)]
  rcases doRequest_stores (x := x) (srv := .accesstoken) (Or.inl rfl) args { authnMethod := am } k c with
    ⟨hs, hr⟩ | ⟨info, bt, resp, c0, c1, _, _, _, hs, hne, hr⟩
  · left
    rw [refused_snd]
    refine ⟨?_, fun t => by rw [hs.1]⟩
    rcases hd : doRequest x .accesstoken args { authnMethod := am } [("state", .str k)] c with ⟨r, c'⟩
    rw [hd] at hr
    rcases hr with ⟨e, he⟩ | ⟨r0, hr0, hie⟩
    · simp only at he; subst he
      rw [Py.bind_error hd]; exact ⟨e, rfl⟩
    · simp only at hr0; subst hr0
      rw [Py.bind_ok hd]
      have : ∃ e, refuseError r0 = .error e := by
        unfold refuseError
        rw [if_pos hie]
        split <;> exact ⟨_, rfl⟩
      obtain ⟨e, he⟩ := this
      rw [Py.lift_bind_error he]; exact ⟨e, rfl⟩
  · rcases tokenUpdate_cases hK hk x resp c1 with ⟨⟨e, he⟩, hkeep⟩ | ⟨r, h1, h2, h3, h4, h5⟩
    · left
      rcases hu : updateMsg x .accesstoken resp k c1 with ⟨u, c2⟩
      rw [hu] at hr he hkeep
      simp only at he; subst he
      rw [Py.bind_error hr]
      exact ⟨⟨e, rfl⟩, fun t => by rw [← hs.1]; exact hkeep t⟩
    · right
      rcases hu : updateMsg x .accesstoken resp k c1 with ⟨u, c2⟩
      rw [hu] at hr h1 h3 h4
      simp only at h1; subst h1
      rw [Py.bind_ok hr]
      have hre : refuseError (.msg r) = .ok () := by
        unfold refuseError
        rw [if_neg]
        simp [Resp.isError, isError_withExpiry h2, hne]
      rw [Py.lift_bind_ok hre]
      refine ⟨r, rfl, h3, fun t ht => by rw [← hs.1]; exact h4 t ht, ?_⟩
      intro v hv
      rw [withExpiry_get h2 (by decide)] at hv
      rw [← hs.1]; exact h5 v hv

/-- Non-vacuity of C17: the World's token response is taken in if the ID Token has the nonce of the session;
with another session's nonce, an unknown one, or none, `finalize` raises and no token is stored. -/
example :
    NonceBoundTo (dbAfter [.create "i" "k" "", .bind .nonce "n" "k"]) "k" (.obj [("nonce", .str "n")]) ∧
    ¬ NonceBoundTo (dbAfter [.create "i" "k" "", .bind .nonce "n" "k"]) "k2" (.obj [("nonce", .str "n")]) ∧
    ¬ NonceBoundTo (dbAfter [.create "i" "k" "", .bind .nonce "n" "k"]) "k" (.obj [("sub", .str "n")]) ∧
    (finalize (World.ext 1001 "" "" "n1") "https://op.example" codeResponse [] started).1.isOk = true ∧
    (finalize (World.ext 1001 "" "" "n2") "https://op.example" codeResponse [] started).1 = .error .valueError ∧
    ((view (finalize (World.ext 1001 "" "" "n2") "https://op.example" codeResponse [] started).2 "https://op.example").map
      (fun v => (getItem v.1 "token_response" World.s1).isOk)) = some false := by
  refine ⟨⟨_, "n", rfl, rfl, rfl⟩, ?_, ?_, by rfl, by rfl, by rfl⟩
  · rintro ⟨idt, n, e, h, hg⟩
    injection e with e
    subst e
    change some (Val.str "n") = some (Val.str n) at h
    obtain rfl : "n" = n := by simpa using h
    have : getStateByX (dbAfter [.create "i" "k" "", .bind .nonce "n" "k"]) "n" .nonce = .ok (.raw "k") := rfl
    rw [this] at hg
    simp at hg
  · rintro ⟨idt, n, e, h, hg⟩
    injection e with e
    subst e
    change none = some (Val.str n) at h
    cases h

/-! ## C24 -/

/-- The HTTP request `s` is a refresh request of client `c` with the refresh token `t`: it goes to the
client's token endpoint and has the refresh token as parameter, or as bearer token in header or body. -/
def RefreshesWith (x : Ext) (c : Client) (t : String) (s : Sent) : Prop :=
  s.srv = .refreshToken ∧ ∃ url req, Discovery.serviceEndpoint c.ctx .refreshToken = .ok (.str url) ∧
    Carries x s url req ∧
    (Dict.get? req "refresh_token" = some (.str t) ∨ Dict.get? s.headers "Authorization" = some ("Bearer " ++ t) ∨
      Dict.get? req "access_token" = some (.str t))

/-- The refresh request message has the parameter, as a single value (oidcmsg). -/
def RefreshMessage (x : Ext) : Prop :=
  "refresh_token" ∈ (x.msg .refreshToken).params ∧ "refresh_token" ∉ (x.msg .refreshToken).spaced

theorem refresh_construct_same {x : Ext} {c c' : Client} {args kwargs req : Obj}
    (h : construct x .refreshToken args kwargs c = (.ok req, c')) : c' = c := by
  have : Frame Same (construct x .refreshToken args kwargs) := by
    unfold construct
    refine Frame.bind Frame.read fun c => ?_
    refine Frame.bind ?_ fun r => ?_
    · simp only [preConstruct]; exact Frame.bind (Frame.ask _) fun _ => Frame.pure _
    · refine Frame.bind (Frame.ask _) fun g => ?_
      unfold postConstruct
      exact Frame.bind Frame.read fun _ => Frame.pure _
  have := this c
  rw [h] at this
  exact this

theorem bearerHeader_refresh {env : ClientAuth.Env} {kw : Obj} {req req' : Obj} {hd : Dict String} {t : String}
    (hs : env.serviceName = "refresh_token") (h : ClientAuth.bearerHeader env kw [] req = .ok (hd, req'))
    (hreq : Dict.get? req "refresh_token" = some (.str t)) : Dict.get? hd "Authorization" = some ("Bearer " ++ t) := by
  unfold ClientAuth.bearerHeader at h
  simp only at h
  rw [if_pos hs] at h
  unfold ClientAuth.findToken at h
  rw [hreq] at h
  simp only at h
  split at h
  · injection h with h
    injection h with h _
    rw [← h, Dict.get?_set_self]; rfl
  · cases h

theorem bearerBody_refresh {env : ClientAuth.Env} {kw : Obj} {req req' : Obj} {hd : Dict String} {t : String}
    (h : ClientAuth.bearerBody env kw [] req = .ok (hd, req'))
    (hreq : Dict.get? req "refresh_token" = some (.str t)) :
    Dict.get? req' "refresh_token" = some (.str t) ∨ Dict.get? req' "access_token" = some (.str t) := by
  unfold ClientAuth.bearerBody at h
  cases hm : ClientAuth.bearerBodyModify env kw req with
  | error e => rw [hm] at h; cases h
  | ok r0 =>
    rw [hm] at h; injection h with h; injection h with _ h; subst h
    unfold ClientAuth.bearerBodyModify at hm
    have hfind : ∀ {v r}, ClientAuth.findToken env kw req "access_token" = .ok (v, r) →
        Dict.get? r "refresh_token" = some (.str t) := by
      intro v r hf
      unfold ClientAuth.findToken at hf
      split at hf
      · injection hf with hf; injection hf with _ hf; subst hf; rw [Dict.get?_del_ne _ (by decide)]; exact hreq
      · split at hf
        · injection hf with hf; injection hf with _ hf; subst hf; exact hreq
        · cases hs : ClientAuth.storedToken env kw with
          | error e => rw [hs] at hf; cases hf
          | ok w => rw [hs] at hf; injection hf with hf; injection hf with _ hf; subst hf; exact hreq
    split at hm
    · cases hm
    · next v r1 hf =>
      have h1 := hfind hf
      split at hm
      · injection hm with hm; subst hm
        left
        rw [Dict.get?_set_ne _ _ (by decide)]; exact h1
      · unfold ClientAuth.findToken at hm
        rw [h1] at hm
        simp only at hm
        split at hm
        · injection hm with hm; subst hm; right; exact Dict.get?_set_self _ _ _
        · cases hm

theorem refresh_authn {x : Ext} {req req' : Obj} {m : String} {kw : Obj} {c : Client} {hd : Dict String} {t : String}
    (h : authnHeader x .refreshToken req m kw c = .ok (hd, req')) (hreq : Dict.get? req "refresh_token" = some (.str t)) :
    Dict.get? req' "refresh_token" = some (.str t) ∨ Dict.get? hd "Authorization" = some ("Bearer " ++ t) ∨
      Dict.get? req' "access_token" = some (.str t) := by
  by_cases hbear : m = "bearer_header"
  · subst hbear
    right; left
    have h' : ClientAuth.bearerHeader (authEnv x c .refreshToken) kw [] req = .ok (hd, req') := h
    exact bearerHeader_refresh rfl h' hreq
  · by_cases hbb : m = "bearer_body"
    · subst hbb
      have h' : ClientAuth.bearerBody (authEnv x c .refreshToken) kw [] req = .ok (hd, req') := h
      rcases bearerBody_refresh h' hreq with h | h
      · exact Or.inl h
      · exact Or.inr (Or.inr h)
    · left
      rw [authnHeader_keeps' h (by decide) ⟨hbear, hbb⟩]
      exact hreq

/-- A refresh of session `k` sends nothing, or one request with the stored refresh token. -/
theorem refresh_sends (x : Ext) (hm : RefreshMessage x) (k sc t : String) (ht : t ≠ "") (c : Client)
    (h0 : storedIn c.db k "refresh_token_response" "refresh_token" = none)
    (h1 : storedIn c.db k "token_response" "refresh_token" = some (.str t)) :
    (refreshAccessToken x k sc c).2.log = c.log ∨
    ∃ s, (refreshAccessToken x k sc c).2.log = c.log ++ [s] ∧ RefreshesWith x c t s := by
  unfold refreshAccessToken
  cases hb : clientAuthnMethod c.ctx.behaviour with
  | error e => left; rw [ask_bind_error (by simpa using hb)]
  | ok am =>
  rw [ask_bind_ok (by simpa using hb), refused_snd]
  generalize ha : (if sc = "" then ([] : Obj) else [("scope", .str sc)]) = args
  rcases doRequest_log (x := x) (srv := .refreshToken) (args := args) (o := { authnMethod := am })
    (kwargs := [("state", .str k)]) (frame_request_reading (Or.inr (Or.inl rfl)) _ _ _) c with hlog | ⟨info, c1, hg, hlog⟩
  · exact Or.inl hlog
  · right
    refine ⟨_, hlog, rfl, ?_⟩
    change buildRequest x .refreshToken args _ _ c = _ at hg
    obtain ⟨am', req0, c2, hd, req', g1, g2, g3, g4⟩ := buildRequest_ok hg
    obtain ⟨m, hd0, g5, g6, g7⟩ := getHeaders_ok g3
    obtain rfl := refresh_construct_same g2
    have hdp : usesDpop c2.ctx .refreshToken = false := by simp [usesDpop, Srv.name]
    rcases g7 with ⟨-, rfl, rfl⟩ | ⟨g7, -⟩
    · have hn : (Dict.keys args).Nodup := by rw [← ha]; split <;> simp [Dict.keys]
      have hnone : Dict.get? args "refresh_token" = none := by
        rw [← ha]; split
        · rfl
        · simp [Dict.get?_cons]
      have hreq : Dict.get? req0 "refresh_token" = some (.str t) :=
        C38_refresh_request x c1 c1 k args req0 hn g2 "refresh_token" (by decide) hm.2 (.str t) ⟨by simpa using ht, by simp⟩
          (Or.inr (Or.inr (Or.inl ⟨hnone, hm.1, h0, h1⟩)))
      obtain ⟨url, k1, k2, k3, k4⟩ := carries_assembled g4
      refine ⟨url, req', ?_, k4, ?_⟩
      · simp only [targetOf, Dict.get?, endpointOf] at k1
        simp at k1
        cases he : Discovery.serviceEndpoint c1.ctx .refreshToken with
        | error e => rw [he] at k1; cases k1
        | ok v =>
          rw [he] at k1
          cases v <;> simp [asStr] at k1
          rw [k1]
      · rcases refresh_authn g6 hreq with h | h | h
        · exact Or.inl h
        · right; left
          obtain ⟨_, _, _, _, _, g8⟩ := assemble_ok g4
          rcases g8 with ⟨_, b, _, _, g9⟩ | ⟨_, _, g9⟩
          · simp only [sentFor, g9]
            rw [Dict.get?_set_ne _ _ (by decide)]; exact h
          · simp only [sentFor, g9]; exact h
        · exact Or.inr (Or.inr h)
    · rw [hdp] at g7; cases g7

/-- **C24**, what holds.  When a refresh returned a refresh token, the next refresh of the session (at any
client whose session has the same responses stored) sends nothing, or one request with that very token.
Missing: a refresh response without refresh token, see `C24_lost_violated`. -/
theorem C24_new_token_used_partial (x : Ext) (k sc t : String) (ht : t ≠ "") (c c1 : Client) (r : Obj)
    (h : refreshAccessToken x k sc c = (.ok (.msg r), c1)) (hr : Dict.get? r "refresh_token" = some (.str t))
    (hv : Dict.get? r "__verified_refresh_token" = none)
    (x' : Ext) (hm : RefreshMessage x') (sc' : String) (c2 : Client)
    (hsame : ∀ i, getItem c2.db i k = getItem c1.db i k)
    (h0 : storedIn c.db k "refresh_token_response" "refresh_token" = none) :
    (refreshAccessToken x' k sc' c2).2.log = c2.log ∨
    ∃ s, (refreshAccessToken x' k sc' c2).2.log = c2.log ++ [s] ∧ RefreshesWith x' c2 t s := by
  have hst : getItem c1.db "token_response" k = .ok (Msg.ofDict r) ∧
      getItem c1.db "refresh_token_response" k = getItem c.db "refresh_token_response" k := by
    unfold refreshAccessToken at h
    obtain ⟨am, c3, g1, g2⟩ := Py.bind_eq_ok.1 h
    simp only [ask, Prod.mk.injEq] at g1
    obtain ⟨g1, rfl⟩ := g1
    obtain ⟨r0, c4, g3, g4⟩ := Py.bind_eq_ok.1 g2
    obtain ⟨_, c5, g5, g6⟩ := Py.bind_eq_ok.1 g4
    obtain ⟨g5', rfl⟩ := Py.lift_eq_ok.1 g5
    simp only [Py.pure_run, Prod.mk.injEq, Except.ok.injEq] at g6
    obtain ⟨rfl, rfl⟩ := g6
    rcases doRequest_stores (x := x) (srv := .refreshToken) (Or.inr rfl) (if sc = "" then [] else [("scope", .str sc)])
      { authnMethod := am } k c with ⟨-, hd⟩ | ⟨info, bt, resp, c0, c1', _, _, _, hs, hne, hd⟩
    · rw [g3] at hd
      exfalso
      rcases hd with ⟨e, he⟩ | ⟨r1, he, hie⟩
      · cases he
      · injection he with he; subst he
        unfold refuseError at g5'
        rw [if_pos hie] at g5'
        cases g5'
    · rw [g3] at hd
      simp only [updateMsg] at hd
      unfold storeResponse at hd
      cases hw : withExpiry x resp with
      | error e => rw [hw, Py.lift_bind_error rfl] at hd; simp at hd
      | ok r' =>
        rw [hw, Py.lift_bind_ok rfl] at hd
        have hrun : onDB (storeItem r' "token_response" k) c1'
          = ((storeItem r' "token_response" k c1'.db).1, { c1' with db := (storeItem r' "token_response" k c1'.db).2 }) := rfl
        cases hsi : (storeItem r' "token_response" k c1'.db).1 with
        | error e => rw [hsi] at hrun; rw [Py.bind_error hrun] at hd; simp at hd
        | ok u =>
          rw [hsi] at hrun; rw [Py.bind_ok hrun] at hd
          simp only [Py.pure_run, Prod.mk.injEq, Except.ok.injEq, Resp.msg.injEq] at hd
          obtain ⟨rfl, rfl⟩ := hd
          obtain ⟨k1, k2⟩ := C02_store_then_read r "token_response" k c1'.db hsi
          refine ⟨by rw [k1, Msg.ofDict_eq_withoutEmpty], ?_⟩
          rw [k2 _ (by decide), hs.1]
  refine refresh_sends x' hm k sc' t ht c2 ?_ ?_
  · unfold storedIn
    rw [hsame, hst.2]
    exact h0
  · unfold storedIn
    rw [hsame, hst.1]
    simp only
    rw [show "__verified_" ++ "refresh_token" = "__verified_refresh_token" from rfl, Msg.get?_ofDict_none hv,
      Msg.get?_ofDict_some hr (by simpa [Msg.emptyVal] using ht)]
    rfl

/-- The handler after `finalize`, with tokens stored. -/
def finalized : Handler :=
  (finalize (World.ext 1001 "" "" "n1") "https://op.example" codeResponse [] started).2

/-- What the client of the World's provider does. -/
def atProvider {β : Type} (h : Handler) (m : Client → β) : Option β := (Dict.get? h.issuer2rp "https://op.example").map m

/-- **C24** is violated: a refresh whose response has no refresh token loses the one the session had. -/
theorem C24_lost_violated :
    atProvider finalized (fun c => storedIn c.db World.s1 "token_response" "refresh_token") = some (some (.str "RT1")) ∧
    atProvider finalized (fun c => (refreshAccessToken (World.ext 1002 "" "" "") World.s1 "" c).1.isOk) = some true ∧
    atProvider finalized (fun c => storedIn (refreshAccessToken (World.ext 1002 "" "" "") World.s1 "" c).2.db World.s1
      "token_response" "refresh_token") = some none ∧
    atProvider finalized (fun c => ((refreshAccessToken (World.ext 1003 "" "" "") World.s1 ""
      (refreshAccessToken (World.ext 1002 "" "" "") World.s1 "" c).2).2.log.drop 4).map (fun s => s.body)) =
        some [some (.text "grant_type=refresh_token&refresh_token=RT1&scope=openid"),
          some (.text "grant_type=refresh_token&scope=openid")] := by
  refine ⟨by rfl, by rfl, by rfl, by rfl⟩

/-- Non-vacuity of C24: a provider that rotates refresh tokens. -/
example :
    let x : Ext := { World.ext 1002 "" "" "" with http := fun _ _ => .ok { status := 200, headers := [("content-type", "application/json")], text := "tokens" } }
    RefreshMessage x ∧
    atProvider finalized (fun c => storedIn c.db World.s1 "refresh_token_response" "refresh_token") = some none ∧
    atProvider finalized (fun c => (refreshAccessToken x World.s1 "" c).1.toOption.map (fun r => (r.find "refresh_token").toOption))
      = some (some (some (some (.str "RT1")))) ∧
    atProvider finalized (fun c => ((refreshAccessToken x World.s1 "" (refreshAccessToken x World.s1 "" c).2).2.log.drop 5).map
      (fun s => s.body)) = some [some (.text "grant_type=refresh_token&refresh_token=RT1&scope=openid")] := by
  refine ⟨⟨by decide, by decide⟩, by rfl, by rfl, by rfl⟩

end Verif.Props
