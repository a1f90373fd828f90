import Verif.Props.SessionUse
/-!
# C78: what the session checks of OIDC session management send
-/

namespace Verif.Props
open Verif Service Handler Spec.Session StateInterface

/-- The two services of OIDC session management. -/
def SessionCheck (srv : Srv) : Prop := srv = .checkSession ∨ srv = .checkId

/-- `v` is what the latest response of session `k` that has `p` (verified or as received) has for it. -/
def LatestStored (db : DB) (k p : String) (v : Val) : Prop :=
  ∃ before i after, ["auth_response", "token_response", "refresh_token_response"] = before ++ i :: after ∧
    storedIn db k i p = some v ∧ ∀ j ∈ after, storedIn db k j p = none

/-- No response of session `k` has `p`. -/
def NoneStored (db : DB) (k p : String) : Prop :=
  ∀ i ∈ ["auth_response", "token_response", "refresh_token_response"], storedIn db k i p = none

theorem storedIn_state {db : DB} {k i p : String} {st : Obj} (hst : getState db k = .ok st) :
    storedIn db k i p = match Dict.get? st i with
      | some (.obj o) => (Dict.get? (Msg.ofDict o) (Msg.verifiedName p)).or (Dict.get? (Msg.ofDict o) p)
      | _ => none := by
  unfold storedIn getItem
  rw [hst]
  simp only
  cases hg : Dict.get? st i with
  | none => rfl
  | some v => cases v <;> rfl

theorem multiLoop_last {db : DB} {k : String} {st : Obj} (hst : getState db k = .ok st) (p : String) (items : List String) :
    ∀ args a, multiExtendLoop st [p] false items args = .ok a →
      (∀ before i after v, items = before ++ i :: after → storedIn db k i p = some v → (∀ j ∈ after, storedIn db k j p = none) →
        Dict.get? a p = some v) ∧
      ((∀ i ∈ items, storedIn db k i p = none) → Dict.get? a p = Dict.get? args p) := by
  induction items with
  | nil =>
    intro args a h
    injection h with h; subst h
    refine ⟨?_, fun _ => rfl⟩
    intro b i af v e
    cases b <;> cases e
  | cons j items ih =>
    intro args a h
    have hs := storedIn_state (p := p) (i := j) hst
    unfold multiExtendLoop at h
    cases hg : Dict.get? st j with
    | none =>
      rw [hg] at h hs
      obtain ⟨h1, h2⟩ := ih _ _ h
      refine ⟨?_, fun hall => h2 fun i hi => hall i (by simp [hi])⟩
      intro b i af v e hv hl
      cases b with
      | nil => injection e with e1 e2; subst e1; rw [hs] at hv; cases hv
      | cons _ b => injection e with e1 e2; exact h1 b i af v e2 hv hl
    | some w =>
      rw [hg] at h hs
      cases w <;> simp only [reduceCtorEq] at h
      next o =>
      simp only at hs
      obtain ⟨h1, h2⟩ := ih _ _ h
      simp only [List.foldl_cons, List.foldl_nil] at h1 h2
      have hcp : Dict.get? (copyParam false (Msg.ofDict o) args p) p = (storedIn db k j p).or (Dict.get? args p) := by
        rw [hs, copyParam_get]
        cases Dict.get? (Msg.ofDict o) (Msg.verifiedName p) <;> simp
      refine ⟨?_, ?_⟩
      · intro b i af v e hv hl
        cases b with
        | nil =>
          injection e with e1 e2; subst e1; subst e2
          rw [h2 hl, hcp, hv]; rfl
        | cons _ b => injection e with e1 e2; exact h1 b i af v e2 hv hl
      · intro hall
        rw [h2 fun i hi => hall i (by simp [hi]), hcp, hall j (by simp)]
        rfl

theorem checkPre_ok {args kwargs a : Obj} {c : Client} {k : String} (hs : Dict.get? kwargs "state" = some (.str k))
    (h : checkPre args kwargs c = .ok a) :
    (∀ q, q ≠ "id_token" → Dict.get? a q = Dict.get? args q) ∧ ((Dict.keys args).Nodup → (Dict.keys a).Nodup) ∧
    (∀ v, LatestStored c.db k "id_token" v → Dict.get? a "id_token" = some v) ∧
    (NoneStored c.db k "id_token" → Dict.get? a "id_token" = Dict.get? args "id_token") := by
  have hst : stateArg kwargs = .ok k := by simp [stateArg, Dict.getItem, hs, dbKey]
  unfold checkPre at h
  rw [hst] at h
  simp only at h
  obtain ⟨h1, h2, _⟩ := multi_get h
  unfold multipleExtendRequestArgs at h
  cases hg : getState c.db k with
  | error e => rw [hg] at h; cases h
  | ok st =>
    rw [hg] at h
    obtain ⟨h3, h4⟩ := multiLoop_last hg "id_token" _ _ _ h
    exact ⟨h1, h2, fun v ⟨b, i, af, e, hv, hl⟩ => h3 b i af v e hv hl, h4⟩

theorem check_construct {x : Ext} {srv : Srv} (hs : SessionCheck srv) {args kwargs req : Obj} {c c' : Client}
    (h : construct x srv args kwargs c = (.ok req, c')) :
    ∃ a g, checkPre args (methodArgs (confOf c srv) "pre_construct" kwargs) c = .ok a ∧
      gatherRequestArgs x c srv (stateFromKwargs (x.msg srv) a kwargs) = .ok g ∧ req = (x.msg srv).make g ∧ c' = c := by
  obtain ⟨r, c1, g, h1, h2, h3⟩ := construct_ok h
  have hp : preConstruct x srv args (methodArgs (confOf c srv) "pre_construct" kwargs) =
      (ask (checkPre args (methodArgs (confOf c srv) "pre_construct" kwargs)) >>= fun a => pure (a, [])) := by
    rcases hs with rfl | rfl <;> rfl
  rw [hp] at h1
  obtain ⟨a, c2, h4, h5⟩ := Py.bind_eq_ok.1 h1
  simp only [ask, Prod.mk.injEq] at h4
  obtain ⟨h4, rfl⟩ := h4
  simp only [Py.pure_run, Prod.mk.injEq, Except.ok.injEq] at h5
  obtain ⟨rfl, rfl⟩ := h5
  have hr : (x.msg srv).make g = req ∧ c = c' := by
    unfold postConstruct at h3
    rw [Py.read_bind_run] at h3
    rcases hs with rfl | rfl <;> simpa only [Py.pure_run, Prod.mk.injEq, Except.ok.injEq] using h3
  exact ⟨a, g, h4, h2, hr.1.symm, hr.2.symm⟩

/-- **C78**, what holds.  A session check for session `k` changes nothing at the client, and the ID Token it
sends is that of the latest response of the session that has one, whatever the caller gave; the caller's is
used only if the session has none.  Missing: it should be the ID Token itself that is sent, see
`C78_claims_sent_violated`. -/
theorem C78_token_of_session_partial (x : Ext) (srv : Srv) (hs : SessionCheck srv) (args kwargs req : Obj) (c c' : Client) (k : String)
    (hna : (Dict.keys args).Nodup) (hnk : (Dict.keys kwargs).Nodup) (hk : Dict.get? kwargs "state" = some (.str k))
    (hsp : "id_token" ∉ (x.msg srv).spaced) (h : construct x srv args kwargs c = (.ok req, c')) :
    c' = c ∧ ∀ v, v ≠ .str "" → v ≠ .list [.str ""] →
      (LatestStored c.db k "id_token" v ∨ (NoneStored c.db k "id_token" ∧ Dict.get? args "id_token" = some v)) →
      Dict.get? req "id_token" = some v := by
  obtain ⟨a, g, h1, h2, rfl, rfl⟩ := check_construct hs h
  refine ⟨rfl, fun v hv1 hv2 hsrc => ?_⟩
  obtain ⟨_, q2, q3, q4⟩ := checkPre_ok (methodArgs_given _ _ hnk hk) h1
  have ha : Dict.get? a "id_token" = some v := by
    rcases hsrc with hl | ⟨hn, ha⟩
    · exact q3 v hl
    · rw [q4 hn]; exact ha
  have hsf : Dict.get? (stateFromKwargs (x.msg srv) a kwargs) "id_token" = some v := by
    unfold stateFromKwargs
    split
    · split
      · rw [Dict.get?_set_ne _ _ (by decide)]; exact ha
      · exact ha
    · exact ha
  have hnf : (Dict.keys (stateFromKwargs (x.msg srv) a kwargs)).Nodup := by
    unfold stateFromKwargs
    split
    · split
      · exact Dict.nodup_set (q2 hna) _ _
      · exact q2 hna
    · exact q2 hna
  exact (C38_message _ g (nodup_gather h2 hnf) "id_token" hsp).1 v (gather_given h2 hsf) hv1 hv2

/-- **C78** (no session).  Without a state, or with one the client does not know, a session check makes no
request. -/
theorem C78_unknown_session_refused (x : Ext) (srv : Srv) (hs : SessionCheck srv) (args kwargs : Obj) (c : Client)
    (hconf : Dict.get? ((Dict.get? c.conf srv.name).getD []) "pre_construct" = none)
    (h : Dict.get? kwargs "state" = none ∨ ∃ k, Dict.get? kwargs "state" = some (.str k) ∧ Dict.get? c.db k = none) :
    construct x srv args kwargs c = (.error .keyError, c) := by
  have hp : preConstruct x srv args (methodArgs (confOf c srv) "pre_construct" kwargs) =
      (ask (checkPre args (methodArgs (confOf c srv) "pre_construct" kwargs)) >>= fun a => pure (a, [])) := by
    rcases hs with rfl | rfl <;> rfl
  have hm : methodArgs (confOf c srv) "pre_construct" kwargs = kwargs := by
    unfold methodArgs confOf; rw [hconf]
  have hc : checkPre args kwargs c = .error .keyError := by
    unfold checkPre stateArg
    rcases h with h | ⟨k, h, h'⟩
    · simp [Dict.getItem, h]
    · simp [Dict.getItem, h, dbKey, multipleExtendRequestArgs, getState, h']
  unfold construct
  rw [Py.read_bind_run, hp, hm]
  rw [Py.bind_error (Py.bind_error (show ask (checkPre args kwargs) c = (.error .keyError, c) by rw [ask, hc]))]

/-- **C78** is violated: if the latest response of the session has a verified ID Token, what is sent as
`id_token` is the claims in it, not the token. -/
theorem C78_claims_sent_violated (x : Ext) (srv : Srv) (hs : SessionCheck srv) (args kwargs req : Obj) (c c' : Client) (k : String)
    (hna : (Dict.keys args).Nodup) (hnk : (Dict.keys kwargs).Nodup) (hk : Dict.get? kwargs "state" = some (.str k))
    (hsp : "id_token" ∉ (x.msg srv).spaced) (h : construct x srv args kwargs c = (.ok req, c'))
    (r claims : Obj) (hr : getItem c.db "token_response" k = .ok r)
    (hv : Dict.get? r "__verified_id_token" = some (.obj claims))
    (hlast : storedIn c.db k "refresh_token_response" "id_token" = none) :
    Dict.get? req "id_token" = some (.obj claims) := by
  refine (C78_token_of_session_partial x srv hs args kwargs req c c' k hna hnk hk hsp h).2 _ (by simp) (by simp) (Or.inl ?_)
  refine ⟨["auth_response"], "token_response", ["refresh_token_response"], rfl, ?_, ?_⟩
  · unfold storedIn
    rw [hr]
    simp only
    rw [show "__verified_" ++ "id_token" = "__verified_id_token" from rfl, hv]
    rfl
  · intro j hj
    simp only [List.mem_singleton] at hj
    rw [hj]; exact hlast

/-- The session check of the world's session `s1`, after `finalize`. -/
def checked : Option (Except Exc Obj) :=
  atProvider finalized (fun c => (construct (World.ext 1002 "" "" "") .checkSession [] [("state", .str World.s1)] c).1)

set_option maxRecDepth 20000 in
/-- Non-vacuity of C78, and the violation at work: the session has the token `header.payload.signature`; what
would be sent is a dictionary.  An unverified token is sent as it is. -/
example :
    atProvider finalized (fun c => ((getItem c.db "token_response" World.s1).toOption.bind (fun r => Dict.get? r "id_token")))
      = some (some (.str "header.payload.signature")) ∧
    checked.map (fun r => r.toOption.map (fun q => Dict.get? q "id_token")) = some (some (some (.obj [("sub", .str "alice"), ("nonce", .str "n1"),
      ("exp", .int 2000), ("sid", .str "sid1")]))) ∧
    (construct (World.ext 1002 "" "" "") .checkSession [] [("state", .str "s")]
      { db := [("s", .doc [("auth_response", .obj [("id_token", .str "a.b.c")])])] }).1.toOption.map (fun q => Dict.get? q "id_token")
      = some (some (.str "a.b.c")) ∧
    LatestStored [("s", .doc [("auth_response", .obj [("id_token", .str "a.b.c")])])] "s" "id_token" (.str "a.b.c") := by
  refine ⟨by rfl, by rfl, by rfl, [], "auth_response", _, rfl, by rfl, ?_⟩
  intro j hj
  simp only [List.mem_cons, List.not_mem_nil, or_false] at hj
  rcases hj with rfl | rfl <;> rfl

end Verif.Props
