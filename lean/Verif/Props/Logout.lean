import Verif.Props.Store
import Verif.Props.Tokens
import Verif.Lemmas.Frame
import Verif.Lemmas.Truthy
/-!
# C27: back-channel logout
-/

namespace Verif.Props
open Verif Handler Service StateInterface

/-- **C27** (the token is verified for this client, and gives the session).  If a session is returned,
the logout token was verified with this client's id as audience, its issuer and the registered algorithm
(RS256 without), and the session is the one its `sub` resolves to, or, only if it has no `sub`, the one its
`sid` resolves to. -/
theorem C27_session_of_verified_token (x : Ext) (info : Info) (c : Client) (p : DbVal)
    (h : backchannelLogout x info c = .ok p) :
    ∃ req m tok, x.logoutReq info = .ok req ∧
      x.logoutVerify c.ctx req [("aud", .str c.ctx.clientId), ("iss", .str c.ctx.issuer),
        ("allowed_sign_alg",
          (Dict.get? c.ctx.registrationResponse "id_token_signed_response_alg").getD (.str "RS256"))] = .ok m ∧
      Dict.get? m "__verified_logout_token" = some (.obj tok) ∧
      ((∃ sub, Dict.get? tok "sub" = some (.str sub) ∧ sub ≠ "" ∧
          getStateByX c.db sub .subjectId = .ok p) ∨
       ((∀ v, Dict.get? tok "sub" = some v → v.truthy = false) ∧
        ∃ sid, Dict.get? tok "sid" = some (.str sid) ∧ sid ≠ "" ∧
          getStateByX c.db sid .sessionId = .ok p)) := by
  unfold backchannelLogout at h
  split at h
  · cases h
  cases hr : x.logoutReq info with
  | error e => rw [hr] at h; cases h
  | ok req =>
    rw [hr] at h; simp only at h
    cases ht : logoutToken x c.ctx req with
    | error e => rw [ht] at h; cases h
    | ok tok =>
      rw [ht] at h; simp only at h
      unfold logoutToken at ht
      cases hm : x.logoutVerify c.ctx req (logoutArgs c.ctx) with
      | error e => rw [hm] at ht; cases ht
      | ok m =>
        rw [hm] at ht; simp only at ht
        have hv : Dict.get? m "__verified_logout_token" = some (.obj tok) := by
          cases hg : Dict.getItem m (Msg.verifiedName "logout_token") with
          | error e => rw [hg] at ht; cases ht
          | ok v =>
            rw [hg] at ht; simp only at ht
            cases v with
            | obj o =>
              injection ht with ht; subst ht
              exact Dict.getItem_eq_ok.1 hg
            | _ => cases ht
        refine ⟨req, m, tok, rfl, hm, hv, ?_⟩
        unfold logoutSession at h
        split at h
        · next s hs =>
          obtain ⟨h1, h2⟩ := (Registration.firstTruthy_one _ _).1 hs
          exact Or.inl ⟨s, h1, by simpa [Val.truthy] using h2, h⟩
        · cases h
        · next hs =>
          right
          refine ⟨(Registration.firstTruthy_one_none _).1 hs, ?_⟩
          split at h
          · next s hs' =>
            obtain ⟨h1, h2⟩ := (Registration.firstTruthy_one _ _).1 hs'
            exact ⟨s, h1, by simpa [Val.truthy] using h2, h⟩
          · cases h
          · cases h

/-- The logout request `info` is verified, and its logout token is `tok`. -/
def LogoutToken (x : Ext) (info : Info) (c : Client) (tok : Obj) : Prop :=
  info ≠ .text "" ∧ info ≠ .dict [] ∧ ∃ req m, x.logoutReq info = .ok req ∧
    x.logoutVerify c.ctx req [("aud", .str c.ctx.clientId), ("iss", .str c.ctx.issuer),
      ("allowed_sign_alg",
        (Dict.get? c.ctx.registrationResponse "id_token_signed_response_alg").getD (.str "RS256"))] = .ok m ∧
    Dict.get? m "__verified_logout_token" = some (.obj tok)

theorem backchannel_of_token {x : Ext} {info : Info} {c : Client} {tok : Obj}
    (h : LogoutToken x info c tok) : backchannelLogout x info c = logoutSession c.db tok := by
  obtain ⟨h1, h2, req, m, h3, h4, h5⟩ := h
  have h4' : x.logoutVerify c.ctx req (logoutArgs c.ctx) = .ok m := h4
  have h5' : Dict.getItem m (Msg.verifiedName "logout_token") = .ok (.obj tok) := Dict.getItem_eq_ok.2 h5
  unfold backchannelLogout
  rw [if_neg (by simp [h1, h2]), h3]
  simp only [logoutToken, h4', h5']

/-- **C27** (over histories).  On a store with any history of calls with generated keys, a verified logout
token with a subject resolves to the session the subject was bound to last; without subject, its `sid`
does; with neither it is refused, with an unknown one the exception is `KeyError`. -/
theorem C27_last_bound_session (x : Ext) (info : Info) (c : Client) (tok : Obj) (K : String → Prop)
    (hK : Spec.Store.KeySpace K) (ops : List Op) (hops : ∀ op ∈ ops, Spec.Store.OpOk K op)
    (hdb : c.db = dbAfter ops) (ht : LogoutToken x info c tok) :
    (∀ sub, Dict.get? tok "sub" = some (.str sub) → sub ≠ "" →
      (∃ k, backchannelLogout x info c = .ok (.raw k) ∧
        Spec.History.lastBind .subjectId sub ops = some k) ∨
      backchannelLogout x info c = .error .keyError) ∧
    (∀ sid, (∀ v, Dict.get? tok "sub" = some v → v.truthy = false) →
      Dict.get? tok "sid" = some (.str sid) → sid ≠ "" →
      (∃ k, backchannelLogout x info c = .ok (.raw k) ∧
        Spec.History.lastBind .sessionId sid ops = some k) ∨
      backchannelLogout x info c = .error .keyError) ∧
    ((∀ v, Dict.get? tok "sub" = some v → v.truthy = false) →
      (∀ v, Dict.get? tok "sid" = some v → v.truthy = false) →
      backchannelLogout x info c = .error .messageError) := by
  rw [backchannel_of_token ht]
  refine ⟨?_, ?_, ?_⟩
  · intro sub h1 h2
    have : Registration.firstTruthy [Dict.get? tok "sub"] = some (.str sub) :=
      (Registration.firstTruthy_one _ _).2 ⟨h1, by simpa [Val.truthy] using h2⟩
    simp only [logoutSession, this, hdb]
    rcases C03_lookup_sound hK ops hops .subjectId sub with ⟨k, h3, h4⟩ | h3
    · exact Or.inl ⟨k, h3, h4⟩
    · exact Or.inr h3
  · intro sid h0 h1 h2
    have h3 : Registration.firstTruthy [Dict.get? tok "sub"] = none := (Registration.firstTruthy_one_none _).2 h0
    have h4 : Registration.firstTruthy [Dict.get? tok "sid"] = some (.str sid) :=
      (Registration.firstTruthy_one _ _).2 ⟨h1, by simpa [Val.truthy] using h2⟩
    simp only [logoutSession, h3, h4, hdb]
    rcases C03_lookup_sound hK ops hops .sessionId sid with ⟨k, h3, h4⟩ | h3
    · exact Or.inl ⟨k, h3, h4⟩
    · exact Or.inr h3
  · intro h0 h1
    have h3 : Registration.firstTruthy [Dict.get? tok "sub"] = none := (Registration.firstTruthy_one_none _).2 h0
    have h4 : Registration.firstTruthy [Dict.get? tok "sid"] = none := (Registration.firstTruthy_one_none _).2 h1
    simp only [logoutSession, h3, h4]

/-- **C27** (bound means found).  A subject that was just bound to a session is found. -/
theorem C27_just_bound (x : Ext) (info : Info) (c : Client) (tok : Obj) (db : DB) (sub k : String)
    (hk : k ≠ "") (hsub : sub ≠ "") (hdb : c.db = (storeX2State sub k .subjectId db).2)
    (ht : LogoutToken x info c tok) (h : Dict.get? tok "sub" = some (.str sub)) :
    backchannelLogout x info c = .ok (.raw k) := by
  rw [backchannel_of_token ht]
  have : Registration.firstTruthy [Dict.get? tok "sub"] = some (.str sub) :=
    (Registration.firstTruthy_one _ _).2 ⟨h, by simpa [Val.truthy] using hsub⟩
  simp only [logoutSession, this, hdb]
  exact C04_bound_resolves db .subjectId sub k hk

/-- **C27** (a failing verification).  A logout request whose verification fails gives no session; what
the library reports for the usual failures is that the request is bogus. -/
theorem C27_unverified_refused (x : Ext) (info : Info) (c : Client) (req : Obj) (e : Exc)
    (h1 : info ≠ .text "") (h2 : info ≠ .dict []) (h3 : x.logoutReq info = .ok req)
    (h4 : x.logoutVerify c.ctx req (logoutArgs c.ctx) = .error e) :
    backchannelLogout x info c = .error (if e = .messageError ∨ e = .missingRequiredAttribute ∨
      e = .valueError ∨ e = .jsonDecodeError ∨ e = .external "NotForMe" then .messageError else e) := by
  unfold backchannelLogout
  rw [if_neg (by simp [h1, h2]), h3]
  simp only [logoutToken, h4, bogus]
  congr 1
  simp

theorem share_db (cfg : String) (b : Obj) (h : Handler) (i : String) :
    (Dict.get? (share cfg b h).issuer2rp i).map (fun c => (c.db, c.log, c.services))
      = (Dict.get? h.issuer2rp i).map (fun c => (c.db, c.log, c.services)) := by
  unfold share
  split
  · rfl
  · split
    · simp only [Dict.get?_map, Option.map_map]
      cases Dict.get? h.issuer2rp i with
      | none => rfl
      | some c =>
        simp only [Option.map_some, Function.comp, sharedClient]
        split <;> rfl
    · rfl

/-- **C27** (nothing is changed).  The call leaves the store and the sent requests of every client as they
were. -/
theorem C27_nothing_changed (x : Ext) (issuer : String) (info : Info) (h : Handler) (i : String) :
    (Dict.get? (exec x (.backchannel issuer info) h).2.issuer2rp i).map (fun c => (c.db, c.log, c.services))
      = (Dict.get? h.issuer2rp i).map (fun c => (c.db, c.log, c.services)) := by
  simp only [exec, ret, onClient]
  cases hc : Dict.get? h.issuer2rp issuer with
  | none => rfl
  | some c =>
    simp only [ask]
    rw [share_db]
    by_cases e : issuer = i
    · subst e; simp [Dict.get?_set_self, hc]
    · rw [Dict.get?_set_ne _ _ e]

/-- A client for examples, whose session `s` has subject and session id. -/
def logoutClient : Client where
  ctx := { issuer := "https://op.example", clientId := "client1" }
  db := dbAfter [.create "https://op.example" World.s1 World.s1, .bind .subjectId "alice" World.s1,
    .create "https://op.example" World.s2 World.s2, .bind .sessionId "sid2" World.s2]

/-- Non-vacuity of C27: by subject, by session id, unknown subject, neither. -/
example :
    backchannelLogout (World.ext 0 "" "" "") (.dict [("__verified_logout_token", .obj [("sub", .str "alice"),
      ("sid", .str "sid2")])]) logoutClient = .ok (.raw World.s1) ∧
    backchannelLogout (World.ext 0 "" "" "") (.dict [("__verified_logout_token", .obj [("sid", .str "sid2")])])
      logoutClient = .ok (.raw World.s2) ∧
    backchannelLogout (World.ext 0 "" "" "") (.dict [("__verified_logout_token", .obj [("sub", .str "bob")])])
      logoutClient = .error .keyError ∧
    backchannelLogout (World.ext 0 "" "" "") (.dict [("__verified_logout_token", .obj [("iss", .str "x")])])
      logoutClient = .error .messageError ∧
    LogoutToken (World.ext 0 "" "" "") (.dict [("__verified_logout_token", .obj [("sid", .str "sid2")])])
      logoutClient [("sid", .str "sid2")] := by
  refine ⟨rfl, rfl, rfl, rfl, by simp, by simp, _, _, rfl, rfl, rfl⟩

end Verif.Props
