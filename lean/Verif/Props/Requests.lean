import Verif.Lemmas.Requests
import Verif.Lemmas.World
/-!
# C38: where the parameters of a request come from
-/

namespace Verif.Props
open Verif Service Spec.Session Spec.Wire

/-- The places looked at for a parameter, in order: client context, service configuration, registration
arguments, defaults of the service, behaviour. -/
def places (c : Client) (srv : Srv) (p : String) : List (Option Val) :=
  [c.ctx.get p,
   match Dict.get? ((Dict.get? c.conf srv.name).getD []) "request_args" with
   | some (.obj o) => Dict.get? o p
   | _ => none,
   Dict.get? c.ctx.registerArgs p,
   (if srv = .authorization ∧ p = "scope" then some (.list [.str "openid"]) else none),
   Dict.get? c.ctx.behaviour p]

theorem firstTruthy_first {l : List (Option Val)} {v : Val} (h : FirstNonEmpty l v) :
    Registration.firstTruthy l = some v := by
  obtain ⟨b, a, rfl, hv, hb⟩ := h
  induction b with
  | nil => rw [List.nil_append, Registration.firstTruthy_cons, Registration.truthyO_some, hv]; rfl
  | cons o b ih =>
    rw [List.cons_append, Registration.firstTruthy_cons]
    have : Util.truthyO o = false := by
      cases o with
      | none => rfl
      | some w => exact hb _ (by simp) w rfl
    rw [this]
    exact ih (fun o' h' => hb o' (by simp [h']))

theorem firstTruthy_empty {l : List (Option Val)} (h : AllEmpty l) : Registration.firstTruthy l = none := by
  induction l with
  | nil => rfl
  | cons o l ih =>
    rw [Registration.firstTruthy_cons]
    have : Util.truthyO o = false := by
      cases o with
      | none => rfl
      | some w => exact h _ (by simp) w rfl
    rw [this]
    exact ih (fun o' h' => h o' (by simp [h']))

theorem fallback_places (c : Client) (srv : Srv) (p : String) :
    fallback c srv p = Registration.firstTruthy (places c srv p) := by
  have h1 : Dict.get? (confRequestArgs c srv) p =
      match Dict.get? ((Dict.get? c.conf srv.name).getD []) "request_args" with
      | some (.obj o) => Dict.get? o p
      | _ => none := by
    unfold confRequestArgs confOf
    cases Dict.get? ((Dict.get? c.conf srv.name).getD []) "request_args" with
    | none => rfl
    | some v => cases v <;> rfl
  have h2 : Dict.get? (defaultRequestArgs srv) p =
      if srv = .authorization ∧ p = "scope" then some (.list [.str "openid"]) else none := by
    cases srv <;> simp [defaultRequestArgs, Dict.get?_cons, eq_comm]
  unfold fallback places
  rw [h1, h2]

/-- **C38** (precedence).  For every service and every parameter, what the caller gave is kept; what the
caller did not give is the first non-empty of the places, if the message type has the parameter, and
absent otherwise.  Only the redirect URI of an authorization request has a further source: the first
registered one. -/
theorem C38_precedence (x : Ext) (c : Client) (srv : Srv) (args g : Obj)
    (h : gatherRequestArgs x c srv args = .ok g) (p : String) :
    (∀ v, Dict.get? args p = some v → Dict.get? g p = some v) ∧
    (Dict.get? args p = none → p ∈ (x.msg srv).params →
      (∀ v, FirstNonEmpty (places c srv p) v → Dict.get? g p = some v) ∧
      (AllEmpty (places c srv p) → ¬ ((srv = .authorization ∨ srv = .oauth2Authorization) ∧ p = "redirect_uri") → Dict.get? g p = none)) ∧
    (Dict.get? args p = none → p ∉ (x.msg srv).params → ¬ ((srv = .authorization ∨ srv = .oauth2Authorization) ∧ p = "redirect_uri") →
      Dict.get? g p = none) ∧
    (srv = .authorization ∨ srv = .oauth2Authorization → p = "redirect_uri" → Dict.get? args p = none →
      (p ∉ (x.msg srv).params ∨ AllEmpty (places c srv p)) →
      ∃ u us, c.ctx.redirectUris = u :: us ∧ Dict.get? g p = some (.str u)) := by
  have hl := get?_gatherLoop c srv (x.msg srv).params args p
  rw [fallback_places] at hl
  have hkeep : ∀ v, Dict.get? (gatherLoop c srv (x.msg srv).params args) p = some v → Dict.get? g p = some v := by
    intro v hv
    rcases gather_ok h with rfl | ⟨_, hr, u, us, _, rfl⟩
    · exact hv
    · rw [Dict.get?_set_ne]
      · exact hv
      · rintro rfl; rw [hr] at hv; cases hv
  have hnone : ¬ ((srv = .authorization ∨ srv = .oauth2Authorization) ∧ p = "redirect_uri") →
      Dict.get? (gatherLoop c srv (x.msg srv).params args) p = none → Dict.get? g p = none := by
    intro hx hv
    rcases gather_ok h with rfl | ⟨ha, hr, u, us, _, rfl⟩
    · exact hv
    · rw [Dict.get?_set_ne]
      · exact hv
      · intro e; exact hx ⟨ha, e.symm⟩
  refine ⟨?_, ?_, ?_, ?_⟩
  · intro v hv; exact gather_given h hv
  · intro ha hp
    rw [ha, if_pos hp] at hl
    refine ⟨fun v hv => hkeep v ?_, fun he hx => hnone hx ?_⟩
    · rw [hl, firstTruthy_first hv]; simp
    · rw [hl, firstTruthy_empty he]; simp
  · intro ha hp hx
    rw [ha, if_neg hp] at hl
    exact hnone hx (by rw [hl]; simp)
  · rintro hs rfl ha hcase
    have hl0 : Dict.get? (gatherLoop c srv (x.msg srv).params args) "redirect_uri" = none := by
      rw [hl, ha]
      rcases hcase with hp | he
      · simp [hp]
      · rw [firstTruthy_empty he]; simp
    rcases gather_ok h with rfl | ⟨_, _, u, us, hu, rfl⟩
    · unfold gatherRequestArgs at h
      simp only [Dict.has_eq, hl0, Option.isSome_none, Bool.false_eq_true, not_false_eq_true, and_true, hs,
        if_true] at h
      split at h
      · injection h with h
        rw [← h] at hl0
        simp at hl0
      · cases h
    · exact ⟨u, us, hu, by simp⟩

/-- What becomes of a gathered parameter in the request message: space separated lists given as one text
are split, empty values are left out, and a default of the message class fills in. -/
theorem C38_message (t : MsgType) (g : Obj) (hn : (Dict.keys g).Nodup) (p : String) (hsp : p ∉ t.spaced) :
    (∀ v, Dict.get? g p = some v → v ≠ .str "" → v ≠ .list [.str ""] → Dict.get? (t.make g) p = some v) ∧
    (Dict.get? g p = none ∨ Dict.get? g p = some (.str "") ∨ Dict.get? g p = some (.list [.str ""]) →
      Dict.get? (t.make g) p = Dict.get? t.defaults p) := by
  rw [t.get?_make hn]
  constructor
  · intro v hv h1 h2
    rw [hv]
    have he : Msg.emptyVal v = false := by
      unfold Msg.emptyVal
      split
      · simpa using h1
      · next s => simpa using h2
      · rfl
    simp only [he, Bool.false_eq_true, if_false, t.coerce_plain p v hsp]
  · rintro (h | h | h) <;> simp [h, Msg.emptyVal]

/-- **C38** (refresh requests).  In a refresh request made for a session every parameter is what the caller
gave, else what the session's token response has, else the first non-empty of the places. -/
theorem C38_refresh_request (x : Ext) (c c' : Client) (k : String) (args req : Obj)
    (hn : (Dict.keys args).Nodup)
    (h : construct x .refreshToken args [("state", .str k)] c = (.ok req, c'))
    (p : String) (hp : p ≠ "state") (hsp : p ∉ (x.msg .refreshToken).spaced) (v : Val)
    (hv : v ≠ .str "" ∧ v ≠ .list [.str ""])
    (hsrc : Dict.get? args p = some v ∨
      (Dict.get? args p = none ∧ p ∈ (x.msg .refreshToken).params ∧
        storedIn c.db k "refresh_token_response" p = some v) ∨
      (Dict.get? args p = none ∧ p ∈ (x.msg .refreshToken).params ∧
        storedIn c.db k "refresh_token_response" p = none ∧ storedIn c.db k "token_response" p = some v) ∨
      (Dict.get? args p = none ∧ p ∈ (x.msg .refreshToken).params ∧
        storedIn c.db k "refresh_token_response" p = none ∧ storedIn c.db k "token_response" p = none ∧
        FirstNonEmpty (places c .refreshToken p) v)) :
    Dict.get? req p = some v := by
  obtain ⟨r, c1, g, h1, h2, h3⟩ := construct_ok h
  simp only [preConstruct] at h1
  obtain ⟨a, c2, h4, h5⟩ := Py.bind_eq_ok.1 h1
  simp only [ask, Prod.mk.injEq] at h4
  obtain ⟨h4, rfl⟩ := h4
  simp only [Py.pure_run, Prod.mk.injEq, Except.ok.injEq] at h5
  obtain ⟨rfl, rfl⟩ := h5
  have hst : Dict.get? (methodArgs (confOf c .refreshToken) "pre_construct" [("state", .str k)]) "state"
      = some (.str k) := methodArgs_given _ _ (by simp [Dict.keys]) rfl
  obtain ⟨hna, hget⟩ := refreshPre_get h4 hst hn
  have hsf : ∀ q, q ≠ "state" → Dict.get? (stateFromKwargs (x.msg .refreshToken) a [("state", .str k)]) q = Dict.get? a q := by
    intro q hq
    unfold stateFromKwargs
    split
    · simp only [Dict.get?_cons, if_true]; rw [Dict.get?_set_ne _ _ (Ne.symm hq)]
    · rfl
  have hnf : (Dict.keys (stateFromKwargs (x.msg .refreshToken) a [("state", .str k)])).Nodup := by
    unfold stateFromKwargs
    split
    · simp only [Dict.get?_cons, if_true]; exact Dict.nodup_set hna _ _
    · exact hna
  have hreq : req = (x.msg .refreshToken).make g := by
    unfold postConstruct at h3
    rw [Py.read_bind_run] at h3
    simp only [Py.pure_run, Prod.mk.injEq, Except.ok.injEq] at h3
    exact h3.1.symm
  rw [hreq]
  refine (C38_message _ g (nodup_gather h2 hnf) p hsp).1 v ?_ hv.1 hv.2
  obtain ⟨k1, k2, _, _⟩ := C38_precedence x c .refreshToken _ g h2 p
  rw [hsf p hp, hget p] at k1 k2
  rcases hsrc with ha | ⟨ha, hm, hs⟩ | ⟨ha, hm, hs, hs'⟩ | ⟨ha, hm, hs, hs', hf⟩
  · exact k1 v (by rw [ha]; simp)
  · exact k1 v (by rw [ha, if_pos hm, hs]; simp)
  · exact k1 v (by rw [ha, if_pos hm, hs, hs']; simp)
  · exact (k2 (by rw [ha, if_pos hm, hs, hs']; rfl) hm).1 v hf

/-- A client for examples: a refresh token is stored, the scope is configured, the behaviour has another
scope. -/
def refreshClient : Client where
  ctx := { issuer := "https://op.example", clientId := "c1", behaviour := [("scope", .list [.str "email"])] }
  db := [("s", .doc [("iss", .str "https://op.example"),
    ("token_response", .obj [("refresh_token", .str "RT")])])]
  conf := [("refresh_token", [("request_args", .obj [("scope", .list [.str "openid"])])])]

/-- Non-vacuity of C38: refresh token from the session, client id from the context, scope from the service
configuration or from the caller. -/
example :
    (construct (World.ext 0 "" "" "") .refreshToken [] [("state", .str "s")] refreshClient).1
      = .ok [("grant_type", .str "refresh_token"), ("refresh_token", .str "RT"), ("scope", .list [.str "openid"]), ("client_id", .str "c1")] ∧
    (construct (World.ext 0 "" "" "") .refreshToken [("scope", .list [.str "a"])] [("state", .str "s")] refreshClient).1
      = .ok [("grant_type", .str "refresh_token"), ("refresh_token", .str "RT"), ("scope", .list [.str "a"]), ("client_id", .str "c1")] ∧
    FirstNonEmpty (places refreshClient .refreshToken "scope") (.list [.str "openid"]) ∧
    AllEmpty (places refreshClient .refreshToken "client_secret") := by
  refine ⟨by rfl, by rfl, ⟨[none], [none, none, some (.list [.str "email"])], rfl, rfl, by simp⟩, ?_⟩
  have e : places refreshClient .refreshToken "client_secret" = [some (.str ""), none, none, none, none] := rfl
  rw [e]
  intro o ho w hw
  subst hw
  simp only [List.mem_cons, Option.some.injEq, reduceCtorEq, List.not_mem_nil, or_false, or_self] at ho
  subst ho
  rfl

end Verif.Props
