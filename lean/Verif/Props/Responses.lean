import Verif.Lemmas.Response
import Verif.Props.Tokens
/-!
# C39, C40, C16, C25: which responses are accepted
-/

namespace Verif.Props
open Verif Handler Service Spec.Session

/-! ## C39 -/

/-- **C39** (what a returned message went through).  A message returned by `parse_response` either is an
error message, returned as it was received with no effect, or it was received as a message without error,
was verified with the arguments of this client, and passed the checks of the service. -/
theorem C39_returned_is_verified (x : Ext) (srv : Srv) (info : Info) (sformat state : String)
    (c c' : Client) (r : Obj) (h : parseResponse x srv info sformat state c = (.ok (.msg r), c')) :
    ∃ parsed, parseInfo x c.ctx srv info (formatOf c srv sformat) = .ok parsed ∧
      ((Dict.has parsed "error" = true ∧ r = parsed ∧ c' = c) ∨
       (Dict.has parsed "error" = false ∧ ∃ v,
          x.verify c.ctx srv parsed (gatherVerify c.ctx srv) = .ok v ∧
          postParse x srv v state c = (.ok r, c') ∧ r ≠ [])) := by
  rcases parseResponse_ok h with ⟨_, s, _, h2, _⟩ | ⟨_, parsed, hp, h'⟩
  · cases h2
  · refine ⟨parsed, hp, ?_⟩
    rcases h' with ⟨h1, h2, h3⟩ | ⟨h1, v, o, h2, h3, h4, h5⟩
    · injection h2 with h2; exact Or.inl ⟨h1, h2, h3⟩
    · injection h5 with h5; subst h5; exact Or.inr ⟨h1, v, h2, h3, h4⟩

/-- **C39** (a failed verification is an exception). -/
theorem C39_failed_verification_raises (x : Ext) (srv : Srv) (info : Info) (sformat state : String)
    (c : Client) (parsed : Obj) (e : Exc) (hf : formatOf c srv sformat ∉ ["jose", "jws", "jwe"])
    (hp : parseInfo x c.ctx srv info (formatOf c srv sformat) = .ok parsed)
    (hne : Dict.has parsed "error" = false)
    (hv : x.verify c.ctx srv parsed (gatherVerify c.ctx srv) = .error e) :
    parseResponse x srv info sformat state c = (.error e, c) := by
  have hj : isJose (formatOf c srv sformat) = false := by
    simp only [List.mem_cons, List.not_mem_nil, or_false, not_or] at hf
    simp [isJose, hf.1, hf.2.1, hf.2.2]
  rw [parseResponse_plain hj, hp]
  simp only
  unfold verified checkedResponse
  rw [show Msg.isError parsed = false from hne]
  simp only [Bool.false_eq_true, if_false]
  rw [Py.bind_run, Py.bind_run]
  simp only [ask, hv]

/-- **C39** (error responses). An error message is returned as it is. -/
theorem C39_error_returned (x : Ext) (srv : Srv) (info : Info) (sformat state : String)
    (c : Client) (parsed : Obj) (hf : formatOf c srv sformat ∉ ["jose", "jws", "jwe"])
    (hp : parseInfo x c.ctx srv info (formatOf c srv sformat) = .ok parsed)
    (he : Dict.has parsed "error" = true) :
    parseResponse x srv info sformat state c = (.ok (.msg parsed), c) := by
  have hj : isJose (formatOf c srv sformat) = false := by
    simp only [List.mem_cons, List.not_mem_nil, or_false, not_or] at hf
    simp [isJose, hf.1, hf.2.1, hf.2.2]
  rw [parseResponse_plain hj, hp]
  exact verified_error he

/-- **C39** violated: with one of the formats `jose`, `jws`, `jwe` the text is returned although no
verification ever succeeds. -/
theorem C39_jose_violated (x : Ext) (c : Client) (text state : String) (ht : text ≠ "")
    (f : String) (hf : f ∈ ["jose", "jws", "jwe"]) :
    parseResponse { x with verify := fun _ _ _ _ => .error .valueError }
      .accesstoken (.text text) f state c = (.ok (.text text), c) := by
  have hj : isJose (formatOf c .accesstoken f) = true := by
    simp only [List.mem_cons, List.not_mem_nil, or_false] at hf
    rcases hf with rfl | rfl | rfl <;> rfl
  unfold parseResponse
  simp only [Py.read_bind_run, hj, if_true, Py.lift_run]
  simp [postParseText, ht]

/-- Non-vacuity of C39: a token response that verifies, one that does not, and an error. -/
example :
    (parseResponse (World.ext 0 "" "" "n") .accesstoken (.text "tokens") "json" "" {}).1.isOk = true ∧
    (parseResponse { World.ext 0 "" "" "n" with verify := fun _ _ _ _ => .error .valueError }
      .accesstoken (.text "tokens") "json" "" {}).1 = .error .valueError ∧
    (parseResponse { World.ext 0 "" "" "n" with verify := fun _ _ _ _ => .error .valueError }
      .accesstoken (.text "bad") "json" "" {}).1 = .ok (.msg [("error", .str "invalid_grant")]) := by
  refine ⟨by decide +kernel, rfl, rfl⟩

/-! ## C69: what a response is verified against -/

theorem get?_registered (reg : Obj) (m : List (String × String)) (hn : (m.map Prod.fst).Nodup) (a : String) :
    ∀ kw, Dict.get? (registered reg m kw) a =
      ((m.find? (fun p => p.1 == a)).bind (fun p => Dict.get? reg p.2)).or (Dict.get? kw a) := by
  induction m with
  | nil => intro kw; simp [registered]
  | cons p m ih =>
    intro kw
    obtain ⟨b, q⟩ := p
    simp only [List.map_cons, List.nodup_cons] at hn
    simp only [registered]
    rw [ih hn.2]
    by_cases e : b = a
    · subst e
      have hno : m.find? (fun p => p.1 == b) = none := by
        apply List.find?_eq_none.2
        intro p hp
        simp only [beq_iff_eq]
        intro e; exact hn.1 (by rw [← e]; exact List.mem_map.2 ⟨p, hp, rfl⟩)
      rw [hno]
      simp only [Option.bind_none, Option.none_or, List.find?, BEq.rfl, Option.bind_some]
      cases Dict.get? reg q with
      | none => rfl
      | some v => simp [Dict.get?_set_self]
    · have : (b == a) = false := by simp [e]
      simp only [List.find?, this]
      congr 1
      cases Dict.get? reg q with
      | none => rfl
      | some v => simp only; rw [Dict.get?_set_ne _ _ e]

theorem get?_missingKid (ctx : Ctx) (kw : Obj) (a : String) (h : a ≠ "allow_missing_kid") :
    Dict.get? (missingKid ctx kw) a = Dict.get? kw a := by
  unfold missingKid
  split
  · rw [Dict.get?_set_ne _ _ (Ne.symm h)]
  · rfl

theorem verifyArgs_none (ctx : Ctx) (kw : Obj) (h : Dict.get? ctx.behaviour "verify_args" = none) :
    verifyArgs ctx kw = kw := by simp [verifyArgs, h]

/-- **C69**.  Unless the configuration overrides it by `verify_args`, the responses of the authorization,
token and userinfo endpoints are verified with the issuer of the context, the client's id, the clock skew
of the context, and the registered algorithms (for the ID Token, or for user info). -/
theorem C69_verified_against_registration (ctx : Ctx) (srv : Srv)
    (hs : srv = .authorization ∨ srv = .accesstoken ∨ srv = .userinfo) (hid : ctx.clientId ≠ "")
    (hv : Dict.get? ctx.behaviour "verify_args" = none) :
    Dict.get? (gatherVerify ctx srv) "iss" = some (.str ctx.issuer) ∧
    Dict.get? (gatherVerify ctx srv) "client_id" = some (.str ctx.clientId) ∧
    Dict.get? (gatherVerify ctx srv) "verify" = some (.bool true) ∧
    Dict.get? (gatherVerify ctx srv) "skew" = some (.int ctx.clockSkew) ∧
    (srv ≠ .userinfo →
      Dict.get? (gatherVerify ctx srv) "sigalg"
        = Dict.get? ctx.registrationResponse "id_token_signed_response_alg" ∧
      Dict.get? (gatherVerify ctx srv) "encalg"
        = Dict.get? ctx.registrationResponse "id_token_encrypted_response_alg" ∧
      Dict.get? (gatherVerify ctx srv) "encenc"
        = Dict.get? ctx.registrationResponse "id_token_encrypted_response_enc") ∧
    (srv = .userinfo →
      Dict.get? (gatherVerify ctx srv) "sigalg"
        = Dict.get? ctx.registrationResponse "userinfo_signed_response_alg" ∧
      Dict.get? (gatherVerify ctx srv) "encalg"
        = Dict.get? ctx.registrationResponse "userinfo_encrypted_response_alg" ∧
      Dict.get? (gatherVerify ctx srv) "encenc"
        = Dict.get? ctx.registrationResponse "userinfo_encrypted_response_enc") := by
  rcases hs with rfl | rfl | rfl <;>
    simp only [gatherVerify, verifyArgs_none _ _ hv, if_neg hid] <;>
    refine ⟨?_, ?_, ?_, ?_, fun h => ⟨?_, ?_, ?_⟩, fun h => ⟨?_, ?_, ?_⟩⟩ <;>
    first
      | exact absurd rfl h
      | (rw [get?_missingKid _ _ _ (by decide), get?_registered _ _ (by decide)]
         simp [IDT2REG, UI2REG, baseVerify, Dict.set, Dict.get?_cons, Dict.get?]; done)
      | cases h

/-- Non-vacuity of C69. -/
example : Dict.get? (gatherVerify { issuer := "https://op", clientId := "c1", registrationResponse := [("id_token_signed_response_alg", .str "ES256")] }
    .accesstoken) "sigalg" = some (.str "ES256") := rfl

/-! ## C16: the nonce of an ID Token in an authorization response -/

theorem addScope_get {db : DB} {resp r : Obj} {state : String} (h : addScope db resp state = .ok r)
    (k : String) (hk : k ≠ "scope") : Dict.get? r k = Dict.get? resp k := by
  unfold addScope at h
  split at h
  · injection h with h; rw [h]
  · split at h
    · cases h
    · split at h
      · injection h with h; rw [← h, Dict.get?_set_ne _ _ (Ne.symm hk)]
      · injection h with h; rw [h]

/-- The stored authorization request of the session a response names. -/
def RequestOf (db : DB) (resp : Obj) (req : Obj) : Prop :=
  ∃ k, Dict.get? resp "state" = some (.str k) ∧ StateInterface.getItem db "auth_request" k = .ok req

theorem requestOf_ok {db : DB} {resp req : Obj} : requestOf db resp = .ok req ↔ RequestOf db resp req := by
  unfold requestOf RequestOf
  cases hs : Dict.get? resp "state" with
  | none => simp [Dict.getItem, hs]
  | some v =>
    simp only [Dict.getItem, hs]
    cases v with
    | str k => simp [dbKey]
    | _ => simp [dbKey]

/-- **C16** (accepted means same nonce).  If an authorization response with a verified ID Token is accepted,
the request of its session is known, and if that has a nonce, the ID Token has the very same. -/
theorem C16_same_nonce (x : Ext) (info : Info) (sformat state : String) (c c' : Client) (r idt : Obj)
    (h : parseResponse x .authorization info sformat state c = (.ok (.msg r), c'))
    (hne : Dict.has r "error" = false)
    (hidt : Dict.get? r "__verified_id_token" = some (.obj idt)) (hnonempty : idt ≠ []) :
    ∃ req, RequestOf c.db r req ∧
      ∀ n, Dict.get? req "nonce" = some n → n.truthy = true → Dict.get? idt "nonce" = some n := by
  obtain ⟨parsed, _, h'⟩ := C39_returned_is_verified x .authorization info sformat state c c' r h
  rcases h' with ⟨he, rfl, _⟩ | ⟨_, v, _, hpost, _⟩
  · rw [he] at hne; cases hne
  · simp only [postParse, ask, Prod.mk.injEq] at hpost
    obtain ⟨hpost, _⟩ := hpost
    unfold authorizationPostParse at hpost
    cases ha : addScope c.db v state with
    | error e => rw [ha] at hpost; cases hpost
    | ok s =>
      rw [ha] at hpost; simp only at hpost
      cases hn : checkNonce c.db s with
      | error e => rw [hn] at hpost; cases hpost
      | ok u =>
        rw [hn] at hpost
        injection hpost with hpost; subst hpost
        unfold checkNonce at hn
        rw [show Msg.verifiedName "id_token" = "__verified_id_token" from by decide, hidt] at hn
        have ht : (Val.obj idt).truthy = true := by
          cases idt with
          | nil => exact absurd rfl hnonempty
          | cons => rfl
        simp only [ht, if_true] at hn
        cases hr : requestOf c.db s with
        | error e => rw [hr] at hn; cases hn
        | ok req =>
          rw [hr] at hn; simp only at hn
          refine ⟨req, requestOf_ok.1 hr, ?_⟩
          intro n hnn hnt
          unfold sameNonce at hn
          rw [hnn] at hn
          simp only [hnt, if_true] at hn
          cases hm : Dict.get? idt "nonce" with
          | none => rw [hm] at hn; cases hn
          | some m =>
            rw [hm] at hn
            simp only at hn
            split at hn
            · split at hn
              · next e => rw [e]
              · cases hn
            · cases hn

/-- **C16** (everything else is an exception).  A verified ID Token without nonce, or with another one than
the request of the session, makes the whole response fail, without any effect. -/
theorem C16_other_nonce_refused (x : Ext) (info : Info) (sformat state : String) (c : Client)
    (parsed v idt req : Obj) (n : Val) (hf : formatOf c .authorization sformat ∉ ["jose", "jws", "jwe"])
    (hp : parseInfo x c.ctx .authorization info (formatOf c .authorization sformat) = .ok parsed)
    (hne : Dict.has parsed "error" = false)
    (hv : x.verify c.ctx .authorization parsed (gatherVerify c.ctx .authorization) = .ok v)
    (hidt : Dict.get? v "__verified_id_token" = some (.obj idt)) (hnonempty : idt ≠ [])
    (hreq : RequestOf c.db v req) (hn : Dict.get? req "nonce" = some n) (hnt : n.truthy = true)
    (hbad : Dict.get? idt "nonce" ≠ some n) :
    ∃ e, parseResponse x .authorization info sformat state c = (.error e, c) := by
  rcases hres : parseResponse x .authorization info sformat state c with ⟨r, c'⟩
  cases r with
  | error e =>
    have hj : isJose (formatOf c .authorization sformat) = false := by
      simp only [List.mem_cons, List.not_mem_nil, or_false, not_or] at hf
      simp [isJose, hf.1, hf.2.1, hf.2.2]
    refine ⟨e, ?_⟩
    have hfr : Frame (fun a b : Client => b = a) (verified x .authorization parsed state) := by
      have : FrameRel (fun a b : Client => b = a) := ⟨fun _ => rfl, fun h h' => h'.trans h⟩
      unfold verified
      refine Frame.bind (R := fun a b : Client => b = a) ?_ fun r => ?_
      · unfold checkedResponse
        refine Frame.ite (fun _ => Frame.pure _) (fun _ => ?_)
        exact Frame.bind (Frame.ask _) fun v => Frame.ask _
      · exact Frame.ite (fun _ => Frame.raise _) (fun _ => Frame.pure _)
    rw [parseResponse_plain hj, hp] at hres
    have := hfr c
    simp only at hres
    rw [hres] at this
    rw [show c' = c from this]
  | ok r =>
    exfalso
    rcases parseResponse_ok hres with ⟨hj, _⟩ | ⟨_, parsed', hp', h'⟩
    · simp only [List.mem_cons, List.not_mem_nil, or_false, not_or] at hf
      simp [isJose, hf.1, hf.2.1, hf.2.2] at hj
    · rw [hp] at hp'; injection hp' with hp'; subst hp'
      rcases h' with ⟨h1, _⟩ | ⟨_, v', o, h2, h3, h4, h5⟩
      · rw [show Msg.isError parsed = false from hne] at h1; cases h1
      · rw [hv] at h2; injection h2 with h2; subst h2
        subst h5
        have h3' := h3
        simp only [postParse, ask, Prod.mk.injEq] at h3'
        obtain ⟨h3', rfl⟩ := h3'
        unfold authorizationPostParse at h3'
        cases ha : addScope c.db v state with
        | error e => rw [ha] at h3'; cases h3'
        | ok s =>
          have hs1 := addScope_get ha "__verified_id_token" (by decide)
          have hs2 := addScope_get ha "state" (by decide)
          rw [ha] at h3'; simp only at h3'
          cases hc : checkNonce c.db s with
          | error e => rw [hc] at h3'; cases h3'
          | ok u =>
            unfold checkNonce at hc
            rw [show Msg.verifiedName "id_token" = "__verified_id_token" from by decide, hs1, hidt] at hc
            have ht : (Val.obj idt).truthy = true := by
              cases idt with
              | nil => exact absurd rfl hnonempty
              | cons => rfl
            simp only [ht, if_true] at hc
            have hr : requestOf c.db s = .ok req := by
              apply requestOf_ok.2
              obtain ⟨k, hk, hk'⟩ := hreq
              exact ⟨k, by rw [hs2]; exact hk, hk'⟩
            rw [hr] at hc
            simp only [sameNonce, hn, hnt, if_true] at hc
            cases hm : Dict.get? idt "nonce" with
            | none => rw [hm] at hc; cases hc
            | some m =>
              rw [hm] at hc hbad
              simp only at hc
              split at hc
              · split at hc
                · next e => exact hbad (by rw [e])
                · cases hc
              · cases hc

/-- A store for examples: the request of session `s` has nonce `n1`. -/
def nonceDb : DB := [("s", .doc [("iss", .str "https://op"), ("auth_request", .obj [("nonce", .str "n1")])])]

/-- Non-vacuity of C16: the right nonce is accepted, another one and none are refused. -/
example :
    (parseResponse (World.ext 0 "" "" "n1") .authorization (.dict [("state", .str "s"), ("id_token", .str "t")])
      "dict" "" { db := nonceDb }).1.isOk = true ∧
    (parseResponse (World.ext 0 "" "" "n2") .authorization (.dict [("state", .str "s"), ("id_token", .str "t")])
      "dict" "" { db := nonceDb }).1 = .error .valueError ∧
    (parseResponse (World.ext 0 "" "" "") .authorization (.dict [("state", .str "s"), ("id_token", .str "t")])
      "dict" "" { db := nonceDb }).1 = .error .missingRequiredAttribute := by
  refine ⟨by decide +kernel, rfl, rfl⟩

end Verif.Props
