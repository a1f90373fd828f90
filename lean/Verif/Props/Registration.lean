import Verif.Lemmas.Registration
/-!
# Properties of client registration (C46, C47, C49, C50) and of the redirect URI (C48)
-/

namespace Verif.Props
open Verif Verif.Registration Verif.Spec.Registration

/-! ## C46 -/

/-- The grant types derived from any list of response types are exactly those needed by the response
types among them that the library knows, in whatever order their words are written. -/
theorem C46_grant_types (rts : List String) (g : String) :
    g ∈ responseTypesToGrantTypes rts ↔
      ∃ rt ∈ rts, (∃ ws ∈ known, (words rt).Perm ws) ∧ Needed g (words rt) := by
  rw [mem_grants]
  constructor
  · rintro ⟨rt, h, h'⟩; exact ⟨rt, h, (rt2gt_iff rt g).1 h'⟩
  · rintro ⟨rt, h, h'⟩; exact ⟨rt, h, (rt2gt_iff rt g).2 h'⟩

/-- Full claim fails for the response type `token` alone: it needs `implicit` but gets nothing. -/
theorem C46_violated_token :
    Needed "implicit" (words "token") ∧ responseTypesToGrantTypes ["token"] = [] :=
  ⟨Or.inr ⟨rfl, Or.inr (by decide +kernel)⟩, by decide +kernel⟩

/-- The registration request carries those grant types whenever it has response types. -/
theorem C46_request (req : Obj) (rts : List String)
    (h : Dict.get? req "response_types" = some (.list (rts.map .str))) :
    Dict.get? (postConstruct req) "grant_types" =
      some (.list ((responseTypesToGrantTypes rts).map .str)) := by
  have hs : strs (.list (rts.map .str)) = rts := by
    simp only [strs, List.filterMap_map]
    induction rts with
    | nil => rfl
    | cons r rs ih => simp_all [Val.str?, Function.comp_def]
  have hg : setGrantTypes req = Dict.set req "grant_types" (.list ((responseTypesToGrantTypes rts).map .str)) := by
    unfold setGrantTypes; rw [h]; simp only [hs]
  unfold postConstruct
  rw [hg]
  split
  · rw [Dict.get?_del_ne _ (by decide), Dict.get?_set_self]
  · rw [Dict.get?_set_self]

example : responseTypesToGrantTypes ["token id_token code"] = ["authorization_code", "implicit"] := by
  decide +kernel
example : responseTypesToGrantTypes ["code", "id_token"] = ["authorization_code", "implicit"] := by
  decide +kernel

/-! ## C47 -/

/-- Two callback URLs below the same base URL, of any two flows of any two providers, are equal only
if it is the same flow and the same provider hash.  A callback is a URL or a list of URLs. -/
theorem C47_callbacks_separate (hex1 hex2 base : String) (f1 f2 : CallbackFlags) (k1 k2 url : String)
    (v1 v2 : Val)
    (h1 : (k1, v1) ∈ createCallbacks hex1 base f1) (u1 : Holds v1 url) (n1 : k1 ≠ "__hex")
    (h2 : (k2, v2) ∈ createCallbacks hex2 base f2) (u2 : Holds v2 url) (n2 : k2 ≠ "__hex") :
    k1 = k2 ∧ hex1 = hex2 := by
  obtain ⟨s1, hs1, hv1⟩ := callback_shape h1 u1 n1
  obtain ⟨s2, hs2, hv2⟩ := callback_shape h2 u2 n2
  exact segment_inj hs1 hs2 (hv1 ▸ hv2)

/-- Each flow flag yields the callback of that flow. -/
theorem C47_flag_gives_callback (hex base : String) (f : CallbackFlags) :
    (f.code = true → Dict.get? (createCallbacks hex base f) "code" =
        some (.str (base ++ "/authz_cb/" ++ hex))) ∧
    (f.implicit = true → Dict.get? (createCallbacks hex base f) "implicit" =
        some (.str (base ++ "/authz_im_cb/" ++ hex))) ∧
    (f.formPost = true → Dict.get? (createCallbacks hex base f) "form_post" =
        some (.str (base ++ "/authz_fp_cb/" ++ hex))) ∧
    (f.requestUris = true → Dict.get? (createCallbacks hex base f) "request_uris" =
        some (.str (base ++ "/req_uri/" ++ hex))) ∧
    (f.backchannel = true → Dict.get? (createCallbacks hex base f) "backchannel_logout_uri" =
        some (.str (base ++ "/bc_logout/" ++ hex))) ∧
    (f.frontchannel = true → Dict.get? (createCallbacks hex base f) "frontchannel_logout_uri" =
        some (.str (base ++ "/fc_logout/" ++ hex))) ∧
    (f.backchannel = true ∨ f.frontchannel = true →
      Dict.get? (createCallbacks hex base f) "post_logout_redirect_uris" =
        some (.list [.str (base ++ "/session_logout/" ++ hex)])) := by
  obtain ⟨c, i, fp, r, b, fc⟩ := f
  refine ⟨?_, ?_, ?_, ?_, ?_, ?_, ?_⟩
  · rintro rfl; cases i <;> cases fp <;> cases r <;> cases b <;> cases fc <;> simp [createCallbacks, Dict.get?]
  · rintro rfl; cases c <;> cases fp <;> cases r <;> cases b <;> cases fc <;> simp [createCallbacks, Dict.get?]
  · rintro rfl; cases c <;> cases i <;> cases r <;> cases b <;> cases fc <;> simp [createCallbacks, Dict.get?]
  · rintro rfl; cases c <;> cases i <;> cases fp <;> cases b <;> cases fc <;> simp [createCallbacks, Dict.get?]
  · rintro rfl; cases c <;> cases i <;> cases fp <;> cases r <;> cases fc <;> simp [createCallbacks, Dict.get?]
  · rintro rfl; cases c <;> cases i <;> cases fp <;> cases r <;> cases b <;> simp [createCallbacks, Dict.get?]
  · rintro (rfl | rfl)
    · cases c <;> cases i <;> cases fp <;> cases r <;> cases fc <;> simp [createCallbacks, Dict.get?]
    · cases c <;> cases i <;> cases fp <;> cases r <;> cases b <;> simp [createCallbacks, Dict.get?]

/-- Every response type configured as client preference, except 'code id_token' and 'token', gets a
callback: `code` the code callback, the others the implicit one. -/
theorem C47_response_type_has_callback_partial (hash : String → String) (ctx : Ctx) (ignore : List String)
    (hi : "redirect_uris" ∉ ignore) (prefs : Obj) (types : List Val)
    (hp : Dict.get? ctx.config "client_preferences" = some (.obj prefs))
    (ht : Dict.get? prefs "response_types" = some (.list types)) :
    (Val.str "code" ∈ types → (Dict.get? (addCallbacks hash ignore ctx).callback "code").isSome) ∧
    (∀ rt ∈ ["id_token", "id_token token", "code token", "code id_token token"], Val.str rt ∈ types →
      (Dict.get? (addCallbacks hash ignore ctx).callback "implicit").isSome) := by
  have hin : ∀ rt : String, Val.str rt ∈ types →
      inConfigOrPrefs ctx.config "response_types" (.str rt) = true := by
    intro rt h
    simp [inConfigOrPrefs, hp, ht, Registration.cmp, h]
  have hflag := C47_flag_gives_callback (hash (ctx.hashSeed ++ ctx.issuer)) ctx.baseUrl
    (callbackFlags ctx ignore)
  constructor
  · intro h
    have hf : (callbackFlags ctx ignore).code = true := by
      simp [callbackFlags, hi, hin "code" h]
    have := hflag.1 hf
    simp only [addCallbacks, newCallbacks, hi, if_false]
    rw [Dict.get?_set_ne _ _ (by decide), this]; rfl
  · intro rt hrt h
    have hf : (callbackFlags ctx ignore).implicit = true := by
      have : implicitTypes.any (fun rt => inConfigOrPrefs ctx.config "response_types" (.str rt)) = true := by
        refine List.any_eq_true.2 ⟨rt, ?_, hin rt h⟩
        have hsub : ∀ x ∈ ["id_token", "id_token token", "code token", "code id_token token"],
            x ∈ implicitTypes := by decide +kernel
        exact hsub rt hrt
      simp [callbackFlags, hi, this]
    have := hflag.2.1 hf
    simp only [addCallbacks, newCallbacks, hi, if_false]
    rw [Dict.get?_set_ne _ _ (by decide), this]; rfl

/-- Full claim fails: a client that prefers only the hybrid flow 'code id_token' gets no callback at
all ('code idtoken' in the code), so no redirect URI can be registered. -/
theorem C47_violated_code_id_token (hash : String → String) :
    ∃ ctx : Ctx,
      Dict.get? ctx.config "client_preferences" =
        some (.obj [("response_types", .list [.str "code id_token"])]) ∧
      Dict.get? (addCallbacks hash [] ctx).callback "redirect_uris" = some (.list []) ∧
      Dict.get? (addCallbacks hash [] ctx).callback "code" = none ∧
      Dict.get? (addCallbacks hash [] ctx).callback "implicit" = none := by
  refine ⟨{ config := [("client_preferences", .obj [("response_types", .list [.str "code id_token"])])] },
    rfl, rfl, rfl, rfl⟩

/-- The hash in the callbacks leads back to the provider. -/
theorem C47_hash_to_issuer (hash : String → String) (ctx : Ctx) (ignore : List String) :
    ∃ hex, Dict.get? (addCallbacks hash ignore ctx).callback "__hex" = some (.str hex) ∧
      Dict.get? (addCallbacks hash ignore ctx).hash2issuer hex = some ctx.issuer := by
  refine ⟨hash (ctx.hashSeed ++ ctx.issuer), ?_, ?_⟩
  · simp only [addCallbacks, newCallbacks]
    split
    · simp [createCallbacks, Dict.get?]
    · rw [Dict.get?_set_ne _ _ (by decide)]; simp [createCallbacks, Dict.get?]
  · simp [addCallbacks]

/-- Callbacks of other providers keep leading to them as long as the hashes differ. -/
theorem C47_hash_to_issuer_other (hash : String → String) (ctx : Ctx) (ignore : List String)
    (hex : String) (hne : hex ≠ hash (ctx.hashSeed ++ ctx.issuer)) :
    Dict.get? (addCallbacks hash ignore ctx).hash2issuer hex = Dict.get? ctx.hash2issuer hex := by
  simp only [addCallbacks]
  exact Dict.get?_set_ne _ _ (fun h => hne h.symm)

/-- The registered redirect URIs are the callbacks of the flows. -/
theorem C47_redirect_uris (hash : String → String) (ctx : Ctx) (ignore : List String)
    (hi : "redirect_uris" ∉ ignore) :
    ∃ uris, Dict.get? (addCallbacks hash ignore ctx).callback "redirect_uris" = some (.list uris) ∧
      ∀ u, u ∈ uris ↔ ∃ k ∈ ["code", "implicit", "form_post"],
        (k, u) ∈ createCallbacks (hash (ctx.hashSeed ++ ctx.issuer)) ctx.baseUrl (callbackFlags ctx ignore) := by
  refine ⟨_, by simp only [addCallbacks, newCallbacks, hi, if_false]; exact Dict.get?_set_self _ _ _, ?_⟩
  intro u
  unfold redirectUrisOf
  rw [List.mem_map]
  constructor
  · rintro ⟨p, hp, rfl⟩
    rw [List.mem_filter] at hp
    exact ⟨p.1, by simpa using hp.2, hp.1⟩
  · rintro ⟨k, hk, hm⟩
    exact ⟨(k, u), List.mem_filter.2 ⟨hm, by simpa using hk⟩, rfl⟩

example : createCallbacks "abc" "https://rp" { code := true, formPost := true } =
    [("__hex", .str "abc"), ("code", .str "https://rp/authz_cb/abc"),
     ("form_post", .str "https://rp/authz_fp_cb/abc")] := by decide +kernel

/-! ## C48 -/

/-- The caller's redirect URI wins. -/
theorem C48_given (ctx : Ctx) (req : Obj) (rt : Option Val) (v : Val)
    (h : Dict.get? req "redirect_uri" = some v) : pickRedirectUri ctx req rt = .ok v := by
  unfold pickRedirectUri; rw [h]

/-- Otherwise the first registered redirect URI. -/
theorem C48_registered (ctx : Ctx) (req : Obj) (rt : Option Val) (u : String) (us : List String)
    (h : Dict.get? req "redirect_uri" = none) (hu : ctx.redirectUris = u :: us) :
    pickRedirectUri ctx req rt = .ok (.str u) := by
  unfold pickRedirectUri; rw [h, hu]

/-- Otherwise the callback of the flow that is asked for: form_post if the response mode is form_post,
the code callback for the code flow, the implicit one for the other response types.  A missing
callback is a `KeyError`. -/
theorem C48_by_flow (ctx : Ctx) (req : Obj) (rt : Val)
    (h : Dict.get? req "redirect_uri" = none) (hu : ctx.redirectUris = []) (hc : ctx.callback ≠ [])
    (hrt : Dict.get? req "response_type" = some rt) (ht : rt.truthy = true)
    (hfp : rt ≠ .list [.str "form_post"]) :
    pickRedirectUri ctx req =
      Dict.getItem ctx.callback
        (if Dict.get? req "response_mode" = some (.str "form_post") then "form_post"
         else if rt = .str "code" ∨ rt = .list [.str "code"] then "code" else "implicit") := by
  have hce : ctx.callback.isEmpty = false := by
    cases hcc : ctx.callback with
    | nil => exact absurd hcc hc
    | cons _ _ => rfl
  unfold pickRedirectUri
  rw [h, hu]
  simp only [hce, flowOf, hrt, Util.truthyO, Option.map_none, Option.getD_none, Option.map_some, Option.getD_some, ht, if_true,
    Option.some.injEq, hfp, or_false, Bool.false_eq_true, if_false]
  split
  · rfl
  · split <;> rfl

/-- A response type handed over by the caller decides in the same way. -/
theorem C48_by_given_flow (ctx : Ctx) (req : Obj) (rt : Val)
    (h : Dict.get? req "redirect_uri" = none) (hu : ctx.redirectUris = []) (hc : ctx.callback ≠ [])
    (ht : rt.truthy = true) (hfp : rt ≠ .list [.str "form_post"]) :
    pickRedirectUri ctx req (some rt) =
      Dict.getItem ctx.callback
        (if Dict.get? req "response_mode" = some (.str "form_post") then "form_post"
         else if rt = .str "code" ∨ rt = .list [.str "code"] then "code" else "implicit") := by
  have hce : ctx.callback.isEmpty = false := by
    cases hcc : ctx.callback with
    | nil => exact absurd hcc hc
    | cons _ _ => rfl
  unfold pickRedirectUri
  rw [h, hu]
  simp only [hce, flowOf, Util.truthyO, Option.map_some, Option.getD_some, ht, if_true,
    Option.some.injEq, hfp, or_false, Bool.false_eq_true, if_false]
  split
  · rfl
  · split <;> rfl

/-- Without a response type in the request the first negotiated one decides. -/
theorem C48_by_behaviour (ctx : Ctx) (req : Obj) (rt : Val) (rts : List Val)
    (h : Dict.get? req "redirect_uri" = none) (hu : ctx.redirectUris = []) (hc : ctx.callback ≠ [])
    (hrt : Dict.get? req "response_type" = none)
    (hb : Dict.get? ctx.behaviour "response_types" = some (.list (rt :: rts)))
    (hm : Dict.get? req "response_mode" = none) (hfp : rt ≠ .list [.str "form_post"]) :
    pickRedirectUri ctx req =
      Dict.getItem ctx.callback
        (if rt = .str "code" ∨ rt = .list [.str "code"] then "code" else "implicit") := by
  have hce : ctx.callback.isEmpty = false := by
    cases hcc : ctx.callback with
    | nil => exact absurd hcc hc
    | cons _ _ => rfl
  unfold pickRedirectUri
  rw [h, hu]
  simp only [hce, flowOf, hrt, hb, hm, Util.truthyO, Option.map_none, Option.getD_none, Bool.false_eq_true,
    if_false, Option.some.injEq, hfp, or_false, reduceCtorEq]
  split <;> rfl

/-- Nothing configured: an error. -/
theorem C48_none (ctx : Ctx) (req : Obj)
    (h : Dict.get? req "redirect_uri" = none) (hu : ctx.redirectUris = []) (hc : ctx.callback = []) :
    pickRedirectUri ctx req = .error .missingRequiredAttribute := by
  unfold pickRedirectUri; rw [h, hu, hc]; rfl

example : pickRedirectUri
    { callback := createCallbacks "abc" "https://rp" { code := true, implicit := true } }
    [("response_type", .str "code id_token")] = .ok (.str "https://rp/authz_im_cb/abc") := rfl
example : pickRedirectUri
    { callback := createCallbacks "abc" "https://rp" { code := true, implicit := true } }
    [("response_type", .list [.str "code"])] = .ok (.str "https://rp/authz_cb/abc") := rfl

/-! ## C49 -/

/-- After registration, client id, secret, expiry and registration access token are those of the
response; an expiry that is not in the response is left as it was. -/
theorem C49_credentials (resp : Obj) (ctx : Ctx) (cid secret : String) (hc : cid ≠ "") (hs : secret ≠ "")
    (h1 : Dict.get? resp "client_id" = some (.str cid))
    (h2 : Dict.get? resp "client_secret" = some (.str secret)) :
    (update resp ctx).clientId = cid ∧ (update resp ctx).clientSecret = secret ∧
    (∀ e, Dict.get? resp "client_secret_expires_at" = some (.int e) →
      (update resp ctx).clientSecretExpiresAt = e) ∧
    (Dict.get? resp "client_secret_expires_at" = none →
      (update resp ctx).clientSecretExpiresAt = ctx.clientSecretExpiresAt) ∧
    (∀ t, Dict.get? resp "registration_access_token" = some t →
      (update resp ctx).registrationAccessToken = some t) := by
  have hg : ∀ k, k ≠ "token_endpoint_auth_method" →
      Dict.get? (if Dict.has resp "token_endpoint_auth_method" then resp
        else Dict.set resp "token_endpoint_auth_method" (.str "client_secret_basic")) k =
      Dict.get? resp k := by
    intro k hk
    split
    · rfl
    · exact Dict.get?_set_ne _ _ (fun h => hk h.symm)
  have e1 := hg "client_id" (by decide)
  have e2 := hg "client_secret" (by decide)
  have e3 := hg "client_secret_expires_at" (by decide)
  have e4 := hg "registration_access_token" (by decide)
  unfold update
  simp only
  revert e1 e2 e3 e4
  generalize (if Dict.has resp "token_endpoint_auth_method" then resp
        else Dict.set resp "token_endpoint_auth_method" (.str "client_secret_basic")) = r
  intro e1 e2 e3 e4
  rw [h1] at e1; rw [h2] at e2
  simp only [applyClientId, applySecret, e1, e2, hc, hs, if_false, e3, e4]
  refine ⟨?_, ?_, ?_, ?_, ?_⟩
  · split <;> rfl
  · split <;> rfl
  · intro e he; rw [he]; split <;> rfl
  · intro he; rw [he]; split <;> rfl
  · intro t ht; rw [ht]

/-- Without a client id in the response neither id nor secret are changed. -/
theorem C49_no_client_id (resp : Obj) (ctx : Ctx) (h : Dict.get? resp "client_id" = none) :
    (update resp ctx).clientId = ctx.clientId ∧ (update resp ctx).clientSecret = ctx.clientSecret := by
  have e1 : Dict.get? (if Dict.has resp "token_endpoint_auth_method" then resp
        else Dict.set resp "token_endpoint_auth_method" (.str "client_secret_basic")) "client_id" = none := by
    split
    · exact h
    · rw [Dict.get?_set_ne _ _ (by decide)]; exact h
  unfold update
  simp only
  revert e1
  generalize (if Dict.has resp "token_endpoint_auth_method" then resp
        else Dict.set resp "token_endpoint_auth_method" (.str "client_secret_basic")) = r
  intro e1
  simp only [applyClientId, e1]
  constructor <;> (split <;> rfl)

/-- The registration response is kept, with the default authentication method if it names none. -/
theorem C49_response_kept (resp : Obj) (ctx : Ctx) (k : String) (v : Val)
    (h : Dict.get? resp k = some v) :
    Dict.get? (update resp ctx).registrationResponse k = some v ∧
    (Dict.get? resp "token_endpoint_auth_method" = none →
      Dict.get? (update resp ctx).registrationResponse "token_endpoint_auth_method" =
        some (.str "client_secret_basic")) := by
  have hr : (update resp ctx).registrationResponse =
      (if Dict.has resp "token_endpoint_auth_method" then resp
        else Dict.set resp "token_endpoint_auth_method" (.str "client_secret_basic")) := by
    unfold update
    simp only
    generalize (if Dict.has resp "token_endpoint_auth_method" then resp
        else Dict.set resp "token_endpoint_auth_method" (.str "client_secret_basic")) = r
    have : (applyClientId r { ctx with registrationResponse := r }).registrationResponse = r := by
      unfold applyClientId
      split
      · split
        · rfl
        · unfold applySecret
          split
          · split <;> rfl
          · rfl
      · rfl
    split <;> exact this
  rw [hr]
  constructor
  · split
    · exact h
    · next hh =>
      by_cases hk : k = "token_endpoint_auth_method"
      · subst hk; simp [Dict.has, h] at hh
      · rw [Dict.get?_set_ne _ _ (fun h' => hk h'.symm)]; exact h
  · intro hn
    simp [Dict.has, hn]

/-- Full claim fails: what the provider registered does not replace the client's own choice: the
behaviour (which decides e.g. how the client authenticates at the token endpoint) is not changed by
the registration response. -/
theorem C49_violated_agreed_parameters (resp : Obj) (ctx : Ctx) :
    (update resp ctx).behaviour = ctx.behaviour := by
  unfold update
  simp only
  generalize (if Dict.has resp "token_endpoint_auth_method" then resp
        else Dict.set resp "token_endpoint_auth_method" (.str "client_secret_basic")) = r
  have : (applyClientId r { ctx with registrationResponse := r }).behaviour = ctx.behaviour := by
    unfold applyClientId
    split
    · split
      · rfl
      · unfold applySecret
        split
        · split <;> rfl
        · rfl
    · rfl
  split <;> exact this

/-- Reading the registration uses the registration access token at the registration client URI. -/
theorem C49_read (ctx : Ctx) (t : String)
    (h : Dict.get? ctx.registrationResponse "registration_access_token" = some (.str t)) :
    readHeader ctx "client_secret_basic" = .ok [("Authorization", "Bearer " ++ t)] := by
  simp [readHeader, h]

example : (update [("client_id", .str "id1"), ("client_secret", .str "s1"),
      ("client_secret_expires_at", .int 17)] {}).clientSecretExpiresAt = 17 := by decide +kernel

/-- The registration request states, for every parameter of the message that the caller did not give,
the negotiated value, and the client's preference only if nothing was negotiated. -/
theorem C45_registration_request (ctx : Ctx) (params : List String) (req : Obj) (p : String) :
    Dict.get? (addPreferences ctx params req) p =
      if p ∈ params ∨ (Dict.get? req p).isSome then
        ((Dict.get? req p).or (Dict.get? ctx.behaviour p)).or (Dict.get? ctx.clientPreferences p)
      else none := by
  induction params generalizing req with
  | nil => cases h : Dict.get? req p <;> simp [addPreferences, h]
  | cons q ps ih =>
    rw [addPreferences]
    by_cases hq : Dict.has req q = true
    · rw [if_pos hq, ih]
      by_cases hpq : p = q
      · subst hpq
        have : (Dict.get? req p).isSome = true := hq
        simp [this]
      · simp [hpq]
    · rw [if_neg hq]
      have hqn : Dict.get? req q = none := by
        cases h : Dict.get? req q with
        | none => rfl
        | some v => exact absurd (by simp [Dict.has, h]) hq
      split
      · next v hv =>
        rw [ih, Dict.get?_set]
        by_cases hpq : p = q
        · subst hpq
          simp [hqn, hv]
        · have hqp : q ≠ p := fun h => hpq h.symm
          simp [hpq, hqp]
      · next hv =>
        rw [ih]
        by_cases hpq : p = q
        · subst hpq
          simp [hqn, hv]
        · simp [hpq]

/-! ## C50 -/

/-- The request the registration service hands on never has both `jwks` and `jwks_uri`. -/
theorem C50_never_both (req : Obj) :
    ¬ (Dict.has (postConstruct req) "jwks" = true ∧ Dict.has (postConstruct req) "jwks_uri" = true) := by
  unfold postConstruct
  generalize setGrantTypes req = r
  split
  · rintro ⟨h, _⟩; simp [Dict.has] at h
  · next hn => rintro ⟨h1, h2⟩; exact hn ⟨h2, h1⟩

/-- A `jwks_uri` given by the caller is what is sent. -/
theorem C50_jwks_uri_given (ctx : Ctx) (req : Obj) (v : Val) (h : Dict.get? req "jwks_uri" = some v) :
    Dict.get? (postConstruct (addJwks ctx req)) "jwks_uri" = some v ∧
    Dict.get? (postConstruct (addJwks ctx req)) "jwks" = none := by
  have h1 : Dict.get? (addJwks ctx req) "jwks_uri" = some v ∧ Dict.get? (addJwks ctx req) "jwks" = none := by
    have hh : Dict.has req "jwks_uri" = true := by simp [Dict.has, h]
    unfold addJwks
    rw [if_pos hh]
    exact ⟨by rw [Dict.get?_del_ne _ (by decide)]; exact h, Dict.get?_del_self _ _⟩
  revert h1
  generalize addJwks ctx req = q
  intro h1
  have h2 : Dict.get? (setGrantTypes q) "jwks_uri" = some v ∧
      Dict.get? (setGrantTypes q) "jwks" = none := by
    unfold setGrantTypes
    split
    · exact ⟨by rw [Dict.get?_set_ne _ _ (by decide)]; exact h1.1,
        by rw [Dict.get?_set_ne _ _ (by decide)]; exact h1.2⟩
    · exact h1
  unfold postConstruct
  rw [if_neg (by simp [Dict.has, h2.2])]
  exact h2

/-- Without keys given, the client's own are added: by reference if the client has a `jwks_uri`. -/
theorem C50_own_keys (ctx : Ctx) (req : Obj) (h1 : Dict.get? req "jwks_uri" = none)
    (h2 : Dict.get? req "jwks" = none) :
    (ctx.jwksUri ≠ "" → Dict.get? (addJwks ctx req) "jwks_uri" = some (.str ctx.jwksUri) ∧
      Dict.get? (addJwks ctx req) "jwks" = none) ∧
    (∀ v, ctx.jwksUri = "" → Dict.get? ctx.config "jwks_uri" = none →
      Dict.get? ctx.config "jwks" = some v →
      Dict.get? (addJwks ctx req) "jwks" = some v ∧ Dict.get? (addJwks ctx req) "jwks_uri" = none) := by
  have n1 : ¬ Dict.has req "jwks_uri" = true := by simp [Dict.has, h1]
  have n2 : ¬ Dict.has req "jwks" = true := by simp [Dict.has, h2]
  unfold addJwks
  rw [if_neg n1, if_neg n2]
  constructor
  · intro h
    rw [if_pos h]
    exact ⟨Dict.get?_set_self _ _ _, by rw [Dict.get?_set_ne _ _ (by decide)]; exact h2⟩
  · intro v h hn hv
    rw [if_neg (by simp [h]), hn, hv]
    exact ⟨Dict.get?_set_self _ _ _, by rw [Dict.get?_set_ne _ _ (by decide)]; exact h1⟩

example : Dict.get? (postConstruct (addJwks { jwksUri := "https://rp/jwks" }
    [("response_types", .list [.str "code"])])) "jwks_uri" = some (.str "https://rp/jwks") := by
  decide +kernel

end Verif.Props
