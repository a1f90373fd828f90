import Verif.Lemmas.Discovery
/-!
# Properties of provider discovery (C43, C44) and of the preference negotiation (C45)

`Discovery.update kind services resp` is `ProviderInfoDiscovery.update_service_context` on the
service context; `kind` is the typing of registration parameters, `services` the client's services.
-/

namespace Verif.Props
open Verif Verif.Discovery Verif.Spec.Discovery

/-! ## C43 -/

/-- Metadata naming another issuer is refused with `OidcServiceError` and nothing of it is used: the
whole context is as before. -/
theorem C43_reject (kind : String → Option Bool) (services : List Srv) (resp : Obj) (ctx : Ctx)
    (received : String) (hr : Dict.get? resp "issuer" = some (.str received))
    (hallow : Dict.get? ctx.allow "issuer_mismatch" = none)
    (hdiff : ¬ SameIssuer received ctx.issuer) :
    update kind services resp ctx = (.error .oidcServiceError, ctx) := by
  have hne : adaptIssuer received ctx.issuer ≠ received := fun h => hdiff ((adaptIssuer_eq_iff _ _).1 h)
  have hv : acceptedIssuer ctx resp = .error .oidcServiceError := by
    unfold acceptedIssuer verifyIssuer
    rw [hr]
    simp [Dict.has, hallow, hne]
  unfold update updateBase
  rw [hv]

/-- Whenever metadata with an issuer is taken over (nothing but a mismatch permission can avoid
this), that issuer is the one the client was set up with up to one trailing slash, and it is what the
client uses from then on. -/
theorem C43_accept (kind : String → Option Bool) (services : List Srv) (resp : Obj) (ctx ctx' : Ctx)
    (received : String) (hr : Dict.get? resp "issuer" = some (.str received))
    (hallow : Dict.get? ctx.allow "issuer_mismatch" = none)
    (hused : update kind services resp ctx = (.ok (), ctx') ∨ (update kind services resp ctx).2 ≠ ctx) :
    SameIssuer received ctx.issuer ∧
      (update kind services resp ctx).2.issuer = received ∧
      (update kind services resp ctx).2.providerInfo = resp := by
  by_cases hs : SameIssuer received ctx.issuer
  · refine ⟨hs, ?_⟩
    have hv : acceptedIssuer ctx resp = .ok received := by
      unfold acceptedIssuer verifyIssuer
      rw [hr]
      simp [Dict.has, hallow, (adaptIssuer_eq_iff _ _).2 hs]
    unfold update updateBase
    rw [hv]
    simp only
    obtain ⟨b, hb⟩ := matchPreferences_frame kind resp
      { ctx with issuer := received, providerInfo := resp, endpoints := setEndpoints services resp ctx.endpoints, keyLoads := loadKeys received resp ctx.keyLoads }
    rw [hb]
    exact ⟨rfl, rfl⟩
  · exfalso
    have := C43_reject kind services resp ctx received hr hallow hs
    rcases hused with h | h
    · rw [this] at h; simp at h
    · rw [this] at h; exact h rfl

/-- The issuer's own metadata is never refused because of the issuer. -/
theorem C43_own_issuer_accepted (services : List Srv) (resp : Obj) (ctx : Ctx)
    (received : String) (hr : Dict.get? resp "issuer" = some (.str received))
    (hsame : SameIssuer received ctx.issuer) :
    ∃ ctx', updateBase services resp ctx = (.ok (), ctx') ∧ ctx'.issuer = received ∧
      ctx'.providerInfo = resp := by
  have hv : acceptedIssuer ctx resp = .ok received := by
    unfold acceptedIssuer verifyIssuer
    rw [hr]
    simp [(adaptIssuer_eq_iff _ _).2 hsame]
  unfold updateBase
  rw [hv]
  exact ⟨_, rfl, rfl, rfl⟩

/-- Keys are loaded from the metadata only for the accepted issuer. -/
theorem C43_keys_for_issuer (services : List Srv) (resp : Obj) (ctx ctx' : Ctx)
    (h : updateBase services resp ctx = (.ok (), ctx')) (ld : String × String × Val)
    (hld : ld ∈ ctx'.keyLoads) (hnew : ld ∉ ctx.keyLoads) :
    ld.1 = ctx'.issuer ∧ Dict.get? resp ld.2.1 = some ld.2.2 := by
  unfold updateBase at h
  cases hv : acceptedIssuer ctx resp with
  | error e => rw [hv] at h; simp at h
  | ok iss =>
    rw [hv] at h
    simp only [Prod.mk.injEq, true_and] at h
    subst h
    simp only at hld ⊢
    unfold loadKeys at hld
    cases h1 : Dict.get? resp "jwks_uri" with
    | some v =>
      rw [h1] at hld
      simp only [List.mem_append, List.mem_singleton] at hld
      rcases hld with hld | rfl
      · exact absurd hld hnew
      · exact ⟨rfl, h1⟩
    | none =>
      rw [h1] at hld
      simp only at hld
      cases h2 : Dict.get? resp "jwks" with
      | some v =>
        rw [h2] at hld
        simp only [List.mem_append, List.mem_singleton] at hld
        rcases hld with hld | rfl
        · exact absurd hld hnew
        · exact ⟨rfl, h2⟩
      | none => rw [h2] at hld; exact absurd hld hnew

/-- Full claim fails: the permission is the *presence* of `issuer_mismatch` in `allow`; with the
value `False`, metadata of any other issuer is taken over. -/
theorem C43_violated_mismatch_false (services : List Srv) (resp : Obj) (ctx : Ctx)
    (received : String) (hr : Dict.get? resp "issuer" = some (.str received))
    (hallow : Dict.get? ctx.allow "issuer_mismatch" = some (.bool false)) :
    ∃ ctx', updateBase services resp ctx = (.ok (), ctx') ∧ ctx'.providerInfo = resp := by
  have hv : acceptedIssuer ctx resp = .ok (adaptIssuer received ctx.issuer) := by
    unfold acceptedIssuer verifyIssuer
    rw [hr]
    simp [Dict.has, hallow]
  unfold updateBase
  rw [hv]
  exact ⟨_, rfl, rfl⟩

/-- The discovery document is fetched below the issuer, with one slash in between. -/
theorem C43_discovery_url (ctx : Ctx) (base : String)
    (h : ctx.issuer = base ∧ (¬ ∃ t, base = t ++ "/") ∨ ctx.issuer = base ++ "/") :
    getEndpoint ctx = base ++ "/.well-known/openid-configuration" := by
  unfold getEndpoint
  rcases h with ⟨h, hn⟩ | h
  · rw [h, if_neg (fun h' => hn ((slash_iff _).1 h'))]
  · rw [h, if_pos ((slash_iff _).2 ⟨_, rfl⟩), chop_slash]

example : ¬ SameIssuer "https://evil.example.com" "https://op.example.com" := by
  rw [← adaptIssuer_eq_iff]; decide +kernel
example : SameIssuer "https://op.example.com/" "https://op.example.com" := by
  rw [← adaptIssuer_eq_iff]; decide +kernel
example : ¬ SameIssuer "https://op.example.com//" "https://op.example.com/" := by
  rw [← adaptIssuer_eq_iff]; decide +kernel
example : updateBase [] [("issuer", .str "https://evil.example.com")]
    { issuer := "https://op.example.com", allow := [("issuer_mismatch", .bool false)] } =
  (.ok (), { issuer := "https://op.example.com", allow := [("issuer_mismatch", .bool false)],
             providerInfo := [("issuer", .str "https://evil.example.com")] }) := rfl

/-! ## C44 -/

/-- After discovery a service whose endpoint is in the metadata uses exactly that endpoint, provided
it is the first service with that endpoint name or no endpoint of its own was set before. -/
theorem C44_endpoints_partial (kind : String → Option Bool) (services : List Srv) (resp : Obj)
    (ctx ctx' : Ctx) (h : update kind services resp ctx = (.ok (), ctx')) (s : Srv) (v : Val)
    (hn : (Dict.keys resp).Nodup)
    (hv : Dict.get? resp s.endpointName = some v)
    (hs : (Str.endsWith s.endpointName "_endpoint" = true ∧
            services.find? (fun t => t.endpointName = s.endpointName) = some s) ∨
          Dict.get? ctx.endpoints s.name = none) :
    serviceEndpoint ctx' s = .ok v := by
  unfold update at h
  rcases hu : updateBase services resp ctx with ⟨r, c⟩
  rw [hu] at h
  cases r with
  | error e => simp at h
  | ok u =>
    simp only at h
    obtain ⟨b, b', _, _, hc⟩ := matchPreferences_ok h
    have hc1 : c.endpoints = setEndpoints services resp ctx.endpoints ∧ c.providerInfo = resp := by
      unfold updateBase at hu
      cases hi : acceptedIssuer ctx resp with
      | error e => rw [hi] at hu; simp at hu
      | ok iss =>
        rw [hi] at hu
        simp only [Prod.mk.injEq, true_and] at hu
        rw [← hu]
        exact ⟨rfl, rfl⟩
    have hget := setEndpoints_get services s resp ctx.endpoints hn
    unfold serviceEndpoint
    rw [hc]
    simp only [hc1.1, hc1.2, hget, hv]
    have hitem : Dict.getItem resp s.endpointName = .ok v := by simp [hv]
    rw [hitem]
    by_cases hcond : Str.endsWith s.endpointName "_endpoint" = true ∧
        (serviceByEndpoint services s.endpointName).map Srv.name = some s.name
    · rw [if_pos hcond]
      simp
    · rw [if_neg hcond]
      rcases hs with hs | hs
      · exact absurd ⟨hs.1, by rw [show serviceByEndpoint services s.endpointName = some s from hs.2]; rfl⟩ hcond
      · rw [hs]

/-- The URL a service sends its requests to: its own endpoint if one is set (and not empty), else the
one in the provider's metadata, else `KeyError`. -/
theorem C44_endpoint_used (ctx : Ctx) (s : Srv) (v : Val) :
    serviceEndpoint ctx s = .ok v ↔
      (Dict.get? ctx.endpoints s.name = some v ∧ v.truthy = true) ∨
      ((∀ u, Dict.get? ctx.endpoints s.name = some u → u.truthy = false) ∧
        Dict.get? ctx.providerInfo s.endpointName = some v) := by
  unfold serviceEndpoint
  cases Dict.get? ctx.endpoints s.name with
  | none => simp
  | some u =>
    cases hu : u.truthy with
    | true =>
      simp only [hu, if_true, Option.some.injEq, Except.ok.injEq]
      constructor
      · rintro rfl; exact Or.inl ⟨rfl, hu⟩
      · rintro (⟨rfl, _⟩ | ⟨h, _⟩)
        · rfl
        · rw [h u rfl] at hu; cases hu
    | false =>
      simp only [hu, Bool.false_eq_true, if_false, Dict.getItem_eq_ok, Option.some.injEq]
      constructor
      · intro h; exact Or.inr ⟨by rintro w rfl; exact hu, h⟩
      · rintro (⟨rfl, h⟩ | ⟨_, h⟩)
        · rw [h] at hu; cases hu
        · exact h

/-- Full claim fails: a second service with the same endpoint name (refreshing tokens, after
'accesstoken') that already has an endpoint keeps the old one although the metadata names another. -/
theorem C44_violated_second_service (old new : String) (hold : old ≠ "") (hne : old ≠ new)
    (kind : String → Option Bool) : ∃ (ctx ctx' : Ctx),
      let resp : Obj := [("issuer", .str "https://op"), ("token_endpoint", .str new)]
      update kind [.accesstoken, .refreshToken] resp ctx = (.ok (), ctx') ∧
      serviceEndpoint ctx' .refreshToken ≠ .ok (.str new) ∧
      serviceEndpoint ctx' .refreshToken = .ok (.str old) := by
  refine ⟨{ issuer := "https://op", endpoints := [("refresh_token", .str old)] },
    { issuer := "https://op", endpoints := [("refresh_token", .str old), ("accesstoken", .str new)], providerInfo := [("issuer", .str "https://op"), ("token_endpoint", .str new)] }, ?_, ?_, ?_⟩
  · have hacc : acceptedIssuer { issuer := "https://op", endpoints := [("refresh_token", .str old)] }
        [("issuer", .str "https://op"), ("token_endpoint", .str new)] = .ok "https://op" := by
      have h1 : adaptIssuer "https://op" "https://op" = "https://op" :=
        (adaptIssuer_eq_iff _ _).2 (Or.inl rfl)
      simp [acceptedIssuer, verifyIssuer, Dict.get?, Dict.has, h1]
    show update _ _ _ _ = _
    unfold update updateBase
    rw [hacc]
    rfl
  · simp [serviceEndpoint, setEndpoints, setEndpoint, serviceByEndpoint, Str.endsWith, Srv.name,
      Srv.endpointName, Dict.get?, Dict.set, List.find?, Val.truthy, hold, hne]
  · simp [serviceEndpoint, setEndpoints, setEndpoint, serviceByEndpoint, Str.endsWith, Srv.name,
      Srv.endpointName, Dict.get?, Dict.set, List.find?, Val.truthy, hold]

/-- Case: both token services get the token endpoint, the user info service its own. -/
example : ∃ ctx', update (fun _ => none) [.authorization, .accesstoken, .refreshToken, .userinfo]
      [("issuer", .str "https://op"), ("token_endpoint", .str "https://op/t"),
       ("userinfo_endpoint", .str "https://op/u")] { issuer := "https://op" } = (.ok (), ctx') ∧
    serviceEndpoint ctx' .accesstoken = .ok (.str "https://op/t") ∧
    serviceEndpoint ctx' .refreshToken = .ok (.str "https://op/t") ∧
    serviceEndpoint ctx' .userinfo = .ok (.str "https://op/u") ∧
    serviceEndpoint ctx' .authorization = .error .keyError := ⟨_, rfl, rfl, rfl, rfl, rfl⟩

/-! ## C45

`(pref, prov) ∈ PREFERENCE2PROVIDER`: `pref` is a negotiable client preference, `prov` the metadata
parameter in which the provider publishes what it supports. -/

/-- A single preferred value: if the provider publishes its list, the negotiated value is that value
and the provider supports it. -/
theorem C45_single_string_partial (kind : String → Option Bool) (pcr : Obj) (ctx ctx' : Ctx)
    (h : matchPreferences kind pcr ctx = (.ok (), ctx')) (hp : pcr ≠ [])
    (pref prov : String) (hpp : (pref, prov) ∈ PREFERENCE2PROVIDER)
    (want : String) (hw : Dict.get? ctx.clientPreferences pref = some (.str want))
    (l : List Val) (hl : Dict.get? pcr prov = some (.list l))
    (hfresh : Dict.get? ctx.behaviour pref = none) :
    Dict.get? ctx'.behaviour pref = some (.str want) ∧ Val.str want ∈ l := by
  obtain ⟨b, b', h1, h2, h3⟩ := matchPreferences_ok h
  have he : pcr.isEmpty = false := by cases pcr <;> simp_all
  rw [he] at h1
  obtain ⟨r, hm, v, hv, hor⟩ := matchLoop_get kind ctx.clientPreferences pcr pref prov _ hw
    PREFERENCE2PROVIDER ctx.behaviour b p2p_nodup hpp h1
  have hk := restLoop_keep kind pref ctx.clientPreferences b (by simp [hv])
  rw [h2] at hk
  subst h3
  simp only at hk ⊢
  rw [hk, hv]
  rcases hor with rfl | ⟨_, hor⟩
  · unfold providerVals at hm
    rw [hl] at hm
    simp only [matchOne, inVal_list, Except.map] at hm
    by_cases hmem : Val.str want ∈ l
    · simp only [hmem, decide_true, if_true, Except.ok.injEq, Option.some.injEq] at hm
      exact ⟨by rw [hm], hmem⟩
    · simp [hmem] at hm
  · rw [hfresh] at hor; cases hor

/-- Several preferred values of a single-valued parameter: the negotiated value is the most preferred
one among those the provider supports. -/
theorem C45_most_preferred_partial (kind : String → Option Bool) (pcr : Obj) (ctx ctx' : Ctx)
    (h : matchPreferences kind pcr ctx = (.ok (), ctx')) (hp : pcr ≠ [])
    (pref prov : String) (hpp : (pref, prov) ∈ PREFERENCE2PROVIDER) (hk : kind pref = some false)
    (wants : List Val) (hw : Dict.get? ctx.clientPreferences pref = some (.list wants))
    (l : List Val) (hl : Dict.get? pcr prov = some (.list l))
    (hfresh : Dict.get? ctx.behaviour pref = none) :
    ∃ v, Dict.get? ctx'.behaviour pref = some v ∧ MostPreferred wants l v := by
  obtain ⟨b, b', h1, h2, h3⟩ := matchPreferences_ok h
  have he : pcr.isEmpty = false := by cases pcr <;> simp_all
  rw [he] at h1
  obtain ⟨r, hm, v, hv, hor⟩ := matchLoop_get kind ctx.clientPreferences pcr pref prov _ hw
    PREFERENCE2PROVIDER ctx.behaviour b p2p_nodup hpp h1
  have hkeep := restLoop_keep kind pref ctx.clientPreferences b (by simp [hv])
  rw [h2] at hkeep
  subst h3
  simp only at hkeep ⊢
  rw [hkeep, hv]
  refine ⟨v, rfl, ?_⟩
  rcases hor with rfl | ⟨_, hor⟩
  · unfold providerVals at hm
    rw [hl] at hm
    simp only [matchOne, hk, iterVal, firstSupported_list, Except.ok.injEq] at hm
    exact find_mostPreferred hm
  · rw [hfresh] at hor; cases hor

/-- List-valued parameters (and negotiable ones that are no registration parameters, i.e. `scope`):
the negotiated list is the client's list without what the provider does not support, in the client's
order.  Holds whatever was negotiated before. -/
theorem C45_list_filtered (kind : String → Option Bool) (pcr : Obj) (ctx ctx' : Ctx)
    (h : matchPreferences kind pcr ctx = (.ok (), ctx')) (hp : pcr ≠ [])
    (pref prov : String) (hpp : (pref, prov) ∈ PREFERENCE2PROVIDER) (hk : kind pref ≠ some false)
    (wants : List Val) (hw : Dict.get? ctx.clientPreferences pref = some (.list wants))
    (l : List Val) (hl : Dict.get? pcr prov = some (.list l)) :
    Dict.get? ctx'.behaviour pref = some (.list (wants.filter (fun v => decide (v ∈ l)))) := by
  obtain ⟨b, b', h1, h2, h3⟩ := matchPreferences_ok h
  have he : pcr.isEmpty = false := by cases pcr <;> simp_all
  rw [he] at h1
  obtain ⟨r, hm, v, hv, hor⟩ := matchLoop_get kind ctx.clientPreferences pcr pref prov _ hw
    PREFERENCE2PROVIDER ctx.behaviour b p2p_nodup hpp h1
  have hkeep := restLoop_keep kind pref ctx.clientPreferences b (by simp [hv])
  rw [h2] at hkeep
  subst h3
  simp only at hkeep ⊢
  rw [hkeep, hv]
  unfold providerVals at hm
  rw [hl] at hm
  have hr : r = some (.list (wants.filter (fun v => decide (v ∈ l)))) := by
    simp only [matchOne] at hm
    cases hkk : kind pref with
    | none => rw [hkk] at hm; simp only [supportedOnly_list, Except.map, Except.ok.injEq] at hm
              exact hm.symm
    | some x =>
      cases x with
      | false => exact absurd hkk hk
      | true => rw [hkk] at hm
                simp only [iterVal, supportedOnly_list, Except.map, Except.ok.injEq] at hm
                exact hm.symm
  rcases hor with h | ⟨h, _⟩
  · rw [hr] at h; exact h.symm
  · rw [hr] at h; cases h

/-- Without a common value for a single-valued parameter the negotiation does not succeed. -/
theorem C45_no_common_value_partial (kind : String → Option Bool) (pcr : Obj) (ctx : Ctx)
    (hp : pcr ≠ []) (pref prov : String) (hpp : (pref, prov) ∈ PREFERENCE2PROVIDER)
    (wants : List Val)
    (hw : (∃ w, Dict.get? ctx.clientPreferences pref = some (.str w) ∧ wants = [.str w]) ∨
          Dict.get? ctx.clientPreferences pref = some (.list wants) ∧ kind pref = some false)
    (l : List Val) (hl : Dict.get? pcr prov = some (.list l)) (hno : ∀ w ∈ wants, w ∉ l)
    (hfresh : Dict.get? ctx.behaviour pref = none) :
    ∃ e ctx', matchPreferences kind pcr ctx = (.error e, ctx') := by
  have he : pcr.isEmpty = false := by cases pcr <;> simp_all
  have key : ∃ vals, Dict.get? ctx.clientPreferences pref = some vals ∧
      matchOne (kind pref) vals (providerVals pcr pref prov vals) = .ok none := by
    rcases hw with ⟨w, hw, rfl⟩ | ⟨hw, hk⟩
    · refine ⟨_, hw, ?_⟩
      have : Val.str w ∉ l := hno _ (by simp)
      simp [providerVals, hl, matchOne, inVal_list, Except.map, this]
    · refine ⟨_, hw, ?_⟩
      have hf : wants.find? (fun v => decide (v ∈ l)) = none := by
        rw [List.find?_eq_none]; simpa using hno
      simp [providerVals, hl, matchOne, hk, iterVal, firstSupported_list, hf]
  obtain ⟨vals, hv, hm⟩ := key
  obtain ⟨e, b, hf⟩ := matchLoop_fail kind ctx.clientPreferences pcr pref prov vals hv hm
    PREFERENCE2PROVIDER ctx.behaviour p2p_nodup hpp hfresh
  unfold matchPreferences
  simp only [he]
  rw [show (if (false : Bool) = true then ctx.providerInfo else pcr) = pcr from rfl, hf]
  exact ⟨_, _, rfl⟩

/-- Preferences that are not negotiable are taken over unless already set; of a list for a single-valued parameter the first
value is taken, and an empty one does not succeed. -/
theorem C45_other_preferences (kind : String → Option Bool) (pcr : Obj) (ctx ctx' : Ctx)
    (h : matchPreferences kind pcr ctx = (.ok (), ctx')) (key : String)
    (hk : key ∉ PREFERENCE2PROVIDER.map Prod.fst) (val : Val)
    (hn : (Dict.keys ctx.clientPreferences).Nodup)
    (hv : Dict.get? ctx.clientPreferences key = some val)
    (hfresh : Dict.get? ctx.behaviour key = none) :
    (kind key = some false → ∀ l, val = .list l → ∃ v vs, l = v :: vs ∧ Dict.get? ctx'.behaviour key = some v) ∧
    ((kind key ≠ some false ∨ ∀ l, val ≠ .list l) → Dict.get? ctx'.behaviour key = some val) := by
  obtain ⟨b, b', h1, h2, h3⟩ := matchPreferences_ok h
  have hb : Dict.get? b key = none := by
    have := matchLoop_other kind ctx.clientPreferences
      (if pcr.isEmpty then ctx.providerInfo else pcr) key PREFERENCE2PROVIDER ctx.behaviour hk
    rw [h1] at this
    simpa [hfresh] using this
  obtain ⟨v, hp, hg⟩ := restLoop_set kind key val hk ctx.clientPreferences b b' hn hv hb h2
  subst h3
  simp only
  rw [hg]
  unfold plainValue at hp
  split at hp
  · next v vs hk =>
    simp only [Except.ok.injEq] at hp
    subst hp
    refine ⟨fun _ l hl => ?_, fun h => ?_⟩
    · injection hl with hl
      exact ⟨v, vs, hl.symm, rfl⟩
    · rcases h with h | h
      · exact absurd hk h
      · exact absurd rfl (h _)
  · cases hp
  · next h1 h2 =>
    simp only [Except.ok.injEq] at hp
    subst hp
    refine ⟨fun hk l hl => ?_, fun _ => rfl⟩
    cases l with
    | nil => exact (h2 hk hl).elim
    | cons v vs => exact (h1 v vs hk hl).elim

/-- Non-vacuity: contacts are taken over as a list; of the names the first is the client's. -/
example : matchPreferences (fun k => if k = "contacts" then some true else some false) [("issuer", .str "https://op")]
      { clientPreferences := [("contacts", .list [.str "a", .str "b"]), ("client_name", .list [.str "one", .str "two"])] } =
    (.ok (), { clientPreferences := [("contacts", .list [.str "a", .str "b"]), ("client_name", .list [.str "one", .str "two"])],
               behaviour := [("contacts", .list [.str "a", .str "b"]), ("client_name", .str "one")] }) := rfl

/-- And an empty list for the name is refused. -/
example : (matchPreferences (fun _ => some false) [("issuer", .str "https://op")]
    { clientPreferences := [("client_name", .list [])] }).1 = .error .indexError := rfl

/-- Full claim fails for list-valued parameters: no common value gives an empty list, not an error. -/
theorem C45_violated_empty_list :
    ∃ (ctx ctx' : Ctx) (pcr : Obj),
      Dict.get? ctx.clientPreferences "response_types" = some (.list [.str "code"]) ∧
      Dict.get? pcr "response_types_supported" = some (.list [.str "id_token"]) ∧
      matchPreferences (fun k => if k = "response_types" then some true else none) pcr ctx =
        (.ok (), ctx') ∧
      Dict.get? ctx'.behaviour "response_types" = some (.list []) :=
  ⟨{ clientPreferences := [("response_types", .list [.str "code"])] }, _,
    [("response_types_supported", .list [.str "id_token"])], rfl, rfl, rfl, rfl⟩

/-- Full claim fails when negotiating again: a value negotiated before stays although the provider
does not support it any more. -/
theorem C45_violated_stale :
    ∃ (ctx ctx' : Ctx) (pcr : Obj),
      Dict.get? ctx.clientPreferences "subject_type" = some (.str "pairwise") ∧
      Dict.get? pcr "subject_types_supported" = some (.list [.str "public"]) ∧
      matchPreferences (fun _ => some false) pcr ctx = (.ok (), ctx') ∧
      Dict.get? ctx'.behaviour "subject_type" = some (.str "pairwise") :=
  ⟨{ clientPreferences := [("subject_type", .str "pairwise")],
     behaviour := [("subject_type", .str "pairwise")] }, _,
    [("subject_types_supported", .list [.str "public"])], rfl, rfl, rfl, rfl⟩

/-- Full claim fails when the provider publishes nothing: the standard's default is compared as a
*substring*, so the made-up algorithm `S2` is accepted against the default `RS256`. -/
theorem C45_violated_default_substring :
    ∃ (ctx ctx' : Ctx) (pcr : Obj), pcr ≠ [] ∧
      Dict.get? pcr "id_token_signing_alg_values_supported" = none ∧
      Dict.get? ctx.clientPreferences "id_token_signed_response_alg" = some (.list [.str "S2"]) ∧
      matchPreferences (fun _ => some false) pcr ctx = (.ok (), ctx') ∧
      Dict.get? ctx'.behaviour "id_token_signed_response_alg" = some (.str "S2") :=
  ⟨{ clientPreferences := [("id_token_signed_response_alg", .list [.str "S2"])] }, _,
    [("issuer", .str "https://op")], by simp, rfl, rfl, rfl, rfl⟩

/-- Case: the most preferred common algorithm and the common response types. -/
example : ∃ ctx', matchPreferences
      (fun k => if k = "response_types" then some true else some false)
      [("id_token_signing_alg_values_supported", .list [.str "ES256", .str "RS256"]),
       ("response_types_supported", .list [.str "code", .str "id_token"])]
      { clientPreferences := [("id_token_signed_response_alg", .list [.str "PS256", .str "RS256", .str "ES256"]),
                              ("response_types", .list [.str "token", .str "code"])] } = (.ok (), ctx') ∧
    Dict.get? ctx'.behaviour "id_token_signed_response_alg" = some (.str "RS256") ∧
    Dict.get? ctx'.behaviour "response_types" = some (.list [.str "code"]) := ⟨_, rfl, rfl, rfl⟩

end Verif.Props
