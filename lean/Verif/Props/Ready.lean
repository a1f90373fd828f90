import Verif.Props.HonestHistory
import Verif.Props.NewClient
/-!
# C84: a login can be begun
-/

namespace Verif.Props
open Verif Verif.Service Verif.Handler Verif.StateInterface Verif.Spec.Session Verif.Spec.HandlerView Verif.Spec.Wire
open Verif.Spec.Store (KeySpace)
open Verif.Spec.InFlight

/-! ## Specification -/

/-- Parameters the application or the configuration may give for an authorization request: scopes as a list, the
response type and the nonce as texts, and whatever else. -/
structure GoodArgs (o : Obj) : Prop where
  keys : (Dict.keys o).Nodup
  scope : ∀ v, Dict.get? o "scope" = some v → ∃ l, v = .list l
  responseType : ∀ v, Dict.get? o "response_type" = some v → ∃ s, v = .str s ∧ s ≠ ""
  nonce : ∀ v, Dict.get? o "nonce" = some v → ∃ s, v = .str s ∧ s ≠ ""

/-- The client has what a login needs: the authorization service and its endpoint, a response type and scopes, and a PKCE
method that is known, if PKCE is used. -/
structure CanBegin (c : Client) : Prop where
  service : .authorization ∈ c.services
  endpoint : ∃ url, Discovery.serviceEndpoint c.ctx .authorization = .ok (.str url)
  responseTypes : ∃ t ts, Dict.get? c.ctx.behaviour "response_types" = some (.list (.str t :: ts)) ∧ t ≠ ""
  scope : ∃ l, Dict.get? c.ctx.behaviour "scope" = some (.list l)
  pkce : Dict.has c.ctx.addOn "pkce" = true → pkceMethod c.ctx ∈ CC_METHODS
  args : GoodArgs (confObj c.ctx.config "request_args")

/-- The response type of the request: that of the application or else the first of the client. -/
def AskedType (c : Client) (req : Obj) (rt : String) : Prop :=
  Dict.get? req "response_type" = some (.str rt) ∨
  (Dict.get? req "response_type" = none ∧ ∃ ts, Dict.get? c.ctx.behaviour "response_types" = some (.list (.str rt :: ts)))

/-- The provider knows where to send the user back to: the application or the configuration gave a redirect URI, or there
is a callback for the flow. -/
def Redirects (c : Client) (req : Obj) : Prop :=
  (Dict.get? req "redirect_uri").isSome ∨ c.ctx.redirectUris ≠ [] ∨
  ∀ rt, AskedType c req rt →
    (Dict.get? c.ctx.callback (if Dict.get? req "response_mode" = some (.str "form_post") then "form_post"
      else if rt = "code" then "code" else "implicit")).isSome

/-- The message class of authorization requests does not split state and nonce. -/
def PlainMessage (x : Ext) : Prop :=
  "state" ∉ (x.msg .authorization).spaced ∧ "nonce" ∉ (x.msg .authorization).spaced

/-- The index of session values in the store has the form the library gives it. -/
def IndexOk (db : DB) : Prop := ∀ k s, Dict.get? db ("ref" ++ k ++ "ref") ≠ some (.raw s)

/-! ## Steps -/

/-- What the arguments of the request have. -/
structure ArgsOk (a : Obj) : Prop where
  keys : (Dict.keys a).Nodup
  redirect : ∃ u, Dict.get? a "redirect_uri" = some u
  scope : ∃ l, Dict.get? a "scope" = some (.list l)
  responseType : ∃ s, Dict.get? a "response_type" = some (.str s) ∧ s ≠ ""
  nonce : ∃ s, Dict.get? a "nonce" = some (.str s) ∧ s ≠ ""

theorem argsOk_update {a o : Obj} (ha : ArgsOk a) (ho : GoodArgs o) : ArgsOk (Dict.update a o) := by
  have hg := fun p => Dict.get?_update_nodup a ho.keys p
  refine ⟨Dict.nodup_update ha.keys _, ?_, ?_, ?_, ?_⟩
  · rw [hg]
    cases h : Dict.get? o "redirect_uri" with
    | none => exact ha.redirect
    | some v => exact ⟨v, rfl⟩
  · rw [hg]
    cases h : Dict.get? o "scope" with
    | none => exact ha.scope
    | some v => obtain ⟨l, rfl⟩ := ho.scope v h; exact ⟨l, rfl⟩
  · rw [hg]
    cases h : Dict.get? o "response_type" with
    | none => exact ha.responseType
    | some v => obtain ⟨l, rfl, hl⟩ := ho.responseType v h; exact ⟨l, rfl, hl⟩
  · rw [hg]
    cases h : Dict.get? o "nonce" with
    | none => exact ha.nonce
    | some v => obtain ⟨l, rfl, hl⟩ := ho.nonce v h; exact ⟨l, rfl, hl⟩

theorem pickRedirect_progress {c : Client} {req : Obj} (h : Redirects c req) {rt : String} (hrt : AskedType c req rt) (hne : rt ≠ "") :
    ∃ v, Registration.pickRedirectUri c.ctx req (some (.str rt)) = .ok v := by
  unfold Registration.pickRedirectUri
  rcases h with h | h | h
  · obtain ⟨v, hv⟩ := Option.isSome_iff_exists.1 h
    rw [hv]
    exact ⟨v, rfl⟩
  · cases Dict.get? req "redirect_uri" with
    | some v => exact ⟨v, rfl⟩
    | none =>
      cases hu : c.ctx.redirectUris with
      | nil => exact absurd hu h
      | cons u us => exact ⟨.str u, rfl⟩
  · cases Dict.get? req "redirect_uri" with
    | some v => exact ⟨v, rfl⟩
    | none =>
      cases hu : c.ctx.redirectUris with
      | cons u us => exact ⟨.str u, rfl⟩
      | nil =>
        have h := h rt hrt
        obtain ⟨v, hv⟩ := Option.isSome_iff_exists.1 h
        have hf : Registration.flowOf c.ctx req (some (.str rt)) = some (.str rt) := by
          unfold Registration.flowOf
          rw [if_pos (by simp [Util.truthyO, Val.truthy, hne])]
        have hcb : c.ctx.callback.isEmpty = false := by
          cases hc : c.ctx.callback with
          | nil => rw [hc] at hv; cases hv
          | cons => rfl
        simp only [hcb, hf, Bool.false_eq_true, if_false]
        by_cases hm : Dict.get? req "response_mode" = some (.str "form_post")
        · rw [if_pos hm] at hv
          rw [if_pos (Or.inl hm)]
          exact ⟨v, Dict.getItem_eq_ok.2 hv⟩
        · rw [if_neg hm] at hv
          rw [if_neg (by simp [hm])]
          by_cases hcode : rt = "code"
          · rw [if_pos hcode] at hv
            rw [if_pos (Or.inl (by rw [hcode]))]
            exact ⟨v, Dict.getItem_eq_ok.2 hv⟩
          · rw [if_neg hcode] at hv
            rw [if_neg (by simp [hcode])]
            exact ⟨v, Dict.getItem_eq_ok.2 hv⟩

/-- The redirect URI of the arguments is taken. -/
theorem pickRedirect_given {ctx : Ctx} {req : Obj} {v : Val} (h : Dict.get? req "redirect_uri" = some v) (rt : Option Val) :
    Registration.pickRedirectUri ctx req rt = .ok v := by
  unfold Registration.pickRedirectUri
  rw [h]

theorem initArgs_progress {x : Ext} {c : Client} {req : Obj} (hc : CanBegin c) (hr : GoodArgs req)
    (hre : Redirects c req) (hn : x.rnd "init_nonce" ≠ "") : ∃ a, initArgs x c.ctx req = .ok a ∧ ArgsOk a := by
  obtain ⟨t, ts, ht, htn⟩ := hc.responseTypes
  obtain ⟨l, hl⟩ := hc.scope
  have h1 : ∃ rt, getResponseType c.ctx.behaviour req = .ok (.str rt) ∧ rt ≠ "" ∧ AskedType c req rt := by
    unfold getResponseType firstResponseType AskedType
    rw [ht]
    simp only
    cases h : Dict.get? req "response_type" with
    | none => exact ⟨t, rfl, htn, Or.inr ⟨rfl, ts, rfl⟩⟩
    | some v => obtain ⟨s, rfl, hs⟩ := hr.responseType v h; exact ⟨s, rfl, hs, Or.inl rfl⟩
  obtain ⟨rt, h1, hrt, hask⟩ := h1
  obtain ⟨ru, h2⟩ := pickRedirect_progress hre hask hrt
  refine ⟨_, by unfold initArgs; rw [h1]; simp only [h2, Dict.getItem_eq_ok.2 hl]; rfl, ?_⟩
  refine argsOk_update (argsOk_update ⟨by simp [Dict.keys], ⟨ru, rfl⟩, ⟨l, rfl⟩, ⟨rt, rfl, hrt⟩, ⟨_, rfl, hn⟩⟩ hc.args) hr

theorem pre_progress {nonce : String} {behaviour args kwargs : Obj} (h : ArgsOk args) :
    ∃ r, authorizationPre nonce behaviour args kwargs = .ok r ∧ r.2 = prePostArgs kwargs ∧ ArgsOk r.1 ∧
      (∃ l, Dict.get? r.1 "scope" = some (.list l) ∧ .str "openid" ∈ l) ∧
      ∀ p, p ≠ "scope" → Dict.get? r.1 p = Dict.get? args p := by
  obtain ⟨l, hl⟩ := h.scope
  obtain ⟨rt, hrt, hrn⟩ := h.responseType
  obtain ⟨n, hn, hnn⟩ := h.nonce
  have hb : ∀ b rts, Dict.get? b "nonce" = some (.str n) → preNonce nonce rts b = b := by
    intro b rts hb
    unfold preNonce
    rw [if_neg (by simp [Dict.has_eq, hb])]
  unfold authorizationPre preResponseType
  rw [hrt]
  simp only
  unfold preScope
  rw [hl]
  simp only [Discovery.inVal]
  by_cases ho : Val.str "openid" ∈ l
  · rw [decide_eq_true ho]
    exact ⟨_, rfl, rfl, by rw [hb _ _ hn]; exact h, ⟨l, by rw [hb _ _ hn]; exact hl, ho⟩, fun p _ => by rw [hb _ _ hn]⟩
  · rw [decide_eq_false ho]
    have hs : ∀ p, p ≠ "scope" → Dict.get? (Dict.set args "scope" (.list (l ++ [.str "openid"]))) p = Dict.get? args p :=
      fun p hp => Dict.get?_set_ne _ _ (Ne.symm hp)
    have hn' := (hs "nonce" (by decide)).trans hn
    refine ⟨_, rfl, rfl, ?_, ⟨l ++ [.str "openid"], ?_, by simp⟩, fun p hp => ?_⟩
    · rw [hb _ _ hn']
      obtain ⟨ru, hru⟩ := h.redirect
      exact ⟨Dict.nodup_set h.keys _ _, ⟨ru, (hs _ (by decide)).trans hru⟩, ⟨_, Dict.get?_set_self _ _ _⟩, ⟨rt, (hs _ (by decide)).trans hrt, hrn⟩, ⟨n, hn', hnn⟩⟩
    · rw [hb _ _ hn']; exact Dict.get?_set_self _ _ _
    · rw [hb _ _ hn']; exact hs p hp

theorem bindsNonce_progress {req : Obj} {l : List Val} (hs : Dict.get? req "scope" = some (.list l))
    (hr : (∃ s, Dict.get? req "response_type" = some (.str s)) ∨
      ∃ w ws, Dict.get? req "response_type" = some (.list (.str w :: ws))) :
    ∃ b, bindsNonce req = .ok b := by
  unfold bindsNonce
  rw [hs]
  simp only [Discovery.inVal]
  cases decide (Val.str "openid" ∈ l) with
  | false => exact ⟨_, rfl⟩
  | true =>
    simp only
    rcases hr with ⟨s, h⟩ | ⟨w, ws, h⟩ <;> rw [h] <;> exact ⟨_, rfl⟩

theorem splitL_ne (c : Char) (s : List Char) : Str.splitL c s ≠ [] := by
  cases s with
  | nil => simp [Str.splitL]
  | cons d s =>
    unfold Str.splitL
    split
    · simp
    · split <;> simp

/-- A response type given as one text is in the message as text or as its words. -/
theorem coerce_text (t : MsgType) (p s : String) :
    (t.coerce (p, .str s)).2 = .str s ∨ ∃ w ws, (t.coerce (p, .str s)).2 = .list (.str w :: ws) := by
  unfold MsgType.coerce
  simp only
  split
  · right
    cases h : Str.split s ' ' with
    | nil =>
      unfold Str.split at h
      exact absurd (List.map_eq_nil_iff.1 h) (splitL_ne _ _)
    | cons w ws => exact ⟨w, ws.map .str, rfl⟩
  · exact Or.inl rfl

theorem post_progress {x : Ext} {req kwargs : Obj} {c : Client} {k n : String} {l : List Val} {st : Obj}
    (hst : getState c.db k = .ok st) (hraw : ∀ s, Dict.get? c.db (refKey k) ≠ some (.raw s))
    (hki : ∀ v, k ≠ indexKey .nonce v) (hkr : k ≠ refKey k)
    (hs : Dict.get? req "scope" = some (.list l)) (hstate : Dict.get? req "state" = some (.str k))
    (hn : Dict.get? req "nonce" = some (.str n))
    (hr : (∃ s, Dict.get? req "response_type" = some (.str s)) ∨
      ∃ w ws, Dict.get? req "response_type" = some (.list (.str w :: ws)))
    (hp : Dict.get? kwargs "request_param" = none) :
    ∃ r db, authorizationPost x req kwargs c = (.ok r, { c with db := db }) := by
  obtain ⟨b, hb⟩ := bindsNonce_progress hs hr
  have h1 : ∃ db, bindNonce req c = (.ok (), { c with db := db }) ∧ getState db k = .ok st := by
    unfold bindNonce
    rw [Py.lift_bind_ok hb]
    cases b with
    | false => exact ⟨c.db, rfl, hst⟩
    | true =>
      simp only [if_true]
      rw [Py.lift_bind_ok (Dict.getItem_eq_ok.2 hn), Py.lift_bind_ok (show asStr (.str n) = .ok n from rfl),
        Py.lift_bind_ok (Dict.getItem_eq_ok.2 hstate), Py.lift_bind_ok (show dbKey (.str k) = .ok k from rfl)]
      obtain ⟨db, d1, -, d3, -⟩ := storeX2State_progress (v := n) (t := .nonce) hraw
      exact ⟨db, by unfold onDB; rw [d1], by rw [getState_congr (d3 k (hki n) hkr)]; exact hst⟩
  obtain ⟨db, h1, hst'⟩ := h1
  have h2 : ∃ r, offlinePrompt (x.msg .authorization) req = .ok r ∧ Dict.get? r "state" = some (.str k) := by
    unfold offlinePrompt
    rw [hs]
    simp only [Discovery.inVal]
    refine ⟨_, rfl, ?_⟩
    split
    · rw [Dict.get?_set_ne _ _ (by decide)]; exact hstate
    · exact hstate
  obtain ⟨r, h2, hrs⟩ := h2
  refine ⟨r, Dict.set db k (.doc (Dict.set st "auth_request" (.obj r))), ?_⟩
  unfold authorizationPost
  rw [Py.bind_ok h1, Py.lift_bind_ok h2, Py.lift_bind_ok (Dict.getItem_eq_ok.2 hrs),
    Py.lift_bind_ok (show dbKey (.str k) = .ok k from rfl)]
  have e : onDB (storeItem r "auth_request" k) { c with db := db } =
      (.ok (), { c with db := Dict.set db k (.doc (Dict.set st "auth_request" (.obj r))) }) := by
    unfold onDB
    rw [storeItem_run hst']
  rw [Py.bind_ok e]
  unfold ask requestObject
  rw [hp]

theorem addCodeChallenge_progress {x : Ext} {args : Obj} {c : Client} {k : String} {st : Obj}
    (hm : pkceMethod c.ctx ∈ CC_METHODS) (hs : Dict.get? args "state" = some (.str k)) (hst : getState c.db k = .ok st) :
    ∃ v m item, addCodeChallenge x args c =
      (.ok (Dict.set (Dict.set args "code_challenge" (.str v)) "code_challenge_method" (.str m)),
        { c with db := Dict.set c.db k (.doc (Dict.set st "pkce" (.obj item))) }) := by
  unfold addCodeChallenge
  rw [Py.read_bind_run]
  simp only
  rw [if_neg (by simpa using hm), Py.lift_bind_ok (Dict.getItem_eq_ok.2 hs),
    Py.lift_bind_ok (show dbKey (.str k) = .ok k from rfl)]
  refine ⟨x.challenge (pkceMethod c.ctx) (x.rnd "code_verifier"), pkceMethod c.ctx,
    [("code_verifier", .str (x.rnd "code_verifier")), ("code_challenge_method", .str (pkceMethod c.ctx))], ?_⟩
  rw [Py.bind_ok (a := ()) (s' := { c with db := Dict.set c.db k (.doc (Dict.set st "pkce" (.obj
    [("code_verifier", .str (x.rnd "code_verifier")), ("code_challenge_method", .str (pkceMethod c.ctx))]))) })]
  · rfl
  · unfold onDB
    rw [storeItem_run hst]

/-- The message of an authorization request can be made. -/
theorem construct_authorization {x : Ext} {args b : Obj} {c : Client} {k : String} (hk : k ≠ "") (hd : dunder k = false)
    (hki : ∀ v, k ≠ indexKey .nonce v) (hkr : k ≠ refKey k) (hraw : ∀ s, Dict.get? c.db (refKey k) ≠ some (.raw s))
    (hp : PlainAuthorization c b) (hm : PlainMessage x)
    (hpk : Dict.has c.ctx.addOn "pkce" = true → pkceMethod c.ctx ∈ CC_METHODS)
    (ha : ArgsOk args) (hs : Dict.get? args "state" = some (.str k)) :
    ∃ r db, construct x .authorization args [("behaviour_args", .obj b)] c = (.ok r, { c with db := db }) := by
  have hkw : methodArgs (confOf c .authorization) "pre_construct" [("behaviour_args", Val.obj b)] = [("behaviour_args", .obj b)] := by
    unfold methodArgs; rw [hp.pre]
  have hset := setState_run (x := x) hk hd hs (kwargs := [("behaviour_args", .obj b)]) (by simp [Dict.get?]) c
  obtain ⟨ru, hru0⟩ := ha.redirect
  have hru : Registration.pickRedirectUri c.ctx (Dict.set args "state" (.str k)) = .ok ru :=
    pickRedirect_given (by rw [Dict.get?_set_ne _ _ (by decide)]; exact hru0) none
  have hA : ArgsOk (Dict.set (Dict.set args "state" (.str k)) "redirect_uri" ru) := by
    have hg : ∀ p, p ≠ "state" → p ≠ "redirect_uri" →
        Dict.get? (Dict.set (Dict.set args "state" (.str k)) "redirect_uri" ru) p = Dict.get? args p := fun p h1 h2 => by
      rw [Dict.get?_set_ne _ _ (Ne.symm h2), Dict.get?_set_ne _ _ (Ne.symm h1)]
    refine ⟨Dict.nodup_set (Dict.nodup_set ha.keys _ _) _ _, ⟨ru, Dict.get?_set_self _ _ _⟩, ?_, ?_, ?_⟩
    · rw [hg _ (by decide) (by decide)]; exact ha.scope
    · rw [hg _ (by decide) (by decide)]; exact ha.responseType
    · rw [hg _ (by decide) (by decide)]; exact ha.nonce
  obtain ⟨r, hr, hr2, hrA, ⟨l, hl, hlo⟩, hrg⟩ := pre_progress (nonce := x.rnd "pre_nonce") (behaviour := c.ctx.behaviour)
    (kwargs := [("behaviour_args", .obj b)]) hA
  have hrs : Dict.get? r.1 "state" = some (.str k) := by
    rw [hrg _ (by decide), Dict.get?_set_ne _ _ (by decide), Dict.get?_set_self]
  have hrr : Dict.get? r.1 "redirect_uri" = some ru := by rw [hrg _ (by decide), Dict.get?_set_self]
  have hpost0 : r.2 = [] := hr2.trans rfl
  -- the record
  let st0 := Msg.ofDict [("iss", Val.str c.ctx.issuer)]
  let db0 := Dict.set c.db k (.doc st0)
  have hst0 : getState db0 k = .ok st0 := getState_set _ _ (Msg.ofDict_noEmpty _)
  have hpre : ∃ g st, preConstruct x .authorization args [("behaviour_args", .obj b)] c =
      (.ok (g, []), { c with db := Dict.set c.db k (.doc st) }) ∧ getState (Dict.set c.db k (.doc st)) k = .ok st ∧
      (Dict.keys g).Nodup ∧ ∀ p, p ≠ "code_challenge" → p ≠ "code_challenge_method" → Dict.get? g p = Dict.get? r.1 p := by
    simp only [preConstruct]
    rw [Py.bind_ok hset, Py.bind_ok (a := Dict.set (Dict.set args "state" (.str k)) "redirect_uri" ru)
      (s' := { c with db := db0 })]
    · rw [Py.read_bind_run, Py.lift_bind_ok hr]
      by_cases hpkce : Dict.has c.ctx.addOn "pkce" = true
      · rw [if_pos hpkce]
        obtain ⟨v, m, item, he⟩ := addCodeChallenge_progress (x := x) (args := r.1) (c := { c with db := db0 }) (hpk hpkce) hrs hst0
        rw [Py.bind_ok he, hpost0]
        refine ⟨Dict.set (Dict.set r.1 "code_challenge" (.str v)) "code_challenge_method" (.str m),
          Dict.set st0 "pkce" (.obj item), ?_, getState_set _ _ (set_noEmpty (Msg.ofDict_noEmpty _) _ _),
          Dict.nodup_set (Dict.nodup_set hrA.keys _ _) _ _, fun p p1 p2 => ?_⟩
        · simp only [db0, Dict.set_set]; rfl
        · rw [Dict.get?_set_ne _ _ (Ne.symm p2), Dict.get?_set_ne _ _ (Ne.symm p1)]
      · rw [if_neg hpkce]
        refine ⟨r.1, st0, ?_, hst0, hrA.keys, fun _ _ _ => rfl⟩
        rw [← hpost0]; rfl
    · unfold pickRedirect
      rw [ask_bind_ok hru]; rfl
  obtain ⟨g, st, hpre, hst, hgn, hgg⟩ := hpre
  have hgs : Dict.get? g "state" = some (.str k) := (hgg _ (by decide) (by decide)).trans hrs
  have hgr : Dict.get? g "redirect_uri" = some ru := (hgg _ (by decide) (by decide)).trans hrr
  have hsf : stateFromKwargs (x.msg .authorization) g [("behaviour_args", .obj b)] = g := stateFromKwargs_given hgs
  have hgl : Dict.get? (gatherLoop { c with db := Dict.set c.db k (.doc st) } .authorization (x.msg .authorization).params g)
      "redirect_uri" = some ru := by rw [get?_gatherLoop, hgr]; simp
  have hga : gatherRequestArgs x { c with db := Dict.set c.db k (.doc st) } .authorization g =
      .ok (gatherLoop { c with db := Dict.set c.db k (.doc st) } .authorization (x.msg .authorization).params g) := by
    unfold gatherRequestArgs
    simp only
    rw [if_neg]
    rintro ⟨-, h⟩
    exact h (by rw [Dict.has_eq, hgl]; rfl)
  generalize hgd : gatherLoop { c with db := Dict.set c.db k (.doc st) } .authorization (x.msg .authorization).params g = gd at hga
  have hgdn : (Dict.keys gd).Nodup := nodup_gather hga hgn
  have hgiven : ∀ {p v}, Dict.get? g p = some v → Dict.get? gd p = some v := fun h => gather_given hga h
  obtain ⟨rt, hrt, hrtn⟩ := hrA.responseType
  obtain ⟨n, hn, hnn⟩ := hrA.nonce
  have hmk := fun p => (x.msg .authorization).get?_make hgdn p
  have hms : Dict.get? ((x.msg .authorization).make gd) "scope" = some (.list l) := by
    rw [hmk, hgiven ((hgg _ (by decide) (by decide)).trans hl)]
    have : Msg.emptyVal (.list l) = false := by
      cases h : Msg.emptyVal (.list l) with
      | false => rfl
      | true =>
        rw [Msg.emptyVal_iff] at h
        rcases h with h | h
        · cases h
        · injection h with h
          subst h
          simp at hlo
    simp [this, MsgType.coerce]
  have hmst : Dict.get? ((x.msg .authorization).make gd) "state" = some (.str k) :=
    (C38_message _ _ hgdn "state" hm.1).1 _ (hgiven hgs) (by simpa using hk) (by simp)
  have hmn : Dict.get? ((x.msg .authorization).make gd) "nonce" = some (.str n) :=
    (C38_message _ _ hgdn "nonce" hm.2).1 _ (hgiven ((hgg _ (by decide) (by decide)).trans hn)) (by simpa using hnn) (by simp)
  have hmr : (∃ s, Dict.get? ((x.msg .authorization).make gd) "response_type" = some (.str s)) ∨
      ∃ w ws, Dict.get? ((x.msg .authorization).make gd) "response_type" = some (.list (.str w :: ws)) := by
    rw [hmk, hgiven ((hgg _ (by decide) (by decide)).trans hrt)]
    have : Msg.emptyVal (.str rt) = false := by
      cases h : Msg.emptyVal (.str rt) with
      | false => rfl
      | true =>
        rw [Msg.emptyVal_iff] at h
        rcases h with h | h
        · injection h with h; exact absurd h hrtn
        · cases h
    simp only [this, Bool.false_eq_true, if_false]
    rcases coerce_text (x.msg .authorization) "response_type" rt with h | ⟨w, ws, h⟩
    · exact Or.inl ⟨rt, by rw [h]⟩
    · exact Or.inr ⟨w, ws, by rw [h]⟩
  have hkp : Dict.get? (methodArgs (confOf { c with db := Dict.set c.db k (.doc st) } .authorization) "post_construct"
      (withBehaviour [("behaviour_args", .obj b)] [])) "request_param" = none := by
    have : methodArgs (confOf { c with db := Dict.set c.db k (.doc st) } .authorization) "post_construct"
        (withBehaviour [("behaviour_args", .obj b)] []) = Dict.update [] b := by
      unfold methodArgs
      have e : confOf { c with db := Dict.set c.db k (.doc st) } .authorization = confOf c .authorization := rfl
      rw [e, hp.post]
      rfl
    rw [this, get?_update_none _ hp.param]
    rfl
  obtain ⟨q, db, hq⟩ := post_progress (x := x) (c := { c with db := Dict.set c.db k (.doc st) })
    hst (fun s => by simp only; rw [Dict.get?_set_ne _ _ hkr]; exact hraw s) hki hkr hms hmst hmn hmr hkp
  refine ⟨q, db, ?_⟩
  unfold construct
  rw [Py.read_bind_run, hkw, Py.bind_ok hpre]
  simp only
  rw [ask_bind_ok (by simp only [hsf]; exact hga)]
  unfold postConstruct
  rw [Py.read_bind_run]
  simp only
  rw [Py.bind_ok hq, if_neg (by simp [hp.push])]
  rfl

/-- `init_authorization` succeeds. -/
theorem init_progress {K : String → Prop} (hK : KeySpace K) {x : Ext} {req b : Obj} {c : Client} (hc : CanBegin c)
    (hre : Redirects c req) (hp : PlainAuthorization c b) (hi : IndexOk c.db) (hk : K (x.rnd "init_state")) (hn : x.rnd "init_nonce" ≠ "")
    (hr : GoodArgs req) (hm : PlainMessage x) :
    ∃ url c', initAuthorization x req b c = (.ok (url, x.rnd "init_state"), c') := by
  obtain ⟨args, ha, hA⟩ := initArgs_progress (x := x) hc hr hre hn
  generalize hkk : x.rnd "init_state" = k at *
  have hkne := hK.nonempty _ hk
  have hkr : k ≠ refKey k := KeySpace.ne_ref hK hk hk
  have hraw1 : ∀ s, Dict.get? (Dict.set c.db k (.doc (Msg.ofDict [("iss", .str c.ctx.issuer)]))) (refKey k) ≠ some (.raw s) := by
    intro s; rw [Dict.get?_set_ne _ _ hkr]; exact hi k s
  obtain ⟨db2, d1, d2, -, -⟩ := storeX2State_progress (v := x.rnd "init_nonce") (t := .nonce) hraw1
  obtain ⟨bh, he⟩ := aliasScope_setup req c.ctx
  have he : aliasScope req c.ctx = { c.ctx with behaviour := bh } := he
  let c3 : Client := { c with db := db2, ctx := { c.ctx with behaviour := bh } }
  have hp3 : PlainAuthorization c3 b := ⟨hp.pre, hp.post, hp.param, hp.authn, hp.method, hp.push⟩
  have hpk3 : Dict.has c3.ctx.addOn "pkce" = true → pkceMethod c3.ctx ∈ CC_METHODS := hc.pkce
  have hA3 : ArgsOk (Dict.set args "state" (.str k)) := by
    have hg : ∀ p, p ≠ "state" → Dict.get? (Dict.set args "state" (.str k)) p = Dict.get? args p :=
      fun p h => Dict.get?_set_ne _ _ (Ne.symm h)
    refine ⟨Dict.nodup_set hA.keys _ _, ?_, ?_, ?_, ?_⟩
    · rw [hg _ (by decide)]; exact hA.redirect
    · rw [hg _ (by decide)]; exact hA.scope
    · rw [hg _ (by decide)]; exact hA.responseType
    · rw [hg _ (by decide)]; exact hA.nonce
  obtain ⟨q, db, hq⟩ := construct_authorization (x := x) (c := c3) hkne (KeySpace.not_dunder hK hk)
    (fun v => KeySpace.ne_index hK hk _ v) hkr d2 hp3 hm hpk3 hA3 (Dict.get?_set_self _ _ _)
  obtain ⟨url, hurl⟩ := hc.endpoint
  have ham : ∀ c' : Client, c'.conf = c.conf → getAuthnMethod c' .authorization = .ok "" := by
    intro c' e
    have : attr c' .authorization "default_authn_method" "" = "" := by rw [attr_congr e]; exact hp.authn
    unfold getAuthnMethod
    rw [if_neg (by decide)]
    exact congrArg Except.ok this
  have hreq : ∃ info c', getRequestParameters x .authorization (Dict.set args "state" (.str k)) {} [("behaviour_args", .obj b)] c3
      = (.ok info, c') := by
    show ∃ info c', buildRequest x .authorization _ {} _ c3 = (.ok info, c')
    unfold buildRequest
    have h1 : getHeaders x .authorization q (orElse "" (attr c3 .authorization "http_method" (httpMethod .authorization))) ""
        (withIss c3 [("behaviour_args", .obj b)]) { c3 with db := db } = (.ok ([], q), { c3 with db := db }) := by
      refine getHeaders_progress (m := "") ?_ ?_ ?_ _
      · unfold usesDpop
        simp [Srv.name]
      · rw [if_pos rfl]; exact ham _ rfl
      · rfl
    have ht : targetOf .authorization [("behaviour_args", .obj b)] { c3 with db := db } = .ok url := by
      have : endpointOf { c3 with db := db } .authorization = .ok (.str url) := hurl
      unfold targetOf
      simp only [Dict.get?, List.find?]
      simp [this, asStr]
    obtain ⟨info, h2⟩ := assemble_progress (x := x) ht q (orElse "" (attr c3 .authorization "http_method" (httpMethod .authorization)))
      (orElse "" (attr c3 .authorization "request_body_type" (requestBodyType .authorization))) []
    refine ⟨info, { c3 with db := db }, ?_⟩
    rw [Py.read_bind_run, ask_bind_ok (show (if ({} : CallOpts).authnMethod = "" then getAuthnMethod c3 .authorization
      else .ok ({} : CallOpts).authnMethod) = .ok "" from by rw [if_pos rfl]; exact ham _ rfl), Py.bind_ok hq, Py.bind_ok h1]
    show ask _ _ = _
    unfold ask
    rw [h2]
  obtain ⟨info, c', hreq⟩ := hreq
  refine ⟨info.url, c', ?_⟩
  unfold initAuthorization
  rw [ask_bind_ok (by exact ha), Py.read_bind_run, hkk]
  rw [Py.bind_ok (a := k) (s' := { c with db := Dict.set c.db k (.doc (Msg.ofDict [("iss", .str c.ctx.issuer)])) })
    (by unfold onDB; rw [createState_random])]
  rw [Py.bind_ok (a := ()) (s' := { c with db := db2 }) (by unfold onDB; rw [d1]), if_neg (by simpa using hc.service),
    Py.bind_ok (a := ()) (s' := c3) (by
      show ((Except.ok (), { c with db := db2, ctx := aliasScope req c.ctx }) : Except Exc Unit × Client) = _
      rw [he]), Py.bind_ok hreq]
  rfl

/-! ## The index in histories -/

theorem removeRefs_some {κ : String} {v : DbVal} : ∀ (refs : Obj) (db : DB),
    Dict.get? (removeRefs refs db).2 κ = some v → Dict.get? db κ = some v := by
  intro refs
  induction refs with
  | nil => intro db h; exact h
  | cons p refs ih =>
    intro db h
    obtain ⟨xt, w⟩ := p
    unfold removeRefs at h
    split at h
    · split at h
      · have := ih _ h
        rw [Dict.get?_del] at this
        split at this
        · cases this
        · exact this
      · exact h
    · exact h

theorem indexOk_step (op : Op) (db : DB) (h : IndexOk db) : IndexOk (step op db).2 := by
  have hset : ∀ key st, IndexOk (Dict.set db key (.doc st)) := by
    intro key st k s
    rw [Dict.get?_set]
    split
    · simp
    · exact h k s
  cases op with
  | create iss key rnd =>
    rw [Kept.step_snd_create]
    rcases Kept.createState_cases iss key rnd db with e | e <;> rw [e]
    · exact h
    · exact hset _ _
  | store item t q =>
    rw [Kept.step_snd_store]
    unfold storeItem
    split
    · exact hset _ _
    · exact hset _ _
    · exact h
  | bind x v q =>
    rw [Kept.step_snd_bind]
    have h1 : IndexOk (Dict.set db (indexKey x v) (.raw q)) := by
      intro k s
      show Dict.get? _ (refKey k) ≠ _
      rw [Dict.get?_set_ne _ _ (indexKey_ne_refKey x v k)]
      exact h k s
    unfold storeX2State
    simp only
    split
    · intro k s
      rw [Dict.get?_set]
      split
      · simp
      · exact h1 k s
    · intro k s
      rw [Dict.get?_set]
      split
      · simp
      · exact h1 k s
    · exact h1
  | remove q =>
    rw [Kept.step_snd_remove]
    have hdel : ∀ {κ v}, Dict.get? (Dict.del db q) κ = some v → Dict.get? db κ = some v := by
      intro κ v hv
      rw [Dict.get?_del] at hv
      split at hv
      · cases hv
      · exact hv
    unfold removeState
    split
    · simp only
      split
      · intro k s hs; exact h k s (hdel hs)
      · intro k s hs; exact h k s (hdel hs)
      · intro k s hs; exact h k s (hdel (removeRefs_some _ _ hs))
    · exact h
  | item t q =>
    rw [show (step (.item t q) db).2 = db from by simp only [step]; cases getItem db t q <;> rfl]; exact h
  | issuer q =>
    rw [show (step (.issuer q) db).2 = db from by simp only [step]; cases getIss db q <;> rfl]; exact h
  | lookup x v =>
    rw [show (step (.lookup x v) db).2 = db from by simp only [step]; cases getStateByX db v x <;> rfl]; exact h

theorem indexOk_acts {P : Op → Prop} {db db' : DB} (h : Acts P db db') (hi : IndexOk db) : IndexOk db' :=
  h.invariant (I := IndexOk) (fun op d _ hd => indexOk_step op d hd) hi

theorem indexOk_run {K : String → Prop} {k n : String} (hK : KeySpace K) (hk : K k) :
    ∀ (l : List (Ext × Call)) {h : Handler}, Inv K k none h → (∀ xc ∈ l, CallOk K k xc) → FreshNonces n l h →
    (∀ i db, Dict.get? (stores h) i = some db → IndexOk db) →
    ∀ i db, Dict.get? (stores (run l h)) i = some db → IndexOk db := by
  intro l
  induction l with
  | nil => intro h _ _ _ hf; exact hf
  | cons xc l ih =>
    intro h hi hc hn hf
    refine ih (inv_exec hK hk hi xc (hc xc (by simp)) (fun _ _ _ hw => by cases hw)) (fun y hy => hc y (by simp [hy])) hn.2 ?_
    intro i db' hd
    rcases spared_exec hK hi (i := i) xc (hc xc (by simp)) hn.1 (fun _ _ _ hw => by cases hw) db' hd with ⟨db, d1, d2⟩ | ⟨_, d2⟩
    · exact indexOk_acts d2 (hf i db d1)
    · exact indexOk_acts d2 (fun k s hs => by cases hs)

/-! ## C84 -/

/-- **C84**.  The setup of the client (which may be there already) succeeds, and the client has what a login needs.  Then
`begin` succeeds, with the session value that was drawn and a URL to send the user to. -/
theorem C84_begin {K : String → Prop} (hK : KeySpace K) (x : Ext) (issuer user : String) (req b : Obj) (h g : Handler)
    (i : String) (hs : clientSetup x issuer user b h = (.ok i, g)) (c : Client) (hg : Dict.get? g.issuer2rp i = some c)
    (hc : CanBegin c) (hre : Redirects c req) (hp : PlainAuthorization c b) (hi : IndexOk c.db) (hk : K (x.rnd "init_state"))
    (hn : x.rnd "init_nonce" ≠ "") (hr : GoodArgs req) (hm : PlainMessage x) :
    ∃ url h1, begin_ x issuer user req b h = (.ok (url, x.rnd "init_state"), h1) := by
  obtain ⟨url, c', he⟩ := init_progress hK hc hre hp hi hk hn hr hm
  refine ⟨url, (onClient i (initAuthorization x req b) g).2, ?_⟩
  unfold begin_
  rw [Py.bind_ok hs]
  refine Prod.ext ?_ rfl
  unfold onClient
  rw [hg]
  simp only [he]

/-- The client after `onClient`. -/
theorem onClient_same {α : Type} {i : String} {m : Py Client α} {g : Handler} {c : Client}
    (hc : Dict.get? g.issuer2rp i = some c) : Dict.get? (onClient i m g).2.issuer2rp i = some (m c).2 := by
  have hs : Dict.get? (Dict.set g.issuer2rp i (m c).2) i = some (m c).2 := Dict.get?_set_self _ _ _
  unfold onClient
  rw [hc]
  simp only
  unfold share
  split
  · exact hs
  · split
    · simp only
      rw [Dict.get?_map, hs]
      simp only [Option.map_some, sharedClient, if_true]
    · exact hs

/-- Whoever can begin one login can begin the next. -/
theorem canBegin_alias {req b : Obj} {c c' : Client} (hc : CanBegin c) (hre : Redirects c req) (hp : PlainAuthorization c b)
    (h1 : c'.ctx = aliasScope req c.ctx) (h2 : c'.services = c.services) (h3 : c'.conf = c.conf) :
    CanBegin c' ∧ Redirects c' req ∧ PlainAuthorization c' b := by
  obtain ⟨l, hl⟩ := hc.scope
  obtain ⟨bh, e⟩ := aliasScope_setup req c.ctx
  have e : aliasScope req c.ctx = { c.ctx with behaviour := bh } := e
  have hb : (∃ l, Dict.get? bh "scope" = some (.list l)) ∧
      Dict.get? bh "response_types" = Dict.get? c.ctx.behaviour "response_types" := by
    have hbh : bh = (aliasScope req c.ctx).behaviour := by rw [e]
    rw [hbh]
    unfold aliasScope
    split
    · exact ⟨⟨l, hl⟩, rfl⟩
    · rw [hl]
      simp only
      split
      · exact ⟨⟨l, hl⟩, rfl⟩
      · exact ⟨⟨_, Dict.get?_set_self _ _ _⟩, Dict.get?_set_ne _ _ (by decide)⟩
  rw [e] at h1
  have hcf : ∀ s, confOf c' s = confOf c s := fun s => by unfold confOf; rw [h3]
  have hat : ∀ s n d, attr c' s n d = attr c s n d := fun s n d => attr_congr h3 s n d
  refine ⟨⟨?_, ?_, ?_, ?_, ?_, ?_⟩, ?_, ⟨?_, ?_, hp.param, ?_, ?_, ?_⟩⟩
  · rw [h2]; exact hc.service
  · rw [h1]; exact hc.endpoint
  · rw [h1]; simp only [hb.2]; exact hc.responseTypes
  · rw [h1]; exact hb.1
  · rw [h1]; exact hc.pkce
  · rw [h1]; exact hc.args
  · unfold Redirects AskedType
    rw [h1]
    simp only [hb.2]
    exact hre
  · rw [hcf]; exact hp.pre
  · rw [hcf]; exact hp.post
  · rw [hat]; exact hp.authn
  · rw [hat]; exact hp.method
  · rw [h1]; exact hp.push

/-- **C84**, in use.  A handler was made and any calls were made (`before`), among them the setup of the client kept as
`i`, which has what a login needs.  Then `begin` for `i` succeeds, with the session value that was drawn, however the
calls before went; the client is the one that was set up, and can begin the next login. -/
theorem C84_begin_in_use {K : String → Prop} (hK : KeySpace K) (h0 : Handler) (hnew : NewHandler h0)
    (before : List (Ext × Call)) (x : Ext) (i : String) (req b : Obj) (hne : i ≠ "")
    (hbefore : ∀ xc ∈ before, CallOk K (x.rnd "init_state") xc) (hfresh : FreshNonces (x.rnd "init_nonce") before h0)
    (c : Client) (hg : Dict.get? (run before h0).issuer2rp i = some c)
    (hc : CanBegin c) (hre : Redirects c req) (hp : PlainAuthorization c b) (hk : K (x.rnd "init_state"))
    (hn : x.rnd "init_nonce" ≠ "") (hr : GoodArgs req) (hm : PlainMessage x) :
    ∃ url h1 c', begin_ x i "" req b (run before h0) = (.ok (url, x.rnd "init_state"), h1) ∧
      Dict.get? h1.issuer2rp i = some c' ∧ c'.ctx = { c.ctx with behaviour := c'.ctx.behaviour } ∧
      c'.services = c.services ∧ c'.conf = c.conf ∧ CanBegin c' ∧ Redirects c' req ∧ PlainAuthorization c' b := by
  have hi0 : Inv K (x.rnd "init_state") none (run before h0) :=
    inv_run hK hk before (inv_new hnew.empty hnew.plain) hbefore (fun _ _ _ hw => by cases hw)
  have hidx : IndexOk c.db := by
    refine indexOk_run hK hk before (inv_new hnew.empty hnew.plain) hbefore hfresh ?_ i c.db ?_
    · intro j db hd
      rw [get?_stores, hnew.empty] at hd
      cases hd
    · rw [get?_stores, hg]; rfl
  have hs := C83_known_provider x i "" b (run before h0) hne c hg
  obtain ⟨url, c1, he⟩ := init_progress hK hc hre hp hidx hk hn hr hm
  obtain ⟨t⟩ := authTrace hK hk (hi0.plain.clients i c (Dict.get?_eq_some_mem hg)) he
  have o1 := onClient_same (m := initAuthorization x req b) hg
  rw [he] at o1
  obtain ⟨bh', e'⟩ := aliasScope_setup req c.ctx
  have e' : aliasScope req c.ctx = { c.ctx with behaviour := bh' } := e'
  refine ⟨url, (onClient i (initAuthorization x req b) (run before h0)).2, c1, ?_, o1, ?_, t.hservices, t.hconf,
    canBegin_alias hc hre hp t.hctx t.hservices t.hconf⟩
  · unfold begin_
    rw [Py.bind_ok hs]
    refine Prod.ext ?_ rfl
    unfold onClient
    rw [hg]
    simp only [he]
  · rw [t.hctx, e']

/-- **C84**, to the end.  `begin` for a client that is set up succeeds (`C84_begin_in_use`); the user is sent to the
provider; other sessions go on meanwhile, and the session itself may be
used as well (`after`).  When an honest provider's response (code flow) comes back, `finalize`
succeeds with the user's claims, the tokens and the session `begin` returned. -/
theorem C84_login {K : String → Prop} (hK : KeySpace K) (h0 : Handler) (hnew : NewHandler h0)
    (before : List (Ext × Call)) (x : Ext) (i : String) (req b : Obj) (hne : i ≠ "")
    (hbefore : ∀ xc ∈ before, CallOk K (x.rnd "init_state") xc) (hfresh : FreshNonces (x.rnd "init_nonce") before h0)
    (c : Client) (hg : Dict.get? (run before h0).issuer2rp i = some c) (hname : c.ctx.issuer = i)
    (hc : CanBegin c) (hre : Redirects c req) (hp : PlainAuthorization c b) (hk : K (x.rnd "init_state"))
    (hn : x.rnd "init_nonce" ≠ "") (hv : x.rnd "code_verifier" ≠ "") (hr : GoodArgs req) (hgiven : NoNonceGiven c req)
    (hm : PlainMessage x) (hdef : (Dict.keys (x.msg .authorization).defaults).Nodup) :
    ∃ url h1, begin_ x i "" req b (run before h0) = (.ok (url, x.rnd "init_state"), h1) ∧
      ∀ after : List (Ext × Call), (∀ xc ∈ after, CallOk K (x.rnd "init_state") xc) →
        NeverReplaced i after h1 →
        FreshNonces (x.rnd "init_nonce") after h1 →
        ∃ c' areq ver, Dict.get? (run after h1).issuer2rp i = some c' ∧
          c'.ctx = { c.ctx with behaviour := c'.ctx.behaviour } ∧ c'.services = c.services ∧ c'.conf = c.conf ∧
          Dict.get? areq "state" = some (.str (x.rnd "init_state")) ∧
          Dict.get? areq "nonce" = some (.str (x.rnd "init_nonce")) ∧
          Waiting c' i (x.rnd "init_state") areq (x.rnd "init_nonce") ver ∧
          ∀ (y : Ext) (response resp idt u b' : Obj) (t sub : String) (code ru rtv : Val),
            Equipped y c' → AsksUserinfo y c' → t ≠ "" →
            Dict.get? areq "redirect_uri" = some ru → Dict.get? areq "response_type" = some rtv →
            (IsSet (wordsOf rtv) ["code"] ∨ IsSet (wordsOf rtv) ["code", "id_token"]) →
            ParsedAs y c' response resp → Msg.isError resp = false →
            Dict.get? resp "state" = some (.str (x.rnd "init_state")) →
            Dict.get? resp "code" = some code → code ≠ .str "" ∧ code ≠ .list [.str ""] →
            (∃ r, withExpiry y resp = .ok r) → GoodIdToken idt sub →
            HonestTokens y c' code ru ver (x.rnd "init_nonce") t idt → HonestClaims y c' t sub u →
            (finalize y i response b' (run after h1)).1 =
              .ok (.done (.obj u) (.str (x.rnd "init_state")) (.str t) (.obj idt)
                ((Dict.get? resp "session_state").getD (.str ""))) := by
  obtain ⟨url, h1, c1, a1, a2, a3, a4, a5, -⟩ := C84_begin_in_use hK h0 hnew before x i req b hne hbefore hfresh c hg hc hre hp hk hn hr hm
  refine ⟨url, h1, a1, fun after f1 f3 f4 => ?_⟩
  have hname1 : NamedAfterIssuer h1 i := by
    intro c2 h2
    rw [a2] at h2
    injection h2 with h2
    rw [← h2, a3]
    exact hname
  have hgiven1 : ∀ c2, Dict.get? h1.issuer2rp i = some c2 → NoNonceGiven c2 req := by
    intro c2 h2
    rw [a2] at h2
    injection h2 with h2
    refine ⟨hgiven.1, ?_⟩
    rw [← h2, a3]
    exact hgiven.2
  have hs := C83_known_provider x i "" b (run before h0) hne c hg
  obtain ⟨c2, c', areq, ver, b1, b2, b3, b4, b5, b6, b7, _, b9⟩ := C81_waits_among_others hK h0 hnew before x i "" req b url
    (x.rnd "init_state") h1 hbefore hk hv hn ⟨hdef, hm.2⟩ a1 i (by rw [hs]) hne hname1 hgiven1 after f1 f3 ⟨hfresh, f4⟩
  rw [a2] at b1
  injection b1 with b1
  subst b1
  refine ⟨c', areq, ver, b2, by rw [b3, a3], b4.trans a4, b5.trans a5, b6, b7, b9, ?_⟩
  intro y response resp idt u b' t sub code ru rtv g1 g2 g3 g4 g5 g6 g7 g8 g9 g10 g11 g12 g13 g14 g15
  obtain ⟨_, _, _, _, _, r3, _⟩ := C81_code_login hK y i response b' (run after h1) c' b2 (by rw [b4, a4]; exact hc.service) g1 g2
    (x.rnd "init_state") (x.rnd "init_nonce") t sub hk g3 areq resp idt u code ru ver rtv b9 g4 g5 g6 g7 g8 g9 g10 g11 g12 g13 g14 g15
  exact r3

/-! ## Non-vacuity -/

/-- The client of the small world after a first login. -/
def readyClient : Client := (Dict.get? (run earlier World.handler).issuer2rp "https://op.example").getD default

theorem ready_kept : Dict.get? (run earlier World.handler).issuer2rp "https://op.example" = some readyClient := by rfl

theorem goodArgs_nil : GoodArgs [] := by
  refine ⟨by simp [Dict.keys], ?_, ?_, ?_⟩ <;> · intro v hv; cases hv

theorem ready_can : CanBegin readyClient := by
  refine ⟨by decide, ⟨"https://op.example/auth", by rfl⟩, ⟨"code", [], by rfl, by decide⟩, ⟨[.str "openid"], by rfl⟩,
    fun h => ?_, ?_⟩
  · cases h
  · have : confObj readyClient.ctx.config "request_args" = [] := by rfl
    rw [this]
    exact goodArgs_nil

theorem ready_plain : PlainAuthorization readyClient [] := ⟨by rfl, by rfl, by rfl, by rfl, by rfl, by rfl⟩

/-- Non-vacuity: the second login at the small world's provider is begun; the application asks for another scope. -/
example : ∃ url h1 c', begin_ (World.ext 1000 World.s1 "n1" "") "https://op.example" ""
      [("scope", .list [.str "email"]), ("prompt", .str "login")] [] (run earlier World.handler) = (.ok (url, World.s1), h1) ∧
    Dict.get? h1.issuer2rp "https://op.example" = some c' ∧ CanBegin c' := by
  obtain ⟨url, h1, c', a1, a2, _, _, _, a6, _⟩ := C84_begin_in_use C10_generated_keys_are_safe World.handler newWorld earlier
    (World.ext 1000 World.s1 "n1" "") "https://op.example" [("scope", .list [.str "email"]), ("prompt", .str "login")] []
    (by decide) earlier_ok earlier_fresh readyClient ready_kept ready_can (Or.inr (Or.inl (by decide))) ready_plain gen_s1 (by decide)
    ⟨by decide, (by intro v hv; injection hv with hv; exact ⟨_, hv.symm⟩), (by intro v hv; cases hv), (by intro v hv; cases hv)⟩
    ⟨by decide, by decide⟩
  exact ⟨url, h1, c', a1, a2, a6⟩

/-- Non-vacuity: and brought to its end, with another session in between; the provider's answers are those of the world
(`Props/Honest.lean` shows that they are honest). -/
example : ∃ url h1, begin_ (World.ext 1000 World.s1 "n1" "") "https://op.example" "" [] [] (run earlier World.handler)
      = (.ok (url, World.s1), h1) ∧
    ∃ c' areq ver, Dict.get? (run otherCalls h1).issuer2rp "https://op.example" = some c' ∧
      Waiting c' "https://op.example" World.s1 areq "n1" ver := by
  obtain ⟨url, h1, a1, a2⟩ := C84_login C10_generated_keys_are_safe World.handler newWorld earlier
    (World.ext 1000 World.s1 "n1" "") "https://op.example" [] [] (by decide) earlier_ok earlier_fresh readyClient ready_kept (by rfl)
    ready_can (Or.inr (Or.inl (by decide))) ready_plain gen_s1 (by decide) (by decide) goodArgs_nil ⟨rfl, by rfl⟩ ⟨by decide, by decide⟩ (by decide)
  refine ⟨url, h1, a1, ?_⟩
  have e : h1 = inFlight := (congrArg Prod.snd a1).symm
  obtain ⟨c', areq, ver, b1, _, _, _, _, _, b7, _⟩ := a2 otherCalls otherCalls_ok
    (by rw [e]; exact ⟨fun _ => rfl, trivial, trivial, trivial, trivial, trivial⟩) (by rw [e]; exact otherCalls_fresh)
  exact ⟨c', areq, ver, b1, b7⟩

/-- What is assumed is needed: scopes given as one text that does not have `openid` in it are not understood. -/
example : (begin_ (World.ext 1000 World.s1 "n1" "") "https://op.example" "" [("scope", .str "email")] []
    (run earlier World.handler)).1 = .error .attributeError := by rfl

end Verif.Props
