import Verif.Props.Ready
/-!
# C85: a client can be set up and used
-/

namespace Verif.Props
open Verif Verif.Service Verif.Handler Verif.StateInterface Verif.Spec.Session Verif.Spec.HandlerView Verif.Spec.Wire
open Verif.Spec.Discovery
open Verif.Spec.Store (KeySpace)
open Verif.Spec.InFlight

/-! ## Specification -/

/-- The provider with metadata `m` supports the value `s` of the client preference `pref`: it lists it under `prov`, or
publishes no list and `s` is the default, if the specification has one. -/
def Supports (m : Obj) (pref prov s : String) : Prop :=
  (∃ l, Dict.get? m prov = some (.list l) ∧ .str s ∈ l) ∨
  (Dict.get? m prov = none ∧ ∀ d, Dict.get? Discovery.PROVIDER_DEFAULT pref = some d → d = .str s)

/-- The preferences of a client and the metadata of a provider go together. -/
structure Compatible (kind : String → Option Bool) (prefs m : Obj) : Prop where
  /-- preferences are texts or lists of texts -/
  texts : ∀ pref prov, (pref, prov) ∈ Discovery.PREFERENCE2PROVIDER → ∀ v, Dict.get? prefs pref = some v →
    (∃ s, v = .str s) ∨ ∃ l : List String, v = .list (l.map .str)
  /-- what the provider supports is published as lists -/
  lists : ∀ pref prov, (pref, prov) ∈ Discovery.PREFERENCE2PROVIDER → ∀ v, Dict.get? m prov = some v → ∃ l, v = .list l
  /-- a single preferred value is supported -/
  single : ∀ pref prov, (pref, prov) ∈ Discovery.PREFERENCE2PROVIDER → ∀ s, Dict.get? prefs pref = some (.str s) →
    Supports m pref prov s
  /-- of a list for a parameter that has one value, one is supported -/
  one : ∀ pref prov, (pref, prov) ∈ Discovery.PREFERENCE2PROVIDER → kind pref = some false → ∀ l,
    Dict.get? prefs pref = some (.list l) → ∃ s, .str s ∈ l ∧ Supports m pref prov s
  /-- parameters with one value have one -/
  rest : ∀ k v, (k, v) ∈ prefs → kind k = some false → v ≠ .list []

/-- The response types the client will ask for are known: negotiated with the provider or else fixed in the configured
behaviour. -/
def HasResponseTypes (prefs behaviour m : Obj) : Prop :=
  (∃ l : List String, Dict.get? prefs "response_types" = some (.list (l.map .str)) ∧ (∀ s ∈ l, s ≠ "") ∧
    ∃ s ∈ l, Supports m "response_types" "response_types_supported" s) ∨
  (Dict.get? prefs "response_types" = none ∧
    ∃ t ts, Dict.get? behaviour "response_types" = some (.list (.str t :: ts)) ∧ t ≠ "")

/-- The scopes are known as a list. -/
def HasScopes (prefs behaviour : Obj) : Prop :=
  (∃ l, Dict.get? prefs "scope" = some (.list l)) ∨
  (Dict.get? prefs "scope" = none ∧ ∃ l, Dict.get? behaviour "scope" = some (.list l))

/-- The client gets the metadata `m` of the provider, whose issuer is `i`. -/
inductive Metadata (x : Ext) (cc : ClientConf) (m : Obj) (i : String) : Prop
  /-- The metadata is configured, and so is what to ask for; nothing is negotiated. -/
  | configured : Dict.get? cc.config "provider_info" = some (.obj m) →
      (∀ v, Dict.get? m "keys" = some v → ∃ o, v = .obj o ∧ ∀ p ∈ o, p.1 = "url" ∨ p.1 = "file") →
      HasResponseTypes [] (confObj cc.config "behaviour") m → HasScopes [] (confObj cc.config "behaviour") → Metadata x cc m i
  /-- The provider publishes it, and honestly. -/
  | published (issuer iss : String) : (∀ pi, Dict.get? cc.config "provider_info" = some (.obj pi) → pi = []) →
      .providerInfo ∈ cc.services → Configured cc "issuer" issuer → LooksAt cc issuer iss → SameIssuer i iss →
      Msg.isError m = false →
      (∀ log s, AsksMetadata iss s → ∃ rt, x.http log s = .ok rt ∧
        ∀ c : Client, c.conf = cc.srvConf → ∃ p, Understood x c .providerInfo rt p m) →
      Compatible x.regKind (confObj cc.config "client_preferences") m →
      x.regKind "response_types" ≠ some false → x.regKind "scope" ≠ some false →
      HasResponseTypes (confObj cc.config "client_preferences") (confObj cc.config "behaviour") m →
      HasScopes (confObj cc.config "client_preferences") (confObj cc.config "behaviour") → Metadata x cc m i

/-- The client gets an identity: the configuration has one, or the provider registers the client. -/
inductive Identity (x : Ext) (cc : ClientConf) (m : Obj) (cid : String) : Prop
  | configured : Dict.get? cc.config "client_id" = some (.str cid) → Identity x cc m cid
  | registered (url : String) (v : Obj) : Configured cc "client_id" "" → .registration ∈ cc.services →
      Dict.get? m "registration_endpoint" = some (.str url) →
      (∀ t, Dict.get? (registrationConf cc) "default_authn_method" ≠ some (.str t)) →
      Dict.get? v "client_id" = some (.str cid) → Msg.isError v = false →
      (∀ log s req, s.srv = .registration → Carries x s url req → ∃ rt, x.http log s = .ok rt ∧
        ∀ c : Client, c.conf = cc.srvConf → ∃ p, Understood x c .registration rt p v) → Identity x cc m cid

/-- The PKCE method is a known one. -/
def KnownPkce (addOn : Obj) : Prop :=
  ∀ o s, Dict.get? addOn "pkce" = some (.obj o) → Dict.get? o "code_challenge_method" = some (.str s) → s ∈ ["S256", "S384", "S512"]

/-- The application can be sent back to: redirect URIs are configured. -/
def ConfiguredRedirect (cc : ClientConf) : Prop := ∃ u us, Dict.get? cc.config "redirect_uris" = some (.list (.str u :: us))

/-- The handler makes the redirect URI for the code flow: the client is registered dynamically, wants `code` and nobody gave
redirect URIs to register. -/
structure GeneratedCallback (cc : ClientConf) (b : Obj) : Prop where
  unregistered : Configured cc "client_id" ""
  code : ∃ l, Dict.get? (confObj cc.config "client_preferences") "response_types" = some (.list l) ∧ .str "code" ∈ l
  given : Dict.get? b "redirect_uris" = none
  behaviour : Dict.get? (confObj cc.config "behaviour") "redirect_uris" = none
  preference : Dict.get? (confObj cc.config "client_preferences") "redirect_uris" = none

/-- The request is one of the code flow, answered in the query. -/
def AsksCode (req : Obj) : Prop :=
  Dict.get? req "response_type" = some (.str "code") ∧ Dict.get? req "response_mode" ≠ some (.str "form_post")

/-! ## Steps -/

theorem doRequest_progress' {x : Ext} {c : Client} {srv : Srv} {args : Obj} {o : CallOpts} {kwargs : Obj} {rt : HttpResp} {p v m : Obj}
    {info : ReqInfo} {c1 c2 : Client} (hs : srv ∈ c.services) (ho : o.responseBodyType = "") (hcf : c1.conf = c.conf)
    (hg : getRequestParameters x srv args o kwargs c = (.ok info, c1))
    (hh : x.http c1.log (sentFor srv info) = .ok rt) (hu : Understood x c1 srv rt p v)
    (hpost : postParse x srv v (stateOf kwargs) { c1 with log := c1.log ++ [sentFor srv info] } = (.ok m, c2)) (hm : m ≠ [])
    (he : Msg.isError m = false) :
    doRequest x srv args o kwargs c =
      match updateMsg x srv m (stateOf kwargs) c2 with
      | (.ok o', c3) => (.ok (.msg o'), c3)
      | (.error e, c3) => (.error e, c3) := by
  unfold doRequest
  rw [Py.read_bind_run, if_neg (by simpa using hs), Py.bind_ok hg, ho]
  unfold serviceRequest
  have hor : ∀ t : String, orElse "" t = t := fun _ => rfl
  rw [hor, ← attr_congr hcf]
  have hgr := getResponse_progress hh hu hpost hm
  rw [Py.bind_ok hgr]
  rw [if_neg (by simp [Resp.isError, he])]
  simp only [Service.update, Py.bind_run]
  rcases updateMsg x srv m (stateOf kwargs) c2 with ⟨r, c3⟩
  cases r <;> rfl

/-! ### Negotiation -/

theorem contains_self (s : String) : Str.contains s s = true := by
  unfold Str.contains
  cases s.toList with
  | nil => rfl
  | cons c l => simp [Str.containsL]

theorem inVal_text (s : String) (v : Val) (h : (∃ l, v = .list l) ∨ ∃ t, v = .str t) : ∃ b, Discovery.inVal (.str s) v = .ok b := by
  rcases h with ⟨l, rfl⟩ | ⟨t, rfl⟩ <;> exact ⟨_, rfl⟩

theorem supportedOnly_texts (v : Val) (h : (∃ l, v = .list l) ∨ ∃ t, v = .str t) :
    ∀ l : List String, ∃ r, Discovery.supportedOnly v (l.map .str) = .ok r ∧ (∀ e ∈ r, ∃ s ∈ l, e = .str s) ∧
      ∀ s ∈ l, Discovery.inVal (.str s) v = .ok true → .str s ∈ r := by
  intro l
  induction l with
  | nil => exact ⟨[], rfl, by simp, by simp⟩
  | cons s l ih =>
    obtain ⟨r, h1, h2, h3⟩ := ih
    obtain ⟨b, hb⟩ := inVal_text s v h
    refine ⟨if b then .str s :: r else r, ?_, ?_, ?_⟩
    · simp only [List.map_cons, Discovery.supportedOnly, hb, h1]
    · intro e he
      cases b with
      | false => obtain ⟨t, ht, rfl⟩ := h2 e he; exact ⟨t, List.mem_cons_of_mem _ ht, rfl⟩
      | true =>
        rcases List.mem_cons.1 he with rfl | he
        · exact ⟨s, List.mem_cons_self .., rfl⟩
        · obtain ⟨t, ht, rfl⟩ := h2 e he; exact ⟨t, List.mem_cons_of_mem _ ht, rfl⟩
    · intro t ht hi
      rcases List.mem_cons.1 ht with rfl | ht
      · rw [hb] at hi
        injection hi with hi
        subst hi
        simp
      · have := h3 t ht hi
        split
        · exact List.mem_cons_of_mem _ this
        · exact this

theorem firstSupported_texts (v : Val) (h : (∃ l, v = .list l) ∨ ∃ t, v = .str t) :
    ∀ l : List String, (∃ s ∈ l, Discovery.inVal (.str s) v = .ok true) → ∃ w, Discovery.firstSupported v (l.map .str) = .ok (some w) := by
  intro l
  induction l with
  | nil => rintro ⟨s, hs, _⟩; cases hs
  | cons t l ih =>
    rintro ⟨s, hs, hi⟩
    simp only [List.map_cons, Discovery.firstSupported]
    obtain ⟨b, hb⟩ := inVal_text t v h
    rw [hb]
    cases b with
    | true => exact ⟨_, rfl⟩
    | false =>
      rcases List.mem_cons.1 hs with rfl | hs
      · rw [hb] at hi; cases hi
      · exact ih ⟨s, hs, hi⟩

theorem providerVals_form {kind : String → Option Bool} {prefs m : Obj} (h : Compatible kind prefs m) {pref prov : String}
    (hp : (pref, prov) ∈ Discovery.PREFERENCE2PROVIDER) {vals : Val} (hv : Dict.get? prefs pref = some vals) :
    (∃ l, Discovery.providerVals m pref prov vals = .list l) ∨ ∃ t, Discovery.providerVals m pref prov vals = .str t := by
  unfold Discovery.providerVals
  cases hm : Dict.get? m prov with
  | some p => obtain ⟨l, rfl⟩ := h.lists pref prov hp p hm; exact Or.inl ⟨l, rfl⟩
  | none =>
    simp only
    cases hd : Dict.get? Discovery.PROVIDER_DEFAULT pref with
    | some d =>
      right
      have := Dict.get?_eq_some_mem hd
      simp only [Discovery.PROVIDER_DEFAULT, List.mem_cons, List.not_mem_nil, or_false, Prod.mk.injEq] at this
      rcases this with ⟨_, rfl⟩ | ⟨_, rfl⟩ <;> exact ⟨_, rfl⟩
    | none =>
      rcases h.texts pref prov hp vals hv with ⟨s, rfl⟩ | ⟨l, rfl⟩
      · exact Or.inr ⟨s, rfl⟩
      · exact Or.inl ⟨_, rfl⟩

/-- A supported value is in what the provider is taken to support. -/
theorem supports_in {m : Obj} {pref prov s : String} (h : Supports m pref prov s) {vals : Val}
    (hv : vals = .str s ∨ ∃ l, vals = .list l ∧ .str s ∈ l) : Discovery.inVal (.str s) (Discovery.providerVals m pref prov vals) = .ok true := by
  unfold Discovery.providerVals
  rcases h with ⟨l, hl, hs⟩ | ⟨hn, hd⟩
  · rw [hl]
    simp [Discovery.inVal, hs]
  · rw [hn]
    simp only
    cases hdd : Dict.get? Discovery.PROVIDER_DEFAULT pref with
    | some d =>
      rw [hd d hdd]
      simp [Discovery.inVal, contains_self]
    | none =>
      rcases hv with rfl | ⟨l, rfl, hl⟩
      · simp [Discovery.inVal, contains_self]
      · simp [Discovery.inVal, hl]

theorem matchOne_progress {kind : String → Option Bool} {prefs m : Obj} (h : Compatible kind prefs m) {pref prov : String}
    (hp : (pref, prov) ∈ Discovery.PREFERENCE2PROVIDER) {vals : Val} (hv : Dict.get? prefs pref = some vals) :
    ∃ w, Discovery.matchOne (kind pref) vals (Discovery.providerVals m pref prov vals) = .ok (some w) := by
  rcases h.texts pref prov hp vals hv with ⟨s, rfl⟩ | ⟨l, rfl⟩
  · have := supports_in (h.single pref prov hp s hv) (vals := .str s) (Or.inl rfl)
    exact ⟨.str s, by simp [Discovery.matchOne, this, Except.map]⟩
  · have hf := providerVals_form h hp hv
    obtain ⟨r, hr, -, -⟩ := supportedOnly_texts _ hf l
    unfold Discovery.matchOne
    simp only
    cases hk : kind pref with
    | none => exact ⟨.list r, by simp [hr, Except.map]⟩
    | some b =>
      cases b with
      | true => exact ⟨.list r, by simp [Discovery.iterVal, hr, Except.map]⟩
      | false =>
        simp only [Discovery.iterVal]
        obtain ⟨s, hs, hsup⟩ := h.one pref prov hp hk _ hv
        refine firstSupported_texts _ hf l ⟨s, ?_, supports_in hsup (Or.inr ⟨_, rfl, hs⟩)⟩
        simpa using hs

theorem matchLoop_progress {kind : String → Option Bool} {prefs m : Obj} (h : Compatible kind prefs m) :
    ∀ (l : List (String × String)) (b : Obj), (∀ q ∈ l, q ∈ Discovery.PREFERENCE2PROVIDER) →
      ∃ b', Discovery.matchLoop kind prefs m l b = (.ok (), b') := by
  intro l
  induction l with
  | nil => intro b _; exact ⟨b, rfl⟩
  | cons q l ih =>
    intro b hl
    obtain ⟨pref, prov⟩ := q
    have ih := fun b => ih b (fun q hq => hl q (List.mem_cons_of_mem _ hq))
    unfold Discovery.matchLoop
    cases hv : Dict.get? prefs pref with
    | none => exact ih b
    | some vals =>
      obtain ⟨w, hw⟩ := matchOne_progress h (hl _ (List.mem_cons_self ..)) hv
      simp only [hw]
      rw [if_pos (by simp [Discovery.setOpt, Dict.has_eq, Dict.get?_set_self])]
      exact ih _

/-- What the client has no preference for stays. -/
theorem matchLoop_absent (kind : String → Option Bool) (prefs m : Obj) (k : String) (hk : Dict.get? prefs k = none) :
    ∀ (l : List (String × String)) (b : Obj), Dict.get? (Discovery.matchLoop kind prefs m l b).2 k = Dict.get? b k := by
  intro l
  induction l with
  | nil => intro b; rfl
  | cons q l ih =>
    intro b
    obtain ⟨pref, prov⟩ := q
    unfold Discovery.matchLoop
    split
    · exact ih b
    · next vals hv =>
      have hne : pref ≠ k := fun e => by rw [e, hk] at hv; cases hv
      have hset : ∀ r, Dict.get? (Discovery.setOpt b pref r) k = Dict.get? b k := by
        intro r
        cases r with
        | none => rfl
        | some w => exact Dict.get?_set_ne _ _ hne
      split
      · rfl
      · split
        · rw [ih]; exact hset _
        · exact hset _

theorem restLoop_progress {kind : String → Option Bool} :
    ∀ (l : Obj) (b : Obj), (∀ k v, (k, v) ∈ l → kind k = some false → v ≠ .list []) →
      ∃ b', Discovery.restLoop kind l b = (.ok (), b') := by
  intro l
  induction l with
  | nil => intro b _; exact ⟨b, rfl⟩
  | cons q l ih =>
    intro b hl
    obtain ⟨key, val⟩ := q
    have ih := fun b => ih b (fun k v hq => hl k v (List.mem_cons_of_mem _ hq))
    unfold Discovery.restLoop
    split
    · exact ih b
    · have : ∃ v, Discovery.plainValue (kind key) val = .ok v := by
        unfold Discovery.plainValue
        split
        · exact ⟨_, rfl⟩
        · next h1 => exact absurd rfl (hl _ _ (List.mem_cons_self ..) h1)
        · exact ⟨_, rfl⟩
      obtain ⟨v, hv⟩ := this
      rw [hv]
      exact ih _

/-- What is not negotiated and has no preference is not added. -/
theorem restLoop_negotiated {kind : String → Option Bool} (k : String) (hk : k ∈ Discovery.PREFERENCE2PROVIDER.map Prod.fst) :
    ∀ (l : Obj) (b : Obj), Dict.get? (Discovery.restLoop kind l b).2 k = Dict.get? b k := by
  intro l
  induction l with
  | nil => intro b; rfl
  | cons q l ih =>
    intro b
    obtain ⟨key, val⟩ := q
    unfold Discovery.restLoop
    split
    · exact ih b
    · split
      · rfl
      · rw [ih]
        split
        · rfl
        · next hn =>
          exact Dict.get?_set_ne _ _ (fun e => hn (e ▸ hk))

theorem restLoop_absent (kind : String → Option Bool) (k : String) :
    ∀ (l : Obj) (b : Obj), Dict.get? l k = none → Dict.get? (Discovery.restLoop kind l b).2 k = Dict.get? b k := by
  intro l
  induction l with
  | nil => intro b _; rfl
  | cons q l ih =>
    intro b hk
    obtain ⟨key, val⟩ := q
    rw [Dict.get?_cons] at hk
    split at hk
    · cases hk
    · next hne =>
      have ih := fun b => ih b hk
      unfold Discovery.restLoop
      split
      · exact ih b
      · split
        · rfl
        · rw [ih]
          split
          · rfl
          · exact Dict.get?_set_ne _ _ (fun e => hne (by simp [e]))

/-- The outcome of the negotiation. -/
theorem matchPreferences_progress {kind : String → Option Bool} {m : Obj} {ctx : Ctx} (hm : m ≠ []) (h : Compatible kind ctx.clientPreferences m)
    (h1 : kind "response_types" ≠ some false) (h2 : kind "scope" ≠ some false)
    (h3 : HasResponseTypes ctx.clientPreferences ctx.behaviour m) (h4 : HasScopes ctx.clientPreferences ctx.behaviour) :
    ∃ b, Discovery.matchPreferences kind m ctx = (.ok (), { ctx with behaviour := b }) ∧
      (∃ t ts, Dict.get? b "response_types" = some (.list (.str t :: ts)) ∧ t ≠ "") ∧ (∃ l, Dict.get? b "scope" = some (.list l)) ∧
      ∀ k, Dict.get? ctx.clientPreferences k = none → Dict.get? b k = Dict.get? ctx.behaviour k := by
  obtain ⟨b1, e1⟩ := matchLoop_progress h Discovery.PREFERENCE2PROVIDER ctx.behaviour (fun _ hq => hq)
  obtain ⟨b2, e2⟩ := restLoop_progress (kind := kind) ctx.clientPreferences b1 h.rest
  have hemp : m.isEmpty = false := by cases m with | nil => exact absurd rfl hm | cons => rfl
  refine ⟨b2, ?_, ?_, ?_, ?_⟩
  · unfold Discovery.matchPreferences
    simp only [hemp, Bool.false_eq_true, if_false]
    rw [e1]
    simp only [e2]
  · have hk : Dict.get? b2 "response_types" = Dict.get? b1 "response_types" := by
      have := restLoop_negotiated (kind := kind) "response_types" (by decide +kernel) ctx.clientPreferences b1
      rw [e2] at this; exact this
    rw [hk]
    rcases h3 with ⟨l, hl, hne, s, hs, hsup⟩ | ⟨hn, t, ts, ht, htn⟩
    · obtain ⟨r, hr, v, hv, hor⟩ := Discovery.matchLoop_get kind ctx.clientPreferences m "response_types" "response_types_supported" _ hl
        Discovery.PREFERENCE2PROVIDER ctx.behaviour b1 Discovery.p2p_nodup (by decide +kernel) e1
      obtain ⟨q, hq, hq1, hq2⟩ := supportedOnly_texts _ (providerVals_form h (prov := "response_types_supported") (by decide +kernel) hl) l
      have hres : r = some (.list q) := by
        unfold Discovery.matchOne at hr
        simp only at hr
        cases hkk : kind "response_types" with
        | none => rw [hkk] at hr; simp only [hq, Except.map] at hr; exact (Except.ok.inj hr).symm
        | some b =>
          cases b with
          | false => exact absurd hkk h1
          | true => rw [hkk] at hr; simp only [Discovery.iterVal, hq, Except.map] at hr; exact (Except.ok.inj hr).symm
      subst hres
      rcases hor with hor | ⟨hor, _⟩
      · cases hor
        have hin := hq2 s hs (supports_in hsup (Or.inr ⟨_, rfl, List.mem_map_of_mem hs⟩))
        cases q with
        | nil => cases hin
        | cons e q =>
          obtain ⟨t, ht, rfl⟩ := hq1 e (List.mem_cons_self ..)
          exact ⟨t, q, hv, hne t ht⟩
      · cases hor
    · have := matchLoop_absent kind ctx.clientPreferences m "response_types" hn Discovery.PREFERENCE2PROVIDER ctx.behaviour
      rw [e1] at this
      exact ⟨t, ts, this.trans ht, htn⟩
  · have hk : Dict.get? b2 "scope" = Dict.get? b1 "scope" := by
      have := restLoop_negotiated (kind := kind) "scope" (by decide +kernel) ctx.clientPreferences b1
      rw [e2] at this; exact this
    rw [hk]
    rcases h4 with ⟨l0, hl0⟩ | ⟨hn, l, hl⟩
    · have : ∃ l : List String, l0 = l.map .str := by
        rcases h.texts "scope" "scopes_supported" (by decide +kernel) _ hl0 with ⟨s, hs⟩ | ⟨l, hl⟩
        · cases hs
        · injection hl with hl; exact ⟨l, hl⟩
      obtain ⟨l, rfl⟩ := this
      obtain ⟨r, hr, v, hv, hor⟩ := Discovery.matchLoop_get kind ctx.clientPreferences m "scope" "scopes_supported" _ hl0
        Discovery.PREFERENCE2PROVIDER ctx.behaviour b1 Discovery.p2p_nodup (by decide +kernel) e1
      obtain ⟨q, hq, -, -⟩ := supportedOnly_texts _ (providerVals_form h (prov := "scopes_supported") (by decide +kernel) hl0) l
      have hres : r = some (.list q) := by
        unfold Discovery.matchOne at hr
        simp only at hr
        cases hkk : kind "scope" with
        | none => rw [hkk] at hr; simp only [hq, Except.map] at hr; exact (Except.ok.inj hr).symm
        | some b =>
          cases b with
          | false => exact absurd hkk h2
          | true => rw [hkk] at hr; simp only [Discovery.iterVal, hq, Except.map] at hr; exact (Except.ok.inj hr).symm
      subst hres
      rcases hor with hor | ⟨hor, _⟩
      · cases hor; exact ⟨q, hv⟩
      · cases hor
    · have := matchLoop_absent kind ctx.clientPreferences m "scope" hn Discovery.PREFERENCE2PROVIDER ctx.behaviour
      rw [e1] at this
      exact ⟨l, this.trans hl⟩
  · intro k hk
    have r1 := matchLoop_absent kind ctx.clientPreferences m k hk Discovery.PREFERENCE2PROVIDER ctx.behaviour
    have r2 := restLoop_absent kind k ctx.clientPreferences b1 hk
    rw [e1] at r1
    rw [e2] at r2
    exact r2.trans r1

/-! ### Metadata -/

theorem isSome_nil {k : String} {v : Val} {m : Obj} (h : Dict.get? m k = some v) : m ≠ [] := by
  rintro rfl; cases h

/-- The provider's metadata is asked for, answered and taken in. -/
theorem dynamic_progress {x : Ext} {c : Client} {m : Obj} {i iss : String} (hsrv : .providerInfo ∈ c.services)
    (hempty : c.ctx.providerInfo = []) (hend : c.ctx.endpoints = [])
    (hiss : (discoveryUrl c.ctx).issuer = iss) (hi : Dict.get? m "issuer" = some (.str i)) (hsame : SameIssuer i iss)
    (herr : Msg.isError m = false)
    (hans : ∀ log s, AsksMetadata iss s → ∃ rt, x.http log s = .ok rt ∧
        ∀ d : Client, d.conf = c.conf → ∃ p, Understood x d .providerInfo rt p m)
    (hcomp : Compatible x.regKind c.ctx.clientPreferences m)
    (h1 : x.regKind "response_types" ≠ some false) (h2 : x.regKind "scope" ≠ some false)
    (h3 : HasResponseTypes c.ctx.clientPreferences c.ctx.behaviour m) (h4 : HasScopes c.ctx.clientPreferences c.ctx.behaviour) :
    ∃ s j kl b, doProviderInfo x c = (.ok i, { c with log := c.log ++ [s], ctx := { c.ctx with
        issuer := j, providerInfo := m, endpoints := Discovery.setEndpoints c.services m [], keyLoads := kl, behaviour := b } }) ∧
      AsksMetadata iss s ∧
      (∃ t ts, Dict.get? b "response_types" = some (.list (.str t :: ts)) ∧ t ≠ "") ∧ (∃ l, Dict.get? b "scope" = some (.list l)) ∧
      ∀ k, Dict.get? c.ctx.clientPreferences k = none → Dict.get? b k = Dict.get? c.ctx.behaviour k := by
  obtain ⟨iss', hctx⟩ := (looksAt_discoveryUrl (ctx := c.ctx) (cc := { config := c.ctx.config }) rfl).2
  have hiss' : iss' = iss := by rw [← hiss, hctx]
  subst hiss'
  let c0 : Client := { c with ctx := { c.ctx with issuer := iss' } }
  let info : ReqInfo := { url := Discovery.getEndpoint c0.ctx, method := "GET" }
  have hs : AsksMetadata iss' (sentFor .providerInfo info) := asksMetadata_endpoint c0.ctx _ rfl rfl rfl rfl
  obtain ⟨rt, hrt, hu⟩ := hans c.log _ hs
  obtain ⟨p, hp⟩ := hu c0 rfl
  have hacc : ∃ j, Discovery.acceptedIssuer c0.ctx m = .ok j := by
    unfold Discovery.acceptedIssuer Discovery.verifyIssuer
    rw [hi]
    simp only
    split
    · exact ⟨_, rfl⟩
    · rw [if_neg (by simpa using (Discovery.adaptIssuer_eq_iff i iss').2 hsame)]
      exact ⟨_, rfl⟩
  obtain ⟨j, hj⟩ := hacc
  obtain ⟨b, hb, hb1, hb2, hb3⟩ := matchPreferences_progress (kind := x.regKind) (m := m) (ctx := { c0.ctx with
      issuer := j, providerInfo := m, endpoints := Discovery.setEndpoints c.services m c0.ctx.endpoints,
      keyLoads := Discovery.loadKeys j m c0.ctx.keyLoads }) (isSome_nil hi) hcomp h1 h2 h3 h4
  have hreq := doRequest_progress' (x := x) (c := c0) (srv := .providerInfo) (args := []) (o := {}) (kwargs := []) (c1 := c0)
    (rt := rt) (p := p) (v := m) (m := m) (info := info) (c2 := { c0 with log := c.log ++ [sentFor .providerInfo info] })
    hsrv rfl rfl rfl hrt hp rfl (isSome_nil hi) herr
  have hup : updateMsg x .providerInfo m (stateOf []) { c0 with log := c.log ++ [sentFor .providerInfo info] } =
      (.ok m, { c with log := c.log ++ [sentFor .providerInfo info], ctx := { c.ctx with
        issuer := j, providerInfo := m, endpoints := Discovery.setEndpoints c.services m [],
        keyLoads := Discovery.loadKeys j m c0.ctx.keyLoads, behaviour := b } }) := by
    simp only [updateMsg]
    rw [Py.read_bind_run]
    rw [Py.bind_ok (a := ()) (s' := { c with log := c.log ++ [sentFor .providerInfo info], ctx := { c.ctx with
        issuer := j, providerInfo := m, endpoints := Discovery.setEndpoints c.services m [],
        keyLoads := Discovery.loadKeys j m c0.ctx.keyLoads, behaviour := b } })]
    · rfl
    · have : Discovery.update x.regKind c.services m c0.ctx = (.ok (), { c.ctx with
          issuer := j, providerInfo := m, endpoints := Discovery.setEndpoints c.services m [],
          keyLoads := Discovery.loadKeys j m c0.ctx.keyLoads, behaviour := b }) := by
        unfold Discovery.update Discovery.updateBase
        rw [hj]
        simp only
        rw [hb]
        show (Except.ok (), _) = _
        rw [show c0.ctx.endpoints = [] from hend]
      unfold onCtx
      show ((Discovery.update x.regKind c.services m c0.ctx).1, _) = _
      simp only
      rw [show ({ c0 with log := c.log ++ [sentFor .providerInfo info] } : Client).ctx = c0.ctx from rfl,
        show ({ c0 with log := c.log ++ [sentFor .providerInfo info] } : Client).services = c.services from rfl, this]
  rw [hup] at hreq
  refine ⟨sentFor .providerInfo info, j, Discovery.loadKeys j m c0.ctx.keyLoads, b, ?_, hs, hb1, hb2, hb3⟩
  unfold doProviderInfo
  rw [Py.read_bind_run, if_pos (by rw [hempty]; rfl)]
  have hdyn : dynamicDiscovery x c = (.ok (), { c with log := c.log ++ [sentFor .providerInfo info], ctx := { c.ctx with
        issuer := j, providerInfo := m, endpoints := Discovery.setEndpoints c.services m [],
        keyLoads := Discovery.loadKeys j m c0.ctx.keyLoads, behaviour := b } }) := by
    unfold dynamicDiscovery
    rw [Py.bind_ok (a := ()) (s' := c0)]
    · rw [Py.bind_ok hreq]
      simp only [refuseError, Resp.isError, herr]
      rfl
    · show (Except.ok (), { c with ctx := discoveryUrl c.ctx }) = _
      rw [hctx]
  rw [Py.bind_ok hdyn]
  rw [ask_bind_ok (Dict.getItem_eq_ok.2 hi)]
  rfl

/-- Configured metadata is used. -/
theorem static_progress {x : Ext} {c : Client} {m : Obj} {i : String} (hpi : c.ctx.providerInfo = m)
    (hend : c.ctx.endpoints = []) (hi : Dict.get? m "issuer" = some (.str i))
    (hkeys : ∀ v, Dict.get? m "keys" = some v → ∃ o, v = .obj o ∧ ∀ p ∈ o, p.1 = "url" ∨ p.1 = "file") :
    doProviderInfo x c = (.ok i, { c with ctx := { c.ctx with endpoints := setAllEndpoints c.services m [], keyLoads := c.ctx.keyLoads ++ configuredKeys c.ctx.issuer m } }) := by
  subst hpi
  unfold doProviderInfo
  have hemp : c.ctx.providerInfo.isEmpty = false := by
    cases h : c.ctx.providerInfo with
    | nil => exact absurd h (isSome_nil hi)
    | cons => rfl
  rw [Py.read_bind_run, if_neg (by simp [hemp])]
  rw [Py.bind_ok (a := ()) (s' := { c with ctx := { c.ctx with endpoints := setAllEndpoints c.services c.ctx.providerInfo [], keyLoads := c.ctx.keyLoads ++ configuredKeys c.ctx.issuer c.ctx.providerInfo } })
    (by unfold onCtx; rw [← hend]; rfl)]
  have hk : knownKeys c.ctx.providerInfo = .ok () := by
    unfold knownKeys
    cases h : Dict.get? c.ctx.providerInfo "keys" with
    | none => rfl
    | some v =>
      obtain ⟨o, rfl, ho⟩ := hkeys v h
      simp only
      rw [if_pos (by simpa using ho)]
  rw [Py.lift_bind_ok hk]
  unfold staticIssuer
  rw [hi]
  rfl

/-! ### Registration -/

/-- The callback parameters a registration request has before callbacks are made. -/
def givenCallbacks (x : Ext) (ctx : Ctx) (args : Obj) : List String :=
  (Dict.keys (Registration.addPreferences ctx (x.msg .registration).params args)).filter (fun k => decide (k ∈ Registration.CALLBACK_URIS))

theorem construct_registration_progress (x : Ext) (args : Obj) (c : Client) :
    ∃ req, construct x .registration args [] c =
      (.ok req, { c with ctx := Registration.addCallbacks x.hash (givenCallbacks x c.ctx args) c.ctx }) := by
  let c0 : Client := { c with ctx := Registration.addCallbacks x.hash (givenCallbacks x c.ctx args) c.ctx }
  let a := Registration.addPreferences c.ctx (x.msg .registration).params args
  let r := Registration.addJwks c0.ctx (Registration.fillCallbackUris c0.ctx Registration.CALLBACK_URIS a)
  refine ⟨Registration.postConstruct ((x.msg .registration).make (gatherLoop c0 .registration (x.msg .registration).params
    (stateFromKwargs (x.msg .registration) r []))), ?_⟩
  unfold construct
  have hpre : preConstruct x .registration args (methodArgs (confOf c .registration) "pre_construct" []) c = (.ok (r, []), c0) := rfl
  rw [Py.read_bind_run, Py.bind_ok hpre, ask_bind_ok (a := gatherLoop c0 .registration (x.msg .registration).params
    (stateFromKwargs (x.msg .registration) r [])) (by unfold gatherRequestArgs; rw [if_neg (by rintro ⟨h | h, _⟩ <;> cases h)])]
  rfl

theorem register_progress {x : Ext} {b : Obj} {c : Client} {url cid : String} {v : Obj} (hid : c.ctx.clientId = "")
    (hsrv : .registration ∈ c.services) (hep : Discovery.serviceEndpoint c.ctx .registration = .ok (.str url))
    (hau : getAuthnMethod c .registration = .ok "") (hcid : Dict.get? v "client_id" = some (.str cid)) (hne : cid ≠ "")
    (herr : Msg.isError v = false)
    (hans : ∀ log s req, s.srv = .registration → Carries x s url req → ∃ rt, x.http log s = .ok rt ∧
        ∀ d : Client, d.conf = c.conf → ∃ p, Understood x d .registration rt p v) :
    ∃ s ca h2 sec ex rr rat kl, register x b c = (.ok (), { c with log := c.log ++ [s], ctx := { c.ctx with
        callback := ca, hash2issuer := h2, clientId := cid, clientSecret := sec, clientSecretExpiresAt := ex,
        registrationResponse := rr, registrationAccessToken := rat, keyLoads := kl } }) ∧ s.srv = .registration ∧ (∃ req, Carries x s url req) ∧
      ca = Registration.newCallbacks x.hash c.ctx
        (givenCallbacks x c.ctx (b.filter (fun p => decide (p.1 ∈ (x.msg .registration).params)))) := by
  generalize hargs : b.filter (fun p => decide (p.1 ∈ (x.msg .registration).params)) = args
  obtain ⟨req, hc⟩ := construct_registration_progress x args c
  generalize hca : Registration.newCallbacks x.hash c.ctx (givenCallbacks x c.ctx args) = ca
  generalize hh2 : Dict.set c.ctx.hash2issuer (x.hash (c.ctx.hashSeed ++ c.ctx.issuer)) c.ctx.issuer = h2
  have hadd : Registration.addCallbacks x.hash (givenCallbacks x c.ctx args) c.ctx = { c.ctx with callback := ca, hash2issuer := h2 } := by
    unfold Registration.addCallbacks; rw [hca, hh2]
  rw [hadd] at hc
  let c0 : Client := { c with ctx := { c.ctx with callback := ca, hash2issuer := h2 } }
  have hep0 : Discovery.serviceEndpoint c0.ctx .registration = .ok (.str url) := hep
  have ht : targetOf .registration [] c0 = .ok url := by
    unfold targetOf
    simp only [Dict.get?, endpointOf]
    rw [if_neg (by decide), hep0]
    rfl
  have hh : getHeaders x .registration req (orElse "" (attr c .registration "http_method" (httpMethod .registration))) ""
      (withIss c []) c0 = (.ok ([], req), c0) :=
    getHeaders_progress (m := "") (by simp [usesDpop, Srv.name]) (by rw [if_pos rfl]; exact hau) (by unfold authnHeader; rfl) _
  obtain ⟨info, hinfo⟩ := assemble_progress (x := x) ht req (orElse "" (attr c .registration "http_method" (httpMethod .registration)))
    (orElse "" (attr c .registration "request_body_type" (requestBodyType .registration))) []
  have hb : getRequestParameters x .registration args {} [] c = (.ok info, c0) := by
    show buildRequest x .registration args {} [] c = _
    unfold buildRequest
    rw [Py.read_bind_run, ask_bind_ok (a := "") (by rw [if_pos rfl]; exact hau), Py.bind_ok hc, Py.bind_ok hh]
    unfold ask
    rw [hinfo]
  obtain ⟨url', k1, k2, k3, k4⟩ := carries_assembled hinfo
  rw [ht] at k1
  cases k1
  obtain ⟨rt, hrt, hu⟩ := hans c.log (sentFor .registration info) req rfl k4
  obtain ⟨p, hp⟩ := hu c0 rfl
  have hreq := doRequest_progress' (x := x) (c := c) (srv := .registration) (args := args) (o := {}) (kwargs := []) (c1 := c0)
    (rt := rt) (p := p) (v := v) (m := v) (info := info) (c2 := { c0 with log := c.log ++ [sentFor .registration info] })
    hsrv rfl rfl hb hrt hp rfl (isSome_nil hcid) herr
  obtain ⟨cid', sec, ex, rr, rat, kl, hup⟩ := update_ctx v c0.ctx
  have hcid' : cid' = cid := by
    have := (credentials v c0.ctx cid hcid hne).1
    rw [hup] at this
    exact this
  subst hcid'
  refine ⟨sentFor .registration info, ca, h2, sec, ex, rr, rat, kl, ?_, rfl, ⟨req, k4⟩, rfl⟩
  unfold register
  rw [Py.read_bind_run, if_pos hid, hargs]
  unfold loadRegistration
  have hum : updateMsg x .registration v (stateOf []) { c0 with log := c.log ++ [sentFor .registration info] } =
      (.ok v, { c0 with log := c.log ++ [sentFor .registration info], ctx := Registration.update v c0.ctx }) := rfl
  rw [hum, hup] at hreq
  have : Py.try_ (doRequest x .registration args {} [])
      (fun e => if e = .keyError then some (Py.raise .configurationError) else none) c =
      doRequest x .registration args {} [] c := by
    unfold Py.try_
    rw [hreq]
  rw [Py.bind_ok (this.trans hreq)]
  simp only [refuseError, Resp.isError, herr]
  rfl

/-- Registering makes the callback for the code flow. -/
theorem callback_made {x : Ext} {cc : ClientConf} {b : Obj} {ctx : Ctx} (hg : GeneratedCallback cc b)
    (hcp : ctx.clientPreferences = confObj cc.config "client_preferences")
    (hb : Dict.get? ctx.behaviour "redirect_uris" = Dict.get? (confObj cc.config "behaviour") "redirect_uris")
    (hcfg : ctx.config = cc.config) :
    (Dict.get? (Registration.newCallbacks x.hash ctx
      (givenCallbacks x ctx (b.filter (fun p => decide (p.1 ∈ (x.msg .registration).params))))) "code").isSome := by
  have hni : "redirect_uris" ∉ givenCallbacks x ctx (b.filter (fun p => decide (p.1 ∈ (x.msg .registration).params))) := by
    intro hin
    unfold givenCallbacks at hin
    have hin := (List.mem_filter.1 hin).1
    have hnone : Dict.get? (Registration.addPreferences ctx (x.msg .registration).params
        (b.filter (fun p => decide (p.1 ∈ (x.msg .registration).params)))) "redirect_uris" = none := by
      rw [pref_none ctx "redirect_uris" (hb.trans hg.behaviour) (by rw [hcp]; exact hg.preference)]
      have := get?_filterKeys (fun k => decide (k ∈ (x.msg .registration).params)) b "redirect_uris"
      rw [this, hg.given]
      split <;> rfl
    exact (Dict.get?_eq_none_iff _ _).1 hnone hin
  have hflag : (Registration.callbackFlags ctx (givenCallbacks x ctx (b.filter (fun p => decide (p.1 ∈ (x.msg .registration).params))))).code = true := by
    unfold Registration.callbackFlags
    simp only [hni, not_false_eq_true, decide_true, Bool.true_and]
    obtain ⟨l, hl, hcode⟩ := hg.code
    unfold Registration.inConfigOrPrefs
    rw [hcfg]
    show (Registration.cmp (Dict.get? (confObj cc.config "client_preferences") "response_types") (.str "code") || _) = true
    rw [hl]
    simp [Registration.cmp, hcode]
  unfold Registration.newCallbacks
  simp only
  rw [if_neg hni, Dict.get?_set_ne _ _ (by decide)]
  unfold Registration.createCallbacks
  rw [hflag]
  rfl

/-! ### The whole setup -/

theorem onNew_progress {α : Type} {c d : Client} {m : Py Client α} {a : α} (hm : m c = (.ok a, d)) (h : Handler) :
    onNew c m h = (.ok (a, d), share d.cfg d.ctx.behaviour h) := by
  unfold onNew; rw [hm]; rfl

theorem adopt_progress {x : Ext} {c d1 d2 : Client} {i : String} {b : Obj} (h1 : doProviderInfo x c = (.ok i, d1))
    (h2 : register x b d1 = (.ok (), d2)) (issId : String) (h : Handler) :
    ∃ h', adopt x c issId b h = (.ok i, h') ∧ Dict.get? h'.issuer2rp i = some d2 := by
  unfold adopt
  rw [Py.bind_ok (onNew_progress h1 h), Py.modify_bind_run]
  simp only
  rw [Py.bind_ok (onNew_progress h2 _), Py.modify_bind_run]
  exact ⟨_, rfl, Dict.get?_set_self _ _ _⟩

theorem initClient_progress {x : Ext} {issId : String} {h : Handler} {cc : ClientConf} (hcc : ConfiguredFor h issId cc) :
    ∃ cfg g, initClient x issId h = (.ok (newClient x h cfg cc), g) := by
  unfold initClient
  rcases hcc with hc | ⟨hno, cc0, h0, rfl⟩
  · rw [hc]; exact ⟨_, _, rfl⟩
  · rw [hno]; simp only [h0]; exact ⟨_, _, rfl⟩

theorem clientSetup_progress {x : Ext} {issId user cfg : String} {b : Obj} {h g : Handler} {cc : ClientConf} {i : String} {d1 d2 : Client}
    (hne : issId ≠ "") (hnew : Dict.get? h.issuer2rp issId = none) (hg : initClient x issId h = (.ok (newClient x h cfg cc), g))
    (e1 : doProviderInfo x (newClient x h cfg cc) = (.ok i, d1)) (e2 : register x b d1 = (.ok (), d2)) :
    ∃ h', clientSetup x issId user b h = (.ok i, h') ∧ Dict.get? h'.issuer2rp i = some d2 := by
  obtain ⟨h', e3, e4⟩ := adopt_progress e1 e2 issId g
  refine ⟨h', ?_, e4⟩
  unfold clientSetup
  rw [if_neg (fun hh => hne hh.1), if_neg hne, Py.read_bind_run, if_neg (by rw [Dict.has_eq, hnew]; simp), Py.bind_ok hg]
  exact e3

theorem configured_eq {cc : ClientConf} {k s : String} (h : Configured cc k s) : confStr cc.config k = s := by
  unfold confStr
  rcases h with h | ⟨rfl, h⟩
  · rw [h]
  · split
    · next t ht => exact absurd ht (h t)
    · rfl

/-- Setting up the client succeeds. -/
theorem setup_progress {x : Ext} {issId user : String} {b : Obj} {h : Handler} {cc : ClientConf} {m : Obj} {i cid : String}
    (hne : issId ≠ "") (hnew : Dict.get? h.issuer2rp issId = none) (hcc : ConfiguredFor h issId cc)
    (hi : Dict.get? m "issuer" = some (.str i)) (hn : (Dict.keys m).Nodup) (hcid : cid ≠ "")
    (hm : Metadata x cc m i) (hid : Identity x cc m cid) :
    ∃ h' c, clientSetup x issId user b h = (.ok i, h') ∧ Dict.get? h'.issuer2rp i = some c ∧ c.db = [] ∧
      c.services = cc.services ∧ c.conf = cc.srvConf ∧ c.ctx.addOn = cc.addOn ∧ c.ctx.config = cc.config ∧
      c.ctx.redirectUris = confStrs cc.config "redirect_uris" ∧ c.ctx.providerInfo = m ∧ c.ctx.clientId = cid ∧
      AsMetadata c.ctx ∧
      (∃ t ts, Dict.get? c.ctx.behaviour "response_types" = some (.list (.str t :: ts)) ∧ t ≠ "") ∧
      (∃ l, Dict.get? c.ctx.behaviour "scope" = some (.list l)) ∧
      (GeneratedCallback cc b → (Dict.get? c.ctx.callback "code").isSome) := by
  obtain ⟨cfg, g, hg⟩ := initClient_progress (x := x) hcc
  have hfirst : ∃ d : Client, doProviderInfo x (newClient x h cfg cc) = (.ok i, d) ∧ d.db = [] ∧
      d.services = cc.services ∧ d.conf = cc.srvConf ∧ d.ctx.addOn = cc.addOn ∧ d.ctx.config = cc.config ∧
      d.ctx.redirectUris = confStrs cc.config "redirect_uris" ∧ d.ctx.providerInfo = m ∧
      d.ctx.clientId = confStr cc.config "client_id" ∧ AsMetadata d.ctx ∧
      (∃ t ts, Dict.get? d.ctx.behaviour "response_types" = some (.list (.str t :: ts)) ∧ t ≠ "") ∧
      (∃ l, Dict.get? d.ctx.behaviour "scope" = some (.list l)) ∧ d.ctx.clientPreferences = confObj cc.config "client_preferences" ∧
      (∀ k, Dict.get? (confObj cc.config "client_preferences") k = none →
        Dict.get? d.ctx.behaviour k = Dict.get? (confObj cc.config "behaviour") k) := by
    cases hm with
    | configured hpi hkeys hrt hsc =>
      refine ⟨{ newClient x h cfg cc with ctx := { newContext x h cc with endpoints := setAllEndpoints cc.services m [], keyLoads := newKeys h cc.config ++ configuredKeys (confIssuer cc.config) m } },
        ?_, rfl, rfl, rfl, rfl, rfl, rfl, ?_, rfl, ?_, ?_, ?_, rfl, fun _ _ => rfl⟩
      · exact static_progress (c := newClient x h cfg cc) (by show confObj cc.config "provider_info" = m; unfold confObj; rw [hpi]) rfl hi hkeys
      · show confObj cc.config "provider_info" = m
        unfold confObj; rw [hpi]
      · refine asMetadata_of ?_
        have : confObj cc.config "provider_info" = m := by unfold confObj; rw [hpi]
        show NamedIn (confObj cc.config "provider_info") _
        rw [this]
        exact namedIn_setAll cc.services hn m (fun _ _ hq => hq) (fun n v hv => by cases hv)
      · rcases hrt with ⟨l, hl, _⟩ | ⟨_, hrt⟩
        · cases hl
        · exact hrt
      · rcases hsc with ⟨l, hl⟩ | ⟨_, hsc⟩
        · cases hl
        · exact hsc
    | published issuer iss hpi hsrv hiss hlook hsame herr hans hcomp h1 h2 h3 h4 =>
      have hempty : confObj cc.config "provider_info" = [] := by
        unfold confObj
        split
        · next o ho => exact hpi o ho
        · rfl
      have hisseq : (discoveryUrl (newContext x h cc)).issuer = iss := by
        have hci : (newContext x h cc).issuer = issuer := by
          show confIssuer cc.config = issuer
          unfold confIssuer
          rw [configured_eq hiss, hempty]
          unfold orElse
          split
          · next he => rw [he]; rfl
          · rfl
        unfold discoveryUrl
        rcases hlook with hl | ⟨rfl, hl⟩
        · rw [show (newContext x h cc).config = cc.config from rfl, hl]
        · rw [show (newContext x h cc).config = cc.config from rfl]
          split
          · next t ht => exact absurd ht (hl t)
          · exact hci
      obtain ⟨s, j, kl, bb, hd, _, hb1, hb2, hb3⟩ := dynamic_progress (x := x) (c := newClient x h cfg cc) (m := m) (i := i) (iss := iss)
        hsrv hempty rfl hisseq hi hsame herr hans hcomp h1 h2 h3 h4
      refine ⟨{ newClient x h cfg cc with log := [s], ctx := { newContext x h cc with
          issuer := j, providerInfo := m, endpoints := Discovery.setEndpoints cc.services m [], keyLoads := kl, behaviour := bb } },
        hd, rfl, rfl, rfl, rfl, rfl, rfl, rfl, rfl, ?_, hb1, hb2, rfl, hb3⟩
      · exact asMetadata_of (namedIn_setEndpoints cc.services hn m (fun _ _ hq => hq) (fun n v hv => by cases hv))
  obtain ⟨d, hd, a1, a2, a3, a4, a5, a6, a7, a8, a9, a10, a11, a12, a13⟩ := hfirst
  cases hid with
  | configured hcfg =>
    have hd8 : d.ctx.clientId = cid := by rw [a8]; unfold confStr; rw [hcfg]
    have e2 : register x b d = (.ok (), d) := by
      unfold register
      rw [Py.read_bind_run, if_neg (by rw [hd8]; exact hcid)]
      rfl
    obtain ⟨h', e3, e4⟩ := clientSetup_progress (user := user) hne hnew hg hd e2
    exact ⟨h', d, e3, e4, a1, a2, a3, a4, a5, a6, a7, hd8, a9, a10, a11, fun hgc => absurd hcfg (by
      rcases hgc.unregistered with hu | ⟨_, hu⟩
      · rw [hu]; intro hh; cases hh; exact hcid rfl
      · exact hu cid)⟩
  | registered url v hc hsrv hep hno hv herr hans =>
    have hau : getAuthnMethod d .registration = .ok "" := by
      unfold getAuthnMethod
      rw [if_neg (by decide)]
      unfold attr confOf
      rw [a3]
      split
      · next t ht => exact absurd ht (hno t)
      · rfl
    obtain ⟨s, ca, h2, sec, ex, rr, rat, kl, e2, _, _, hca⟩ := register_progress (x := x) (b := b) (c := d) (url := url) (cid := cid) (v := v)
      (by rw [a8]; exact configured_eq hc) (by rw [a2]; exact hsrv)
      (by rw [a9 .registration, a7]; exact Dict.getItem_eq_ok.2 hep) hau hv hcid herr
      (fun log s req h1 h2 => by rw [a3]; exact hans log s req h1 h2)
    obtain ⟨h', e3, e4⟩ := clientSetup_progress (user := user) hne hnew hg hd e2
    exact ⟨h', _, e3, e4, a1, a2, a3, a4, a5, a6, a7, rfl, fun srv => a9 srv, a10, a11, fun hgc => hca ▸ callback_made hgc a12 (a13 _ hgc.preference) a5⟩

/-! ## C85 -/

/-- What a configuration needs for logins at a provider with metadata `m`. -/
structure LoginConf (cc : ClientConf) (m b : Obj) : Prop where
  service : .authorization ∈ cc.services
  endpoint : ∃ url, Dict.get? m "authorization_endpoint" = some (.str url)
  pkce : KnownPkce cc.addOn
  args : GoodArgs (confObj cc.config "request_args")
  plain : ∀ c : Client, c.conf = cc.srvConf → c.ctx.addOn = cc.addOn → PlainAuthorization c b

/-- **C85**.  The provider is not known yet.  If the client gets its metadata (configured or published by an honest provider
that supports what the client prefers) and an identity (configured or registered by an honest provider), then setting up
the client succeeds; the client is kept with that metadata and identity, and can begin a login. -/
theorem C85_client_set_up (x : Ext) (issId user : String) (b : Obj) (h : Handler) (cc : ClientConf) (m : Obj) (i cid : String)
    (hne : issId ≠ "") (hnew : Dict.get? h.issuer2rp issId = none) (hcc : ConfiguredFor h issId cc)
    (hi : Dict.get? m "issuer" = some (.str i)) (hn : (Dict.keys m).Nodup) (hcid : cid ≠ "")
    (hm : Metadata x cc m i) (hid : Identity x cc m cid) (hl : LoginConf cc m b) :
    ∃ h' c, clientSetup x issId user b h = (.ok i, h') ∧ Dict.get? h'.issuer2rp i = some c ∧ c.db = [] ∧
      c.ctx.providerInfo = m ∧ c.ctx.clientId = cid ∧ CanBegin c ∧ PlainAuthorization c b ∧
      (ConfiguredRedirect cc → ∀ req, Redirects c req) ∧ (GeneratedCallback cc b → ∀ req, AsksCode req → Redirects c req) := by
  obtain ⟨h', c, e1, e2, a1, a2, a3, a4, a5, a6, a7, a8, a9, a10, a11, a12⟩ :=
    setup_progress (user := user) (b := b) hne hnew hcc hi hn hcid hm hid
  refine ⟨h', c, e1, e2, a1, a7, a8, ⟨by rw [a2]; exact hl.service, ?_, a10, a11, ?_, by rw [a5]; exact hl.args⟩, hl.plain c a3 a4, ?_, ?_⟩
  · obtain ⟨url, hu⟩ := hl.endpoint
    exact ⟨url, by rw [a9 .authorization, a7]; exact Dict.getItem_eq_ok.2 hu⟩
  · intro _
    unfold pkceMethod addOnConf
    rw [a4]
    have hk := hl.pkce
    unfold KnownPkce at hk
    split
    · next s hs =>
      split at hs
      · next o ho => exact hk o s ho hs
      · cases hs
    · decide
  · rintro ⟨u, us, hu⟩ req
    refine Or.inr (Or.inl ?_)
    rw [a6]
    unfold confStrs
    rw [hu]
    simp [Registration.strs, Val.str?]
  · intro hgc req hask
    refine Or.inr (Or.inr (fun rt hrt => ?_))
    have hcode : rt = "code" := by
      rcases hrt with hrt | ⟨hrt, _⟩
      · rw [hask.1] at hrt; cases hrt; rfl
      · rw [hask.1] at hrt; cases hrt
    rw [if_neg hask.2, if_pos hcode]
    exact a12 hgc

/-- **C85**, the first login at a provider: `begin` sets up the client and gives a URL to send the user to. -/
theorem C85_first_login {K : String → Prop} (hK : KeySpace K) (x : Ext) (issId user : String) (req b : Obj) (h : Handler)
    (cc : ClientConf) (m : Obj) (i cid : String)
    (hne : issId ≠ "") (hnew : Dict.get? h.issuer2rp issId = none) (hcc : ConfiguredFor h issId cc)
    (hi : Dict.get? m "issuer" = some (.str i)) (hn : (Dict.keys m).Nodup) (hcid : cid ≠ "")
    (hm : Metadata x cc m i) (hid : Identity x cc m cid) (hl : LoginConf cc m b)
    (hre : ConfiguredRedirect cc ∨ (GeneratedCallback cc b ∧ AsksCode req) ∨ (Dict.get? req "redirect_uri").isSome)
    (hk : K (x.rnd "init_state")) (hno : x.rnd "init_nonce" ≠ "") (hr : GoodArgs req) (hpm : PlainMessage x) :
    ∃ url h1, begin_ x issId user req b h = (.ok (url, x.rnd "init_state"), h1) := by
  obtain ⟨h', c, e1, e2, a1, a7, a8, a9, a10, a11, a12⟩ := C85_client_set_up x issId user b h cc m i cid hne hnew hcc hi hn hcid hm hid hl
  refine C84_begin hK x issId user req b h h' i e1 c e2 a9 ?_ a10 ?_ hk hno hr hpm
  · rcases hre with hre | ⟨h1, h2⟩ | hre
    · exact a11 hre req
    · exact a12 h1 req h2
    · exact Or.inl hre
  · intro k s
    rw [a1]
    intro hh
    cases hh

/-! ## Non-vacuity -/

theorem world_understood_metadata {c : Client} (hc : c.conf = []) :
    Understood settingUp c .providerInfo { status := 200, headers := [("content-type", "application/json")], text := "metadata" } World.metadata World.metadata := by
  have hbt : attr c .providerInfo "response_body_type" (responseBodyType .providerInfo) = "json" := by
    unfold attr confOf; rw [hc]; rfl
  unfold Understood
  rw [hbt]
  exact ⟨by decide, by decide, by decide +kernel, by decide +kernel, rfl, rfl, rfl⟩

theorem world_understood_registered {c : Client} (hc : c.conf = []) :
    Understood settingUp c .registration { status := 200, headers := [("content-type", "application/json")], text := "registered" }
      [("client_id", .str "client1"), ("client_secret", .str "secret1")] [("client_id", .str "client1"), ("client_secret", .str "secret1")] := by
  have hbt : attr c .registration "response_body_type" (responseBodyType .registration) = "json" := by
    unfold attr confOf; rw [hc]; rfl
  unfold Understood
  rw [hbt]
  exact ⟨by decide, by decide, by decide +kernel, by decide +kernel, rfl, rfl, rfl⟩

/-- The configuration the client of the small world is made of. -/
def worldConf : ClientConf := { World.conf with config := Dict.set World.conf.config "issuer" (.str "https://op.example") }

theorem world_compatible : Compatible settingUp.regKind (confObj worldConf.config "client_preferences") World.metadata := by
  have h0 : confObj worldConf.config "client_preferences" =
      [("response_types", .list [.str "code"]), ("token_endpoint_auth_method", .list [.str "client_secret_basic"])] := rfl
  rw [h0]
  refine ⟨?_, ?_, ?_, ?_, ?_⟩
  · intro pref prov hp v hv
    right
    rw [Dict.get?_cons, Dict.get?_cons] at hv
    split at hv
    · cases hv; exact ⟨["code"], rfl⟩
    · split at hv
      · cases hv; exact ⟨["client_secret_basic"], rfl⟩
      · cases hv
  · intro pref prov hp v hv
    have : ∀ q ∈ Discovery.PREFERENCE2PROVIDER, Dict.get? World.metadata q.2 = none := by decide +kernel
    rw [this _ hp] at hv
    cases hv
  · intro pref prov hp s hv
    rw [Dict.get?_cons, Dict.get?_cons] at hv
    split at hv
    · cases hv
    · split at hv
      · cases hv
      · cases hv
  · intro pref prov hp hk l hv
    have hm : ∀ q ∈ Discovery.PREFERENCE2PROVIDER, Dict.get? World.metadata q.2 = none := by decide +kernel
    rw [Dict.get?_cons, Dict.get?_cons] at hv
    split at hv
    · next h => rw [← h] at hk; exact absurd hk (by decide +kernel)
    · split at hv
      · next h =>
        cases hv
        refine ⟨"client_secret_basic", by simp, Or.inr ⟨hm _ hp, fun d hd => ?_⟩⟩
        rw [← h] at hd
        cases hd
        rfl
      · cases hv
  · intro k v hkv _
    simp only [List.mem_cons, Prod.mk.injEq, List.not_mem_nil, or_false] at hkv
    rcases hkv with ⟨_, rfl⟩ | ⟨_, rfl⟩ <;> simp

theorem world_metadata : Metadata settingUp worldConf World.metadata "https://op.example" := by
  refine .published "https://op.example" "https://op.example" (fun pi h => by cases h) (by decide) (Or.inl rfl)
    (Or.inr ⟨rfl, fun t h => by cases h⟩) (Or.inl rfl) rfl ?_ world_compatible (by decide +kernel) (by decide +kernel) ?_ ?_
  · intro log s hs
    refine ⟨World.answer s, rfl, fun c hc => ⟨World.metadata, ?_⟩⟩
    have ht : World.answer s = { status := 200, headers := [("content-type", "application/json")], text := "metadata" } := by
      unfold World.answer; rw [hs.1]
    rw [ht]
    exact world_understood_metadata hc
  · exact Or.inl ⟨["code"], rfl, by simp, "code", by simp, Or.inr ⟨rfl, fun d hd => by cases hd⟩⟩
  · exact Or.inr ⟨rfl, _, rfl⟩

theorem world_identity : Identity settingUp worldConf World.metadata "client1" := by
  refine .registered "https://op.example/reg" [("client_id", .str "client1"), ("client_secret", .str "secret1")]
    (Or.inr ⟨rfl, fun t h => by cases h⟩) (by decide) rfl (fun t h => by cases h) rfl rfl ?_
  intro log s req hs _
  refine ⟨World.answer s, rfl, fun c hc => ⟨[("client_id", .str "client1"), ("client_secret", .str "secret1")], ?_⟩⟩
  have ht : World.answer s = { status := 200, headers := [("content-type", "application/json")], text := "registered" } := by
    unfold World.answer; rw [hs]
  rw [ht]
  exact world_understood_registered hc

theorem world_login : LoginConf worldConf World.metadata [] := by
  refine ⟨by decide, ⟨_, rfl⟩, (fun o s h => by cases h), goodArgs_nil, ?_⟩
  intro c h1 h2
  refine ⟨?_, ?_, rfl, ?_, ?_, ?_⟩
  · unfold confOf; rw [h1]; rfl
  · unfold confOf; rw [h1]; rfl
  · unfold attr confOf; rw [h1]; rfl
  · unfold attr confOf; rw [h1]; rfl
  · rw [h2]; rfl

/-- The first login at the provider of the small world, with discovery and registration. -/
example : ∃ url h1, begin_ settingUp "https://op.example" "" [] [] World.handler = (.ok (url, World.s1), h1) :=
  C85_first_login C10_generated_keys_are_safe settingUp "https://op.example" "" [] [] World.handler worldConf World.metadata
    "https://op.example" "client1" (by decide) rfl (Or.inr ⟨rfl, _, rfl, rfl⟩) rfl (by decide +kernel) (by decide)
    world_metadata world_identity world_login (Or.inl ⟨_, _, rfl⟩) gen_s1 (by decide) goodArgs_nil ⟨by decide, by decide⟩

/-- A configuration without redirect URIs. -/
def generatedConf : ClientConf := { worldConf with config := Dict.del worldConf.config "redirect_uris" }

theorem generated_metadata : Metadata settingUp generatedConf World.metadata "https://op.example" := by
  have hp : confObj generatedConf.config "client_preferences" = confObj worldConf.config "client_preferences" := rfl
  cases world_metadata with
  | configured h => cases h
  | published issuer iss h1 h2 h3 h4 h5 h6 h7 h8 h9 h10 h11 h12 => exact .published issuer iss h1 h2 h3 h4 h5 h6 h7 h8 h9 h10 h11 h12

theorem generated_identity : Identity settingUp generatedConf World.metadata "client1" := by
  cases world_identity with
  | configured h => cases h
  | registered url v h1 h2 h3 h4 h5 h6 h7 => exact .registered url v h1 h2 h3 h4 h5 h6 h7

/-- The handler makes the redirect URI. -/
example : ∃ url h1, begin_ settingUp "https://op.example" "" [("response_type", .str "code")] []
    { World.handler with configs := [("https://op.example", generatedConf)] } = (.ok (url, World.s1), h1) :=
  C85_first_login C10_generated_keys_are_safe settingUp "https://op.example" "" _ [] _ generatedConf World.metadata
    "https://op.example" "client1" (by decide) rfl (Or.inl rfl) rfl (by decide +kernel) (by decide)
    generated_metadata generated_identity ⟨world_login.service, world_login.endpoint, world_login.pkce, goodArgs_nil, world_login.plain⟩
    (Or.inr (Or.inl ⟨⟨Or.inr ⟨rfl, fun t h => by cases h⟩, ⟨_, rfl, by simp⟩, rfl, rfl, rfl⟩, rfl, by simp [Dict.get?]⟩)) gen_s1 (by decide)
    ⟨by decide, (by intro v hv; cases hv), (by intro v hv; cases hv; exact ⟨_, rfl, by decide⟩), (by intro v hv; cases hv)⟩ ⟨by decide, by decide⟩

/-- A configuration with metadata, an identity and a behaviour. -/
def fixedConf : ClientConf where
  config := [("client_id", .str "me"), ("provider_info", .obj World.metadata), ("redirect_uris", .list [.str "https://rp.example/cb"]),
    ("behaviour", .obj [("scope", .list [.str "openid"]), ("response_types", .list [.str "code"])])]
  services := [.authorization, .accesstoken, .userinfo]

/-- Nothing is asked of the provider. -/
example : ∃ h' c, clientSetup settingUp "op" "" [] { configs := [("op", fixedConf)] } = (.ok "https://op.example", h') ∧
    Dict.get? h'.issuer2rp "https://op.example" = some c ∧ CanBegin c := by
  obtain ⟨h', c, a1, a2, _, _, _, a6, _⟩ := C85_client_set_up settingUp "op" "" [] { configs := [("op", fixedConf)] } fixedConf
    World.metadata "https://op.example" "me" (by decide) rfl (Or.inl rfl) rfl (by decide +kernel) (by decide)
    (.configured rfl (fun v h => by cases h) (Or.inr ⟨rfl, _, _, rfl, by decide⟩) (Or.inr ⟨rfl, _, rfl⟩)) (.configured rfl)
    ⟨by decide, ⟨_, rfl⟩, (fun o s h => by cases h), goodArgs_nil, world_login.plain⟩
  exact ⟨h', c, a1, a2, a6⟩

/-- What is assumed is needed: a provider that does not support the client's preferred method is refused. -/
example : (clientSetup { settingUp with deser := fun _ _ _ i => (World.parse i).map (fun o =>
      Dict.set o "token_endpoint_auth_methods_supported" (.list [.str "private_key_jwt"])) } "https://op.example" "" [] World.handler).1 =
    .error .configurationError := by rfl

end Verif.Props
