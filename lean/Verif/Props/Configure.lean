import Verif.Model.Configure
import Verif.Props.Util
/-!
# C100: settings are found in either spelling
-/

namespace Verif.Spec.Configure
open Verif

/-- The value of a setting: the entry under the name in lower case; if there is none, or an empty one, the entry
under the name in upper case. -/
inductive Value (conf : Obj) (lower upper : String) : Option Val → Prop
  | lower {v : Val} (h : Dict.get? conf lower = some v) (ht : v.truthy = true) : Value conf lower upper (some v)
  | upper (h : ∀ v, Dict.get? conf lower = some v → v.truthy = false) : Value conf lower upper (Dict.get? conf upper)

/-- A setting is made (and not empty). -/
def Made (conf : Obj) (lower upper : String) (v : Val) : Prop := Value conf lower upper (some v) ∧ v.truthy = true

/-- A setting is not made, or empty. -/
def NotMade (conf : Obj) (lower upper : String) : Prop := ∀ v, ¬ Made conf lower upper v

/-- The file an entry means: itself if it is an absolute path, otherwise below the directory. -/
inductive FileIn (dir : String) : String → String → Prop
  | absolute {s : String} (h : ∃ r, s = "/" ++ r) : FileIn dir s s
  | here {s : String} (h : ¬ ∃ r, s = "/" ++ r) (hd : dir = "") : FileIn dir s s
  | below {s base : String} (h : ¬ ∃ r, s = "/" ++ r) (hd : dir = base ++ "/" ∨ (dir = base ∧ base ≠ "" ∧ ¬ ∃ b, base = b ++ "/")) :
      FileIn dir s (base ++ "/" ++ s)

end Verif.Spec.Configure

namespace Verif.Props
open Verif Verif.Util Verif.Configure Spec.Configure

theorem value_iff (conf : Obj) (name : String) (o : Option Val) :
    lowerOrUpper conf name = o ↔ Value conf (Str.lower name) (Str.upper name) o := by
  rw [C65_lower_or_upper]
  constructor
  · rintro rfl
    split
    · next h => obtain ⟨v, h1, h2⟩ := h; rw [h1]; exact .lower h1 h2
    · next h =>
      refine .upper fun v hv => ?_
      cases ht : v.truthy with
      | false => rfl
      | true => exact absurd ⟨v, hv, ht⟩ h
  · intro h
    cases h with
    | lower h ht => rw [if_pos ⟨_, h, ht⟩, h]
    | upper h =>
      rw [if_neg]
      rintro ⟨v, h1, h2⟩
      rw [h v h1] at h2; cases h2

theorem made_iff (conf : Obj) (name : String) (v : Val) :
    (lowerOrUpper conf name = some v ∧ v.truthy = true) ↔ Made conf (Str.lower name) (Str.upper name) v := by
  unfold Made; rw [value_iff]

theorem notMade_iff (conf : Obj) (name : String) :
    truthyO (lowerOrUpper conf name) = false ↔ NotMade conf (Str.lower name) (Str.upper name) := by
  unfold NotMade
  constructor
  · intro h v hv
    obtain ⟨h1, h2⟩ := (made_iff conf name v).2 hv
    rw [h1] at h; simp [truthyO, h2] at h
  · intro h
    cases h1 : lowerOrUpper conf name with
    | none => rfl
    | some v =>
      cases h2 : v.truthy with
      | false => simp [truthyO, h2]
      | true => exact absurd ((made_iff conf name v).1 ⟨h1, h2⟩) (h v)

/-- **C100** (what holds of the settings of a relying party).  Clients, services and base URL are what is set under
their names; the keys are those under `rp_keys`, or else those under `oidc_keys`; the seed is the one set, and
otherwise drawn. -/
theorem C100_settings_partial (rnd : String) (conf : Obj) :
    Value conf "clients" "CLIENTS" (rpConfiguration rnd conf).clients ∧
    Value conf "services" "SERVICES" (rpConfiguration rnd conf).services ∧
    Value conf "base_url" "BASE_URL" (rpConfiguration rnd conf).baseUrl ∧
    (∀ v, Made conf "rp_keys" "RP_KEYS" v → (rpConfiguration rnd conf).keyConf = some v) ∧
    (NotMade conf "rp_keys" "RP_KEYS" → Value conf "oidc_keys" "OIDC_KEYS" (rpConfiguration rnd conf).keyConf) ∧
    (∀ v, Made conf "hash_seed" "HASH_SEED" v → (rpConfiguration rnd conf).hashSeed = v) ∧
    (NotMade conf "hash_seed" "HASH_SEED" → (rpConfiguration rnd conf).hashSeed = .str rnd) := by
  refine ⟨(value_iff conf "clients" _).1 rfl, (value_iff conf "services" _).1 rfl, (value_iff conf "base_url" _).1 rfl, ?_, ?_, ?_, ?_⟩
  · intro v hv
    obtain ⟨h1, h2⟩ := (made_iff conf "rp_keys" v).2 hv
    show orEntry _ _ = _
    unfold orEntry; rw [h1]; simp [truthyO, h2]
  · intro h
    have := (notMade_iff conf "rp_keys").2 h
    have e : (rpConfiguration rnd conf).keyConf = lowerOrUpper conf "oidc_keys" := by
      show orEntry _ _ = _
      unfold orEntry; rw [this]; rfl
    rw [e]
    exact (value_iff conf "oidc_keys" _).1 rfl
  · intro v hv
    obtain ⟨h1, h2⟩ := (made_iff conf "hash_seed" v).2 hv
    show Configure.hashSeed _ _ = _
    unfold Configure.hashSeed; rw [h1]; simp [h2]
  · intro h
    have := (notMade_iff conf "hash_seed").2 h
    show Configure.hashSeed _ _ = _
    unfold Configure.hashSeed
    split
    · next v hv => rw [hv] at this; simp only [truthyO, Option.map_some, Option.getD_some] at this; simp [this]
    · rfl

/-- **C100** (settings of the HTTP requests, what holds).  What is set in lower case is used; without a setting
certificates are verified. -/
theorem C100_httpc_params_partial (rnd : String) (conf : Obj) :
    (∀ v, Dict.get? conf "httpc_params" = some v → v.truthy = true → (rpConfiguration rnd conf).httpcParams = some v) ∧
    (Dict.get? conf "httpc_params" = none → Dict.get? conf "HTTPC_PARAMS" = none →
      (rpConfiguration rnd conf).httpcParams = some (.obj [("verify", .bool true)])) := by
  have e : (rpConfiguration rnd conf).httpcParams = lowerOrUpper conf "httpc_params" (some (.obj [("verify", .bool true)])) := rfl
  have el : Str.lower "httpc_params" = "httpc_params" := by decide
  rw [e]
  unfold lowerOrUpper
  rw [el]
  refine ⟨fun v h ht => ?_, fun h _ => ?_⟩
  · rw [h]; simp [truthyO, ht]
  · rw [h]; simp [truthyO, Val.truthy]

/-- **C100** is violated: settings of the HTTP requests in upper case are never looked at - as there is a default, which is
not empty, the first look-up already succeeds. -/
theorem C100_httpc_params_violated (rnd : String) (conf : Obj) (h : Dict.get? conf "httpc_params" = none) (v : Val) :
    (rpConfiguration rnd (Dict.set conf "HTTPC_PARAMS" v)).httpcParams = some (.obj [("verify", .bool true)]) := by
  have e : (rpConfiguration rnd (Dict.set conf "HTTPC_PARAMS" v)).httpcParams =
    lowerOrUpper (Dict.set conf "HTTPC_PARAMS" v) "httpc_params" (some (.obj [("verify", .bool true)])) := rfl
  have el : Str.lower "httpc_params" = "httpc_params" := by decide
  rw [e]
  unfold lowerOrUpper
  rw [el, Dict.get?_set_ne _ _ (by decide), h]
  simp [truthyO, Val.truthy]

/-! ## The context of a server -/

theorem fileOf_iff (dir s f : String) : fileOf dir (.str s) = .ok f ↔ FileIn dir s f := by
  have e : fileOf dir (.str s) = .ok (if Str.startsWith s "/" then s else joinPath dir s) := rfl
  rw [e]
  unfold joinPath
  by_cases hs : ∃ r, s = "/" ++ r
  · rw [if_pos ((Str.startsWith_iff _ _).2 hs)]
    constructor
    · intro h; injection h with h; subst h; exact .absolute hs
    · intro h
      cases h with
      | absolute => rfl
      | here h => exact absurd hs h
      | below h => exact absurd hs h
  · rw [if_neg (fun h => hs ((Str.startsWith_iff _ _).1 h))]
    by_cases hd : dir = ""
    · subst hd
      simp only [true_or, if_true, String.empty_append]
      constructor
      · intro h; injection h with h; subst h; exact .here hs rfl
      · intro h
        cases h with
        | absolute h => exact absurd h hs
        | here => rfl
        | below _ hd =>
          exfalso
          rcases hd with hd | ⟨hd, hb, _⟩
          · have := congrArg String.toList hd; simp at this
          · exact hb hd.symm
    · by_cases he : ∃ b, dir = b ++ "/"
      · have : dir = "" ∨ Str.endsWith dir "/" = true := .inr ((Str.endsWith_iff _ _).2 he)
        rw [if_pos this]
        obtain ⟨b, rfl⟩ := he
        constructor
        · intro h; injection h with h; subst h; exact .below hs (.inl rfl)
        · intro h
          cases h with
          | absolute h => exact absurd h hs
          | here _ h => exact absurd h hd
          | below _ hd' =>
            rcases hd' with hd' | ⟨hd', _, hb⟩
            · rw [hd']
            · exact absurd ⟨b, hd'.symm⟩ hb
      · have : ¬ (dir = "" ∨ Str.endsWith dir "/" = true) := by
          rintro (h | h)
          · exact hd h
          · exact he ((Str.endsWith_iff _ _).1 h)
        rw [if_neg this]
        constructor
        · intro h; injection h with h; subst h; exact .below hs (.inr ⟨rfl, hd, he⟩)
        · intro h
          cases h with
          | absolute h => exact absurd h hs
          | here _ h => exact absurd h hd
          | below _ hd' =>
            rcases hd' with hd' | ⟨hd', _, _⟩
            · exact absurd ⟨_, hd'⟩ he
            · rw [hd']

/-- What the server demands of its visitors, as the configuration says. -/
inductive Demanded (conf : Obj) : VerifyMode → Prop
  | nothing (h : NotMade conf "verify_user" "VERIFY_USER") : Demanded conf .none
  | optional (h : Made conf "verify_user" "VERIFY_USER" (.str "optional")) : Demanded conf .optional
  | required (h : Made conf "verify_user" "VERIFY_USER" (.str "required")) : Demanded conf .required

theorem fileEntry_iff (conf : Obj) (name : String) (v : Val) :
    fileEntry conf name = some v ↔ Made conf (Str.lower name) (Str.upper name) v := by
  rw [← made_iff]
  unfold fileEntry
  cases h : lowerOrUpper conf name with
  | none => simp [truthyO]
  | some w =>
    cases hw : w.truthy with
    | false =>
      simp only [truthyO, Option.map_some, hw, Option.getD_some, Bool.false_eq_true, if_false]
      constructor
      · intro h; cases h
      · rintro ⟨h, h'⟩; injection h with h; subst h; rw [hw] at h'; cases h'
    | true =>
      simp only [truthyO, Option.map_some, hw, Option.getD_some, if_true]
      constructor
      · intro h; injection h with h; subst h; exact ⟨rfl, hw⟩
      · rintro ⟨h, _⟩; exact h

theorem visitors_ok {e : SslExt} {conf : Obj} {mode : VerifyMode} {ca : Option Val} (h : visitors e conf = .ok (mode, ca)) :
    Demanded conf mode ∧ (mode = .none → ca = none) ∧
    (mode ≠ .none → (∀ v, Made conf "ca_bundle" "CA_BUNDLE" v → ca = some v ∧ e.loadCa v = .ok ()) ∧
      (NotMade conf "ca_bundle" "CA_BUNDLE" → ca = none)) := by
  have nothing : truthyO (lowerOrUpper conf "verify_user") = false → (mode, ca) = (.none, none) →
      Demanded conf mode ∧ (mode = .none → ca = none) ∧
      (mode ≠ .none → (∀ v, Made conf "ca_bundle" "CA_BUNDLE" v → ca = some v ∧ e.loadCa v = .ok ()) ∧
        (NotMade conf "ca_bundle" "CA_BUNDLE" → ca = none)) := by
    rintro h1 h2
    injection h2 with h2 h3
    subst h2 h3
    exact ⟨.nothing ((notMade_iff conf "verify_user").1 h1), fun _ => rfl, fun h => absurd rfl h⟩
  unfold visitors at h
  split at h
  · next v hv =>
    split at h
    · next ht =>
      have hm := (made_iff conf "verify_user" v).1 ⟨hv, ht⟩
      have hca : ∀ m, (if truthyO (lowerOrUpper conf "ca_bundle") then
            match e.loadCa ((lowerOrUpper conf "ca_bundle").getD .null) with
            | .error err => .error err
            | .ok _ => .ok (m, lowerOrUpper conf "ca_bundle")
          else .ok (m, none) : Except Exc (VerifyMode × Option Val)) = .ok (mode, ca) → mode = m ∧
          (∀ v, Made conf "ca_bundle" "CA_BUNDLE" v → ca = some v ∧ e.loadCa v = .ok ()) ∧
            (NotMade conf "ca_bundle" "CA_BUNDLE" → ca = none) := by
        intro m h
        split at h
        · next hb =>
          split at h
          · cases h
          · next u hl =>
            injection h with h; injection h with h1 h2
            refine ⟨h1.symm, fun w hw => ?_, fun hn => ?_⟩
            · obtain ⟨k1, _⟩ := (made_iff conf "ca_bundle" w).2 hw
              rw [k1] at hl h2
              exact ⟨h2.symm, hl⟩
            · have := (notMade_iff conf "ca_bundle").2 hn
              rw [this] at hb; cases hb
        · next hb =>
          injection h with h; injection h with h1 h2
          refine ⟨h1.symm, fun w hw => ?_, fun _ => h2.symm⟩
          exfalso
          obtain ⟨k1, k2⟩ := (made_iff conf "ca_bundle" w).2 hw
          apply hb; rw [k1]; simp [truthyO, k2]
      split at h
      · cases h
      · next m hmode =>
        obtain ⟨rfl, h2⟩ := hca m h
        split at hmode
        · next ho => injection hmode with hmode; subst hmode ho; exact ⟨.optional hm, (fun h => by cases h), (fun _ => h2)⟩
        · split at hmode
          · next ho => injection hmode with hmode; subst hmode ho; exact ⟨.required hm, (fun h => by cases h), (fun _ => h2)⟩
          · cases hmode
    · next ht =>
      injection h with h
      exact nothing (by rw [hv]; simpa [truthyO] using ht) h.symm
  · next hv =>
    injection h with h
    exact nothing (by rw [hv]; rfl) h.symm

/-- **C100** (a server with TLS).  A context is made exactly of what is configured, in either spelling: the certificate and key
named, relative to the directory given, and the demand for certificates of the visitors that is named - an unknown one
does not start a server that demands none. -/
theorem C100_server_context (e : SslExt) (dir : String) (conf : Obj) (ctx : SslContext)
    (h : createContext e dir conf = .ok (some ctx)) :
    (∃ s, Made conf "server_cert" "SERVER_CERT" (.str s) ∧ FileIn dir s ctx.cert) ∧
    (∃ s, Made conf "server_key" "SERVER_KEY" (.str s) ∧ FileIn dir s ctx.key) ∧
    e.loadChain ctx.cert ctx.key = .ok () ∧
    Demanded conf ctx.mode ∧ (ctx.mode = .none → ctx.ca = none) ∧
    (ctx.mode ≠ .none → (∀ v, Made conf "ca_bundle" "CA_BUNDLE" v → ctx.ca = some v ∧ e.loadCa v = .ok ()) ∧
      (NotMade conf "ca_bundle" "CA_BUNDLE" → ctx.ca = none)) := by
  have strOf : ∀ {v f}, fileOf dir v = .ok f → ∃ s, v = .str s ∧ FileIn dir s f := by
    intro v f hv
    cases v with
    | str s => exact ⟨s, rfl, (fileOf_iff _ _ _).1 hv⟩
    | _ => cases hv
  unfold createContext at h
  split at h
  · cases h
  · next c hc =>
    split at h
    · cases h
    · next cert hcert =>
      split at h
      · cases h
      · next k hk =>
        split at h
        · cases h
        · next key hkey =>
          split at h
          · cases h
          · next mode ca hv =>
            split at h
            · cases h
            · next hl =>
              injection h with h; injection h with h; subst h
              obtain ⟨s, rfl, hs⟩ := strOf hcert
              obtain ⟨s', rfl, hs'⟩ := strOf hkey
              exact ⟨⟨s, (fileEntry_iff conf "server_cert" _).1 hc, hs⟩, ⟨s', (fileEntry_iff conf "server_key" _).1 hk, hs'⟩, hl,
                visitors_ok hv⟩

/-- **C100** (a server without TLS).  It takes a missing certificate or key to get a server without TLS. -/
theorem C100_no_tls (e : SslExt) (dir : String) (conf : Obj) (h : createContext e dir conf = .ok none) :
    NotMade conf "server_cert" "SERVER_CERT" ∨ NotMade conf "server_key" "SERVER_KEY" := by
  unfold createContext at h
  split at h
  · next hc =>
    left
    intro v hv
    rw [(fileEntry_iff conf "server_cert" v).2 hv] at hc; cases hc
  · split at h
    · cases h
    · split at h
      · next hk =>
        right
        intro v hv
        rw [(fileEntry_iff conf "server_key" v).2 hv] at hk; cases hk
      · split at h
        · cases h
        · split at h
          · cases h
          · split at h <;> cases h

/-! ## `set_param` -/

/-- **C65** (`set_param`, every case).  An attribute is set exactly if the setting is made: without values for placeholders to
the setting; a text with the placeholder of the first value to the text with all placeholders filled in, any other text to
itself; a list or dictionary (without the placeholder as an element or key) to itself. -/
theorem C65_set_param (config : Obj) (param : String) (kw : Dict String) :
    (NotMade config (Str.lower param) (Str.upper param) → setParam config param kw = .ok none) ∧
    (∀ v, Made config (Str.lower param) (Str.upper param) v →
      (kw = [] → setParam config param kw = .ok (some v)) ∧
      ∀ key w rest, kw = (key, w) :: rest →
        (∀ s, v = .str s → (∃ a b, s = a ++ "{" ++ key ++ "}" ++ b) →
          setParam config param kw = (formatS kw s).map (fun s' => some (.str s'))) ∧
        (∀ s, v = .str s → (¬ ∃ a b, s = a ++ "{" ++ key ++ "}" ++ b) → setParam config param kw = .ok (some v)) ∧
        (∀ l, v = .list l → .str ("{" ++ key ++ "}") ∉ l → setParam config param kw = .ok (some v)) ∧
        (∀ l, v = .list l → .str ("{" ++ key ++ "}") ∈ l → setParam config param kw = .error .attributeError) ∧
        (∀ o, v = .obj o → "{" ++ key ++ "}" ∉ Dict.keys o → setParam config param kw = .ok (some v)) ∧
        (∀ o, v = .obj o → "{" ++ key ++ "}" ∈ Dict.keys o → setParam config param kw = .error .attributeError)) := by
  have hph : ∀ key s, hasPlaceholder key s = true ↔ ∃ a b, s = a ++ "{" ++ key ++ "}" ++ b := by
    intro key s
    unfold hasPlaceholder Str.contains
    rw [Str.containsL_iff]
    constructor
    · rintro ⟨a, b, h⟩
      refine ⟨String.ofList a, String.ofList b, String.toList_inj.1 ?_⟩
      rw [← h]; simp
    · rintro ⟨a, b, h⟩
      refine ⟨a.toList, b.toList, ?_⟩
      rw [h]; simp
  have hlu : (if truthyO (Dict.get? config (Str.lower param)) then Dict.get? config (Str.lower param)
      else Dict.get? config (Str.upper param)) = lowerOrUpper config param := by
    simp [lowerOrUpper]
  have e : ∀ v, lowerOrUpper config param = some v → v.truthy = true → setParam config param kw = match kw, v with
      | [], v => .ok (some v)
      | (key, _) :: _, .str s =>
        if hasPlaceholder key s then (formatS kw s).map (fun s' => some (.str s')) else .ok (some (.str s))
      | (key, _) :: _, .list l =>
        if Val.str ("{" ++ key ++ "}") ∈ l then .error .attributeError else .ok (some (.list l))
      | (key, _) :: _, .obj o =>
        if Dict.has o ("{" ++ key ++ "}") then .error .attributeError else .ok (some (.obj o))
      | _ :: _, _ => .error .typeError := by
    intro v hv ht
    unfold setParam
    simp only [hlu, hv, ht]
    rfl
  refine ⟨fun hn => ?_, fun v hv => ?_⟩
  · have := (notMade_iff config param).2 hn
    unfold setParam
    simp only [hlu]
    cases h : lowerOrUpper config param with
    | none => rfl
    | some v => rw [h] at this; simp only [truthyO, Option.map_some, Option.getD_some] at this; simp [this]
  · obtain ⟨h1, h2⟩ := (made_iff config param v).2 hv
    have e := e v h1 h2
    refine ⟨?_, ?_⟩
    · rintro rfl; rw [e]
    · rintro key w rest rfl
      refine ⟨?_, ?_, ?_, ?_, ?_, ?_⟩
      · rintro s rfl hp; rw [e]; simp only [(hph key s).2 hp, if_true]
      · rintro s rfl hp; rw [e]; simp only; rw [if_neg (fun h => hp ((hph key s).1 h))]
      · rintro l rfl hl; rw [e]; simp only [hl, if_false]
      · rintro l rfl hl; rw [e]; simp only [hl, if_true]
      · rintro o rfl ho; rw [e]; simp only
        have : Dict.has o ("{" ++ key ++ "}") = false := by
          rw [Dict.has_eq, (Dict.get?_eq_none_iff _ _).2 ho]; rfl
        simp [this]
      · rintro o rfl ho; rw [e]; simp only
        have : Dict.has o ("{" ++ key ++ "}") = true := by
          rw [Dict.has_eq]
          cases hg : Dict.get? o ("{" ++ key ++ "}") with
          | none => exact absurd ho ((Dict.get?_eq_none_iff _ _).1 hg)
          | some v => rfl
        simp [this]

/-! ## Non-vacuity -/

/-- A configuration in mixed spelling. -/
def mixedConf : Obj :=
  [("CLIENTS", .obj [("op", .obj [])]), ("base_url", .str ""), ("BASE_URL", .str "https://rp.example"), ("oidc_keys", .str "keys"),
   ("server_cert", .str "cert.pem"), ("SERVER_KEY", .str "/etc/key.pem"), ("verify_user", .str "required"), ("CA_BUNDLE", .str "ca.pem")]

/-- Non-vacuity of C100. -/
example :
    (rpConfiguration "seed" mixedConf).baseUrl = some (.str "https://rp.example") ∧
    (rpConfiguration "seed" mixedConf).keyConf = some (.str "keys") ∧
    (rpConfiguration "seed" mixedConf).hashSeed = .str "seed" ∧
    (createContext { loadCa := fun _ => .ok (), loadChain := fun _ _ => .ok () } "/srv" mixedConf).toOption =
      some (some { mode := .required, ca := some (.str "ca.pem"), cert := "/srv/cert.pem", key := "/etc/key.pem" }) ∧
    (createContext { loadCa := fun _ => .ok (), loadChain := fun _ _ => .ok () } "/srv"
      (Dict.set mixedConf "verify_user" (.str "Required"))).isOk = false := by
  refine ⟨by decide, by decide, by decide, by decide, by decide⟩

end Verif.Props
