import Verif.Lemmas.Util
/-!
# HTTP placement, content types, path joining, configuration values: C41, C42, C63, C65
-/

namespace Verif.Props
open Verif Verif.Util

/-! ## C41: requests are placed where the method demands -/

/-- C41 (URL, no query in the endpoint): the URL is the endpoint, `?` and a query from which a
receiver reads exactly the request's parameters. -/
theorem C41_get_url (ser : Ser) (base : String) (req : Obj) (method : String)
    (hm : method = "GET" ∨ method = "DELETE")
    (hq : '?' ∉ base.toList) (hf : '#' ∉ base.toList) (hne : toParams ser req ≠ []) :
    ∃ q : String, getHttpUrl ser base req method = base ++ "?" ++ q ∧
      Quote.parseQsl q.toList = Spec.onWire (toParams ser req) := by
  have hreq : req.isEmpty = false := by
    cases req with
    | nil => exact absurd rfl hne
    | cons => rfl
  refine ⟨toUrlencoded ser req, ?_, ?_⟩
  · unfold getHttpUrl
    have hs := urlsplit_plain base.toList hq hf
    rw [String.ofList_toList] at hs
    simp only [hm, if_true, hreq, Bool.false_eq_true, if_false, hs, mergeQuery]
    apply String.toList_inj.1
    have := urlencode_ne_nil hne
    simp [urlunsplit, toUrlencoded, this]
  · rw [toUrlencoded, String.toList_ofList, Quote.parseQsl_urlencode]; rfl

/-- C41, for a request of text parameters: exactly those are read by the receiver. -/
theorem C41_get_url_text (ser : Ser) (base : String) (ps : List (String × String)) (method : String)
    (hm : method = "GET" ∨ method = "DELETE")
    (hq : '?' ∉ base.toList) (hf : '#' ∉ base.toList) (hne : ps ≠ []) :
    ∃ q : String, getHttpUrl ser base (Spec.textRequest ps) method = base ++ "?" ++ q ∧
      Quote.parseQsl q.toList = Spec.onWire ps := by
  have h := C41_get_url ser base (Spec.textRequest ps) method hm hq hf
    (by rw [toParams_text]; exact hne)
  rw [toParams_text] at h; exact h

example : '?' ∉ "https://op.example.org/authz".toList ∧ '#' ∉ "https://op.example.org/authz".toList ∧
    [("client_id", "a b&c"), ("state", "=?")] ≠ [] := by decide

/-- C41 (endpoint with a query): base and fragment are kept, the one query encodes the request
merged with the endpoint's own parameters. -/
theorem C41_get_url_query (ser : Ser) (base query frag : List Char) (req : Obj) (method : String)
    (hm : method = "GET" ∨ method = "DELETE")
    (hb : '?' ∉ base) (hb' : '#' ∉ base) (hq : '#' ∉ query) (hfr : frag ≠ [])
    (hreq : req ≠ []) (hne : toParams ser (mergeQuery req query) ≠ []) :
    ∃ q : List Char,
      (getHttpUrl ser (String.ofList (base ++ '?' :: query ++ '#' :: frag)) req method).toList
        = base ++ '?' :: q ++ '#' :: frag ∧
      Quote.parseQsl q = Spec.onWire (toParams ser (mergeQuery req query)) := by
  have hreq : req.isEmpty = false := by
    cases req with
    | nil => exact absurd rfl hreq
    | cons => rfl
  refine ⟨(toUrlencoded ser (mergeQuery req query)).toList, ?_, ?_⟩
  · unfold getHttpUrl
    rw [urlsplit_parts base query frag hb hb' hq]
    simp only [hm, if_true, hreq, Bool.false_eq_true, if_false]
    have := urlencode_ne_nil hne
    simp [urlunsplit, toUrlencoded, this, hfr]
  · rw [toUrlencoded, String.toList_ofList, Quote.parseQsl_urlencode]; rfl

/-- C41, partial: a request parameter is sent as given if the endpoint's own query does not name
it.  (Missing: the endpoint's query wins otherwise, see `C41_violated_query_overrides_request`.) -/
theorem C41_request_parameter_kept_partial (req : Obj) (query : List Char) (k : String)
    (hk : k ∉ (parseQs query).keys) (hn : (parseQs query).keys.Nodup) :
    Dict.get? (mergeQuery req query) k = Dict.get? req k := by
  unfold mergeQuery
  split
  · rfl
  · have hkeys : Dict.keys ((parseQs query).map (fun p => (p.1, unwrap p.2))) =
        (parseQs query).keys := by simp [Dict.keys]
    rw [Dict.get?_update_nodup]
    · rw [(Dict.get?_eq_none_iff _ _).2 (by rw [hkeys]; exact hk)]; rfl
    · rw [hkeys]; exact hn

example : "state" ∉ (parseQs "tenant=1&x=2".toList).keys ∧
    (parseQs "tenant=1&x=2".toList).keys.Nodup := by decide +kernel

/-- C41 is violated by the code if the endpoint URL has a query naming a request parameter: the
endpoint's value replaces the request's. -/
theorem C41_violated_query_overrides_request :
    Dict.get? (mergeQuery [("client_id", .str "me")] "client_id=other".toList) "client_id"
      = some (.str "other") := by decide +kernel

/-- C41: an empty request leaves the URL alone. -/
theorem C41_empty_request (ser : Ser) (url method : String) :
    getHttpUrl ser url [] method = url := by
  unfold getHttpUrl; split <;> simp

/-- C41: with any method but GET and DELETE the URL is the endpoint. -/
theorem C41_other_method_url (ser : Ser) (url : String) (req : Obj) (method : String)
    (h1 : method ≠ "GET") (h2 : method ≠ "DELETE") : getHttpUrl ser url req method = url := by
  unfold getHttpUrl; simp [h1, h2]

/-- C41: a urlencoded body is read back as exactly the request's parameters. -/
theorem C41_body_urlencoded (ser : Ser) (req : Obj) (ctype : String)
    (h : Str.contains ctype "application/x-www-form-urlencoded" = true) :
    ∃ b, getHttpBody ser req ctype = .ok (.text b) ∧
      Quote.parseQsl b.toList = Spec.onWire (toParams ser req) := by
  refine ⟨toUrlencoded ser req, ?_, ?_⟩
  · simp [getHttpBody, URL_ENCODED, h]
  · rw [toUrlencoded, String.toList_ofList, Quote.parseQsl_urlencode]; rfl

/-- C41: a JSON body is the JSON text of the request; a JOSE body is handed over as it is. -/
theorem C41_body_json_jose (ser : Ser) (req : Obj) :
    getHttpBody ser req "application/json" = .ok (.text (ser.json (.obj req))) ∧
    getHttpBody ser req "application/jose" = .ok .packaged := by
  constructor <;> simp [getHttpBody, URL_ENCODED, JSON_ENCODED, JOSE_ENCODED,
    show Str.contains "application/json" "application/x-www-form-urlencoded" = false by decide,
    show Str.contains "application/json" "application/json" = true by decide,
    show Str.contains "application/jose" "application/x-www-form-urlencoded" = false by decide,
    show Str.contains "application/jose" "application/json" = false by decide,
    show Str.contains "application/jose" "application/jose" = true by decide]

/-- C41: any other content type is refused. -/
theorem C41_body_refused (ser : Ser) (req : Obj) (ctype : String)
    (h : ∀ t ∈ ["application/x-www-form-urlencoded", "application/json", "application/jose"],
      Str.contains ctype t = false) :
    getHttpBody ser req ctype = .error .unsupported := by
  simp [getHttpBody, URL_ENCODED, JSON_ENCODED, JOSE_ENCODED,
    h "application/x-www-form-urlencoded" (by simp), h "application/json" (by simp),
    h "application/jose" (by simp)]

example : ∀ t ∈ ["application/x-www-form-urlencoded", "application/json", "application/jose"],
    Str.contains "text/xml" t = false := by decide

/-! ## C42: response bodies are interpreted by their content type -/

/-- C42: each known media type, with or without parameters, selects its deserialisation method,
whatever the rest of the response is. -/
theorem C42_media_type (resp : HttpResp) (media method ctype : String)
    (ht : (media, method) ∈ Spec.mediaTable) (hc : Spec.IsContentType ctype media)
    (hh : Dict.get? resp.headers "content-type" = some ctype) :
    getDeserializationMethod resp = method := by
  obtain ⟨p, rfl⟩ := isContentType_eq hc
  unfold getDeserializationMethod
  rw [hh]
  have hne : ¬ (media ++ p = "") := by
    intro h
    have h := congrArg String.toList h
    simp only [String.toList_append, String.toList_empty, List.append_eq_nil_iff] at h
    have : media = "" := String.toList_inj.1 (by simpa using h.1)
    subst this; revert ht; simp [Spec.mediaTable]
  have hm : ∀ n, (Str.startsWith media n || !(Str.startsWith n media)) = true →
      matchTo n (media ++ p) = Str.startsWith media n := fun n h => startsWith_append media p n h
  simp only [hne, if_false, URL_ENCODED]
  simp only [Spec.mediaTable, List.mem_cons, Prod.mk.injEq, List.not_mem_nil, or_false] at ht
  rcases ht with ⟨rfl, rfl⟩ | ⟨rfl, rfl⟩ | ⟨rfl, rfl⟩ | ⟨rfl, rfl⟩ | ⟨rfl, rfl⟩ | ⟨rfl, rfl⟩ | ⟨rfl, rfl⟩
  all_goals
    rw [hm _ (by decide), hm _ (by decide), hm _ (by decide), hm _ (by decide),
      hm _ (by decide), hm _ (by decide), hm _ (by decide)]
    decide

example : ("application/jwt", "jwt") ∈ Spec.mediaTable ∧
    Spec.IsContentType "application/jwt; charset=utf-8" "application/jwt" :=
  ⟨by decide, .inr ⟨" charset=utf-8", rfl⟩⟩

/-- C42: a content type that does not start with a known media type selects no method. -/
theorem C42_unknown_type (resp : HttpResp) (ctype : String) (hne : ctype ≠ "")
    (hh : Dict.get? resp.headers "content-type" = some ctype)
    (hu : ∀ e ∈ Spec.mediaTable, Str.startsWith ctype e.1 = false) :
    getDeserializationMethod resp = "" := by
  unfold getDeserializationMethod
  rw [hh]
  simp only [hne, if_false, matchTo, URL_ENCODED]
  have h := fun m d (hm : (m, d) ∈ Spec.mediaTable) => hu (m, d) hm
  simp only [h "application/json" "json" (by simp [Spec.mediaTable]),
    h "application/jrd+json" "json" (by simp [Spec.mediaTable]),
    h "application/jwt" "jwt" (by simp [Spec.mediaTable]),
    h "application/jose" "jose" (by simp [Spec.mediaTable]),
    h "application/x-www-form-urlencoded" "urlencoded" (by simp [Spec.mediaTable])]
  simp

example : ∀ e ∈ Spec.mediaTable, Str.startsWith "image/png" e.1 = false := by decide

/-- C42: without a content type the body is JSON if it parses as JSON and urlencoded otherwise. -/
theorem C42_no_content_type (resp : HttpResp)
    (hh : Dict.get? resp.headers "content-type" = none) :
    getDeserializationMethod resp = if resp.jsonOk then "json" else "urlencoded" := by
  unfold getDeserializationMethod; rw [hh]

/-- C42 (`verify_header`): with an expected body type, the answer is accepted exactly if its content
type starts with a media type that the expected type admits, and the type returned is the one listed
for it; anything else raises. -/
theorem C42_verify_header (resp : HttpResp) (bt ctype : String)
    (hbt : bt ∈ ["json", "jwt", "urlencoded", "txt"])
    (hh : Dict.get? resp.headers "content-type" = some ctype) :
    (∀ r, verifyHeader resp bt = .ok r ↔
      ∃ m, (m, r) ∈ Spec.admits bt ∧ Str.startsWith ctype m = true) ∧
    ((∀ e ∈ Spec.admits bt, Str.startsWith ctype e.1 = false) →
      verifyHeader resp bt = .error .wrongContentType) := by
  simp only [List.mem_cons, List.not_mem_nil, or_false] at hbt
  have e : verifyHeader resp bt = verifyHeader { resp with headers := [("content-type", ctype)] } bt := by
    simp only [verifyHeader, hh, Dict.get?, if_true]
  rw [e]
  rcases hbt with rfl | rfl | rfl | rfl
  · have excl : Str.startsWith ctype "application/json" = true ∨
        Str.startsWith ctype "application/jrd+json" = true →
        Str.startsWith ctype "application/jwt" = false := by
      rintro (h | h) <;>
      · obtain ⟨p, rfl⟩ := (Str.startsWith_iff _ _).1 h
        rw [startsWith_append _ _ _ (by decide)]; decide
    rw [verifyHeader_json]
    constructor
    · intro r
      simp only [Spec.admits, List.mem_cons, Prod.mk.injEq, List.not_mem_nil, or_false]
      constructor
      · intro h
        split at h
        · next h1 =>
          cases h
          rcases Bool.or_eq_true_iff.1 h1 with h1 | h1
          · exact ⟨_, .inl ⟨rfl, rfl⟩, h1⟩
          · exact ⟨_, .inr (.inl ⟨rfl, rfl⟩), h1⟩
        · split at h
          · next h1 => cases h; exact ⟨_, .inr (.inr ⟨rfl, rfl⟩), h1⟩
          · cases h
      · rintro ⟨m, ⟨rfl, rfl⟩ | ⟨rfl, rfl⟩ | ⟨rfl, rfl⟩, h⟩
        · rw [h, Bool.true_or, if_pos rfl]
        · rw [h, Bool.or_true, if_pos rfl]
        · have h1 : Str.startsWith ctype "application/json" = false := by
            cases h1 : Str.startsWith ctype "application/json" with
            | false => rfl
            | true => rw [excl (.inl h1)] at h; cases h
          have h2 : Str.startsWith ctype "application/jrd+json" = false := by
            cases h2 : Str.startsWith ctype "application/jrd+json" with
            | false => rfl
            | true => rw [excl (.inr h2)] at h; cases h
          simp [h, h1, h2]
    · intro h
      have h1 := h ("application/json", "json") (by simp [Spec.admits])
      have h2 := h ("application/jrd+json", "json") (by simp [Spec.admits])
      have h3 := h ("application/jwt", "jwt") (by simp [Spec.admits])
      simp only at h1 h2 h3
      simp [h1, h2, h3]
  · rw [verifyHeader_jwt]
    constructor
    · intro r
      simp only [Spec.admits, List.mem_cons, Prod.mk.injEq, List.not_mem_nil, or_false]
      constructor
      · intro h
        split at h
        · next h1 => cases h; exact ⟨_, ⟨rfl, rfl⟩, h1⟩
        · cases h
      · rintro ⟨m, ⟨rfl, rfl⟩, h⟩; rw [if_pos h]
    · intro h
      have h3 := h ("application/jwt", "jwt") (by simp [Spec.admits])
      simp only at h3
      simp [h3]
  · rw [verifyHeader_urlencoded]
    constructor
    · intro r
      simp only [Spec.admits, List.mem_cons, Prod.mk.injEq, List.not_mem_nil, or_false]
      constructor
      · intro h
        split at h
        · next h1 => cases h; exact ⟨_, .inl ⟨rfl, rfl⟩, h1⟩
        · split at h
          · next h1 => cases h; exact ⟨_, .inr ⟨rfl, rfl⟩, h1⟩
          · cases h
      · rintro ⟨m, ⟨rfl, rfl⟩ | ⟨rfl, rfl⟩, h⟩ <;> simp [h]
    · intro h
      have h1 := h ("application/x-www-form-urlencoded", "urlencoded") (by simp [Spec.admits])
      have h2 := h ("text/plain", "urlencoded") (by simp [Spec.admits])
      simp only at h1 h2
      simp [h1, h2]
  · rw [verifyHeader_txt]
    constructor
    · intro r
      simp only [Spec.admits, List.mem_cons, Prod.mk.injEq, List.not_mem_nil, or_false]
      constructor
      · intro h
        split at h
        · next h1 => cases h; exact ⟨_, .inl ⟨rfl, rfl⟩, h1⟩
        · split at h
          · next h1 => cases h; exact ⟨_, .inr ⟨rfl, rfl⟩, h1⟩
          · cases h
      · rintro ⟨m, ⟨rfl, rfl⟩ | ⟨rfl, rfl⟩, h⟩ <;> simp [h]
    · intro h
      have h1 := h ("text/plain", "txt") (by simp [Spec.admits])
      have h2 := h ("text/html", "txt") (by simp [Spec.admits])
      simp only at h1 h2
      simp [h1, h2]

example : "json" ∈ ["json", "jwt", "urlencoded", "txt"] ∧
    Dict.get? ({ status := 200, headers := [("content-type", "text/html")], text := "" } :
      HttpResp).headers "content-type" = some "text/html" := by decide

/-- C42: an unknown expected type is refused whenever there is a content type. -/
theorem C42_verify_header_unknown (resp : HttpResp) (bt ctype : String)
    (hbt : bt ∉ ["", "json", "jwt", "urlencoded", "txt"])
    (hh : Dict.get? resp.headers "content-type" = some ctype) :
    verifyHeader resp bt = .error .valueError := by
  simp only [List.mem_cons, List.not_mem_nil, or_false, not_or] at hbt
  unfold verifyHeader; rw [hh]
  simp [hbt.1, hbt.2.1, hbt.2.2.1, hbt.2.2.2.1, hbt.2.2.2.2]

/-- C42 is violated by the code in two ways: a different media type that merely starts with a known
one is taken for it, and media types are compared case-sensitively although they are not. -/
theorem C42_violated_prefix_and_case :
    getDeserializationMethod ⟨200, [("content-type", "application/json-seq")], "", false⟩ = "json" ∧
    getDeserializationMethod ⟨200, [("content-type", "Application/JSON")], "", false⟩ = "" := by decide

/-! ## C63: add_path joins with exactly one slash -/

/-- C63: whichever of the two brings a slash, the parts are joined by exactly one. -/
theorem C63_one_slash (base rest : String) (s₁ s₂ : Bool)
    (hb : Str.endsWith base "/" = false) (hr : Str.startsWith rest "/" = false) :
    addPath (base ++ if s₁ then "/" else "") ((if s₂ then "/" else "") ++ rest)
      = base ++ "/" ++ rest := by
  have e1 : ∀ b : String, Str.endsWith (b ++ "/") "/" = true := fun b =>
    (Str.endsWith_iff _ _).2 ⟨b, rfl⟩
  have e2 : ∀ r : String, Str.startsWith ("/" ++ r) "/" = true := fun r =>
    (Str.startsWith_iff _ _).2 ⟨r, rfl⟩
  have e3 : ∀ r : String, Str.drop1 ("/" ++ r) = r := fun r => by
    apply String.toList_inj.1; simp [Str.drop1]
  cases s₁ <;> cases s₂ <;>
    simp [addPath, e1, e2, e3, hb, hr, String.append_assoc]

example : Str.endsWith "https://rp.example.org" "/" = false ∧
    Str.startsWith "authz_cb/x" "/" = false := by decide

/-! ## C65: configuration placeholder substitution -/

/-- C65: `lower_or_upper` gives the lower-case entry unless that is missing or empty, then the
upper-case entry. -/
theorem C65_lower_or_upper (config : Obj) (param : String) :
    lowerOrUpper config param =
      if (∃ v, Dict.get? config (Str.lower param) = some v ∧ v.truthy = true)
      then Dict.get? config (Str.lower param) else Dict.get? config (Str.upper param) := by
  unfold lowerOrUpper
  simp only [Option.or_none, truthyO]
  cases Dict.get? config (Str.lower param) with
  | none => simp
  | some v => cases h : v.truthy <;> simp [h]

/-- C65: a value with the placeholder has it replaced (text before and after is kept). -/
theorem C65_replace_placeholder (config : Obj) (param key value pre post : String)
    (hv : Dict.get? config (Str.lower param) = some (.str (pre ++ "{" ++ key ++ "}" ++ post)))
    (hpre : '{' ∉ pre.toList ∧ '}' ∉ pre.toList) (hpost : '{' ∉ post.toList ∧ '}' ∉ post.toList)
    (hkey : '{' ∉ key.toList ∧ '}' ∉ key.toList) :
    replace config param [(key, value)] =
      .ok (Dict.set config (Str.lower param) (.str (pre ++ value ++ post))) := by
  have hl : (pre ++ "{" ++ key ++ "}" ++ post).toList
      = pre.toList ++ '{' :: key.toList ++ '}' :: post.toList := by simp
  have hph : hasPlaceholder key (pre ++ "{" ++ key ++ "}" ++ post) = true := by
    unfold hasPlaceholder Str.contains
    rw [hl]
    have := infix_braces pre.toList key.toList post.toList
    simpa using this
  have ht : Val.truthy (.str (pre ++ "{" ++ key ++ "}" ++ post)) = true := by
    simp only [Val.truthy, bne_iff_ne, ne_eq]
    intro h
    have := congrArg String.toList h
    rw [hl] at this; simp at this
  have hf : formatS [(key, value)] (pre ++ "{" ++ key ++ "}" ++ post) = .ok (pre ++ value ++ post) := by
    unfold formatS
    rw [hl, List.append_assoc, format_plain _ _ _ hpre.1 hpre.2]
    have e : format [(key, value)] none ('{' :: key.toList ++ '}' :: post.toList) =
        format [(key, value)] (some []) (key.toList ++ '}' :: post.toList) := by
      cases hk : key.toList with
      | nil => rfl
      | cons c cs =>
        have : c ≠ '{' := by rintro rfl; rw [hk] at hkey; simp at hkey
        rw [List.cons_append, List.cons_append, format]
        intro s' h; injection h with h _; exact absurd h this
    rw [e, format_field _ _ _ _ hkey.2]
    have hp := format_plain [(key, value)] post.toList [] hpost.1 hpost.2
    rw [List.append_nil] at hp
    simp only [List.nil_append, String.ofList_toList, Dict.get?, if_true, hp, format, Except.map]
    congr 1
    apply String.toList_inj.1
    simp
  unfold replace
  rw [hv]
  simp only [ht, if_true, replaceFound, hph, hf, Except.map]

example : ('{' ∉ "https://".toList ∧ '}' ∉ "https://".toList) ∧
    ('{' ∉ "domain".toList ∧ '}' ∉ "domain".toList) := by decide

/-- C65: a text value without the placeholder, stored under the lower-case name, is unchanged (and so
is the whole configuration). -/
theorem C65_replace_no_placeholder (config : Obj) (param s : String) (kw : Dict String)
    (k v : String) (hv : Dict.get? config (Str.lower param) = some (.str s)) (hs : s ≠ "")
    (hp : hasPlaceholder k s = false) :
    replace config param ((k, v) :: kw) = .ok config := by
  unfold replace
  rw [hv]
  simp [Val.truthy, hs, replaceFound, hp]

example : hasPlaceholder "port" "https://{domain}" = false := by decide

/-- C65 is violated by the code for upper-case names: the entry is deleted although its value has no
placeholder to be replaced. -/
theorem C65_violated_upper_case_dropped :
    replace [("BASE_URL", .str "https://rp.example.org")] "base_url" [("domain", "x")] = .ok [] := by
  rfl

/-- C65: no entry other than the lower- and upper-case form of the name is ever changed. -/
theorem C65_replace_frame (config config' : Obj) (param : String) (kw : Dict String) (k : String)
    (h : replace config param kw = .ok config') (h1 : k ≠ (Str.lower param)) (h2 : k ≠ (Str.upper param)) :
    Dict.get? config' k = Dict.get? config k := by
  have found : ∀ (c : Obj) (res : Val) (c' : Obj), replaceFound c (Str.lower param) res kw = .ok c' →
      Dict.get? c' k = Dict.get? c k := by
    intro c res c' h
    unfold replaceFound at h
    split at h
    · cases h; exact Dict.get?_set_ne _ _ (fun e => h1 e.symm)
    · split at h
      · next l =>
        cases hl : replaceList _ _ l with
        | error e => rw [hl] at h; cases h
        | ok l' => rw [hl] at h; cases h; exact Dict.get?_set_ne _ _ (fun e => h1 e.symm)
      · next s =>
        split at h
        · cases hl : formatS _ s with
          | error e => rw [hl] at h; cases h
          | ok l' => rw [hl] at h; cases h; exact Dict.get?_set_ne _ _ (fun e => h1 e.symm)
        · cases h; rfl
      · split at h
        · cases h
        · cases h; rfl
      · cases h
  have foundU : ∀ (res : Val) (c' : Obj),
      replaceFound (Dict.del config (Str.upper param)) (Str.lower param) res kw = .ok c' →
      Dict.get? c' k = Dict.get? config k := by
    intro res c' h
    rw [found _ _ _ h, Dict.get?_del_ne _ (fun e => h2 e.symm)]
  unfold replace at h
  split at h
  · split at h
    · exact found _ _ _ h
    · split at h
      · split at h
        · exact foundU _ _ h
        · cases h; rfl
      · cases h; rfl
  · split at h
    · split at h
      · exact foundU _ _ h
      · cases h; rfl
    · cases h; rfl

/-- C65: `set_param` takes the value over unchanged if it has no placeholder. -/
theorem C65_set_param_no_placeholder (config : Obj) (param s : String) (kw : Dict String)
    (hv : Dict.get? config (Str.lower param) = some (.str s)) (hs : s ≠ "")
    (hp : ∀ k v kw', kw = (k, v) :: kw' → hasPlaceholder k s = false) :
    setParam config param kw = .ok (some (.str s)) := by
  unfold setParam
  rw [hv]
  cases kw with
  | nil => simp [truthyO, Val.truthy, hs]
  | cons p kw =>
    obtain ⟨k, v⟩ := p
    simp [truthyO, Val.truthy, hs, hp k v kw rfl]

end Verif.Props
