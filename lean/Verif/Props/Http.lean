import Verif.Model.Http
import Verif.Lemmas.StateInterface
/-!
# C62: the HTTP library
-/

namespace Verif.Props
open Verif Verif.Http

/-! ## Specification -/

/-- The cookie of a jar with a domain, path and name. -/
def findCookie (j : Jar) (domain path name : String) : Option Cookie :=
  (Dict.get? j domain).bind (fun d => (Dict.get? d path).bind (fun p => Dict.get? p name))

/-- The last of the cookies received with a domain, path and name. -/
def lastCookie (cs : List Cookie) (domain path name : String) : Option Cookie :=
  cs.reverse.find? (fun c => decide (c.domain = domain ∧ c.path = path ∧ c.name = name))

/-- `args` are the defaults, overridden by what the caller gave. -/
def Overridden (defaults given args : Obj) : Prop :=
  ∀ k, Dict.get? args k = (Dict.get? given k).or (Dict.get? defaults k)

/-! ## Proofs -/

theorem findCookie_put (j : Jar) (c : Cookie) (d p n : String) :
    findCookie (j.put c) d p n = if c.domain = d ∧ c.path = p ∧ c.name = n then some c else findCookie j d p n := by
  unfold findCookie Jar.put
  simp only
  by_cases hd : c.domain = d
  · subst hd
    rw [Dict.get?_set_self]
    simp only [Option.bind_some, true_and]
    by_cases hp : c.path = p
    · subst hp
      rw [Dict.get?_set_self]
      simp only [Option.bind_some, true_and]
      by_cases hn : c.name = n
      · subst hn
        rw [Dict.get?_set_self]; simp
      · rw [Dict.get?_set_ne _ _ hn, if_neg hn]
        cases h1 : Dict.get? j c.domain with
        | none => rfl
        | some a => cases h2 : Dict.get? a c.path <;> simp [h2]
    · rw [Dict.get?_set_ne _ _ hp]
      rw [if_neg (fun h => hp h.1)]
      cases h1 : Dict.get? j c.domain with
      | none => rfl
      | some a => rfl
  · rw [Dict.get?_set_ne _ _ hd, if_neg (fun h => hd h.1)]

theorem findCookie_setCookie (x : Ext) (ms : List Morsel) (j : Jar) (d p n : String) :
    findCookie (setCookie x j ms) d p n = (lastCookie (ms.map (cookieOf x)) d p n).or (findCookie j d p n) := by
  unfold setCookie lastCookie
  induction ms generalizing j with
  | nil => simp
  | cons m ms ih =>
    simp only [List.foldl_cons, List.map_cons, List.reverse_cons, List.find?_append]
    rw [ih, findCookie_put]
    cases List.find? _ (List.map (cookieOf x) ms).reverse with
    | some c => simp
    | none =>
      by_cases h : (cookieOf x m).domain = d ∧ (cookieOf x m).path = p ∧ (cookieOf x m).name = n
      · simp [h]
      · simp [h]

/-- **C62** (per-request arguments).  A call makes one request; each of its arguments is the one the caller gave, or else
the default of the library. -/
theorem C62_request_arguments_partial (x : Ext) (url method : String) (kwargs : Obj) (hn : (Dict.keys kwargs).Nodup) (l : Lib) :
    ∃ args, (call x url method kwargs l).2.sent = l.sent ++ [(method, url, args)] ∧ Overridden l.requestArgs kwargs args := by
  refine ⟨Dict.update l.requestArgs kwargs, ?_, fun k => Dict.get?_update_nodup _ hn k⟩
  unfold call arguments
  simp only
  split
  · rfl
  · unfold receive
    split
    · next h => split at h <;> (try split at h) <;> cases h <;> rfl
    · next h => split at h <;> (try split at h) <;> cases h <;> rfl

/-- **C62** (redirects).  Unless the caller or the configuration says otherwise, redirects are not followed. -/
theorem C62_no_redirects (x : Ext) (params kwargs : Obj) (url method : String) (hn : (Dict.keys kwargs).Nodup)
    (hnp : (Dict.keys params).Nodup) (h1 : Dict.get? params "allow_redirects" = none)
    (h2 : Dict.get? kwargs "allow_redirects" = none) :
    ∃ args, (call x url method kwargs (Lib.new params)).2.sent = [(method, url, args)] ∧
      Dict.get? args "allow_redirects" = some (.bool false) := by
  obtain ⟨args, h3, h4⟩ := C62_request_arguments_partial x url method kwargs hn (Lib.new params)
  refine ⟨args, h3, ?_⟩
  rw [h4, h2]
  show Dict.get? (Dict.update [("allow_redirects", .bool false)] params) _ = _
  rw [Dict.get?_update_nodup _ hnp, h1]
  rfl

/-- **C62** is violated: what is sent depends neither on the cookies in the jar nor on the request call back. -/
theorem C62_cookies_and_callback_ignored_violated (x : Ext) (url method : String) (kwargs : Obj) (l : Lib) (j : Jar)
    (cb : Option (String → String → Obj → Obj)) :
    (call x url method kwargs { l with jar := j, callback := cb }).2.sent = (call x url method kwargs l).2.sent ∧
    (call x url method kwargs { l with jar := j, callback := cb }).1 = (call x url method kwargs l).1 := by
  unfold call arguments
  simp only
  cases hr : x.request method url (Dict.update l.requestArgs kwargs) with
  | error e => exact ⟨rfl, rfl⟩
  | ok r =>
    simp only
    unfold receive
    cases hc : Dict.get? r.headers "set-cookie" with
    | none => exact ⟨rfl, rfl⟩
    | some t =>
      simp only
      cases x.parse t <;> exact ⟨rfl, rfl⟩

/-- **C62** (cookies received).  After a call whose answer sets the cookies `ms`, the jar has for each domain, path and
name the last one set, or else the one it had. -/
theorem C62_received_cookies_stored (x : Ext) (url method : String) (kwargs : Obj) (l l' : Lib) (r : HttpResp)
    (h : call x url method kwargs l = (.ok r, l')) (t : String) (ms : List Morsel)
    (ht : Dict.get? r.headers "set-cookie" = some t) (hp : x.parse t = .ok ms) (domain path name : String) :
    findCookie l'.jar domain path name =
      (lastCookie (ms.map (cookieOf x)) domain path name).or (findCookie l.jar domain path name) := by
  unfold call at h
  simp only at h
  split at h
  · cases h
  · next r' hr =>
    unfold receive at h
    split at h
    · cases h
    · next l2 hl =>
      injection h with h1 h2
      injection h1 with h1
      subst h1; subst h2
      rw [ht] at hl
      simp only [hp] at hl
      injection hl with _ hl
      rw [← hl]
      exact findCookie_setCookie x ms l.jar domain path name

/-- **C62** (the cookie of a header).  It has the name, domain and path of the header and its value, without the quotes if it is quoted. -/
theorem C62_cookie_of_header (x : Ext) (m : Morsel) :
    (cookieOf x m).name = m.name ∧ (cookieOf x m).domain = m.get "domain" ∧ (cookieOf x m).path = m.get "path" ∧
    (∀ v, m.codedValue = "\"" ++ v ++ "\"" → (cookieOf x m).value = v) ∧
    ((¬ ∃ v, m.codedValue = "\"" ++ v) → (cookieOf x m).value = m.codedValue) ∧
    (m.get "max-age" ≠ "" → (cookieOf x m).expires = x.time (m.get "max-age")) ∧
    (m.get "max-age" = "" → m.get "expires" ≠ "" → (cookieOf x m).expires = x.time (m.get "expires")) ∧
    (m.get "max-age" = "" → m.get "expires" = "" → (cookieOf x m).expires = none) := by
  refine ⟨rfl, rfl, rfl, ?_, ?_, fun h => if_pos h, fun h h' => ?_, fun h h' => ?_⟩
  · intro v hv
    show unquoted m.codedValue = v
    rw [hv]
    unfold unquoted
    have h1 : Str.startsWith ("\"" ++ v ++ "\"") "\"" = true :=
      (Str.startsWith_iff _ _).2 ⟨v ++ "\"", by rw [String.append_assoc]⟩
    have h2 : Str.endsWith ("\"" ++ v ++ "\"") "\"" = true := by
      unfold Str.endsWith
      rw [List.isSuffixOf_iff_suffix]
      exact ⟨("\"" ++ v).toList, by simp [String.toList_append]⟩
    rw [h1, h2]
    simp [String.toList_append]
  · intro hno
    show unquoted m.codedValue = m.codedValue
    unfold unquoted
    have h1 : Str.startsWith m.codedValue "\"" = false := by
      cases h : Str.startsWith m.codedValue "\"" with
      | false => rfl
      | true => exact absurd ((Str.startsWith_iff _ _).1 h) hno
    rw [h1]
    rfl
  · show (if _ then _ else _) = _
    rw [if_neg (by simp [h]), if_pos h']
  · show (if _ then _ else _) = _
    rw [if_neg (by simp [h]), if_neg (by simp [h'])]

/-- **C62** (the answer).  A call gives the answer of the server to the one request it made, unless the request failed or
the answer has a cookie header that cannot be parsed; both are reported, and neither changes the jar. -/
theorem C62_answer (x : Ext) (url method : String) (kwargs : Obj) (l : Lib) :
    ∃ args, (call x url method kwargs l).2.sent = l.sent ++ [(method, url, args)] ∧
      match x.request method url args with
      | .error e => (call x url method kwargs l).1 = .error e ∧ (call x url method kwargs l).2.jar = l.jar
      | .ok r =>
        ((call x url method kwargs l).1 = .ok r ∧
          ∀ t, Dict.get? r.headers "set-cookie" = some t → ∃ ms, x.parse t = .ok ms) ∨
        ((call x url method kwargs l).1 = .error (.external "NonFatalException") ∧ (call x url method kwargs l).2.jar = l.jar ∧
          ∃ t e, Dict.get? r.headers "set-cookie" = some t ∧ x.parse t = .error e) := by
  refine ⟨Dict.update l.requestArgs kwargs, ?_⟩
  unfold call arguments
  simp only
  cases hr : x.request method url (Dict.update l.requestArgs kwargs) with
  | error e => exact ⟨rfl, rfl, rfl⟩
  | ok r =>
    simp only
    unfold receive
    cases hc : Dict.get? r.headers "set-cookie" with
    | none => exact ⟨rfl, .inl ⟨rfl, fun t ht => by cases ht⟩⟩
    | some t =>
      simp only
      cases hp : x.parse t with
      | error e => exact ⟨rfl, .inr ⟨rfl, rfl, t, e, rfl, hp⟩⟩
      | ok ms => exact ⟨rfl, .inl ⟨rfl, fun t' ht => by injection ht with ht; subst ht; exact ⟨ms, hp⟩⟩⟩

/-- **C62** (no cookie header).  An answer without `Set-Cookie`, and a failed request, leave the jar alone. -/
theorem C62_jar_unchanged (x : Ext) (url method : String) (kwargs : Obj) (l : Lib)
    (h : ∀ args r, x.request method url args = .ok r → Dict.get? r.headers "set-cookie" = none) :
    (call x url method kwargs l).2.jar = l.jar := by
  unfold call
  simp only
  split
  · rfl
  · next r hr =>
    unfold receive
    rw [h _ r hr]

/-! ## Examples -/

/-- A cookieServer that sets a cookie, and deletes it at `/logout`. -/
def cookieServer : Ext where
  request := fun _ url _ => .ok { status := 200, headers := [("set-cookie", if url = "/logout" then "gone" else "fresh")], text := "" }
  parse := fun t => .ok [if t = "gone" then { name := "sid", codedValue := "deleted", attrs := [("max-age", "0"), ("path", "/")] }
    else { name := "sid", codedValue := "\"1\"", attrs := [("path", "/")] }]
  time := fun _ => none

/-- The library after a first request. -/
def visited : Lib := (call cookieServer "/" "GET" [("headers", .obj [])] (Lib.new [("verify", .bool true)])).2

/-- Non-vacuity: the cookie is in the jar and, what C62 demands, would be sent if the second dictionary were used. -/
example : findCookie visited.jar "" "/" "sid" = some { name := "sid", value := "1", path := "/" } ∧
    Dict.get? (arguments visited "/" "GET" []).2 "cookies" = some (.obj [("sid", .str "1")]) ∧
    (call cookieServer "/a" "GET" [] visited).2.sent.map (fun s => (s.2.1, Dict.get? s.2.2 "cookies", Dict.get? s.2.2 "verify")) =
      [("/", none, some (.bool true)), ("/a", none, some (.bool true))] := by
  refine ⟨by rfl, by rfl, by rfl⟩

/-- **C62** is violated: a cookie that the cookieServer deletes (`Max-Age=0`) stays in the jar. -/
theorem C62_deleted_cookie_kept_violated :
    (findCookie (call cookieServer "/logout" "GET" [] visited).2.jar "" "/" "sid").map Cookie.value = some "deleted" := by
  rfl

end Verif.Props
