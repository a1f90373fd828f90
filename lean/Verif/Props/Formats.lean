import Verif.Props.HttpStatus
import Verif.Spec.Http
/-!
# C98: responses are read in the format they are in
-/

namespace Verif.Spec.Formats
open Verif Service

/-- A part of a URL with the character that announces it. -/
def marked (c : Char) : Option (List Char) → List Char
  | none => []
  | some s => c :: s

/-- A URL taken apart: what is before the query, the query, the fragment. -/
structure Parts (url before : List Char) (query fragment : Option (List Char)) : Prop where
  whole : url = before ++ marked '?' query ++ marked '#' fragment
  before_plain : '?' ∉ before ∧ '#' ∉ before
  query_plain : ∀ q, query = some q → '#' ∉ q

/-- The part of a redirect (or form body) that carries the parameters: the query if there is one, otherwise
the fragment, and a text without either is the parameters themselves. -/
inductive Carrying : String → String → Prop
  | itself {s : String} (h : '?' ∉ s.toList ∧ '#' ∉ s.toList) : Carrying s s
  | query {s : String} {before q : List Char} {f : Option (List Char)}
      (h : Parts s.toList before (some q) f) (hq : q ≠ []) : Carrying s (String.ofList q)
  | fragment {s : String} {before f : List Char} {q : Option (List Char)}
      (h : Parts s.toList before q (some f)) (hq : q = none ∨ q = some []) : Carrying s (String.ofList f)
  | nothing {s : String} {before : List Char} (h : Parts s.toList before (some []) none) : Carrying s ""

/-- What the two sides agreed on: what the client uses, otherwise what the provider says it supports,
otherwise no restriction. -/
inductive Agreed (ctx : Ctx) (client provider : String) : Val → Prop
  | client {v : Val} (h : Dict.get? ctx.behaviour client = some v) : Agreed ctx client provider v
  | provider {v : Val} (h : Dict.get? ctx.behaviour client = none)
      (h' : Dict.get? ctx.providerInfo provider = some v) : Agreed ctx client provider v
  | nothing (h : Dict.get? ctx.behaviour client = none) (h' : Dict.get? ctx.providerInfo provider = none) :
      Agreed ctx client provider .null

/-- The restrictions a signed or encrypted response is unpacked with: for user info the algorithms agreed
on, for the other services none; in any case it is unpacked in the name of this client. -/
inductive Restrictions (ctx : Ctx) : Srv → Obj → Prop
  | userinfo {sign alg enc : Val}
      (hs : Agreed ctx "userinfo_signed_response_alg" "userinfo_signing_alg_values_supported" sign)
      (ha : Agreed ctx "userinfo_encrypted_response_alg" "userinfo_encryption_alg_values_supported" alg)
      (he : Agreed ctx "userinfo_encrypted_response_enc" "userinfo_encryption_enc_values_supported" enc) :
      Restrictions ctx .userinfo [("allowed_sign_algs", sign), ("allowed_enc_algs", alg),
        ("allowed_enc_encs", enc), ("iss", .str ctx.clientId)]
  | other {srv : Srv} (h : srv ≠ .userinfo) :
      Restrictions ctx srv [("allowed_sign_algs", .null), ("allowed_enc_algs", .null),
        ("allowed_enc_encs", .null), ("iss", .str ctx.clientId)]

/-- The message a response is, in the given format.  The message classes are outside the model: `x.deser`
reads a message of the service in a format, `x.unjwt` unpacks a signed or encrypted one. -/
inductive Deserialised (x : Ext) (ctx : Ctx) (srv : Srv) : String → Info → Obj → Prop
  /-- parameters of a redirect URL or of a form -/
  | form {s part : String} {o : Obj} (hp : Carrying s part)
      (h : x.deser ctx srv "urlencoded" (.text part) = .ok o) : Deserialised x ctx srv "urlencoded" (.text s) o
  /-- a JWT, unpacked with the restrictions -/
  | jwt {s : String} {args claims o : Obj} (ha : Restrictions ctx srv args)
      (hu : x.unjwt ctx args s = .ok claims) (h : x.deser ctx srv "dict" (.dict claims) = .ok o) :
      Deserialised x ctx srv "jwt" (.text s) o
  /-- any other format -/
  | other {f : String} {info : Info} {o : Obj} (hf : f ∉ ["urlencoded", "jwt"])
      (h : x.deser ctx srv f info = .ok o) : Deserialised x ctx srv f info o
  /-- a JWT that was called JSON -/
  | mistagged {info : Info} {o : Obj} {e : Exc} (hj : x.deser ctx srv "json" info = .error e)
      (h : x.deser ctx srv "jwt" info = .ok o) : Deserialised x ctx srv "json" info o

/-- The format of the body of a successful answer: what its content type says, if it is one of the three
formats messages come in; without a content type JSON if it is JSON and a form otherwise; and what the
caller expects with any other content type. -/
inductive FormatOfBody (r : HttpResp) (expected : String) : String → Prop
  | typed {ctype media f : String} (h : Dict.get? r.headers "content-type" = some ctype)
      (ht : (media, f) ∈ mediaTable) (hf : f ∈ ["json", "jwt", "urlencoded"])
      (hm : Str.startsWith ctype media = true) : FormatOfBody r expected f
  | untyped (h : Dict.get? r.headers "content-type" = none ∨ Dict.get? r.headers "content-type" = some "") :
      FormatOfBody r expected (if r.jsonOk then "json" else "urlencoded")
  | unknown {ctype : String} (h : Dict.get? r.headers "content-type" = some ctype) (hn : ctype ≠ "")
      (hm : ∀ media f, (media, f) ∈ mediaTable → f ∈ ["json", "jwt", "urlencoded"] →
        Str.startsWith ctype media = false) : FormatOfBody r expected expected

end Verif.Spec.Formats

namespace Verif.Props
open Verif Handler Service Spec.Formats

/-! ## The part of a URL that is read -/

theorem parts_of (s : List Char) :
    Parts s (Str.cutL '?' (Str.cutL '#' s).1).1 (Str.cutL '?' (Str.cutL '#' s).1).2 (Str.cutL '#' s).2 := by
  have h1 := Str.cutL_spec '#' s
  have h2 := Str.cutL_spec '?' (Str.cutL '#' s).1
  have n1 := Str.cutL_fst_noSep '#' s
  have n2 := Str.cutL_fst_noSep '?' (Str.cutL '#' s).1
  generalize Str.cutL '#' s = r at *
  obtain ⟨body, frag⟩ := r
  simp only at *
  generalize Str.cutL '?' body = r at *
  obtain ⟨before, query⟩ := r
  simp only at *
  refine ⟨?_, ⟨n2, ?_⟩, ?_⟩
  · cases frag <;> cases query <;> simp_all [marked]
  · cases query <;> simp_all
  · intro q hq; subst hq; simp_all

theorem parts_cut {s before : List Char} {q f : Option (List Char)} (h : Parts s before q f) :
    Str.cutL '#' s = (before ++ marked '?' q, f) ∧
    Str.cutL '?' (before ++ marked '?' q) = (before, q) := by
  obtain ⟨h1, ⟨h2, h3⟩, h4⟩ := h
  refine ⟨?_, ?_⟩
  · have : '#' ∉ before ++ marked '?' q := by
      cases q with
      | none => simpa [marked] using h3
      | some q => simp [marked, h3, h4 q rfl]
    rw [h1]
    cases f with
    | none => rw [marked, List.append_nil]; exact Str.cutL_noSep _ _ this
    | some f => exact Str.cutL_append _ _ _ this
  · cases q with
    | none => rw [marked, List.append_nil]; exact Str.cutL_noSep _ _ h2
    | some q => exact Str.cutL_append _ _ _ h2

theorem containsChar (s : String) (c : Char) : Str.contains s (String.ofList [c]) = true ↔ c ∈ s.toList := by
  unfold Str.contains
  rw [Str.containsL_iff, String.toList_ofList]
  constructor
  · rintro ⟨a, b, h⟩; rw [← h]; simp
  · intro h
    obtain ⟨a, b, h⟩ := List.append_of_mem h
    exact ⟨a, b, by rw [h]; simp⟩

theorem mem_of_cut {s before : List Char} {q f : Option (List Char)} (h : Parts s before q f) :
    ('?' ∈ s ∨ '#' ∈ s) ↔ (q.isSome ∨ f.isSome) := by
  obtain ⟨rfl, ⟨h2, h3⟩, h4⟩ := h
  cases q <;> cases f <;> simp [marked, h2, h3]

theorem getUrlinfo_parts {s : String} {before : List Char} {q f : Option (List Char)}
    (h : Parts s.toList before q f) : getUrlinfo s =
      if q.isSome ∨ f.isSome then
        (if q.getD [] ≠ [] then String.ofList (q.getD []) else String.ofList (f.getD []))
      else s := by
  have hm : (Str.contains s "?" || Str.contains s "#") = true ↔ (q.isSome ∨ f.isSome) := by
    rw [Bool.or_eq_true, ← mem_of_cut h]
    exact or_congr (containsChar s '?') (containsChar s '#')
  obtain ⟨hc, hb⟩ := parts_cut h
  unfold getUrlinfo
  by_cases hq : q.isSome ∨ f.isSome
  · rw [if_pos (hm.2 hq), if_pos hq]
    unfold Util.urlsplit
    rw [hc]; simp only [hb]
  · rw [if_neg (fun h => hq (hm.1 h)), if_neg hq]

/-- Exactly the carrying part is read. -/
theorem getUrlinfo_iff (s part : String) : getUrlinfo s = part ↔ Carrying s part := by
  constructor
  · rintro rfl
    have hp := parts_of s.toList
    rw [getUrlinfo_parts hp]
    generalize (Str.cutL '?' (Str.cutL '#' s.toList).1).1 = before at hp ⊢
    generalize (Str.cutL '?' (Str.cutL '#' s.toList).1).2 = q at hp ⊢
    generalize (Str.cutL '#' s.toList).2 = f at hp ⊢
    cases q with
    | none =>
      cases f with
      | none =>
        refine .itself ?_
        have := mem_of_cut hp
        simp only [Option.isSome_none, Bool.false_eq_true, or_self, iff_false, not_or] at this
        exact this
      | some f => exact .fragment hp (.inl rfl)
    | some q =>
      cases q with
      | cons a q => exact .query hp (by simp)
      | nil =>
        cases f with
        | none => exact .nothing hp
        | some f => exact .fragment hp (.inr rfl)
  · intro h
    cases h with
    | itself h =>
      have hp : Parts s.toList s.toList none none := ⟨by simp [marked], h, by simp⟩
      rw [getUrlinfo_parts hp]; simp
    | query hp hq => rw [getUrlinfo_parts hp]; simp [hq]
    | fragment hp hq => rw [getUrlinfo_parts hp]; rcases hq with rfl | rfl <;> simp
    | nothing hp => rw [getUrlinfo_parts hp]; simp

/-! ## JWT restrictions -/

theorem agreed_iff (ctx : Ctx) (a b : String) (v : Val) :
    ((Dict.get? ctx.behaviour a).or (Dict.get? ctx.providerInfo b)).getD .null = v ↔ Agreed ctx a b v := by
  constructor
  · rintro rfl
    cases h : Dict.get? ctx.behaviour a with
    | some v => exact .client h
    | none =>
      cases h' : Dict.get? ctx.providerInfo b with
      | some v => exact .provider h h'
      | none => exact .nothing h h'
  · intro h
    cases h with
    | client h => rw [h]; rfl
    | provider h h' => rw [h, h']; rfl
    | nothing h h' => rw [h, h']; rfl

theorem name_userinfo {srv : Srv} : srv.name = "userinfo" ↔ srv = .userinfo := by
  cases srv <;> simp [Srv.name]

theorem jwtArgs_iff (ctx : Ctx) (srv : Srv) (args : Obj) :
    jwtArgs ctx srv = args ↔ Restrictions ctx srv args := by
  by_cases hs : srv = .userinfo
  · subst hs
    constructor
    · rintro rfl
      exact .userinfo ((agreed_iff _ _ _ _).1 rfl) ((agreed_iff _ _ _ _).1 rfl) ((agreed_iff _ _ _ _).1 rfl)
    · intro h
      cases h with
      | userinfo h1 h2 h3 =>
        rw [← (agreed_iff _ _ _ _).2 h1, ← (agreed_iff _ _ _ _).2 h2, ← (agreed_iff _ _ _ _).2 h3]
        rfl
      | other h => exact absurd rfl h
  · have hn : ¬ srv.name = "userinfo" := fun h => hs (name_userinfo.1 h)
    have e : jwtArgs ctx srv = [("allowed_sign_algs", .null), ("allowed_enc_algs", .null),
        ("allowed_enc_encs", .null), ("iss", .str ctx.clientId)] := by
      simp [jwtArgs, agreedAlg, cliRegMap, providerInfoMap, hn]
    rw [e]
    constructor
    · rintro rfl; exact .other hs
    · intro h
      cases h with
      | userinfo => exact absurd rfl hs
      | other => rfl

/-! ## C98 -/

theorem doResponse_iff {x : Ext} {ctx : Ctx} {srv : Srv} {info : Info} {f : String} {o : Obj} :
    doResponse x ctx srv info f = .ok o ↔ (x.deser ctx srv f info = .ok o ∨
      (f = "json" ∧ (∃ e, x.deser ctx srv "json" info = .error e) ∧ x.deser ctx srv "jwt" info = .ok o)) := by
  unfold doResponse
  cases h : x.deser ctx srv f info with
  | ok o' =>
    constructor
    · intro h'; exact .inl h'
    · rintro (h' | ⟨rfl, ⟨e, he⟩, _⟩)
      · exact h'
      · rw [h] at he; cases he
  | error e =>
    by_cases hf : f = "json"
    · subst hf
      simp only [if_true]
      cases h2 : x.deser ctx srv "jwt" info with
      | ok o' => simp [h]
      | error e' => simp
    · simp [hf]

/-- **C98** (what a response is).  A response is read as a message exactly as its format demands: of a
redirect or a form the part that carries the parameters, a JWT after it was unpacked with the algorithms the
two sides agreed on, and anything else as it is — except that what is called JSON but is not may be a JWT. -/
theorem C98_deserialised (x : Ext) (ctx : Ctx) (srv : Srv) (info : Info) (f : String) (o : Obj) :
    parseInfo x ctx srv info f = .ok o ↔ Deserialised x ctx srv f info o := by
  unfold parseInfo
  constructor
  · intro h
    split at h
    · next hf =>
      subst hf
      cases info with
      | dict d => cases h
      | text s =>
        rcases doResponse_iff.1 h with h | ⟨hf, _⟩
        · exact .form ((getUrlinfo_iff _ _).1 rfl) h
        · exact absurd hf (by decide)
    · next hf =>
      split at h
      · next hf' =>
        subst hf'
        cases info with
        | dict d => cases h
        | text s =>
          simp only at h
          split at h
          · next cl hu =>
            rcases doResponse_iff.1 h with h | ⟨hf, _⟩
            · exact .jwt ((jwtArgs_iff _ _ _).1 rfl) hu h
            · exact absurd hf (by decide)
          · cases h
      · next hf' =>
        rcases doResponse_iff.1 h with h | ⟨hj, ⟨e, he⟩, h2⟩
        · exact .other (by simp [hf, hf']) h
        · subst hj; exact .mistagged he h2
  · intro h
    cases h with
    | form hp h =>
      rw [if_pos rfl]
      simp only
      rw [(getUrlinfo_iff _ _).2 hp]
      exact doResponse_iff.2 (.inl h)
    | jwt ha hu h =>
      rw [if_neg (by decide), if_pos rfl]
      simp only
      rw [(jwtArgs_iff _ _ _).2 ha, hu]
      exact doResponse_iff.2 (.inl h)
    | other hf h =>
      simp only [List.mem_cons, List.not_mem_nil, or_false, not_or] at hf
      rw [if_neg hf.1, if_neg hf.2]
      exact doResponse_iff.2 (.inl h)
    | mistagged hj h =>
      rw [if_neg (by decide), if_neg (by decide)]
      exact doResponse_iff.2 (.inr ⟨rfl, ⟨_, hj⟩, h⟩)

/-- The format a response is read in: the one the caller names, otherwise the one the service is configured
with, otherwise the one of the service. -/
def FormatUsed (c : Client) (srv : Srv) (named f : String) : Prop :=
  (named ≠ "" ∧ f = named) ∨
  (named = "" ∧ Dict.get? (confOf c srv) "response_body_type" = some (.str f)) ∨
  (named = "" ∧ (∀ s, Dict.get? (confOf c srv) "response_body_type" ≠ some (.str s)) ∧ f = responseBodyType srv)

theorem formatUsed_iff (c : Client) (srv : Srv) (named f : String) :
    formatOf c srv named = f ↔ FormatUsed c srv named f := by
  unfold formatOf FormatUsed orElse attr
  by_cases hn : named = ""
  · simp only [hn, if_true, ne_eq, not_true_eq_false, false_and, true_and, false_or]
    split
    · next s hs =>
      rw [hs]
      simp [eq_comm]
    · next hs =>
      constructor
      · intro h; exact .inr ⟨fun s h => hs s h, h.symm⟩
      · rintro (h | ⟨_, h⟩)
        · exact absurd h (hs _)
        · exact h.symm
  · simp [hn, eq_comm]

/-- **C98** (the message a caller gets).  A message returned for a response comes from the response, read in
the format named by the caller, configured or set for the service: it is an error message as it was read, or
was verified and checked. -/
theorem C98_response (x : Ext) (srv : Srv) (info : Info) (named state : String) (c c' : Client) (r : Obj)
    (h : parseResponse x srv info named state c = (.ok (.msg r), c')) :
    ∃ f o, FormatUsed c srv named f ∧ Deserialised x c.ctx srv f info o ∧
      ((Dict.has o "error" = true ∧ r = o ∧ c' = c) ∨
       (Dict.has o "error" = false ∧ ∃ v, x.verify c.ctx srv o (gatherVerify c.ctx srv) = .ok v ∧
          postParse x srv v state c = (.ok r, c') ∧ r ≠ [])) := by
  obtain ⟨o, hp, h'⟩ := C39_returned_is_verified x srv info named state c c' r h
  exact ⟨_, o, (formatUsed_iff _ _ _ _).1 rfl, (C98_deserialised _ _ _ _ _ _).1 hp, h'⟩

/-- **C98** (a response in no format is refused).  If what was received cannot be read in the format used,
an exception is raised and nothing changes. -/
theorem C98_unreadable (x : Ext) (srv : Srv) (info : Info) (named state : String) (c : Client) (f : String)
    (hf : FormatUsed c srv named f) (hj : f ∉ ["jose", "jws", "jwe"])
    (hn : ∀ o, ¬ Deserialised x c.ctx srv f info o) :
    ∃ e, parseResponse x srv info named state c = (.error e, c) := by
  have hff := (formatUsed_iff _ _ _ _).2 hf
  have hj' : isJose (formatOf c srv named) = false := by
    rw [hff]
    simp only [List.mem_cons, List.not_mem_nil, or_false, not_or] at hj
    simp [isJose, hj.1, hj.2.1, hj.2.2]
  rw [parseResponse_plain hj', hff]
  cases hp : parseInfo x c.ctx srv info f with
  | error e => exact ⟨e, rfl⟩
  | ok o => exact absurd ((C98_deserialised _ _ _ _ _ _).1 hp) (hn o)

/-! ### Bodies of answers -/

theorem starts_two {s a b : String} (ha : Str.startsWith s a = true) (hb : Str.startsWith s b = true) :
    a.toList <+: b.toList ∨ b.toList <+: a.toList := by
  simp only [Str.startsWith, List.isPrefixOf_iff_prefix] at ha hb
  exact List.prefix_or_prefix_of_prefix ha hb

set_option maxRecDepth 20000 in
/-- Media types that can be at the start of the same content type are read in the same way. -/
theorem media_apart : ∀ a ∈ Spec.mediaTable, ∀ b ∈ Spec.mediaTable,
    (a.1.toList <+: b.1.toList ∨ b.1.toList <+: a.1.toList) → a.2 = b.2 := by
  decide +kernel

theorem valueType_iff (r : HttpResp) (expected f : String) :
    valueType r expected = f ↔ FormatOfBody r expected f := by
  cases hc : Dict.get? r.headers "content-type" with
  | none =>
    have e : valueType r expected = if r.jsonOk then "json" else "urlencoded" := by
      simp only [valueType, Util.getDeserializationMethod, hc]
      cases r.jsonOk <;> simp
    rw [e]
    constructor
    · rintro rfl; exact .untyped (.inl hc)
    · intro h
      cases h with
      | typed h => rw [hc] at h; cases h
      | untyped h => rfl
      | unknown h => rw [hc] at h; cases h
  | some ct =>
    by_cases hn : ct = ""
    · subst hn
      have e : valueType r expected = if r.jsonOk then "json" else "urlencoded" := by
        simp only [valueType, Util.getDeserializationMethod, hc]
        cases r.jsonOk <;> simp
      rw [e]
      constructor
      · rintro rfl; exact .untyped (.inr hc)
      · intro h
        cases h with
        | typed h ht hf hm =>
          rw [hc] at h; injection h with h; subst h
          exfalso
          simp only [Spec.mediaTable, List.mem_cons, Prod.mk.injEq, List.not_mem_nil, or_false] at ht
          rcases ht with ⟨rfl, rfl⟩ | ⟨rfl, rfl⟩ | ⟨rfl, rfl⟩ | ⟨rfl, rfl⟩ | ⟨rfl, rfl⟩ | ⟨rfl, rfl⟩ | ⟨rfl, rfl⟩ <;>
            revert hm <;> decide
        | untyped h => rfl
        | unknown h hn => rw [hc] at h; injection h with h; exact absurd h.symm hn
    · have hx : ∀ a b, Str.startsWith ct a = true → ¬ (a.toList <+: b.toList ∨ b.toList <+: a.toList) →
          Str.startsWith ct b = false := by
        intro a b ha hab
        cases hb : Str.startsWith ct b with
        | false => rfl
        | true => exact absurd (starts_two ha hb) hab
      have key : (∃ media m, (media, m) ∈ Spec.mediaTable ∧ m ∈ ["json", "jwt", "urlencoded"] ∧
            Str.startsWith ct media = true ∧ valueType r expected = m) ∨
          ((∀ media m, (media, m) ∈ Spec.mediaTable → m ∈ ["json", "jwt", "urlencoded"] →
            Str.startsWith ct media = false) ∧ valueType r expected = expected) := by
        simp only [valueType, Util.getDeserializationMethod, hc, if_neg hn, Util.matchTo, Util.URL_ENCODED]
        cases h1 : Str.startsWith ct "application/json" with
        | true => exact .inl ⟨_, "json", by decide, by decide, h1, by simp⟩
        | false =>
        cases h2 : Str.startsWith ct "application/jrd+json" with
        | true => exact .inl ⟨_, "json", by decide, by decide, h2, by simp⟩
        | false =>
        cases h3 : Str.startsWith ct "application/jwt" with
        | true => exact .inl ⟨_, "jwt", by decide, by decide, h3, by simp⟩
        | false =>
        cases h4 : Str.startsWith ct "application/x-www-form-urlencoded" with
        | true =>
          have h5 := hx _ "application/jose" h4 (by decide)
          exact .inl ⟨_, "urlencoded", by decide, by decide, h4, by simp [h5]⟩
        | false =>
          refine .inr ⟨?_, by cases Str.startsWith ct "application/jose" <;> simp⟩
          intro media m ht hm
          simp only [Spec.mediaTable, List.mem_cons, Prod.mk.injEq, List.not_mem_nil, or_false] at ht
          rcases ht with ⟨rfl, rfl⟩ | ⟨rfl, rfl⟩ | ⟨rfl, rfl⟩ | ⟨rfl, rfl⟩ | ⟨rfl, rfl⟩ | ⟨rfl, rfl⟩ | ⟨rfl, rfl⟩
          · exact h1
          · exact h2
          · exact h3
          · exact absurd hm (by decide)
          · exact h4
          · exact absurd hm (by decide)
          · exact absurd hm (by decide)
      constructor
      · rintro rfl
        rcases key with ⟨media, m, h1, h2, h3, h4⟩ | ⟨h1, h2⟩
        · rw [h4]; exact .typed hc h1 h2 h3
        · rw [h2]; exact .unknown hc hn h1
      · intro h
        cases h with
        | untyped h =>
          rw [hc] at h
          rcases h with h | h
          · cases h
          · injection h with h; exact absurd h hn
        | typed h ht hf hm =>
          rw [hc] at h; injection h with h; subst h
          rcases key with ⟨media', m, h1, h2, h3, h4⟩ | ⟨h1, h2⟩
          · rw [h4]
            exact (media_apart _ ht _ h1 (starts_two hm h3)).symm
          · rw [h1 _ _ ht hf] at hm; cases hm
        | unknown h hn' hm =>
          rw [hc] at h; injection h with h; subst h
          rcases key with ⟨media', m, h1, h2, h3, h4⟩ | ⟨h1, h2⟩
          · rw [hm _ _ h1 h2] at h3; cases h3
          · exact h2

/-- What the caller of a request expects of the body of the answer: what the caller says, otherwise what the
service is configured with, otherwise what is usual for the service. -/
abbrev Expected := FormatUsed

/-- **C98** (the body of an answer).  A message returned for a request that was answered with success comes
from the body of that answer, read in the format the answer says it is in (and in the expected one if it says
nothing the library knows). -/
theorem C98_answer (x : Ext) (srv : Srv) (info : ReqInfo) (bt state : String) (c c' : Client)
    (resp : HttpResp) (r : Obj) (ha : x.http c.log (sentOf srv info) = .ok resp)
    (hs : 200 ≤ resp.status ∧ resp.status ≤ 206)
    (h : getResponse x srv info bt state c = (.ok (.msg r), c')) :
    ∃ expected named f o, Expected c srv bt expected ∧ FormatOfBody resp expected named ∧
      FormatUsed c srv named f ∧ Deserialised x c.ctx srv f (.text resp.text) o ∧
      ((Dict.has o "error" = true ∧ r = o ∧ c' = afterSend c (sentOf srv info)) ∨
       (Dict.has o "error" = false ∧ ∃ v, x.verify c.ctx srv o (gatherVerify c.ctx srv) = .ok v ∧
          postParse x srv v state (afterSend c (sentOf srv info)) = (.ok r, c') ∧ r ≠ [])) := by
  rw [getResponse_run ha, if_neg (by omega)] at h
  have h3 : resp.status < 300 := by omega
  rw [if_pos h3] at h
  split at h
  · rw [Py.pure_run] at h; injection h with h; injection h with h; cases h
  · unfold parseRequestResponse at h
    have h5 : resp.status ∈ SUCCESSFUL := by
      simp only [SUCCESSFUL, List.mem_cons, List.not_mem_nil, or_false]; omega
    rw [if_pos h5] at h
    obtain ⟨f, o, hf, hd, ho⟩ := C98_response x srv _ _ state _ _ r h
    exact ⟨_, _, f, o, (formatUsed_iff c srv bt _).1 rfl, (valueType_iff _ _ _).1 rfl, hf, hd, ho⟩

theorem errorType_eq (r : HttpResp) (h : isJose (errorType r) = false) : errorType r = valueType r "json" := by
  have key : ∀ d : String, d ∈ ["json", "jwt", "jose", "urlencoded", ""] → isJose (orElse d "json") = false →
      orElse d "json" = if d = "json" ∨ d = "jwt" ∨ d = "urlencoded" then d else "json" := by decide
  refine key _ ?_ h
  unfold Util.getDeserializationMethod
  split
  · split <;> simp
  · split
    · split <;> simp
    · split
      · simp
      · split
        · simp
        · split
          · simp
          · split
            · simp
            · split <;> simp

theorem storeItem_error {item : Obj} {t k : String} {db db' : DB} {e : Exc}
    (h : StateInterface.storeItem item t k db = (.error e, db')) : db' = db := by
  unfold StateInterface.storeItem at h
  split at h
  · cases h
  · cases h
  · injection h with _ h; exact h.symm

theorem postParse_error {x : Ext} {srv : Srv} {v : Obj} {state : String} {c c' : Client} {e : Exc}
    (h : postParse x srv v state c = (.error e, c')) : c' = c := by
  unfold postParse at h
  split at h
  · injection h with _ h; exact h.symm
  · injection h with _ h; exact h.symm
  · rcases Py.bind_eq_error.1 h with h | ⟨r, c1, h1, h2⟩
    · injection h with _ h; exact h.symm
    · injection h1 with _ h1; subst h1
      rcases Py.bind_eq_error.1 h2 with h | ⟨r, c1, h1, h2⟩
      · unfold onDB at h
        injection h with h3 h4
        have h5 : (StateInterface.storeItem r "user_info" state c.db).2 = c.db := storeItem_error (Prod.ext h3 rfl)
        rw [← h4]
        exact congrArg (fun d => { c with db := d }) h5
      · cases h2
  · cases h

theorem parseResponse_error {x : Ext} {srv : Srv} {info : Info} {f state : String} {c c' : Client} {e : Exc}
    (h : parseResponse x srv info f state c = (.error e, c')) (hne : e ≠ .responseError) : c' = c := by
  cases hj : isJose (formatOf c srv f) with
  | true =>
    unfold parseResponse at h
    simp only [Py.read_bind_run, hj, if_true] at h
    split at h
    · injection h with _ h; exact h.symm
    · injection h with _ h; exact h.symm
  | false =>
    rw [parseResponse_plain hj] at h
    split at h
    · unfold verified checkedResponse at h
      rcases Py.bind_eq_error.1 h with h | ⟨r, c1, h1, h2⟩
      · split at h
        · cases h
        · rcases Py.bind_eq_error.1 h with h | ⟨v, c1, h1, h2⟩
          · injection h with _ h; exact h.symm
          · injection h1 with _ h1; subst h1
            exact postParse_error h2
      · split at h2
        · injection h2 with h2 _; injection h2 with h2; exact absurd h2.symm hne
        · cases h2
    · injection h with _ h; exact h.symm

/-- What was read of a body, checked: an error message as it is, any other message after verification and the
checks of the service. -/
def CheckedAs (x : Ext) (srv : Srv) (state : String) (c : Client) (o r : Obj) (c' : Client) : Prop :=
  (Dict.has o "error" = true ∧ r = o ∧ c' = c) ∨
  (Dict.has o "error" = false ∧ ∃ v, x.verify c.ctx srv o (gatherVerify c.ctx srv) = .ok v ∧
    postParse x srv v state c = (.ok r, c') ∧ r ≠ [])

/-- **C98** (the body of an error answer).  A message returned for a request that was answered with a client
error is the body of the answer with the status added, read in the format the answer says it is in (JSON if
it says nothing the library knows) or, if it cannot be read so, in the one the caller expects; a body that is
no JSON is the error itself. -/
theorem C98_error_answer (x : Ext) (srv : Srv) (info : ReqInfo) (bt state : String) (c c' : Client)
    (resp : HttpResp) (r : Obj) (ha : x.http c.log (sentOf srv info) = .ok resp)
    (hs : 400 ≤ resp.status ∧ resp.status < 500)
    (h : getResponse x srv info bt state c = (.ok (.msg r), c')) :
    ∃ m, r = Dict.set m "status_code" (.int resp.status) ∧
      (m = [("error", .str resp.text)] ∨
       ∃ named f o, (FormatOfBody resp "json" named ∨ named = bt) ∧ FormatUsed c srv named f ∧
         Deserialised x c.ctx srv f (.text resp.text) o ∧
         CheckedAs x srv "" (afterSend c (sentOf srv info)) o m c') := by
  rw [getResponse_run ha, if_neg (by omega), if_neg (by omega), if_neg (by omega)] at h
  unfold parseRequestResponse at h
  have h5 : resp.status ∉ SUCCESSFUL := by
    simp only [SUCCESSFUL, List.mem_cons, List.not_mem_nil, or_false]; omega
  rw [if_neg h5, if_neg (by omega), if_pos hs] at h
  obtain ⟨e, c1, h1, h2⟩ := Py.bind_eq_ok.1 h
  have h2' := Py.lift_eq_ok.1 h2
  obtain ⟨h2', rfl⟩ := h2'
  cases e with
  | text s => cases h2'
  | http s => cases h2'
  | msg m =>
    simp only [withStatus, Except.ok.injEq, Resp.msg.injEq] at h2'
    refine ⟨m, h2'.symm, ?_⟩
    unfold Py.try_ at h1
    cases hp : parseResponse x srv (.text resp.text) (errorType resp) "" (afterSend c (sentOf srv info)) with
    | mk res c2 =>
      rw [hp] at h1
      cases res with
      | ok m' =>
        simp only [Prod.mk.injEq, Except.ok.injEq] at h1
        obtain ⟨rfl, rfl⟩ := h1
        right
        obtain ⟨f, o, hf, hd, ho⟩ := C98_response x srv _ _ "" _ _ m hp
        refine ⟨errorType resp, f, o, .inl ?_, hf, hd, ho⟩
        have hj : isJose (errorType resp) = false := by
          rcases parseResponse_ok hp with ⟨_, s, _, h2, _⟩ | ⟨hj, _⟩
          · cases h2
          · unfold formatOf orElse at hj
            rw [if_neg] at hj
            · exact hj
            · unfold errorType orElse; split <;> simp_all
        exact (valueType_iff _ _ _).1 (errorType_eq resp hj).symm
      | error e =>
        simp only at h1
        unfold errorFallback at h1
        split at h1
        · next k hk =>
          split at hk
          · next hfe =>
            have hc2 := parseResponse_error hp (by rw [hfe]; decide)
            subst hc2
            split at hk
            · injection hk with hk; subst hk
              unfold Py.try_ at h1
              right
              cases hp2 : parseResponse x srv (.text resp.text) bt "" (afterSend c (sentOf srv info)) with
              | mk res2 c3 =>
                rw [hp2] at h1
                cases res2 with
                | ok m' =>
                  simp only [Prod.mk.injEq, Except.ok.injEq] at h1
                  obtain ⟨rfl, rfl⟩ := h1
                  obtain ⟨f, o, hf, hd, ho⟩ := C98_response x srv _ _ "" _ _ m hp2
                  exact ⟨bt, f, o, .inr rfl, hf, hd, ho⟩
                | error e' =>
                  simp only at h1
                  split at h1
                  · next k' hk' =>
                    split at hk'
                    · injection hk' with hk'; subst hk'; cases h1
                    · cases hk'
                  · cases h1
            · injection hk with hk; subst hk; cases h1
          · split at hk
            · injection hk with hk; subst hk
              left
              injection h1 with h1; injection h1 with h1; injection h1 with h1; exact h1.symm
            · cases hk
        · cases h1

/-! ### Non-vacuity -/

/-- A world in which the reader of messages knows exactly one text in each format. -/
def picky : Ext :=
  { World.ext 0 "" "" "n" with
    deser := fun _ _ f i => match f, i with
      | "urlencoded", .text "code=abc" => .ok [("code", .str "abc")]
      | "json", .text "{…}" => .ok [("access_token", .str "at")]
      | "jwt", .text "a.b.c" => .ok [("sub", .str "called JSON")]
      | "dict", .dict o => .ok o
      | _, _ => .error .formatError
    unjwt := fun _ args s => if s = "a.b.c" ∧ Dict.get? args "allowed_sign_algs" = some (.str "ES256")
      then .ok [("sub", .str "diana")] else .error .valueError
    verify := fun _ _ o _ => .ok o }

/-- The client, having agreed on an algorithm for user info. -/
def agreedCtx : Ctx := { behaviour := [("userinfo_signed_response_alg", .str "ES256")] }

/-- Non-vacuity of C98: a redirect with a query, one with a fragment, a form; a JWT of the user info service,
refused by another service; a JWT that was called JSON; JSON that is none. -/
example :
    parseInfo picky agreedCtx .authorization (.text "https://rp.example/cb?code=abc#_") "urlencoded"
      = .ok [("code", .str "abc")] ∧
    parseInfo picky agreedCtx .authorization (.text "https://rp.example/cb#code=abc") "urlencoded"
      = .ok [("code", .str "abc")] ∧
    parseInfo picky agreedCtx .authorization (.text "code=abc") "urlencoded" = .ok [("code", .str "abc")] ∧
    parseInfo picky agreedCtx .userinfo (.text "a.b.c") "jwt" = .ok [("sub", .str "diana")] ∧
    parseInfo picky agreedCtx .accesstoken (.text "a.b.c") "jwt" = .error .valueError ∧
    parseInfo picky agreedCtx .userinfo (.text "a.b.c") "json" = .ok [("sub", .str "called JSON")] ∧
    parseInfo picky agreedCtx .userinfo (.text "nonsense") "json" = .error .formatError := by
  refine ⟨rfl, rfl, rfl, rfl, rfl, rfl, rfl⟩

/-- Answers: a 200 in JSON although a form is expected, and a 400 without content type that is a form. -/
example :
    ((getResponse { picky with http := fun _ _ => .ok { status := 200, headers := [("content-type", "application/json")], text := "{…}" } }
        .accesstoken { url := "https://op/token" } "urlencoded" "" {}).1
      = .ok (.msg [("access_token", .str "at")])) ∧
    ((getResponse { picky with http := fun _ _ => .ok { status := 400, headers := [], text := "code=abc" } }
        .accesstoken { url := "https://op/token" } "json" "" {}).1
      = .ok (.msg [("code", .str "abc"), ("status_code", .int 400)])) := by
  exact ⟨rfl, rfl⟩

end Verif.Props
