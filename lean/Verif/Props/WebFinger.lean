import Verif.Lemmas.WebFinger
import Verif.Spec.WebFinger
/-!
# Properties of WebFinger (C51, C52, C53)

`WebFinger.query resource` is `WebFinger.query`; `normalise` gives the host (authority) and the
normalised identifier that the query URL is made of (theorem `C51_url`).
-/

namespace Verif.Props
open Verif Verif.WebFinger Verif.Spec.WebFinger

/-! ## C51 -/

/-- Every query URL is `https`, at an authority that stands in the identifier and cannot be left (it
contains none of `/ ? #`), at the well-known path, and the receiver decodes exactly the OpenID
issuer relation and the normalised identifier. -/
theorem C51_url (res url : String) (h : query res = .ok url) :
    ∃ (authority : List Char) (resource : String) (q : List Char),
      url = String.ofList ("https://".toList ++ authority ++ "/.well-known/webfinger?".toList ++ q) ∧
      authority <:+: res.toList ∧ '/' ∉ authority ∧ '?' ∉ authority ∧ '#' ∉ authority ∧
      normalise res.toList = .ok (authority, resource.toList) ∧
      Quote.parseQsl q = [(Quote.utf8 "rel", Quote.utf8 "http://openid.net/specs/connect/1.0/issuer"),
                          (Quote.utf8 "resource", Quote.utf8 resource)] := by
  unfold query at h
  obtain ⟨⟨a, r⟩, hn, he⟩ := map_eq_ok h
  obtain ⟨hc, hi⟩ := normalise_spec hn
  refine ⟨a, String.ofList r, _, he.symm, hi, hc.1, hc.2.1, hc.2.2, by simpa using hn, ?_⟩
  rw [Quote.parseQsl_urlencode]
  rfl

/-- Full claim fails: the identifier `user@` is accepted and gives a query without any host. -/
theorem C51_violated_empty_host :
    normalise "user@".toList = .ok ([], "acct:user@".toList) := by rfl

/-- Full claim fails: of `acct:me@a@b` the first part after an `@` is taken as host, not the last. -/
theorem C51_violated_two_ats :
    normalise "acct:me@evil.example@good.example".toList =
      .ok ("evil.example".toList, "acct:me@evil.example@good.example".toList) := by rfl

example : normalise "https://example.com/joe#me".toList =
    .ok ("example.com".toList, "https://example.com/joe".toList) := rfl

/-- Which identifier is looked up: the one in the request, else the one given to the call, else the
configured one. -/
theorem C51_resource (ctx : Ctx) (req kwargs : Obj) (v : Val) :
    resourceOf ctx req kwargs = .ok v ↔
      ((Dict.get? req "resource").or (Dict.get? kwargs "resource")).or
        (Dict.get? ctx.config "resource") = some v := by
  unfold resourceOf
  cases Dict.get? req "resource" with
  | some a => simp
  | none => cases Dict.get? kwargs "resource" with
    | some a => simp
    | none => cases Dict.get? ctx.config "resource" <;> simp

/-! ## C52 -/

/-- The issuer taken from a WebFinger answer is the target of the first link with the wanted relation;
it does not start with `http://` unless http links are allowed.  Otherwise the issuer is unchanged. -/
theorem C52_issuer_partial (conf : Obj) (rel : String) (resp : Obj) (ctx : Ctx) :
    (update conf rel resp ctx).2 = ctx ∨
    ∃ (before after : List Val) (link : Obj) (href : String),
      (update conf rel resp ctx).2 = { ctx with issuer := href } ∧
      Dict.get? resp "links" = some (.list (before ++ .obj link :: after)) ∧
      Dict.get? link "rel" = some (.str rel) ∧ Dict.get? link "href" = some (.str href) ∧
      (∀ l ∈ before, ∃ o, l = .obj o ∧ Dict.get? o "rel" ≠ some (.str rel)) ∧
      ((¬ ∃ t, href = "http://" ++ t) ∨
        ∃ allow v, Dict.get? conf "allow" = some (.obj allow) ∧
          Dict.get? allow "http_links" = some v ∧ v.truthy = true) := by
  have key : ∀ (links : List Val) (href : String), pickIssuer conf rel links = .ok (some href) →
      ∃ (before after : List Val) (link : Obj), links = before ++ .obj link :: after ∧
        Dict.get? link "rel" = some (.str rel) ∧ Dict.get? link "href" = some (.str href) ∧
        (∀ l ∈ before, ∃ o, l = .obj o ∧ Dict.get? o "rel" ≠ some (.str rel)) ∧
        (Str.startsWith href "http://" && !httpAllowed conf) = false := by
    intro links
    induction links with
    | nil => intro href h; simp [pickIssuer] at h
    | cons l links ih =>
      intro href h
      cases l with
      | obj link =>
        rw [pickIssuer] at h
        cases hr : Dict.get? link "rel" with
        | none => rw [hr] at h; simp at h
        | some r =>
          rw [hr] at h
          simp only at h
          by_cases hrel : r = .str rel
          · rw [if_pos hrel] at h
            cases hh : Dict.get? link "href" with
            | none => rw [hh] at h; simp at h
            | some v =>
              rw [hh] at h
              cases v with
              | str s =>
                simp only at h
                split at h
                · simp at h
                · next hn =>
                  simp only [Except.ok.injEq, Option.some.injEq] at h
                  subst h
                  refine ⟨[], links, link, rfl, by rw [hr, hrel], hh, by simp, ?_⟩
                  simpa using hn
              | _ => simp at h
          · rw [if_neg hrel] at h
            obtain ⟨b, a, lk, h1, h2, h3, h4, h5⟩ := ih href h
            refine ⟨.obj link :: b, a, lk, by rw [h1]; rfl, h2, h3, ?_, h5⟩
            intro x hx
            rcases List.mem_cons.1 hx with rfl | hx
            · refine ⟨link, rfl, ?_⟩
              rw [hr]; simpa using hrel
            · exact h4 x hx
      | _ => simp [pickIssuer] at h
  unfold update
  cases hl : Dict.get? resp "links" with
  | none => exact Or.inl rfl
  | some v =>
    cases v with
    | list links =>
      simp only
      cases hp : pickIssuer conf rel links with
      | error e => exact Or.inl rfl
      | ok o =>
        cases o with
        | none => exact Or.inl rfl
        | some href =>
          right
          obtain ⟨b, a, lk, h1, h2, h3, h4, h5⟩ := key links href hp
          refine ⟨b, a, lk, href, rfl, by rw [h1], h2, h3, h4, ?_⟩
          by_cases hs : Str.startsWith href "http://" = true
          · right
            rw [hs] at h5
            simp only [Bool.true_and, Bool.not_eq_false'] at h5
            unfold httpAllowed at h5
            split at h5
            · next al ha =>
              unfold Util.truthyO at h5
              cases hv : Dict.get? al "http_links" with
              | none => rw [hv] at h5; simp at h5
              | some w => rw [hv] at h5; exact ⟨al, w, ha, hv, by simpa using h5⟩
            · simp at h5
          · left
            rintro ⟨t, rfl⟩
            exact hs ((Str.startsWith_iff _ _).2 ⟨t, rfl⟩)
    | _ => exact Or.inl rfl

/-- A plain-http link with the wanted relation is refused, and nothing is changed. -/
theorem C52_http_refused (conf : Obj) (rel : String) (resp link : Obj) (rest : List Val) (t : String)
    (ctx : Ctx) (hl : Dict.get? resp "links" = some (.list (.obj link :: rest)))
    (hr : Dict.get? link "rel" = some (.str rel))
    (hh : Dict.get? link "href" = some (.str ("http://" ++ t)))
    (hc : Dict.get? conf "allow" = none) :
    update conf rel resp ctx = (.error .valueError, ctx) := by
  have hs : Str.startsWith ("http://" ++ t) "http://" = true := (Str.startsWith_iff _ _).2 ⟨t, rfl⟩
  unfold update
  rw [hl]
  simp [pickIssuer, hr, hh, hs, httpAllowed, hc]

/-- Full claim fails: the comparison is case sensitive, `HTTP://…` is a plain http URL and is taken. -/
theorem C52_violated_upper_case (ctx : Ctx) :
    update [] "r" [("links", .list [.obj [("rel", .str "r"), ("href", .str "HTTP://op.example.com")]])] ctx
      = (.ok (), { ctx with issuer := "HTTP://op.example.com" }) := rfl

example : (update [] OIC_ISSUER [("links", .list [.obj [("rel", .str "other"), ("href", .str "http://x")],
    .obj [("rel", .str OIC_ISSUER), ("href", .str "https://op")]])] {}).2.issuer = "https://op" := by
  decide +kernel

/-! ## C53 -/

/-- XRI identifiers are refused. -/
theorem C53_xri (c : Char) (s : List Char) (h : c = '=' ∨ c = '@' ∨ c = '!') :
    normalise (c :: s) = .error .valueError := by
  unfold normalise; simp only [if_pos h]

theorem C53_aux_not_mem {s : List Char} (h : s.all nameChar = true) (c : Char)
    (hc : nameChar c = false) : c ∉ s := by
  intro hm
  rw [List.all_eq_true] at h
  rw [h c hm] at hc
  cases hc

theorem C53_aux_first {s : List Char} (h : Name s) : ∃ c t, s = c :: t ∧ nameChar c = true := by
  obtain ⟨h1, h2⟩ := h
  cases s with
  | nil => exact absurd rfl h1
  | cons c t => exact ⟨c, t, rfl, by simpa using (List.all_eq_true.1 h2) c (by simp)⟩

theorem C53_aux_start {c : Char} (h : nameChar c = true) :
    ¬ (c = '=' ∨ c = '@' ∨ c = '!') ∧ c ≠ '/' := by
  constructor
  · rintro (rfl | rfl | rfl) <;> revert h <;> decide
  · rintro rfl; revert h; decide

/-- `urlsplit` of a text without `:`, `?`, `#` that does not start with a slash. -/
theorem C53_aux_urlsplit_path {s : List Char} (h1 : ':' ∉ s) (h2 : '?' ∉ s) (h3 : '#' ∉ s)
    (h4 : ∀ t, s ≠ '/' :: t) : urlsplit s = .ok { path := s } := by
  have e1 : splitScheme s = ([], s) := by
    unfold splitScheme; rw [Str.cutL_noSep _ _ h1]
    split
    · next h => simp at h
    · rfl
  have e2 : splitNetloc s = .ok ([], s) := by
    unfold splitNetloc
    split
    · next t => exact absurd rfl (h4 _)
    · rfl
  unfold urlsplit
  rw [e1]
  simp only [e2, Str.cutL_noSep _ _ h3, Str.cutL_noSep _ _ h2, Option.getD_none]

theorem C53_aux_withScheme {c : Char} {t : List Char} {p : Parts}
    (hc : ¬ (c = '=' ∨ c = '@' ∨ c = '!')) (hu : urlsplit (c :: t) = .ok p) (hs : p.scheme ≠ []) :
    normalise (c :: t) = withScheme (c :: t) p := by
  unfold normalise
  simp only [if_neg hc, hu, if_neg hs]

/-- A bare host name: queried at that host, as `acct:` resource. -/
theorem C53_host (host : List Char) (h : Name host) :
    normalise host = .ok (host, "acct:".toList ++ host) := by
  obtain ⟨c, t, rfl, hc⟩ := C53_aux_first h
  have hu := C53_aux_urlsplit_path (C53_aux_not_mem h.2 ':' (by decide))
    (C53_aux_not_mem h.2 '?' (by decide)) (C53_aux_not_mem h.2 '#' (by decide))
    (by rintro t' ht; cases ht; exact (C53_aux_start hc).2 rfl)
  unfold normalise
  simp only [if_neg (C53_aux_start hc).1, hu, if_true]
  have n1 := C53_aux_not_mem h.2 '/' (by decide)
  have n2 := C53_aux_not_mem h.2 ':' (by decide)
  have n3 := C53_aux_not_mem h.2 '@' (by decide)
  unfold noScheme
  simp only [ne_eq, not_true, if_false, true_and, if_true, n1, n2, n3, or_self]

/-- An e-mail like identifier: queried at the host after the `@`, as `acct:` resource. -/
theorem C53_user_at_host (user host : List Char) (hu : Name user) (hh : Name host) :
    normalise (user ++ '@' :: host) = .ok (host, "acct:".toList ++ (user ++ '@' :: host)) := by
  obtain ⟨c, t, rfl, hc⟩ := C53_aux_first hu
  have nm : ∀ x, nameChar x = false → x ≠ '@' → x ∉ (c :: t) ++ '@' :: host := by
    intro x hx hx'
    simp only [List.mem_append, List.mem_cons (a := x) (b := '@'), not_or]
    exact ⟨C53_aux_not_mem hu.2 x hx, hx', C53_aux_not_mem hh.2 x hx⟩
  have hsp := C53_aux_urlsplit_path (s := (c :: t) ++ '@' :: host) (nm ':' (by decide) (by decide))
    (nm '?' (by decide) (by decide)) (nm '#' (by decide) (by decide))
    (by rintro t' ht; cases ht; exact (C53_aux_start hc).2 rfl)
  have hsplit : Str.splitL '@' ((c :: t) ++ '@' :: host) = [c :: t, host] := by
    rw [Str.splitL_append_sep _ _ _ (C53_aux_not_mem hu.2 '@' (by decide)),
      Str.splitL_noSep _ _ (C53_aux_not_mem hh.2 '@' (by decide))]
  have hat : '@' ∈ (c :: t) ++ '@' :: host := by simp
  unfold normalise
  rw [List.cons_append] at *
  simp only [if_neg (C53_aux_start hc).1, hsp, if_true]
  unfold noScheme
  simp only [ne_eq, not_true, if_false, true_and, if_true, nm '/' (by decide) (by decide),
    nm ':' (by decide) (by decide), or_self, hat, afterAt, hsplit]
  rfl

/-- Host and path: queried at the host, as `https` resource. -/
theorem C53_host_path (host path : List Char) (hh : Name host) (hp : path.all nameChar = true) :
    normalise (host ++ '/' :: path) = .ok (host, "https://".toList ++ (host ++ '/' :: path)) := by
  obtain ⟨c, t, rfl, hc⟩ := C53_aux_first hh
  have nm : ∀ x, nameChar x = false → x ≠ '/' → x ∉ (c :: t) ++ '/' :: path := by
    intro x hx hx'
    simp only [List.mem_append, List.mem_cons (a := x) (b := '/'), not_or]
    exact ⟨C53_aux_not_mem hh.2 x hx, hx', C53_aux_not_mem hp x hx⟩
  have hsp := C53_aux_urlsplit_path (s := (c :: t) ++ '/' :: path) (nm ':' (by decide) (by decide))
    (nm '?' (by decide) (by decide)) (nm '#' (by decide) (by decide))
    (by rintro t' ht; cases ht; exact (C53_aux_start hc).2 rfl)
  have hat : '/' ∈ (c :: t) ++ '/' :: path := by simp
  have hclean : Clean (c :: t) := ⟨C53_aux_not_mem hh.2 _ (by decide),
    C53_aux_not_mem hh.2 _ (by decide), C53_aux_not_mem hh.2 _ (by decide)⟩
  have htk := takeNetloc_clean (c :: t) ('/' :: path) hclean (Or.inr ⟨'/', path, rfl, Or.inl rfl⟩)
  have hnl : httpsNetloc ((c :: t) ++ '/' :: path) = .ok (c :: t) := by
    unfold httpsNetloc urlsplit
    rw [splitScheme_https]
    simp only [splitNetloc, htk, C53_aux_not_mem hh.2 '[' (by decide), C53_aux_not_mem hh.2 ']' (by decide)]
    rfl
  unfold normalise
  rw [List.cons_append] at *
  simp only [if_neg (C53_aux_start hc).1, hsp, if_true]
  unfold noScheme
  simp only [ne_eq, not_true, if_false, true_and, if_true, hat, true_or, hnl, Except.map]

/-- Host and port, the host starting with a letter: queried there, as `https` resource. -/
theorem C53_host_port (host port : List Char) (hh : Name host) (hp : Name port)
    (hl : ∀ c t, host = c :: t → isAlpha c = true)
    (hns : host.map Char.toLower ≠ "http".toList ∧ host.map Char.toLower ≠ "https".toList ∧
      host.map Char.toLower ≠ "acct".toList) :
    normalise (host ++ ':' :: port) =
      .ok (host ++ ':' :: port, "https://".toList ++ (host ++ ':' :: port)) := by
  obtain ⟨c, t, rfl, hc⟩ := C53_aux_first hh
  have hcl := hl c t rfl
  have hall : (c :: t).all isSchemeChar = true := by
    rw [List.all_eq_true]
    intro x hx
    have := (List.all_eq_true.1 hh.2) x hx
    revert this
    unfold nameChar isSchemeChar isAlpha
    simp only [Bool.or_eq_true, decide_eq_true_eq]
    rintro ((((h | h) | h) | h) | h)
    · exact Or.inl (Or.inl (Or.inl (Or.inl (Or.inl h))))
    · exact Or.inl (Or.inl (Or.inl (Or.inl (Or.inr h))))
    · exact Or.inl (Or.inl (Or.inl (Or.inr h)))
    · exact Or.inr h
    · exact Or.inl (Or.inr h)
  have hcut : Str.cutL ':' ((c :: t) ++ ':' :: port) = (c :: t, some port) :=
    Str.cutL_append _ _ _ (C53_aux_not_mem hh.2 ':' (by decide))
  have hscheme : splitScheme ((c :: t) ++ ':' :: port) = ((c :: t).map Char.toLower, port) := by
    unfold splitScheme
    rw [hcut]
    simp only [hcl, hall, Bool.and_self, if_true]
  obtain ⟨d, u, rfl, hd⟩ := C53_aux_first hp
  have hnet : splitNetloc (d :: u) = .ok ([], d :: u) := by
    unfold splitNetloc
    split
    · next t' ht => cases ht; exact absurd rfl (C53_aux_start hd).2
    · rfl
  have hsp : ∃ p, urlsplit ((c :: t) ++ ':' :: d :: u) = .ok p ∧ p.scheme = (c :: t).map Char.toLower := by
    unfold urlsplit
    rw [hscheme]
    simp only [hnet]
    exact ⟨_, rfl, rfl⟩
  obtain ⟨p, hp1, hp2⟩ := hsp
  have nm : ∀ x, nameChar x = false → x ≠ ':' → x ∉ (c :: t) ++ ':' :: d :: u := by
    intro x hx hx'
    simp only [List.mem_append, List.mem_cons (a := x) (b := ':'), not_or]
    exact ⟨C53_aux_not_mem hh.2 x hx, hx', C53_aux_not_mem hp.2 x hx⟩
  have hclean : Clean ((c :: t) ++ ':' :: d :: u) := ⟨nm _ (by decide) (by decide),
    nm _ (by decide) (by decide), nm _ (by decide) (by decide)⟩
  have htk := takeNetloc_clean ((c :: t) ++ ':' :: d :: u) [] hclean (Or.inl rfl)
  rw [List.append_nil] at htk
  have husp : urlsplit ("https://".toList ++ ((c :: t) ++ ':' :: d :: u)) =
      .ok { scheme := "https".toList, netloc := (c :: t) ++ ':' :: d :: u } := by
    unfold urlsplit
    rw [splitScheme_https]
    simp only [splitNetloc, htk, nm '[' (by decide) (by decide), nm ']' (by decide) (by decide)]
    rfl
  have hwf : withoutFragment { scheme := "https".toList, netloc := (c :: t) ++ ':' :: d :: u } =
      "https://".toList ++ ((c :: t) ++ ':' :: d :: u) := by
    unfold withoutFragment urlunsplit
    simp
  unfold normalise
  rw [List.cons_append] at *
  simp only [if_neg (C53_aux_start hc).1, hp1, hp2, List.map_cons, reduceCtorEq, if_false]
  unfold withScheme
  rw [hp2, if_pos (by simpa using hns), husp]
  simp only [Except.map, hwf]

/-- `acct:` identifiers: queried at the host after the `@`. -/
theorem C53_acct (user host : List Char) (hu : Name user) (hh : Name host) :
    normalise ("acct:".toList ++ (user ++ '@' :: host)) =
      .ok (host, "acct:".toList ++ (user ++ '@' :: host)) := by
  have nm : ∀ x, nameChar x = false → x ≠ '@' → x ∉ user ++ '@' :: host := by
    intro x hx hx'
    simp only [List.mem_append, List.mem_cons (a := x) (b := '@'), not_or]
    exact ⟨C53_aux_not_mem hu.2 x hx, hx', C53_aux_not_mem hh.2 x hx⟩
  have hsch : splitScheme ("acct:".toList ++ (user ++ '@' :: host)) =
      ("acct".toList, user ++ '@' :: host) := by
    have hcut : Str.cutL ':' ("acct:".toList ++ (user ++ '@' :: host)) =
        ("acct".toList, some (user ++ '@' :: host)) :=
      Str.cutL_append ':' "acct".toList (user ++ '@' :: host) (by decide)
    unfold splitScheme
    rw [hcut]
    rfl
  obtain ⟨c, t, rfl, hc⟩ := C53_aux_first hu
  have hnet : splitNetloc ((c :: t) ++ '@' :: host) = .ok ([], (c :: t) ++ '@' :: host) := by
    unfold splitNetloc
    split
    · next t' ht => exact absurd (List.cons.inj (List.cons_append ▸ ht)).1 (C53_aux_start hc).2
    · rfl
  have husp : urlsplit ("acct:".toList ++ ((c :: t) ++ '@' :: host)) =
      .ok { scheme := "acct".toList, path := (c :: t) ++ '@' :: host } := by
    unfold urlsplit
    rw [hsch]
    simp only [hnet, Str.cutL_noSep _ _ (nm '#' (by decide) (by decide)),
      Str.cutL_noSep _ _ (nm '?' (by decide) (by decide)), Option.getD_none]
  have hsplit : Str.splitL '@' ((c :: t) ++ '@' :: host) = [c :: t, host] := by
    rw [Str.splitL_append_sep _ _ _ (C53_aux_not_mem hu.2 '@' (by decide)),
      Str.splitL_noSep _ _ (C53_aux_not_mem hh.2 '@' (by decide))]
  have hat : '@' ∈ (c :: t) ++ '@' :: host := by simp
  have hwf : withoutFragment { scheme := "acct".toList, path := (c :: t) ++ '@' :: host } =
      "acct:".toList ++ ((c :: t) ++ '@' :: host) := by
    have hns : Str.startsWith (String.ofList ((c :: t) ++ '@' :: host)) "//" = false := by
      have hne : ('/' == c) = false := by
        have := (C53_aux_start hc).2
        simpa using fun h => this h.symm
      simp [Str.startsWith, List.isPrefixOf, hne]
    unfold withoutFragment urlunsplit
    rw [if_neg (by
      rintro (h | h)
      · exact h rfl
      · rw [hns] at h; cases h)]
    simp
  have hn : normalise ("acct:".toList ++ ((c :: t) ++ '@' :: host)) =
      withScheme ("acct:".toList ++ ((c :: t) ++ '@' :: host))
        { scheme := "acct".toList, path := (c :: t) ++ '@' :: host } := by
    exact C53_aux_withScheme (by decide) husp (List.cons_ne_nil _ _)
  rw [hn]
  unfold withScheme
  simp only [ne_eq, not_true, and_false, if_false, false_and, if_true,
    Str.splitL_noSep _ _ (nm '/' (by decide) (by decide)), List.getElem?_cons_zero, Option.getD_some,
    Str.splitL_noSep _ _ (nm '?' (by decide) (by decide)), hat, afterAt, hsplit,
    List.getElem?_cons_succ, Str.splitL_noSep _ _ (C53_aux_not_mem hh.2 '#' (by decide)), hwf]

/-- `http(s)` URLs: queried at the URL's host, the whole URL (without fragment) as resource. -/
theorem C53_url (scheme host path frag : List Char) (hs : scheme = "https".toList ∨ scheme = "http".toList)
    (hh : Name host) (hp : path.all nameChar = true) :
    normalise (scheme ++ ("://".toList ++ (host ++ ('/' :: path ++ '#' :: frag)))) =
      .ok (host, scheme ++ ("://".toList ++ (host ++ '/' :: path))) := by
  have hclean : Clean host := ⟨C53_aux_not_mem hh.2 _ (by decide),
    C53_aux_not_mem hh.2 _ (by decide), C53_aux_not_mem hh.2 _ (by decide)⟩
  have htk := takeNetloc_clean host ('/' :: path ++ '#' :: frag) hclean
    (Or.inr ⟨'/', path ++ '#' :: frag, rfl, Or.inl rfl⟩)
  have hnf : '#' ∉ '/' :: path := by
    simp only [List.mem_cons, not_or]
    exact ⟨by decide, C53_aux_not_mem hp '#' (by decide)⟩
  have hnq : '?' ∉ '/' :: path := by
    simp only [List.mem_cons, not_or]
    exact ⟨by decide, C53_aux_not_mem hp '?' (by decide)⟩
  have hsch : splitScheme (scheme ++ ("://".toList ++ (host ++ ('/' :: path ++ '#' :: frag)))) =
      (scheme, '/' :: '/' :: (host ++ ('/' :: path ++ '#' :: frag))) := by
    have hcut : Str.cutL ':' (scheme ++ ("://".toList ++ (host ++ ('/' :: path ++ '#' :: frag)))) =
        (scheme, some ('/' :: '/' :: (host ++ ('/' :: path ++ '#' :: frag)))) :=
      Str.cutL_append ':' scheme _ (by rcases hs with rfl | rfl <;> decide)
    unfold splitScheme
    rw [hcut]
    rcases hs with rfl | rfl <;> rfl
  have husp : urlsplit (scheme ++ ("://".toList ++ (host ++ ('/' :: path ++ '#' :: frag)))) =
      .ok { scheme := scheme, netloc := host, path := '/' :: path, fragment := frag } := by
    unfold urlsplit
    rw [hsch]
    simp only [splitNetloc, htk, C53_aux_not_mem hh.2 '[' (by decide),
      C53_aux_not_mem hh.2 ']' (by decide)]
    simp only [decide_false, bne_self_eq_false, Bool.false_eq_true, if_false,
      Str.cutL_append _ _ _ hnf, Str.cutL_noSep _ _ hnq, Option.getD_none, Option.getD_some]
  have hwf : withoutFragment { scheme := scheme, netloc := host, path := '/' :: path, fragment := frag } =
      scheme ++ ("://".toList ++ (host ++ '/' :: path)) := by
    have hsne : scheme ≠ [] := by rcases hs with rfl | rfl <;> decide
    unfold withoutFragment urlunsplit
    simp [hh.1, hsne]
  have hn : normalise (scheme ++ ("://".toList ++ (host ++ ('/' :: path ++ '#' :: frag)))) =
      withScheme (scheme ++ ("://".toList ++ (host ++ ('/' :: path ++ '#' :: frag))))
        { scheme := scheme, netloc := host, path := '/' :: path, fragment := frag } := by
    rcases hs with rfl | rfl
    · exact C53_aux_withScheme (by decide) husp (List.cons_ne_nil _ _)
    · exact C53_aux_withScheme (by decide) husp (List.cons_ne_nil _ _)
  rw [hn]
  unfold withScheme
  have hna : scheme ≠ "acct".toList := by rcases hs with rfl | rfl <;> decide
  rw [if_neg (by rcases hs with rfl | rfl <;> simp), if_neg (by simp [hh.1]), if_neg hna, hwf]

/-- Full claim fails: a `device:` identifier is taken for a host and port. -/
theorem C53_violated_device :
    normalise "device:p1.example.com".toList =
      .ok ("device:p1.example.com".toList, "https://device:p1.example.com".toList) := by rfl

example : Name "example.com".toList := ⟨by decide, by decide⟩
example : normalise "joe@example.com".toList = .ok ("example.com".toList, "acct:joe@example.com".toList) := rfl

end Verif.Props
