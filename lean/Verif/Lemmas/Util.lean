import Verif.Spec.Http
/-! Helper lemmas for `Verif.Props.Util`. -/

namespace Verif.Util
open Verif

theorem startsWith_append (m p n : String)
    (h : (Str.startsWith m n || !(Str.startsWith n m)) = true) :
    Str.startsWith (m ++ p) n = Str.startsWith m n := by
  cases h1 : Str.startsWith m n with
  | true =>
    obtain ⟨t, rfl⟩ := (Str.startsWith_iff _ _).1 h1
    rw [Str.startsWith_iff]; exact ⟨t ++ p, by rw [String.append_assoc]⟩
  | false =>
    rw [h1, Bool.false_or] at h
    cases h2 : Str.startsWith (m ++ p) n with
    | false => rfl
    | true =>
      simp only [Str.startsWith, String.toList_append] at h1 h2 h
      rw [List.isPrefixOf_iff_prefix] at h2
      rcases List.prefix_or_prefix_of_prefix h2 (List.prefix_append m.toList p.toList) with h3 | h3
      · rw [← List.isPrefixOf_iff_prefix] at h3; rw [h3] at h1; cases h1
      · rw [← List.isPrefixOf_iff_prefix] at h3; rw [h3] at h; cases h

theorem isContentType_eq {ctype media : String} (h : Spec.IsContentType ctype media) :
    ∃ p, ctype = media ++ p := by
  rcases h with rfl | ⟨p, rfl⟩
  · exact ⟨"", by simp⟩
  · exact ⟨";" ++ p, by rw [String.append_assoc]⟩

theorem toParams_text (ser : Ser) (ps : List (String × String)) :
    toParams ser (Spec.textRequest ps) = ps := by
  induction ps with
  | nil => rfl
  | cons p ps ih =>
    obtain ⟨k, v⟩ := p
    simp only [Spec.textRequest, List.map_cons, toParams, scalarText] at ih ⊢
    rw [ih]

theorem urlsplit_parts (base query frag : List Char) (hb : '?' ∉ base) (hb' : '#' ∉ base)
    (hq : '#' ∉ query) :
    urlsplit (String.ofList (base ++ '?' :: query ++ '#' :: frag)) = (base, query, frag) := by
  unfold urlsplit
  rw [String.toList_ofList, Str.cutL_append]
  · simp only
    rw [Str.cutL_append _ _ _ hb]; rfl
  · simp only [List.mem_append, List.mem_cons, not_or]
    exact ⟨hb', by decide, hq⟩

theorem urlsplit_noFrag (base query : List Char) (hb : '?' ∉ base) (hb' : '#' ∉ base)
    (hq : '#' ∉ query) :
    urlsplit (String.ofList (base ++ '?' :: query)) = (base, query, []) := by
  unfold urlsplit
  rw [String.toList_ofList, Str.cutL_noSep]
  · simp only
    rw [Str.cutL_append _ _ _ hb]; rfl
  · simp only [List.mem_append, List.mem_cons, not_or]
    exact ⟨hb', by decide, hq⟩

theorem urlsplit_plain (base : List Char) (hb : '?' ∉ base) (hb' : '#' ∉ base) :
    urlsplit (String.ofList base) = (base, [], []) := by
  unfold urlsplit
  rw [String.toList_ofList, Str.cutL_noSep _ _ hb']
  simp only
  rw [Str.cutL_noSep _ _ hb]; rfl

theorem urlencode_ne_nil {ps : List (String × String)} (h : ps ≠ []) :
    Quote.urlencode ps ≠ [] := by
  cases ps with
  | nil => exact absurd rfl h
  | cons p ps =>
    cases ps with
    | nil => simp [Quote.urlencode, Str.joinL, Quote.encPair]
    | cons q qs => simp [Quote.urlencode, Str.joinL, Quote.encPair]

theorem format_plain (kw : Dict String) (pre s : List Char) (h1 : '{' ∉ pre) (h2 : '}' ∉ pre) :
    format kw none (pre ++ s) = (format kw none s).map (pre ++ ·) := by
  induction pre with
  | nil =>
    have : (fun x : List Char => [] ++ x) = id := by funext x; rfl
    simp only [List.nil_append]
    cases format kw none s <;> rfl
  | cons c pre ih =>
    simp only [List.mem_cons, not_or] at h1 h2
    have ih := ih h1.2 h2.2
    rw [List.cons_append, format, ih]
    · cases format kw none s <;> simp [Except.map]
    · intro s' h _; exact absurd h.symm h1.1
    · intro s' h _; exact absurd h.symm h2.1
    · intro h; exact absurd h.symm h1.1
    · intro h; exact absurd h.symm h2.1

theorem format_field (kw : Dict String) (acc name s : List Char) (h : '}' ∉ name) :
    format kw (some acc) (name ++ '}' :: s) =
      match Dict.get? kw (String.ofList (acc ++ name)) with
      | none => .error .keyError
      | some v => (format kw none s).map (v.toList ++ ·) := by
  induction name generalizing acc with
  | nil => simp only [List.nil_append, format, List.append_nil]; rfl
  | cons c name ih =>
    simp only [List.mem_cons, not_or] at h
    rw [List.cons_append, format, ih _ h.2, List.append_assoc]
    · rfl
    · intro h'; exact absurd h'.symm h.1

theorem infix_braces (pre name post : List Char) :
    Str.containsL ('{' :: (name ++ ['}'])) (pre ++ '{' :: name ++ '}' :: post) = true := by
  rw [Str.containsL_iff]
  exact ⟨pre, post, by simp⟩


theorem verifyHeader_json (resp : HttpResp) (ctype : String) :
    verifyHeader { resp with headers := [("content-type", ctype)] } "json" =
      if Str.startsWith ctype "application/json" || Str.startsWith ctype "application/jrd+json" then
        .ok "json"
      else if Str.startsWith ctype "application/jwt" then .ok "jwt" else .error .wrongContentType := rfl

theorem verifyHeader_jwt (resp : HttpResp) (ctype : String) :
    verifyHeader { resp with headers := [("content-type", ctype)] } "jwt" =
      if Str.startsWith ctype "application/jwt" then .ok "jwt" else .error .wrongContentType := rfl

theorem verifyHeader_urlencoded (resp : HttpResp) (ctype : String) :
    verifyHeader { resp with headers := [("content-type", ctype)] } "urlencoded" =
      if Str.startsWith ctype "application/x-www-form-urlencoded" then .ok "urlencoded"
      else if Str.startsWith ctype "text/plain" then .ok "urlencoded"
      else .error .wrongContentType := rfl

theorem verifyHeader_txt (resp : HttpResp) (ctype : String) :
    verifyHeader { resp with headers := [("content-type", ctype)] } "txt" =
      if Str.startsWith ctype "text/plain" then .ok "txt"
      else if Str.startsWith ctype "text/html" then .ok "txt"
      else .error .wrongContentType := rfl

end Verif.Util
