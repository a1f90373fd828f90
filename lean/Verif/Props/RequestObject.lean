import Verif.Model.RequestObject
import Verif.Props.AddOn
/-!
# C64, C72, C73, C74: request objects and their files
-/

namespace Verif.Props
open Verif Verif.RequestObject

/-! ## C64: web names and file names -/

theorem append_toList_inj {a b c : String} (h : a ++ b = a ++ c) : b = c := by
  have := congrArg String.toList h
  simp only [String.toList_append, List.append_cancel_left_eq] at this
  exact String.toList_inj.1 this

theorem drop_append (base name : String) :
    String.ofList ((base ++ name).toList.drop base.toList.length) = name := by
  simp [String.toList_append]

/-- **C64** (exact).  A web name has the file `f` iff it is the base URL followed by `/` and `f`, or by `f` which does
not begin with a slash. -/
theorem C64_file_iff (base web f : String) :
    filenameFromWebname base web = .ok f ↔
      web = base ++ "/" ++ f ∨ (web = base ++ f ∧ ¬ ∃ t, f = "/" ++ t) := by
  unfold filenameFromWebname
  by_cases hp : Str.startsWith web base = true
  · obtain ⟨t, rfl⟩ := (Str.startsWith_iff _ _).1 hp
    rw [if_pos hp]
    simp only [drop_append]
    by_cases hs : Str.startsWith t "/" = true
    · obtain ⟨u, rfl⟩ := (Str.startsWith_iff _ _).1 hs
      rw [if_pos hs]
      have hu : String.ofList (("/" ++ u).toList.drop 1) = u := by simp [String.toList_append]
      rw [hu]
      constructor
      · intro h
        injection h with h
        subst h
        left
        rw [String.append_assoc]
      · rintro (h | ⟨h, h'⟩)
        · rw [String.append_assoc] at h
          rw [append_toList_inj (append_toList_inj h)]
        · exact absurd ⟨u, (append_toList_inj h).symm⟩ h'
    · rw [if_neg hs]
      constructor
      · intro h
        injection h with h
        subst h
        right
        exact ⟨rfl, fun h => hs ((Str.startsWith_iff _ _).2 h)⟩
      · rintro (h | ⟨h, h'⟩)
        · rw [String.append_assoc] at h
          exact absurd ((Str.startsWith_iff _ _).2 ⟨f, append_toList_inj h⟩) hs
        · rw [append_toList_inj h]
  · rw [if_neg hp]
    constructor
    · intro h; cases h
    · rintro (h | ⟨h, _⟩)
      · exact absurd ((Str.startsWith_iff _ _).2 ⟨"/" ++ f, by rw [h, String.append_assoc]⟩) hp
      · exact absurd ((Str.startsWith_iff _ _).2 ⟨f, h⟩) hp

/-- **C64** (one-to-one, the part that holds).  Two web names below the directory of the base URL with the same file are the same. -/
theorem C64_one_to_one_partial (base a b f : String) (ha : filenameFromWebname base (base ++ "/" ++ a) = .ok f)
    (hb : filenameFromWebname base (base ++ "/" ++ b) = .ok f) : a = b ∧ f = a := by
  have h : ∀ n, filenameFromWebname base (base ++ "/" ++ n) = .ok n := fun n => (C64_file_iff _ _ _).2 (.inl rfl)
  rw [h] at ha hb
  injection ha with ha
  injection hb with hb
  exact ⟨ha.trans hb.symm, ha.symm⟩

/-- **C64** (foreign URLs).  A URL that does not begin with the base URL is refused. -/
theorem C64_foreign_refused_partial (base web : String) (h : ¬ ∃ t, web = base ++ t) :
    filenameFromWebname base web = .error .valueError := by
  unfold filenameFromWebname
  rw [if_neg]
  intro hp
  exact h ((Str.startsWith_iff _ _).1 hp)

/-- **C64** is violated: two web names with the same file; a URL of another host with a file; and a file outside. -/
theorem C64_violated :
    filenameFromWebname "https://rp.example" "https://rp.example/r1" = .ok "r1" ∧
    filenameFromWebname "https://rp.example" "https://rp.exampler1" = .ok "r1" ∧
    filenameFromWebname "https://rp.example" "https://rp.example.evil.org/r1" = .ok ".evil.org/r1" ∧
    filenameFromWebname "https://rp.example" "https://rp.example/../../etc/passwd" = .ok "../../etc/passwd" := by
  refine ⟨by rfl, by rfl, by rfl, by rfl⟩

/-! ## C72: files of requests by reference -/

/-- No `request_uri` was registered. -/
def NotRegistered (ctx : Ctx) : Prop := Dict.get? ctx.registrationResponse "request_uris" = none

/-- A request by reference: the circumstances, the client, the request and the options. -/
structure ByReference where
  x : RequestObject.Ext
  ctx : Ctx
  req : Obj
  kwargs : Obj

/-- The file system after requests by reference. -/
def afterRequests : List ByReference → Files → Files
  | [], fs => fs
  | r :: rs, fs => afterRequests rs (param r.x r.ctx "request_uri" r.req r.kwargs fs).2

/-- The file the web server of the client has for a URL: the last part of the URL in the directory for requests. -/
def fileFor (ctx : Ctx) (web : String) (file : String) : Prop :=
  ∃ n, web = ctx.baseUrl ++ "/requests/" ++ n ∧ file = join (localDir ctx) n

theorem freeName_ok {dir : String} {fs : Files} {l : List String} {n : String} (h : freeName dir fs l = .ok n) :
    Dict.get? fs (join dir n) = none ∧ n ∈ l := by
  induction l with
  | nil => cases h
  | cons a l ih =>
    unfold freeName at h
    split at h
    · obtain ⟨h1, h2⟩ := ih h
      exact ⟨h1, List.mem_cons_of_mem _ h2⟩
    · next hn =>
      injection h with h
      subst h
      refine ⟨?_, List.mem_cons_self ..⟩
      rw [Dict.has_eq] at hn
      cases hg : Dict.get? fs (join dir a) with
      | none => rfl
      | some v => rw [hg] at hn; exact absurd rfl hn

theorem basePath_noSlash (ctx : Ctx) : Str.endsWith (basePath ctx) "/" = false := by
  cases h : Str.endsWith (basePath ctx) "/" with
  | false => rfl
  | true =>
    exfalso
    unfold Str.endsWith basePath at h
    rw [List.isSuffixOf_iff_suffix] at h
    obtain ⟨t, ht⟩ := h
    have h2 := congrArg List.getLast? ht
    simp [String.toList_append] at h2

theorem param_fresh {x : RequestObject.Ext} {ctx : Ctx} {req kwargs : Obj} {fs fs' : Files} {r : Except Exc String}
    (hno : NotRegistered ctx) (h : param x ctx "request_uri" req kwargs fs = (r, fs')) :
    (fs' = fs ∧ ∃ e, r = .error e) ∨
    ∃ j web file, make x ctx req kwargs = .ok j ∧ r = .ok web ∧ fileFor ctx web file ∧ Dict.get? fs file = none ∧
      fs' = Dict.set fs file j := by
  unfold param at h
  split at h
  · next e he =>
    injection h with h1 h2
    exact .inl ⟨h2.symm, e, h1.symm⟩
  · next j hj =>
    rw [if_neg (by decide)] at h
    unfold storeOnFile registeredUri at h
    rw [hno] at h
    simp only at h
    unfold constructRequestUri at h
    cases hf : freeName (localDir ctx) fs (candidates x.draws) with
    | error e =>
      rw [hf] at h
      injection h with h1 h2
      exact .inl ⟨h2.symm, e, h1.symm⟩
    | ok n =>
      rw [hf] at h
      simp only [basePath_noSlash] at h
      injection h with h1 h2
      refine .inr ⟨j, _, _, hj, h1.symm, ⟨n, ?_, rfl⟩, (freeName_ok hf).1, h2.symm⟩
      simp only [Bool.false_eq_true, if_false, basePath]
      simp [String.append_assoc]

/-- **C72** (no file is overwritten, the part that holds).  When no `request_uri` was registered, a request by reference
writes the request object into a file that did not exist, behind the URL it returns, and changes no other file; if it
fails it writes nothing. -/
theorem C72_file_is_new_partial (x : RequestObject.Ext) (ctx : Ctx) (req kwargs : Obj) (fs fs' : Files) (r : Except Exc String)
    (hno : NotRegistered ctx) (h : param x ctx "request_uri" req kwargs fs = (r, fs')) :
    (∀ web, r = .ok web → ∃ j file, make x ctx req kwargs = .ok j ∧ fileFor ctx web file ∧ Dict.get? fs file = none ∧
      Dict.get? fs' file = some j ∧ ∀ f, f ≠ file → Dict.get? fs' f = Dict.get? fs f) ∧
    (∀ e, r = .error e → fs' = fs) := by
  rcases param_fresh hno h with ⟨h1, e, h2⟩ | ⟨j, web, file, h1, h2, h3, h4, h5⟩
  · refine ⟨?_, fun _ _ => h1⟩
    intro web hw; rw [h2] at hw; cases hw
  · refine ⟨?_, ?_⟩
    · intro w hw
      rw [h2] at hw
      injection hw with hw
      subst hw
      refine ⟨j, file, h1, h3, h4, by rw [h5, Dict.get?_set_self], ?_⟩
      intro f hf
      rw [h5, Dict.get?_set_ne _ _ (Ne.symm hf)]
    · intro e he; rw [h2] at he; cases he

theorem afterRequests_keeps (rs : List ByReference) (hno : ∀ r ∈ rs, NotRegistered r.ctx) (fs : Files) (f j : String)
    (h : Dict.get? fs f = some j) : Dict.get? (afterRequests rs fs) f = some j := by
  induction rs generalizing fs with
  | nil => exact h
  | cons r rs ih =>
    unfold afterRequests
    refine ih (fun q hq => hno q (List.mem_cons_of_mem _ hq)) _ ?_
    have hr := hno r (List.mem_cons_self ..)
    obtain ⟨r', fs', hres⟩ : ∃ r' fs', param r.x r.ctx "request_uri" r.req r.kwargs fs = (r', fs') := ⟨_, _, rfl⟩
    rw [hres]
    show Dict.get? fs' f = some j
    rcases param_fresh hr hres with ⟨h1, _⟩ | ⟨j', web, file, _, _, _, h4, h5⟩
    · rw [h1]; exact h
    · rw [h5]
      by_cases hf : file = f
      · subst hf; rw [h4] at h; cases h
      · rw [Dict.get?_set_ne _ _ hf]; exact h

/-- **C72** (the provider gets the request of the session, the part that holds).  Whatever requests are made afterwards by clients
without registered `request_uri`, the file behind the URL has the request object made for it. -/
theorem C72_reference_stays_partial (x : RequestObject.Ext) (ctx : Ctx) (req kwargs : Obj) (fs fs' : Files) (web : String)
    (hno : NotRegistered ctx) (h : param x ctx "request_uri" req kwargs fs = (.ok web, fs')) (later : List ByReference)
    (hl : ∀ r ∈ later, NotRegistered r.ctx) :
    ∃ j file, make x ctx req kwargs = .ok j ∧ fileFor ctx web file ∧ Dict.get? (afterRequests later fs') file = some j := by
  obtain ⟨j, file, h1, h2, _, h4, _⟩ := (C72_file_is_new_partial x ctx req kwargs fs fs' _ hno h).1 web rfl
  exact ⟨j, file, h1, h2, afterRequests_keeps later hl fs' file j h4⟩

/-- **C72** (other files).  Whether a `request_uri` was registered or not, a request by reference changes at most one file, and
that one has the request object then, behind the URL returned (the one registered, if there is one); if it fails it writes nothing. -/
theorem C72_one_file (x : RequestObject.Ext) (ctx : Ctx) (req kwargs : Obj) (fs fs' : Files) (r : Except Exc String)
    (h : param x ctx "request_uri" req kwargs fs = (r, fs')) :
    (∀ web, r = .ok web → ∃ j file, make x ctx req kwargs = .ok j ∧
      ((NotRegistered ctx ∧ fileFor ctx web file) ∨ ((∃ rest, Dict.get? ctx.registrationResponse "request_uris" =
        some (.list (.str web :: rest))) ∧ filenameFromWebname ctx.baseUrl web = .ok file)) ∧
      Dict.get? fs' file = some j ∧ ∀ f, f ≠ file → Dict.get? fs' f = Dict.get? fs f) ∧
    (∀ e, r = .error e → fs' = fs) := by
  by_cases hno : NotRegistered ctx
  · obtain ⟨k1, k2⟩ := C72_file_is_new_partial x ctx req kwargs fs fs' r hno h
    refine ⟨?_, k2⟩
    intro web hw
    obtain ⟨j, file, a1, a2, _, a4, a5⟩ := k1 web hw
    exact ⟨j, file, a1, .inl ⟨hno, a2⟩, a4, a5⟩
  · have herr : ∀ e, (r, fs') = (.error e, fs) → (∀ web, r = .ok web → ∃ j file, make x ctx req kwargs = .ok j ∧
        ((NotRegistered ctx ∧ fileFor ctx web file) ∨ ((∃ rest, Dict.get? ctx.registrationResponse "request_uris" =
          some (.list (.str web :: rest))) ∧ filenameFromWebname ctx.baseUrl web = .ok file)) ∧
        Dict.get? fs' file = some j ∧ ∀ f, f ≠ file → Dict.get? fs' f = Dict.get? fs f) ∧
        (∀ e, r = .error e → fs' = fs) := by
      intro e he
      injection he with h1 h2
      refine ⟨?_, fun _ _ => h2⟩
      intro web hw
      rw [h1] at hw
      cases hw
    unfold param at h
    split at h
    · next e he => exact herr e h.symm
    · next j hj =>
      rw [if_neg (by decide)] at h
      unfold storeOnFile at h
      cases hreg : registeredUri ctx with
      | none =>
        exfalso
        unfold registeredUri at hreg
        split at hreg <;> first | (next hn => exact hno hn) | cases hreg
      | some ew =>
        rw [hreg] at h
        cases ew with
        | error e => exact herr e h.symm
        | ok web =>
          simp only at h
          cases hf : filenameFromWebname ctx.baseUrl web with
          | error e => rw [hf] at h; exact herr e h.symm
          | ok f =>
            rw [hf] at h
            injection h with h1 h2
            refine ⟨?_, fun e he => (by rw [← h1] at he; cases he)⟩
            intro w hw
            rw [← h1] at hw
            injection hw with hw
            subst hw
            refine ⟨j, f, hj, .inr ⟨?_, hf⟩, by rw [← h2, Dict.get?_set_self], ?_⟩
            · unfold registeredUri at hreg
              split at hreg
              · cases hreg
              · next v rest hv =>
                injection hreg with hreg
                cases v <;> simp [asStr] at hreg
                subst hreg
                exact ⟨rest, hv⟩
              · cases hreg
              · cases hreg
            · intro g hg
              rw [← h2, Dict.get?_set_ne _ _ (Ne.symm hg)]

/-- **C72** is violated with a registered `request_uri`: every request by reference of the client gets the same URL, and the file
behind it has the request object of the last one, whatever was there. -/
theorem C72_registered_uri_violated (x : RequestObject.Ext) (ctx : Ctx) (req kwargs : Obj) (fs : Files) (web j f : String)
    (rest : List Val) (hreg : Dict.get? ctx.registrationResponse "request_uris" = some (.list (.str web :: rest)))
    (hf : filenameFromWebname ctx.baseUrl web = .ok f) (hj : make x ctx req kwargs = .ok j) :
    param x ctx "request_uri" req kwargs fs = (.ok web, Dict.set fs f j) := by
  unfold param
  rw [hj]
  simp only
  rw [if_neg (by decide)]
  unfold storeOnFile registeredUri
  rw [hreg]
  simp only [asStr, hf]

/-- Circumstances for the examples: a request object is its state. -/
def roWorld (draws : List String) : RequestObject.Ext where
  sign := fun r a => .ok (match Dict.get? r "state", a.alg with
    | some (.str s), .str g => g ++ ":" ++ s
    | _, _ => "")
  encrypt := fun m _ _ _ _ => .ok ("enc(" ++ m ++ ")")
  draws := draws

/-- A client. -/
def roClient (reg : Obj) : Ctx :=
  { clientId := "client1", issuer := "https://op.example", baseUrl := "https://rp.example", registrationResponse := reg }

/-- Non-vacuity of C72: two requests by the same client; the name drawn first is in use already. -/
example :
    NotRegistered (roClient []) ∧
    param (roWorld ["a", "b"]) (roClient []) "request_uri" [("state", .str "s1")] [] [("./requests/a.jwt", "old")] =
      (.ok "https://rp.example/requests/b", [("./requests/a.jwt", "old"), ("./requests/b", "RS256:s1")]) ∧
    afterRequests [⟨roWorld ["b"], roClient [], [("state", .str "s2")], []⟩] [("./requests/a.jwt", "old"), ("./requests/b", "RS256:s1")] =
      [("./requests/a.jwt", "old"), ("./requests/b", "RS256:s1"), ("./requests/b.jwt", "RS256:s2")] := by
  refine ⟨rfl, by rfl, by rfl⟩

/-- The violation: the second session overwrites the request of the first. -/
example :
    afterRequests [⟨roWorld [], roClient [("request_uris", .list [.str "https://rp.example/ro"])], [("state", .str "s1")], []⟩] [] =
      [("ro", "RS256:s1")] ∧
    afterRequests [⟨roWorld [], roClient [("request_uris", .list [.str "https://rp.example/ro"])], [("state", .str "s1")], []⟩,
      ⟨roWorld [], roClient [("request_uris", .list [.str "https://rp.example/ro"])], [("state", .str "s2")], []⟩] [] =
      [("ro", "RS256:s2")] := by
  refine ⟨by rfl, by rfl⟩

/-! ## C73: who signs what for whom -/

/-- The signing algorithm: the one asked for (by `request_object_signing_alg`, or else `algorithm`), or the negotiated
one, or RS256. -/
structure AlgChosen (behaviour kwargs : Obj) (alg : Val) : Prop where
  asked : ∀ v, Dict.get? kwargs "request_object_signing_alg" = some v → v.truthy = true → alg = v
  askedToo : ∀ v, Dict.get? kwargs "request_object_signing_alg" = none → Dict.get? kwargs "algorithm" = some v →
    v.truthy = true → alg = v
  negotiated : ∀ v, Dict.get? kwargs "request_object_signing_alg" = none → Dict.get? kwargs "algorithm" = none →
    Dict.get? behaviour "request_object_signing_alg" = some v → alg = v
  default : Dict.get? kwargs "request_object_signing_alg" = none → Dict.get? kwargs "algorithm" = none →
    Dict.get? behaviour "request_object_signing_alg" = none → alg = .str "RS256"

/-- The claims signed: those of the request, and `exp` if a life time was asked for. -/
def RequestClaims (now : Int) (req kwargs claims : Obj) : Prop :=
  (∀ k, k ≠ "exp" → Dict.get? claims k = Dict.get? req k) ∧
  (Dict.get? kwargs "expires_in" = none → claims = req) ∧
  (∀ n : Int, n ≠ 0 → Dict.get? kwargs "expires_in" = some (.int n) → Dict.get? claims "exp" = some (.int (now + n)))

theorem algChosen (b kwargs : Obj) : AlgChosen b kwargs (signingAlg b kwargs) := by
  constructor
  · intro v h1 h2
    simp [signingAlg, h1, h2]
  · intro v h1 h2 h3
    simp [signingAlg, h1, h2, h3]
  · intro v h1 h2 h3
    simp [signingAlg, h1, h2, h3, Val.truthy]
  · intro h1 h2 h3
    simp [signingAlg, h1, h2, h3, Val.truthy]

theorem requestClaims {now : Int} {req kwargs claims : Obj} (h : withExp now req kwargs = .ok claims) :
    RequestClaims now req kwargs claims := by
  unfold withExp at h
  cases he : Dict.get? kwargs "expires_in" with
  | none =>
    rw [he] at h
    injection h with h
    subst h
    exact ⟨fun _ _ => rfl, fun _ => rfl, fun n _ h => by rw [he] at h; cases h⟩
  | some v =>
    rw [he] at h
    simp only at h
    refine ⟨?_, ?_, ?_⟩
    rotate_left
    · intro h'; rw [he] at h'; cases h'
    rotate_left
    · intro k hk
      split at h
      · split at h
        · injection h with h; rw [← h, Dict.get?_set_ne _ _ (Ne.symm hk)]
        · injection h with h; rw [← h, Dict.get?_set_ne _ _ (Ne.symm hk)]
        · split at h
          · injection h with h; rw [← h, Dict.get?_set_ne _ _ (Ne.symm hk)]
          · cases h
        · cases h
      · injection h with h; rw [h]
    · intro n hn hv
      rw [he] at hv
      injection hv with hv
      subst hv
      rw [if_pos (by simpa [Val.truthy] using hn)] at h
      injection h with h
      rw [← h, Dict.get?_set_self]

/-- An encryption algorithm is asked for or negotiated. -/
def Encrypts (behaviour kwargs : Obj) (alg : Val) : Prop :=
  alg.truthy = true ∧ (Dict.get? kwargs "request_object_encryption_alg" = some alg ∨
    (Dict.get? kwargs "request_object_encryption_alg" = none ∧ Dict.get? behaviour "request_object_encryption_alg" = some alg))

/-- **C73**.  A request object has the claims of the request, is signed with the algorithm asked for, negotiated or RS256, by the
client (its client id is the issuer, its own keys are used, none for `none`) for the provider (the issuer in its metadata, or
else the one configured), unless the caller gave other parties or keys. -/
theorem C73_request_object (x : RequestObject.Ext) (ctx : Ctx) (req kwargs : Obj) (t : String) (h : make x ctx req kwargs = .ok t) :
    ∃ claims a j, RequestClaims x.now req kwargs claims ∧ x.sign claims a = .ok j ∧ AlgChosen ctx.behaviour kwargs a.alg ∧
      (Dict.get? kwargs "issuer" = none → a.issuer = .str ctx.clientId) ∧
      (∀ v, Dict.get? kwargs "issuer" = some v → v ≠ .null → a.issuer = v) ∧
      (∀ v, Dict.get? kwargs "recv" = some v → v ≠ .null → a.recv = v) ∧
      (∀ v, Dict.get? kwargs "keys" = some v → a.alg ≠ .str "none" → a.keys = some (.given v)) ∧
      a.withJti = Dict.get? kwargs "with_jti" ∧ a.lifetime = Dict.get? kwargs "lifetime" ∧
      (Dict.get? kwargs "recv" = none → ∀ i, Dict.get? ctx.providerInfo "issuer" = some i → a.recv = i) ∧
      (Dict.get? kwargs "recv" = none → Dict.get? ctx.providerInfo "issuer" = none → a.recv = .str ctx.issuer) ∧
      (a.alg = .str "none" → a.keys = some .none) ∧
      (Dict.get? kwargs "keys" = none → a.alg ≠ .str "none" → a.alg.truthy = true → a.keys = some .own) ∧
      ((∀ g, ¬ Encrypts ctx.behaviour kwargs g) → t = j) ∧
      (∀ g, Encrypts ctx.behaviour kwargs g → ∃ enc target, enc.truthy = true ∧ Dict.get? kwargs "target" = some target ∧
        x.encrypt j g enc target ((Dict.get? kwargs "enc_kid").getD (.str "")) = .ok t) := by
  unfold make at h
  cases hc : withExp x.now req kwargs with
  | error e => rw [hc] at h; cases h
  | ok claims =>
    rw [hc] at h
    simp only at h
    cases hs : x.sign claims (signArgs ctx kwargs) with
    | error e => rw [hs] at h; cases h
    | ok j =>
      rw [hs] at h
      simp only at h
      refine ⟨claims, signArgs ctx kwargs, j, requestClaims hc, hs, algChosen _ _, ?_, ?_, ?_, ?_, rfl, rfl, ?_, ?_, ?_, ?_, ?_, ?_⟩
      · intro h1; simp [signArgs, notNone, h1]
      · intro v h1 h2
        cases v <;> first | exact absurd rfl h2 | simp [signArgs, notNone, h1]
      · intro v h1 h2
        cases v <;> first | exact absurd rfl h2 | simp [signArgs, notNone, h1]
      · intro v h1 h2
        have h2' : signingAlg ctx.behaviour kwargs ≠ .str "none" := h2
        simp [signArgs, keysFor, h1, h2']
      · intro h1 i h2; simp [signArgs, notNone, h1, h2]
      · intro h1 h2; simp [signArgs, notNone, h1, h2]
      · intro h1
        have h1' : signingAlg ctx.behaviour kwargs = .str "none" := h1
        simp [signArgs, keysFor, h1']
      · intro h1 h2 h3
        have h2' : signingAlg ctx.behaviour kwargs ≠ .str "none" := h2
        have h3' : (signingAlg ctx.behaviour kwargs).truthy = true := h3
        simp [signArgs, keysFor, h1, h2', h3']
      · intro hno
        unfold encryption at h
        split at h
        · injection h with h; exact h.symm
        · next g hg =>
          split at h
          · next ht =>
            refine absurd ⟨ht, ?_⟩ (hno g)
            unfold option at hg
            cases hk : Dict.get? kwargs "request_object_encryption_alg" with
            | some v => rw [hk] at hg; exact .inl hg
            | none => rw [hk] at hg; exact .inr ⟨rfl, hg⟩
          · injection h with h; exact h.symm
      · rintro g ⟨ht, hg⟩
        have hopt : option ctx.behaviour kwargs "request_object_encryption_alg" = some g := by
          unfold option
          rcases hg with hg | ⟨hg1, hg2⟩
          · rw [hg]; rfl
          · rw [hg1, hg2]; rfl
        unfold encryption at h
        rw [hopt] at h
        simp only [ht, if_true] at h
        split at h
        · cases h
        · next enc _ =>
          split at h
          · next he =>
            split at h
            · cases h
            · next target htg => exact ⟨enc, target, he, htg, h⟩
          · cases h

/-- Non-vacuity of C73: signed, and encrypted if asked for. -/
example :
    make (roWorld []) (roClient []) [("state", .str "s1")] [("algorithm", .str "ES256")] = .ok "ES256:s1" ∧
    make (roWorld []) (roClient []) [("state", .str "s1")] [("request_object_encryption_alg", .str "RSA-OAEP"),
      ("request_object_encryption_enc", .str "A128GCM"), ("target", .str "https://op.example")] = .ok "enc(RS256:s1)" ∧
    make (roWorld []) { roClient [] with behaviour := [("request_object_encryption_alg", .str "RSA-OAEP")] } [("state", .str "s1")]
      [("target", .str "https://op.example")] = .error .missingRequiredAttribute := by
  refine ⟨by rfl, by rfl, by rfl⟩

/-! ## C74: the front channel with request objects -/

open Verif.Service Verif.Handler Verif.StateInterface
open Verif.Spec.Store (KeySpace withoutEmpty)

/-- Only `name`, with `value`, and required parameters with their values in `r` are left. -/
def Wrapped (t : MsgType) (name : String) (value : Val) (r f : Obj) : Prop :=
  ∀ p, Dict.get? f p = if p = name then some value
    else if p ∈ ["request", "request_uri"] ∨ p ∈ t.required then Dict.get? r p else none

theorem get?_filter_keys (o : Obj) (f : String → Bool) (p : String) :
    Dict.get? (o.filter (fun q => f q.1)) p = if f p then Dict.get? o p else none := by
  induction o with
  | nil => simp
  | cons q o ih =>
    obtain ⟨k, v⟩ := q
    by_cases hk : k = p
    · subst hk
      cases hf : f k with
      | true => simp [List.filter, hf, Dict.get?_cons]
      | false =>
        simp only [List.filter, hf]
        rw [ih, hf]
        simp
    · cases hf : f k with
      | true =>
        simp only [List.filter, hf]
        rw [Dict.get?_cons, Dict.get?_cons, if_neg hk, if_neg hk, ih]
      | false =>
        simp only [List.filter, hf]
        rw [ih, Dict.get?_cons, if_neg hk]

/-- **C74**.  When a request object is asked for (`request_param` in the behaviour arguments) and the session is started, the front channel
gets the request object, by value or by reference, made of the request that was stored, and besides only required
parameters; there is no other way for `init_authorization` to succeed. -/
theorem C74_front_channel {K : String → Prop} (hK : KeySpace K) (x : Verif.Ext) (req b : Obj) (c c' : Client) (url k : String)
    (hkx : K (x.rnd "init_state")) (hp : PlainConf c.conf) (h : initAuthorization x req b c = (.ok (url, k), c'))
    (hpar : Dict.has c.ctx.addOn "pushed_authorization" = false) (hpl : PlainFrontChannel c)
    (hpre : Dict.get? (confOf c .authorization) "pre_construct" = none)
    (hpost : Dict.get? (confOf c .authorization) "post_construct" = none) (hb : (Dict.keys b).Nodup)
    (w : Val) (hw : Dict.get? b "request_param" = some w) (ht : w.truthy = true) :
    ∃ ctx r v f u, getItem c'.db "auth_request" k = .ok (withoutEmpty r) ∧
      x.requestParam ctx (if w = .str "request" then "request" else "request_uri") r (Dict.update [] b) = .ok v ∧
      Wrapped (x.msg .authorization) (if w = .str "request" then "request" else "request_uri") v r f ∧
      Discovery.serviceEndpoint c.ctx .authorization = .ok (.str u) ∧
      url = Util.getHttpUrl (x.ser .authorization) u f "GET" := by
  obtain ⟨t⟩ := authTrace hK hkx hp h
  have hps := aliasScope_same req c.ctx
  obtain ⟨u, u1, u2⟩ := front_url t hpl
  have hf : t.f = t.q := by
    rcases t.hf with ⟨_, e, _⟩ | ⟨e, _⟩
    · exact e
    · rw [hps.2.1, hpar] at e; cases e
  have h2 : postKwargs c b t.pre.2 = Dict.update [] b := by
    have h3 := t.hpre
    have h4 : t.pre.2 = prePostArgs (preKwargs c b) := by
      unfold authorizationPre at h3
      split at h3
      · cases h3
      · split at h3
        · cases h3
        · injection h3 with h3
          exact (congrArg Prod.snd h3).symm
    have h5 : preKwargs c b = [("behaviour_args", .obj b)] := by
      unfold preKwargs methodArgs
      rw [hpre]
    have h6 : prePostArgs [("behaviour_args", .obj b)] = [] := rfl
    unfold postKwargs methodArgs
    rw [hpost, h4, h5, h6]
    rfl
  have hq := t.hq
  rw [h2] at hq
  have hg : Dict.get? (Dict.update [] b) "request_param" = some w := by
    rw [Dict.get?_update_nodup _ hb, hw]; rfl
  unfold requestObject at hq
  rw [hg] at hq
  simp only [ht, if_true] at hq
  split at hq
  · cases hq
  · next v hv =>
    injection hq with hq
    refine ⟨_, t.r, v, t.f, u, ?_, hv, ?_, u1, u2⟩
    · unfold getItem
      rw [t.hrecord]
      simp only [Dict.get?_set_self, asItem, Msg.ofDict_eq_withoutEmpty]
    · intro p
      rw [hf, ← hq]
      unfold leaveRequired
      rw [get?_filter_keys _ (fun k => decide (k ∈ ["request", "request_uri"] ∨ k ∈ (x.msg .authorization).required))]
      by_cases hpn : p = (if w = .str "request" then "request" else "request_uri")
      · rw [if_pos hpn, hpn, Dict.get?_set_self, if_pos]
        by_cases hw' : w = .str "request" <;> simp [hw']
      · rw [if_neg hpn, Dict.get?_set_ne _ _ (Ne.symm hpn)]
        simp

set_option maxRecDepth 20000 in
/-- Non-vacuity of C74 in the small world, by value and by reference. -/
example :
    (begin_ (World.ext 1000 World.s1 "n1" "") "https://op.example" "" [] [("request_param", .str "request")] World.handler).1.toOption.map Prod.fst =
      some ("https://op.example/auth?redirect_uri=https%3A%2F%2Frp.example%2Fcb&scope=openid&response_type=code&client_id=client1&" ++
        "request=request-object") ∧
    (begin_ (World.ext 1000 World.s1 "n1" "") "https://op.example" "" [] [("request_param", .str "ref")] World.handler).1.toOption.map Prod.fst =
      some ("https://op.example/auth?redirect_uri=https%3A%2F%2Frp.example%2Fcb&scope=openid&response_type=code&client_id=client1&" ++
        "request_uri=request-object") := by
  refine ⟨by rfl, by rfl⟩

end Verif.Props
