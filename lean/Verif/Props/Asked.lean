import Verif.Props.Begin
/-!
# C80: what the caller of `begin` asks for is what the provider is asked
-/

namespace Verif.Props
open Verif Verif.Service Verif.Handler Verif.StateInterface Verif.Spec.InFlight Verif.Spec.Wire
open Verif.Spec.Store (KeySpace withoutEmpty)

/-- What is asked for as parameter `p`: the caller's value, else the one in the configuration of the client. -/
def AskedFor (c : Client) (req : Obj) (p : String) (v : Val) : Prop :=
  Dict.get? req p = some v ∨
  (Dict.get? req p = none ∧ ∃ o, Dict.get? c.ctx.config "request_args" = some (.obj o) ∧ Dict.get? o p = some v)

/-- Nothing is asked for as parameter `p`. -/
def NotAskedFor (c : Client) (req : Obj) (p : String) : Prop :=
  Dict.get? req p = none ∧ ∀ o, Dict.get? c.ctx.config "request_args" = some (.obj o) → Dict.get? o p = none

/-- How a value is written into the message: a text for a parameter that is a list of words is split. -/
def WrittenAs (t : MsgType) (p : String) (v w : Val) : Prop :=
  (p ∉ t.spaced → w = v) ∧
  (p ∈ t.spaced → (∀ s, v = .str s → w = .list ((Str.split s ' ').map .str)) ∧ ((∀ s, v ≠ .str s) → w = v))

/-- The response type the caller chose: the one given, else the first one of the behaviour. -/
def ChosenType (c : Client) (req : Obj) (v : Val) : Prop :=
  Dict.get? req "response_type" = some v ∨
  (Dict.get? req "response_type" = none ∧ ∃ vs, Dict.get? c.ctx.behaviour "response_types" = some (.list (v :: vs)))

/-- The callback for a response type and mode. -/
def flowCallback (req : Obj) (rt : Val) : String :=
  if Dict.get? req "response_mode" = some (.str "form_post") then "form_post"
  else if rt = .str "code" ∨ rt = .list [.str "code"] then "code" else "implicit"

/-- The `openid` scope is added to a list without it. -/
def withOpenid (l : List Val) : List Val := if .str "openid" ∈ l then l else l ++ [.str "openid"]

theorem written_coerce (t : MsgType) (p : String) (v : Val) : WrittenAs t p v (t.coerce (p, v)).2 := by
  refine ⟨fun h => t.coerce_plain p v h, fun h => ⟨?_, ?_⟩⟩
  · rintro s rfl
    simp [MsgType.coerce, h]
  · intro hv
    unfold MsgType.coerce
    cases v <;> first | rfl | exact absurd rfl (hv _)

/-- A given parameter in the message. -/
theorem made_written (t : MsgType) {g : Obj} (hn : (Dict.keys g).Nodup) {p : String} {v : Val} (h : Dict.get? g p = some v)
    (h1 : v ≠ .str "") (h2 : v ≠ .list [.str ""]) :
    ∃ w, Dict.get? (t.make g) p = some w ∧ WrittenAs t p v w := by
  refine ⟨_, ?_, written_coerce t p v⟩
  rw [t.get?_make hn, h]
  have he : Msg.emptyVal v = false := by
    cases h : Msg.emptyVal v with
    | false => rfl
    | true => rcases (Msg.emptyVal_iff _).1 h with h | h <;> contradiction
  simp [he]

/-- The arguments `init_authorization` starts with. -/
theorem initArgs_asked {x : Ext} {c : Client} {req args : Obj} (h : initArgs x c.ctx req = .ok args)
    (hnr : (Dict.keys req).Nodup)
    (hnc : ∀ o, Dict.get? c.ctx.config "request_args" = some (.obj o) → (Dict.keys o).Nodup) (p : String) :
    (∀ v, AskedFor c req p v → Dict.get? args p = some v) ∧
    (NotAskedFor c req p →
      (p = "scope" → Dict.get? args p = Dict.get? c.ctx.behaviour "scope") ∧
      (p = "response_type" → ∃ v, firstResponseType c.ctx.behaviour = .ok v ∧ Dict.get? args p = some v) ∧
      (p = "redirect_uri" → ∃ rt v, getResponseType c.ctx.behaviour req = .ok rt ∧
        Registration.pickRedirectUri c.ctx req (some rt) = .ok v ∧ Dict.get? args p = some v) ∧
      (p ∉ ["redirect_uri", "scope", "response_type", "nonce"] → Dict.get? args p = none)) := by
  have hconf : (Dict.keys (confObj c.ctx.config "request_args")).Nodup := by
    unfold confObj
    split
    · next o ho => exact hnc o ho
    · simp [Dict.keys]
  unfold initArgs getResponseType at h
  cases hf : firstResponseType c.ctx.behaviour with
  | error e => rw [hf] at h; cases h
  | ok v0 =>
    rw [hf] at h
    simp only at h
    split at h
    · cases h
    · next ru hru =>
      split at h
      · cases h
      · next sc hsc =>
        injection h with h
        subst h
        rw [Dict.get?_update_nodup _ hnr, Dict.get?_update_nodup _ hconf]
        constructor
        · rintro v (hv | ⟨hv, o, ho, hv'⟩)
          · rw [hv]; rfl
          · have : confObj c.ctx.config "request_args" = o := by unfold confObj; rw [ho]
            rw [hv, this, hv']; rfl
        · rintro ⟨h1, h2⟩
          have h3 : Dict.get? (confObj c.ctx.config "request_args") p = none := by
            unfold confObj
            split
            · next o ho => exact h2 o ho
            · rfl
          rw [h1, h3]
          simp only [Option.none_or]
          refine ⟨?_, ?_, ?_, ?_⟩
          · rintro rfl
            rw [Dict.getItem_eq_ok] at hsc
            rw [hsc]
            simp [Dict.get?_cons]
          · rintro rfl
            refine ⟨v0, rfl, ?_⟩
            rw [h1]
            simp [Dict.get?_cons]
          · rintro rfl
            refine ⟨_, ru, ?_, hru, ?_⟩
            · unfold getResponseType; rw [hf]
            · simp [Dict.get?_cons]
          · intro hp
            simp only [List.mem_cons, List.not_mem_nil, or_false, not_or] at hp
            obtain ⟨p1, p2, p3, p4⟩ := hp
            simp [Ne.symm p1, Ne.symm p2, Ne.symm p3, Ne.symm p4, Dict.get?]

/-- The parts of `oidc_pre_construct` when response type, scope and nonce are there. -/
theorem authorizationPre_given {nonce : String} {behaviour args kwargs : Obj} {r : Obj × Obj}
    (h : authorizationPre nonce behaviour args kwargs = .ok r) {rt sc : Val}
    (h1 : Dict.get? args "response_type" = some rt) (h2 : Dict.get? args "scope" = some sc) :
    Dict.get? r.1 "response_type" = some rt ∧
    (∀ l, sc = .list l → Dict.get? r.1 "scope" = some (.list (withOpenid l))) ∧
    (∀ s, sc = .str s → Str.contains s "openid" = true ∧ Dict.get? r.1 "scope" = some (.str s)) := by
  have hno : ∀ rts b q, q ≠ "nonce" → Dict.get? (preNonce nonce rts b) q = Dict.get? b q := by
    intro rts b q hq
    unfold preNonce
    split
    · exact Dict.get?_set_ne _ _ (Ne.symm hq)
    · rfl
  unfold authorizationPre preResponseType at h
  rw [h1] at h
  simp only at h
  cases h3 : preScope behaviour args with
  | error e => rw [h3] at h; cases h
  | ok b =>
    rw [h3] at h
    injection h with h
    subst h
    simp only
    rw [hno _ _ _ (by decide), hno _ _ _ (by decide)]
    unfold preScope at h3
    rw [h2] at h3
    simp only at h3
    cases sc with
    | list l =>
      simp only [Discovery.inVal] at h3
      by_cases hl : .str "openid" ∈ l
      · simp only [hl, decide_true] at h3
        injection h3 with h3; subst h3
        refine ⟨h1, ?_, fun s e => (by cases e)⟩
        intro l' e; cases e
        rw [h2, withOpenid, if_pos hl]
      · simp only [hl, decide_false] at h3
        injection h3 with h3; subst h3
        refine ⟨by rw [Dict.get?_set_ne _ _ (by decide)]; exact h1, ?_, fun s e => (by cases e)⟩
        intro l' e; cases e
        rw [Dict.get?_set_self, withOpenid, if_neg hl]
    | str s =>
      simp only [Discovery.inVal] at h3
      cases hc : Str.contains s "openid" with
      | true =>
        rw [hc] at h3
        injection h3 with h3; subst h3
        refine ⟨h1, fun l e => (by cases e), ?_⟩
        intro s' e; cases e
        exact ⟨hc, h2⟩
      | false =>
        rw [hc] at h3
        cases h3
    | obj o =>
      refine ⟨?_, fun l e => (by cases e), fun l e => (by cases e)⟩
      simp only [Discovery.inVal] at h3
      split at h3
      · cases h3
      · injection h3 with h3; subst h3; exact h1
      · cases h3
    | _ => simp [Discovery.inVal] at h3

/-- The places looked at for the prompt. -/
theorem places_alias {c cg : Client} {req : Obj} (h : cg.ctx = aliasScope req c.ctx ∧ cg.conf = c.conf) :
    places cg .authorization "prompt" = places c .authorization "prompt" := by
  have h1 : (aliasScope req c.ctx).get "prompt" = c.ctx.get "prompt" := by rfl
  have h2 : (aliasScope req c.ctx).registerArgs = c.ctx.registerArgs := by
    unfold aliasScope
    split
    · rfl
    · split
      · split <;> rfl
      · rfl
  have h3 : Dict.get? (aliasScope req c.ctx).behaviour "prompt" = Dict.get? c.ctx.behaviour "prompt" := by
    unfold aliasScope
    split
    · rfl
    · split
      · split
        · rfl
        · exact Dict.get?_set_ne _ _ (by decide)
      · rfl
  unfold places
  rw [h.1, h.2, h1, h2, h3]

/-- The request `r` asks for what was asked of client `c` with the arguments `req`. -/
structure AsksFor (t : MsgType) (c : Client) (req r : Obj) : Prop where
  /-- Every parameter that was asked for. -/
  given : ∀ p v, AskedFor c req p v → p ≠ "state" → p ≠ "scope" → v ≠ .str "" → v ≠ .list [.str ""] →
    (Dict.has c.ctx.addOn "pkce" = true → p ≠ "code_challenge" ∧ p ≠ "code_challenge_method") →
    ∃ w, Dict.get? r p = some w ∧ WrittenAs t p v w
  /-- The response type, if none was asked for. -/
  responseType : ∀ v vs, NotAskedFor c req "response_type" → Dict.get? c.ctx.behaviour "response_types" = some (.list (v :: vs)) →
    v ≠ .str "" → v ≠ .list [.str ""] → ∃ w, Dict.get? r "response_type" = some w ∧ WrittenAs t "response_type" v w
  /-- The scope: the list that was asked for, else the one of the behaviour, with `openid`. -/
  scope : ∀ l, AskedFor c req "scope" (.list l) ∨
      (NotAskedFor c req "scope" ∧ Dict.get? c.ctx.behaviour "scope" = some (.list l)) →
    Dict.get? r "scope" = some (.list (withOpenid l))
  /-- The redirect URI, if none was asked for: the first one registered. -/
  redirect : ∀ u us, NotAskedFor c req "redirect_uri" → c.ctx.redirectUris = u :: us → u ≠ "" →
    "redirect_uri" ∉ t.spaced → Dict.get? r "redirect_uri" = some (.str u)
  /-- The redirect URI, if none was asked for or registered: the callback of the response type and mode the caller chose. -/
  callback : ∀ rt u, NotAskedFor c req "redirect_uri" → c.ctx.redirectUris = [] → ChosenType c req rt → rt.truthy = true →
    rt ≠ .list [.str "form_post"] → Dict.get? c.ctx.callback (flowCallback req rt) = some (.str u) → u ≠ "" →
    "redirect_uri" ∉ t.spaced → Dict.get? r "redirect_uri" = some (.str u)
  /-- Consent is asked for with offline access, and no prompt is without, if none was asked for. -/
  prompt : ∀ l, Dict.get? r "scope" = some (.list l) → NotAskedFor c req "prompt" →
    AllEmpty (places c .authorization "prompt") → Dict.get? t.defaults "prompt" = none →
    (.str "offline_access" ∈ l → ∃ w, Dict.get? r "prompt" = some w ∧ WrittenAs t "prompt" (.str "consent") w) ∧
    (.str "offline_access" ∉ l → Dict.get? r "prompt" = none)

/-- What a successful `init_authorization` asked for. -/
theorem begun_asks {x : Ext} {req b : Obj} {c c' : Client} {url k : String} (t : AuthTrace x req b c url k c')
    (hnr : (Dict.keys req).Nodup)
    (hnc : ∀ o, Dict.get? c.ctx.config "request_args" = some (.obj o) → (Dict.keys o).Nodup) :
    AsksFor (x.msg .authorization) c req t.r := by
  obtain ⟨hsame, hnd⟩ := offlinePrompt_keeps t.hr
  have hasked := initArgs_asked t.hargs hnr hnc
  have hng := nodup_gather t.hg t.hnodup
  obtain ⟨q1, -, q3⟩ := authorizationPre_state t.hpre
  -- the request arguments that went into `pre_construct`
  obtain ⟨rt0, hrt0⟩ : ∃ v, Dict.get? t.args "response_type" = some v := by
    have h := t.hargs
    unfold initArgs at h
    split at h
    · cases h
    · split at h
      · cases h
      · split at h
        · cases h
        · injection h with h
          rw [← h, Dict.get?_update, Dict.get?_update]
          cases (List.reverse req).find? _ <;> cases (List.reverse (confObj c.ctx.config "request_args")).find? _ <;> exact ⟨_, rfl⟩
  obtain ⟨sc0, hsc0⟩ : ∃ v, Dict.get? t.args "scope" = some v := by
    have h := t.hargs
    unfold initArgs at h
    split at h
    · cases h
    · split at h
      · cases h
      · split at h
        · cases h
        · injection h with h
          rw [← h, Dict.get?_update, Dict.get?_update]
          cases (List.reverse req).find? _ <;> cases (List.reverse (confObj c.ctx.config "request_args")).find? _ <;> exact ⟨_, rfl⟩
  have hset : ∀ p, p ≠ "state" → p ≠ "redirect_uri" →
      Dict.get? (Dict.set (Dict.set t.args "state" (.str k)) "redirect_uri" t.ru) p = Dict.get? t.args p := by
    intro p h1 h2
    rw [Dict.get?_set_ne _ _ (Ne.symm h2), Dict.get?_set_ne _ _ (Ne.symm h1)]
  obtain ⟨g1, g2, -⟩ := authorizationPre_given t.hpre ((hset _ (by decide) (by decide)).trans hrt0)
    ((hset _ (by decide) (by decide)).trans hsc0)
  have hgiven : ∀ p, (Dict.has c.ctx.addOn "pkce" = true → p ≠ "code_challenge" ∧ p ≠ "code_challenge_method") →
      Dict.get? t.given p = Dict.get? t.pre.1 p := by
    intro p hp
    rcases t.hpkce with ⟨_, e⟩ | ⟨e0, _, e⟩
    · rw [e]
    · rw [(aliasScope_same req c.ctx).2.1] at e0
      obtain ⟨p1, p2⟩ := hp e0
      rw [e]
      unfold withChallenge
      rw [Dict.get?_set_ne _ _ (Ne.symm p2), Dict.get?_set_ne _ _ (Ne.symm p1)]
  -- parameters other than the prompt
  have hmade : ∀ p v, p ≠ "prompt" → Dict.get? t.given p = some v → v ≠ .str "" → v ≠ .list [.str ""] →
      ∃ w, Dict.get? t.r p = some w ∧ WrittenAs (x.msg .authorization) p v w := by
    intro p v hp hv h1 h2
    rw [hsame p hp]
    exact made_written _ hng (gather_given t.hg hv) h1 h2
  -- the redirect URI that was picked
  have hredirect : ∀ u, NotAskedFor c req "redirect_uri" → u ≠ "" → "redirect_uri" ∉ (x.msg .authorization).spaced →
      (∀ rt v, getResponseType c.ctx.behaviour req = .ok rt → Registration.pickRedirectUri c.ctx req (some rt) = .ok v → v = .str u) →
      Dict.get? t.r "redirect_uri" = some (.str u) := by
    intro u hno hu hsp hall
    obtain ⟨rt, v, k1, k2, k3⟩ := ((hasked "redirect_uri").2 hno).2.2.1 rfl
    have hv := hall rt v k1 k2
    subst hv
    have hru : t.ru = .str u := by
      have h := t.hru
      unfold Registration.pickRedirectUri at h
      rw [Dict.get?_set_ne _ _ (by decide), k3] at h
      injection h with h
      exact h.symm
    obtain ⟨w, w1, w2⟩ := hmade "redirect_uri" (.str u) (by decide)
      (by rw [hgiven _ (fun _ => by decide), q1 _ (by decide) (by decide) (by decide), Dict.get?_set_self, hru])
      (by simpa using hu) (by simp)
    rw [w1, w2.1 hsp]
  refine ⟨?_, ?_, ?_, ?_, ?_, ?_⟩
  · intro p v hv hps hpc h1 h2 hpk
    have ha := (hasked p).1 v hv
    have hpre : Dict.get? t.pre.1 p = some v := by
      by_cases e1 : p = "response_type"
      · subst e1
        rw [g1, ← hrt0, ha]
      by_cases e2 : p = "nonce"
      · subst e2
        exact q3 _ ((hset _ (by decide) (by decide)).trans ha)
      rw [q1 p e1 hpc e2]
      by_cases e3 : p = "redirect_uri"
      · subst e3
        rw [Dict.get?_set_self]
        have h := t.hru
        unfold Registration.pickRedirectUri at h
        rw [Dict.get?_set_ne _ _ (by decide), ha] at h
        injection h with h
        rw [h]
      · rw [hset p hps e3, ha]
    have hg : Dict.get? t.given p = some v := (hgiven p hpk).trans hpre
    by_cases e4 : p = "prompt"
    · subst e4
      obtain ⟨w, w1, w2⟩ := made_written (x.msg .authorization) hng (gather_given t.hg hg) h1 h2
      refine ⟨w, ?_, w2⟩
      have h := t.hr
      unfold offlinePrompt at h
      split at h
      · cases h
      · split at h
        · cases h
        · injection h with h
          rw [← h, if_neg]
          · exact w1
          · simp [Dict.has_eq, w1]
    · exact hmade p v e4 hg h1 h2
  · intro v vs hno hb h1 h2
    obtain ⟨v', f1, f2⟩ := ((hasked "response_type").2 hno).2.1 rfl
    have : v' = v := by
      unfold firstResponseType at f1
      rw [hb] at f1
      injection f1 with f1
      exact f1.symm
    subst this
    refine hmade _ _ (by decide) ?_ h1 h2
    rw [hgiven _ (fun _ => by decide), g1, ← hrt0, f2]
  · intro l hl
    have hsc : sc0 = .list l := by
      rcases hl with hl | ⟨hno, hb⟩
      · have := (hasked "scope").1 _ hl
        rw [hsc0] at this
        injection this
      · have := ((hasked "scope").2 hno).1 rfl
        rw [hsc0, hb] at this
        injection this
    have hne : withOpenid l ≠ [.str ""] := by
      unfold withOpenid
      split
      · rintro rfl; next h => simp at h
      · intro e
        have := congrArg (fun l => List.getLast? l) e
        simp at this
    obtain ⟨w, w1, w2⟩ := hmade "scope" (.list (withOpenid l)) (by decide)
      (by rw [hgiven _ (fun _ => by decide)]; exact g2 l hsc) (by simp) (by simpa using hne)
    rw [w1]
    by_cases hs : "scope" ∈ (x.msg .authorization).spaced
    · rw [(w2.2 hs).2 (by simp)]
    · rw [w2.1 hs]
  · intro u us hno hreg hu hsp
    refine hredirect u hno hu hsp ?_
    intro rt v _ k2
    unfold Registration.pickRedirectUri at k2
    rw [hno.1, hreg] at k2
    injection k2 with k2
    exact k2.symm
  · intro rt u hno hreg hrt htr hfp hcb hu hsp
    refine hredirect u hno hu hsp ?_
    intro rt' v k1 k2
    have hrr : rt' = rt := by
      unfold getResponseType at k1
      split at k1
      · cases k1
      · next v0 hv0 =>
        injection k1 with k1
        rcases hrt with hrt | ⟨hrt, vs, hb⟩
        · rw [hrt] at k1; exact k1.symm
        · rw [hrt] at k1
          unfold firstResponseType at hv0
          rw [hb] at hv0
          injection hv0 with hv0
          rw [← k1, ← hv0]; rfl
    subst hrr
    have hne : c.ctx.callback ≠ [] := by
      intro e; rw [e] at hcb; cases hcb
    unfold Registration.pickRedirectUri at k2
    rw [hno.1, hreg] at k2
    simp only at k2
    rw [if_neg (by simpa using hne)] at k2
    have hfl : Registration.flowOf c.ctx req (some rt') = some rt' := by
      unfold Registration.flowOf
      rw [if_pos (by simpa [Util.truthyO] using htr)]
    rw [hfl] at k2
    have : Dict.getItem c.ctx.callback (flowCallback req rt') = .ok v := by
      rw [← k2]
      unfold flowCallback
      by_cases h1 : Dict.get? req "response_mode" = some (.str "form_post")
      · rw [if_pos h1, if_pos (Or.inl h1)]
      · have h2 : ¬ (Dict.get? req "response_mode" = some (.str "form_post") ∨ some rt' = some (.list [.str "form_post"])) := by
          rintro (h | h)
          · exact h1 h
          · injection h with h; exact hfp h
        rw [if_neg h1, if_neg h2]
        by_cases h3 : rt' = .str "code" ∨ rt' = .list [.str "code"]
        · rw [if_pos h3, if_pos (by rcases h3 with h | h <;> simp [h])]
        · rw [if_neg h3, if_neg (by simpa using h3)]
    rw [Dict.getItem_eq_ok, hcb] at this
    injection this with this
    exact this.symm
  · intro l hl hno hall hdef
    have ha : Dict.get? t.given "prompt" = none := by
      rw [hgiven _ (fun _ => by decide), q1 _ (by decide) (by decide) (by decide), hset _ (by decide) (by decide)]
      exact ((hasked "prompt").2 hno).2.2.2 (by decide)
    have hg : Dict.get? t.g "prompt" = none := by
      obtain ⟨-, c1, c2, -⟩ := C38_precedence x t.cg .authorization t.given t.g t.hg "prompt"
      by_cases hm : "prompt" ∈ (x.msg .authorization).params
      · exact (c1 ha hm).2 (by rw [places_alias t.hcg]; exact hall) (by simp)
      · exact c2 ha hm (by simp)
    have hm : Dict.get? ((x.msg .authorization).make t.g) "prompt" = none := by
      rw [MsgType.get?_make _ hng, hg]
      exact hdef
    have h := t.hr
    unfold offlinePrompt at h
    rw [← hsame _ (by decide), hl] at h
    simp only [Discovery.inVal] at h
    injection h with h
    constructor
    · intro ho
      refine ⟨_, ?_, written_coerce _ _ _⟩
      rw [← h, if_pos (by simp [ho, Dict.has_eq, hm]), Dict.get?_set_self]
    · intro ho
      rw [← h, if_neg (by simp [ho])]
      exact hm

/-- **C80**.  After a successful `begin` that returned `url` and `k`: a request `r` (without empty parameters)
is stored for `k` that asks for what was asked of the client that was set up; if the authorization service is
used plainly, `url` is the authorization endpoint with the parameters of exactly `r`.
Missing: a scope given as one text, see `C80_text_scope_violated`; the callback for a response type or mode that is configured
and not given by the caller, see `C80_configured_flow_violated`. -/
theorem C80_asked_partial {K : String → Prop} (hK : KeySpace K) (h h1 : Handler) (hp : PlainHandler h)
    (x : Ext) (issuer user : String) (req b : Obj) (url k : String) (hkx : K (x.rnd "init_state")) (hnr : (Dict.keys req).Nodup)
    (hbegin : begin_ x issuer user req b h = (.ok (url, k), h1)) :
    ∃ i g c c' r, clientSetup x issuer user b h = (.ok i, g) ∧ Dict.get? g.issuer2rp i = some c ∧
      Dict.get? h1.issuer2rp i = some c' ∧ getItem c'.db "auth_request" k = .ok (withoutEmpty r) ∧
      (PlainAuthorization c b → ∃ u, Discovery.serviceEndpoint c.ctx .authorization = .ok (.str u) ∧
        url = Util.getHttpUrl (x.ser .authorization) u r "GET") ∧
      ((∀ o, Dict.get? c.ctx.config "request_args" = some (.obj o) → (Dict.keys o).Nodup) →
        AsksFor (x.msg .authorization) c req r) := by
  obtain ⟨i, g, c, b1, b2, b3, b4⟩ := begin_ok hbegin
  have hpg : PlainHandler g := by
    have := (clientSetup_cases x issuer user b hp).1
    rw [b1] at this
    exact this
  have hpc := hpg.clients i c (Dict.get?_eq_some_mem b2)
  have hrun : initAuthorization x req b c = (.ok (url, k), (initAuthorization x req b c).2) := Prod.ext b3 rfl
  generalize (initAuthorization x req b c).2 = c' at hrun
  obtain ⟨t⟩ := authTrace hK hkx hpc hrun
  obtain ⟨bh, o1⟩ := onClient_client (m := initAuthorization x req b) b2
  rw [hrun, b4] at o1
  refine ⟨i, g, c, reBehaviour bh c', t.r, b1, b2, o1, ?_, plain_url t, begun_asks t hnr⟩
  show getItem c'.db "auth_request" k = _
  unfold getItem
  rw [t.hrecord]
  simp only [Dict.get?_set_self, asItem, Msg.ofDict_eq_withoutEmpty]

/-- A `begin` in the small world. -/
def askedWith (req : Obj) : Except Exc (String × String) × Handler :=
  begin_ (World.ext 1000 World.s1 "n1" "") "https://op.example" "" req [] World.handler

/-- What was stored as the request. -/
def askedRequest (req : Obj) : Option Obj :=
  (Dict.get? (askedWith req).2.issuer2rp "https://op.example").bind (fun c => (getItem c.db "auth_request" World.s1).toOption)

/-- Non-vacuity of C80: parameters, a prompt and a redirect URI of the caller; offline access without a prompt. -/
example :
    Spec.History.Generated ((World.ext 1000 World.s1 "n1" "").rnd "init_state") ∧ PlainHandler World.handler ∧
    askedRequest [("scope", .list [.str "email", .str "offline_access"]), ("ui_locales", .str "sv")] =
      some [("redirect_uri", .str "https://rp.example/cb"),
        ("scope", .list [.str "email", .str "offline_access", .str "openid"]),
        ("response_type", .list [.str "code"]), ("nonce", .str "n1"), ("ui_locales", .str "sv"), ("state", .str World.s1),
        ("client_id", .str "client1"), ("prompt", .list [.str "consent"])] ∧
    askedRequest [("scope", .list [.str "email", .str "offline_access"]), ("prompt", .str "login"),
        ("redirect_uri", .str "https://rp.example/cb2")] =
      some [("redirect_uri", .str "https://rp.example/cb2"),
        ("scope", .list [.str "email", .str "offline_access", .str "openid"]),
        ("response_type", .list [.str "code"]), ("nonce", .str "n1"), ("prompt", .list [.str "login"]), ("state", .str World.s1),
        ("client_id", .str "client1")] := by
  refine ⟨gen_s1, newWorld.plain, by rfl, by rfl⟩

/-- A handler for a provider that is configured, with callbacks and possibly request arguments. -/
def callbackHandler (args : Obj) : Handler where
  configs := [("https://op.example", {
    config := [("client_id", .str "me"), ("provider_info", .obj World.metadata), ("request_args", .obj args),
      ("callback", .obj [("code", .str "https://rp.example/code"), ("implicit", .str "https://rp.example/implicit"),
        ("form_post", .str "https://rp.example/form")]),
      ("behaviour", .obj [("scope", .list [.str "openid"]), ("response_types", .list [.str "code"])])]
    services := [.authorization, .accesstoken, .userinfo] })]

/-- The redirect URI and response mode of what is asked for. -/
def callbackAsked (conf req : Obj) : Option (Option Val × Option Val × Option Val) :=
  (Dict.get? (begin_ (World.ext 1000 World.s1 "n1" "") "https://op.example" "" req [] (callbackHandler conf)).2.issuer2rp
    "https://op.example").bind (fun c => (getItem c.db "auth_request" World.s1).toOption.map (fun r =>
      (Dict.get? r "redirect_uri", Dict.get? r "response_type", Dict.get? r "response_mode")))

/-- Non-vacuity of the callback part of C80: the behaviour's code flow, an implicit flow and a form post asked for. -/
example :
    callbackAsked [] [] = some (some (.str "https://rp.example/code"), some (.list [.str "code"]), none) ∧
    callbackAsked [] [("response_type", .str "id_token")] =
      some (some (.str "https://rp.example/implicit"), some (.list [.str "id_token"]), none) ∧
    callbackAsked [] [("response_mode", .str "form_post")] =
      some (some (.str "https://rp.example/form"), some (.list [.str "code"]), some (.str "form_post")) := by
  refine ⟨by rfl, by rfl, by rfl⟩

/-- **C80** is violated for response types and modes in the configuration: they are sent, but the redirect URI is that of another
flow, where the response will not be understood. -/
theorem C80_configured_flow_violated :
    callbackAsked [("response_mode", .str "form_post")] [] =
      some (some (.str "https://rp.example/code"), some (.list [.str "code"]), some (.str "form_post")) ∧
    callbackAsked [("response_type", .str "id_token")] [] =
      some (some (.str "https://rp.example/code"), some (.list [.str "id_token"]), none) := by
  refine ⟨by rfl, by rfl⟩

/-- **C80** is violated for a scope given as text: the `openid` scope is looked for as part of the text, so
it is missing in what is sent for `openid2 email`; and every text without it makes `begin` fail. -/
theorem C80_text_scope_violated :
    (askedWith [("scope", .str "openid2 email")]).1.isOk = true ∧
    (askedRequest [("scope", .str "openid2 email")]).bind (fun r => Dict.get? r "scope") =
      some (.list [.str "openid2", .str "email"]) ∧
    (askedWith [("scope", .str "email")]).1.isOk = false := by
  refine ⟨by decide +kernel, by decide +kernel, by rfl⟩

end Verif.Props
