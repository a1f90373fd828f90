import Verif.Props.Target
import Verif.Props.Util
/-!
# C97: the provider reads what the client wrote
-/

namespace Verif.Spec.ReadBack
open Verif Verif.Service

/-- Words with single spaces between them. -/
def words : List String → String
  | [] => ""
  | [w] => w
  | w :: ws => w ++ " " ++ words ws

/-- The texts a receiver should find under the name `k` of a form, for a parameter of a request of service `srv`: nothing for an absent one;
texts as they are; a list of texts as one text with spaces if the parameter is declared to be such, else one after the other; objects
as JSON. -/
inductive ReadAs (x : Ext) (srv : Srv) (k : String) : Option Val → List String → Prop
  | absent : ReadAs x srv k none []
  | null : ReadAs x srv k (some .null) []
  | text (s : String) : ReadAs x srv k (some (.str s)) [s]
  | number (i : Int) : ReadAs x srv k (some (.int i)) [toString i]
  | spaced (l : List String) (h : k ∈ (x.msg srv).spaced) : ReadAs x srv k (some (.list (l.map .str))) [words l]
  | repeated (l : List String) (h : k ∉ (x.msg srv).spaced) : ReadAs x srv k (some (.list (l.map .str))) l
  | object (o : Obj) : ReadAs x srv k (some (.obj o)) [x.dumps (.obj o)]

/-- The values found under the name `k` in an URL encoded text by one who decodes it. -/
def found (q k : String) : List (List UInt8) :=
  ((Quote.parseQsl q.toList).filter (fun p => decide (p.1 = Quote.utf8 k))).map (·.2)

/-- Whoever decodes the form `q` finds the parameters of `req`, each with its values, and no others. -/
def FormOf (x : Ext) (srv : Srv) (req : Obj) (q : String) : Prop :=
  ∀ k vs, ReadAs x srv k (Dict.get? req k) vs → found q k = vs.map Quote.utf8

/-- How the body is to be written: as the caller says, else as configured, else as usual for the service (JSON for
registrations, else as a form). -/
inductive FormatFor (c : Client) (srv : Srv) (o : CallOpts) (t : String) : Prop
  | given (h : o.requestBodyType = t) (h1 : t ≠ "")
  | configured (h : o.requestBodyType = "") (h1 : Dict.get? (confOf c srv) "request_body_type" = some (.str t))
  | registration (h : o.requestBodyType = "") (h1 : ∀ s, Dict.get? (confOf c srv) "request_body_type" ≠ some (.str s))
      (h2 : srv = .registration) (h3 : t = "json")
  | usual (h : o.requestBodyType = "") (h1 : ∀ s, Dict.get? (confOf c srv) "request_body_type" ≠ some (.str s))
      (h2 : srv ≠ .registration) (h3 : t = "urlencoded")

/-- The content type and the body that belong to a format. -/
inductive Written (x : Ext) (srv : Srv) (req : Obj) : String → String → Util.Body → Prop
  | form (q : String) (h : FormOf x srv req q) : Written x srv req "urlencoded" "application/x-www-form-urlencoded" (.text q)
  | jose (t : String) (h : t ∈ ["jws", "jwe", "jose"]) : Written x srv req t "application/jose" .packaged
  | json (t : String) (h : t ∉ ["urlencoded", "jws", "jwe", "jose"]) :
      Written x srv req t "application/json" (.text (x.dumps (.obj req)))

end Verif.Spec.ReadBack

namespace Verif.Props
open Verif Verif.Service Verif.Spec.ReadBack Verif.Spec.Wire

theorem joinSpace_words (ser : Util.Ser) : ∀ l : List String, Util.joinSpace ser (l.map .str) = words l
  | [] => rfl
  | [w] => by simp [Util.joinSpace, words, Util.scalarText, Str.joinL]
  | w :: w' :: ws => by
    have ih := joinSpace_words ser (w' :: ws)
    unfold Util.joinSpace at ih ⊢
    simp only [words, ← ih]
    apply String.toList_inj.1
    simp [Str.joinL, Util.scalarText]

theorem toParams_cons (ser : Util.Ser) (k : String) (v : Val) (m : Obj) :
    Util.toParams ser ((k, v) :: m) = Util.toParams ser [(k, v)] ++ Util.toParams ser m := by
  cases v <;> simp [Util.toParams]

theorem toParams_keys (ser : Util.Ser) (k : String) (v : Val) : ∀ p ∈ Util.toParams ser [(k, v)], p.1 = k := by
  intro p hp
  cases v with
  | list l =>
    simp only [Util.toParams, List.append_nil] at hp
    split at hp
    · simp only [List.mem_singleton] at hp; rw [hp]
    · obtain ⟨w, _, rfl⟩ := List.mem_map.1 hp; rfl
  | null => simp [Util.toParams] at hp
  | _ => simp only [Util.toParams, List.mem_singleton] at hp; rw [hp]

/-- The parameters for one value. -/
def paramsOf (ser : Util.Ser) (k : String) : Option Val → List (String × String)
  | none => []
  | some v => Util.toParams ser [(k, v)]

/-- The parameters with one name. -/
theorem toParams_named (ser : Util.Ser) (k : String) : ∀ req : Obj, (Dict.keys req).Nodup →
    (Util.toParams ser req).filter (fun p => decide (p.1 = k)) =
      paramsOf ser k (Dict.get? req k)
  | [], _ => rfl
  | (n, v) :: m, hn => by
    have hn' : n ∉ Dict.keys m ∧ (Dict.keys m).Nodup := List.nodup_cons.1 hn
    have ih := toParams_named ser k m hn'.2
    rw [toParams_cons, List.filter_append, Dict.get?_cons, ih]
    by_cases e : n = k
    · subst e
      rw [(Dict.get?_eq_none_iff _ _).2 hn'.1]
      simp only [if_true, List.append_nil, paramsOf]
      exact List.filter_eq_self.2 fun p hp => by simpa using toParams_keys ser n v p hp
    · rw [if_neg e]
      have : (Util.toParams ser [(n, v)]).filter (fun p => decide (p.1 = k)) = [] :=
        List.filter_eq_nil_iff.2 fun p hp => by
          have := toParams_keys ser n v p hp
          simp [this, e]
      rw [this, List.nil_append]

theorem readAs_params {x : Ext} {srv : Srv} {k : String} {o : Option Val} {vs : List String} (h : ReadAs x srv k o vs) :
    paramsOf (x.ser srv) k o = vs.map (fun s => (k, s)) := by
  cases h with
  | absent => rfl
  | null => rfl
  | text s => rfl
  | number i => rfl
  | object o => rfl
  | spaced l h =>
    have : (x.ser srv).spaced k = true := by simp [Ext.ser, h]
    simp [paramsOf, Util.toParams, this, joinSpace_words]
  | repeated l h =>
    have : (x.ser srv).spaced k = false := by simp [Ext.ser, h]
    simp [paramsOf, Util.toParams, this, Util.scalarText]

theorem formOf_urlencoded (x : Ext) (srv : Srv) (req : Obj) (hn : (Dict.keys req).Nodup) :
    FormOf x srv req (Util.toUrlencoded (x.ser srv) req) := by
  intro k vs h
  unfold found
  rw [Util.toUrlencoded, String.toList_ofList, Quote.parseQsl_urlencode, List.filter_map, List.map_map]
  have hf : (fun p : List UInt8 × List UInt8 => decide (p.1 = Quote.utf8 k)) ∘ (fun p : String × String => (Quote.utf8 p.1, Quote.utf8 p.2)) =
      fun p : String × String => decide (p.1 = k) := by
    funext p
    simp only [Function.comp]
    by_cases e : p.1 = k
    · simp [e]
    · have : Quote.utf8 p.1 ≠ Quote.utf8 k := fun h => e (Quote.utf8_inj h)
      simp [e, this]
  rw [hf, toParams_named _ _ _ hn, readAs_params h, List.map_map]
  rfl

theorem formatFor (c : Client) (srv : Srv) (o : CallOpts) :
    FormatFor c srv o (orElse o.requestBodyType (attr c srv "request_body_type" (requestBodyType srv))) := by
  unfold orElse
  by_cases h : o.requestBodyType = ""
  · rw [if_pos h]
    unfold attr
    split
    · next s hs => exact .configured h hs
    · next hn =>
      by_cases e : srv = .registration
      · subst e; exact .registration h hn rfl rfl
      · exact .usual h hn e (by cases srv <;> first | rfl | exact absurd rfl e)
  · rw [if_neg h]; exact .given rfl h

theorem written_body {x : Ext} {srv : Srv} {req : Obj} (hn : (Dict.keys req).Nodup) {t : String} {b : Util.Body}
    (h : Util.getHttpBody (x.ser srv) req (contentType t) = .ok b) : Written x srv req t (contentType t) b := by
  obtain ⟨hj, hp⟩ := C41_body_json_jose (x.ser srv) req
  by_cases e1 : t = "urlencoded"
  · subst e1
    have hc : contentType "urlencoded" = "application/x-www-form-urlencoded" := rfl
    rw [hc] at h ⊢
    have : b = .text (Util.toUrlencoded (x.ser srv) req) := by
      unfold Util.getHttpBody at h
      rw [if_pos (by decide)] at h
      injection h with h
      exact h.symm
    rw [this]
    exact .form _ (formOf_urlencoded x srv req hn)
  · by_cases e2 : t = "jws" ∨ t = "jwe" ∨ t = "jose"
    · have hc : contentType t = "application/jose" := by unfold contentType; rw [if_neg e1, if_pos e2]
      rw [hc] at h ⊢
      rw [hp] at h
      injection h with h
      subst h
      exact .jose t (by simpa using e2)
    · have hc : contentType t = "application/json" := by unfold contentType; rw [if_neg e1, if_neg e2]
      rw [hc] at h ⊢
      rw [hj] at h
      injection h with h
      subst h
      exact .json t (by simp only [not_or] at e2; simp [e1, e2])

/-! ## The messages that are made have every parameter once -/

/-- Every parameter once. -/
abbrev Once (o : Obj) : Prop := (Dict.keys o).Nodup

theorem once_filter {o : Obj} (h : Once o) (f : String × Val → Bool) : Once (o.filter f) := by
  unfold Once Dict.keys at h ⊢
  exact List.Nodup.sublist ((List.filter_sublist).map Prod.fst) h

theorem once_offline {t : MsgType} {req r : Obj} (h : Once req) (e : offlinePrompt t req = .ok r) : Once r := by
  unfold offlinePrompt at e
  split at e
  · cases e
  · split at e
    · cases e
    · injection e with e
      subst e
      split
      · exact Dict.nodup_set h _ _
      · exact h

theorem once_requestObject {x : Ext} {ctx : Ctx} {req kwargs r : Obj} (h : Once req) (e : requestObject x ctx req kwargs = .ok r) : Once r := by
  unfold requestObject at e
  split at e
  · injection e with e; subst e; exact h
  · split at e
    · simp only at e
      split at e
      · cases e
      · injection e with e
        subst e
        exact once_filter (Dict.nodup_set h _ _) _
    · injection e with e; subst e; exact h

theorem once_requiredOf (t : MsgType) (req acc : Obj) (h : Once acc) : Once (requiredOf t req acc) := by
  unfold requiredOf
  induction t.required generalizing acc with
  | nil => exact h
  | cons p l ih => exact ih _ (Dict.nodup_set h _ _)

theorem once_parAnswer {x : Ext} {ctx : Ctx} {req r : Obj} {resp : HttpResp} (h : Once req)
    (e : parAnswer x ctx req resp = .ok r) : Once r := by
  unfold parAnswer at e
  split at e
  · split at e
    · cases e
    · split at e
      · cases e
      · injection e with e
        subst e
        have h1 : ∀ u : Val, Once (Msg.ofDict [("request_uri", u)]) := by
          intro u
          exact once_filter (by simp [Once, Dict.keys]) _
        unfold parRequest
        split
        · exact once_requiredOf _ _ _ (h1 _)
        · exact h1 _
  · injection e with e; subst e; exact h

theorem once_push {x : Ext} {req r : Obj} {c c' : Client} (h : Once req) (e : pushAuthorization x req c = (.ok r, c')) : Once r := by
  unfold pushAuthorization at e
  rw [Py.read_bind_run] at e
  obtain ⟨b, c1, e1, e2⟩ := Py.bind_eq_ok.1 e
  obtain ⟨uv, c2, e3, e4⟩ := Py.bind_eq_ok.1 e2
  obtain ⟨u, c3, e5, e6⟩ := Py.bind_eq_ok.1 e4
  obtain ⟨a, c4, e7, e8⟩ := Py.bind_eq_ok.1 e6
  exact once_parAnswer h (Py.lift_eq_ok.1 e8).1

theorem once_authorizationPost {x : Ext} {req kwargs r : Obj} {c c' : Client} (h : Once req)
    (e : authorizationPost x req kwargs c = (.ok r, c')) : Once r := by
  unfold authorizationPost at e
  obtain ⟨_, c1, _, e2⟩ := Py.bind_eq_ok.1 e
  obtain ⟨q, c2, e3, e4⟩ := Py.bind_eq_ok.1 e2
  obtain ⟨_, c3, _, e6⟩ := Py.bind_eq_ok.1 e4
  obtain ⟨_, c4, _, e8⟩ := Py.bind_eq_ok.1 e6
  obtain ⟨_, c5, _, e10⟩ := Py.bind_eq_ok.1 e8
  exact once_requestObject (once_offline h (Py.lift_eq_ok.1 e3).1) (congrArg Prod.fst e10)

theorem once_storeAuthRequest {req kwargs r : Obj} {c c' : Client} (h : Once req)
    (e : storeAuthRequest req kwargs c = (.ok r, c')) : Once r := by
  unfold storeAuthRequest at e
  obtain ⟨_, c1, _, e2⟩ := Py.bind_eq_ok.1 e
  obtain ⟨_, c2, _, e4⟩ := Py.bind_eq_ok.1 e2
  obtain ⟨_, c3, _, e6⟩ := Py.bind_eq_ok.1 e4
  simp only [Py.pure_run, Prod.mk.injEq, Except.ok.injEq] at e6
  rw [← e6.1]
  exact h

theorem once_codeVerifier {req kwargs r : Obj} {c : Client} (h : Once req) (e : addCodeVerifier req kwargs c = .ok r) : Once r := by
  unfold addCodeVerifier at e
  repeat' split at e
  all_goals first | cases e | skip
  exact Dict.nodup_set h _ _

theorem once_postConstruct {x : Ext} {srv : Srv} {req post r : Obj} {c c' : Client} (h : Once req)
    (e : postConstruct x srv req post c = (.ok r, c')) : Once r := by
  have hpush : ∀ {m : Py Client Obj} {b : Bool}, (∀ q d d', m d = (.ok q, d') → Once q) →
      (m >>= fun r => if b then pushAuthorization x r else pure r) c = (.ok r, c') → Once r := by
    intro m b hm e
    obtain ⟨q, c1, e1, e2⟩ := Py.bind_eq_ok.1 e
    split at e2
    · exact once_push (hm _ _ _ e1) e2
    · simp only [Py.pure_run, Prod.mk.injEq, Except.ok.injEq] at e2
      rw [← e2.1]
      exact hm _ _ _ e1
  have hpure : ∀ q : Obj, Once q → (pure q : Py Client Obj) c = (.ok r, c') → Once r := by
    intro q hq e
    simp only [Py.pure_run, Prod.mk.injEq, Except.ok.injEq] at e
    rw [← e.1]
    exact hq
  have hver : ∀ {b : Bool} {kw : Obj}, (if b then ask (addCodeVerifier req kw) else pure req : Py Client Obj) c = (.ok r, c') → Once r := by
    intro b kw e
    split at e
    · exact once_codeVerifier h (congrArg Prod.fst e)
    · exact hpure req h e
  unfold postConstruct at e
  rw [Py.read_bind_run] at e
  cases srv <;> simp only at e <;> first
    | exact hpure _ h e
    | exact hver e
    | exact hpush (fun q d d' => once_authorizationPost h) e
    | exact hpush (fun q d d' => once_storeAuthRequest h) e
    | skip
  · refine hpure _ ?_ e
    have hg : Once (Registration.setGrantTypes req) := by
      unfold Registration.setGrantTypes
      split
      · exact Dict.nodup_set h _ _
      · exact h
    unfold Registration.postConstruct
    split
    · exact Dict.nodup_del hg _
    · exact hg
  · exact hpure _ (Dict.nodup_del (Dict.nodup_del h _) _) e

theorem once_make (t : MsgType) (hd : Once t.defaults) (args : Obj) : Once (t.make args) := Dict.nodup_update hd _

theorem once_construct {x : Ext} {srv : Srv} (hd : Once (x.msg srv).defaults) {args kwargs r : Obj} {c c' : Client}
    (e : construct x srv args kwargs c = (.ok r, c')) : Once r := by
  unfold construct at e
  rw [Py.read_bind_run] at e
  obtain ⟨_, c1, _, e2⟩ := Py.bind_eq_ok.1 e
  obtain ⟨_, c2, _, e4⟩ := Py.bind_eq_ok.1 e2
  exact once_postConstruct (once_make _ hd _) e4

theorem once_findToken {env : ClientAuth.Env} {kwargs req r : Obj} {t : String} {v : Val} (h : Once req)
    (e : ClientAuth.findToken env kwargs req t = .ok (v, r)) : Once r := by
  unfold ClientAuth.findToken at e
  split at e
  · injection e with e; injection e with _ e; subst e; exact Dict.nodup_del h _
  · split at e
    · injection e with e; injection e with _ e; subst e; exact h
    · cases hs : ClientAuth.storedToken env kwargs with
      | error _ => rw [hs] at e; cases e
      | ok w =>
        rw [hs] at e
        simp only [Except.map] at e
        injection e with e; injection e with _ e; subst e; exact h

theorem once_without {env : ClientAuth.Env} {req r : Obj} (h : Once req) (e : ClientAuth.withOrWithoutClientId env req = .ok r) : Once r := by
  have hdrop : Once (if (env.msg.requires "client_id").getD false then req else Dict.del req "client_id") := by
    split
    · exact h
    · exact Dict.nodup_del h _
  unfold ClientAuth.withOrWithoutClientId at e
  simp only at e
  split at e
  · split at e
    · cases e
    · split at e
      · split at e
        · injection e with e; subst e; exact h
        · injection e with e; subst e; exact Dict.nodup_set h _ _
      · injection e with e; subst e; exact hdrop
  · injection e with e; subst e; exact hdrop

theorem once_authn {x : Ext} {srv : Srv} {req kwargs r : Obj} {m : String} {c : Client} {hd : Dict String} (h : Once req)
    (e : authnHeader x srv req m kwargs c = .ok (hd, r)) : Once r := by
  unfold authnHeader at e
  split at e
  · cases hr : Registration.readHeader c.ctx m with
    | error _ => rw [hr] at e; cases e
    | ok w => rw [hr] at e; simp only [Except.map] at e; injection e with e; injection e with _ e; subst e; exact h
  split at e
  · injection e with e; injection e with _ e; subst e; exact h
  unfold ClientAuth.construct at e
  split at e
  · unfold ClientAuth.clientSecretBasic at e
    split at e
    · split at e
      · next hb => injection e with e; injection e with _ e; subst e; exact once_without (Dict.nodup_del h _) hb
      · cases e
    · cases e
    · cases e
  split at e
  · unfold ClientAuth.clientSecretPost at e
    cases hp : ClientAuth.postModify (authEnv x c srv) kwargs req with
    | error _ => rw [hp] at e; cases e
    | ok q =>
      rw [hp] at e
      simp only [Except.map] at e
      injection e with e; injection e with _ e; subst e
      unfold ClientAuth.postModify at hp
      simp only at hp
      split at hp
      · injection hp with hp; subst hp; exact Dict.nodup_set h _ _
      · split at hp
        · injection hp with hp; subst hp; exact Dict.nodup_set (Dict.nodup_set h _ _) _ _
        · split at hp
          · injection hp with hp; subst hp; exact Dict.nodup_set (Dict.nodup_set h _ _) _ _
          · cases hp
  split at e
  · unfold ClientAuth.bearerHeader at e
    simp only at e
    split at e
    · cases e
    · next ht =>
      split at e
      · injection e with e; injection e with _ e; subst e; exact once_findToken h ht
      · cases e
  split at e
  · unfold ClientAuth.bearerBody at e
    cases hp : ClientAuth.bearerBodyModify (authEnv x c srv) kwargs req with
    | error _ => rw [hp] at e; cases e
    | ok q =>
      rw [hp] at e
      simp only [Except.map] at e
      injection e with e; injection e with _ e; subst e
      unfold ClientAuth.bearerBodyModify at hp
      split at hp
      · cases hp
      · next ht =>
        have h1 := once_findToken h ht
        split at hp
        · injection hp with hp; subst hp; exact Dict.nodup_set h1 _ _
        · split at hp
          · cases hp
          · next ht2 =>
            split at hp
            · injection hp with hp; subst hp; exact Dict.nodup_set (once_findToken h1 ht2) _ _
            · cases hp
  have hj : ∀ jm, ClientAuth.jwtAuthn (authEnv x c srv) jm kwargs req = .ok (hd, r) → Once r := by
    intro jm e
    unfold ClientAuth.jwtAuthn at e
    cases hp : ClientAuth.jwtModify (authEnv x c srv) jm kwargs req with
    | error _ => rw [hp] at e; cases e
    | ok q =>
      rw [hp] at e
      simp only [Except.map] at e
      injection e with e; injection e with _ e; subst e
      unfold ClientAuth.jwtModify at hp
      split at hp
      · cases hp
      · next w hw =>
        have h1 : Once w := by
          unfold ClientAuth.withAssertion at hw
          split at hw
          · simp only at hw
            split at hw <;> (injection hw with hw; subst hw; exact Dict.nodup_set (Dict.nodup_set h _ _) _ _)
          · split at hw
            · split at hw
              · injection hw with hw; subst hw; exact h
              · injection hw with hw; subst hw; exact Dict.nodup_set h _ _
            · cases ha : ClientAuth.constructAssertion (authEnv x c srv) jm kwargs with
              | error _ => rw [ha] at hw; cases hw
              | ok a =>
                rw [ha] at hw
                simp only [Except.map] at hw
                injection hw with hw; subst hw; exact Dict.nodup_set (Dict.nodup_set h _ _) _ _
        simp only at hp
        split at hp
        · cases hp
        · injection hp with hp; subst hp; exact Dict.nodup_del h1 _
        · injection hp with hp; subst hp; exact Dict.nodup_del (Dict.nodup_del h1 _) _
  split at e
  · exact hj _ e
  split at e
  · exact hj _ e
  · cases e

/-- The request that is made has every parameter once. -/
theorem once_request {x : Ext} {srv : Srv} (hs : ¬ Special srv) (hd : Once (x.msg srv).defaults) {args : Obj} {o : CallOpts} {kwargs : Obj}
    {c c' : Client} {info : ReqInfo} (h : getRequestParameters x srv args o kwargs c = (.ok info, c')) : Once info.request := by
  have hb : buildRequest x srv args o kwargs c = (.ok info, c') := by
    cases srv <;> first | exact h | (exfalso; exact hs (by simp [Special]))
  obtain ⟨am, req, c1, hdr, req', g1, g2, g3, g4⟩ := buildRequest_ok hb
  obtain ⟨u, a1, a2, a3, a4, a5⟩ := assemble_ok g4
  rw [a4]
  have h1 := once_construct hd g2
  obtain ⟨m, hd0, k1, k2, _⟩ := getHeaders_ok g3
  exact once_authn h1 k2

/-- What the assembled request carries. -/
theorem readBack_assembled {x : Ext} {srv : Srv} {req : Obj} {method bt : String} {hd : Dict String} {kwargs : Obj}
    {c : Client} {info : ReqInfo} (h : assemble x srv req method bt hd kwargs c = .ok info) (hn : (Dict.keys info.request).Nodup) :
    ∃ u, targetOf srv kwargs c = .ok u ∧ info.method = method ∧
      ((method = "GET" ∨ method = "DELETE") → '?' ∉ u.toList → '#' ∉ u.toList → info.body = none ∧
        ∃ q, (info.url = u ++ "?" ++ q ∨ (q = "" ∧ info.url = u)) ∧ FormOf x srv info.request q) ∧
      (method = "POST" → info.url = u ∧ ∃ ct b, Written x srv info.request bt ct b ∧ Dict.get? info.headers "Content-Type" = some ct ∧
        info.body = some b) := by
  obtain ⟨u, a1, a2, a3, a4, a5⟩ := assemble_ok h
  rw [a4] at hn ⊢
  refine ⟨u, a1, a3, fun hm hq hf => ?_, fun hm => ?_⟩
  · rcases a5 with ⟨hp, _⟩ | ⟨_, hb, _⟩
    · rcases hm with e | e <;> rw [e] at hp <;> exact absurd hp (by decide)
    refine ⟨hb, Util.toUrlencoded (x.ser srv) req, ?_, formOf_urlencoded x srv req hn⟩
    by_cases hne : Util.toParams (x.ser srv) req = []
    · right
      refine ⟨by rw [Util.toUrlencoded, hne]; rfl, ?_⟩
      rw [a2]
      unfold Util.getHttpUrl
      rw [if_pos hm]
      split
      · rfl
      · have hs := Util.urlsplit_plain u.toList hq hf
        rw [String.ofList_toList] at hs
        simp only [hs, Util.mergeQuery, if_true]
        rw [Util.toUrlencoded, hne]
        apply String.toList_inj.1
        simp [Util.urlunsplit, Quote.urlencode, Str.joinL]
    · left
      rw [a2]
      have hreq : req.isEmpty = false := by
        cases req with
        | nil => exact absurd rfl hne
        | cons => rfl
      unfold Util.getHttpUrl
      have hs := Util.urlsplit_plain u.toList hq hf
      rw [String.ofList_toList] at hs
      simp only [hm, if_true, hreq, Bool.false_eq_true, if_false, hs, Util.mergeQuery]
      apply String.toList_inj.1
      have := Util.urlencode_ne_nil hne
      simp [Util.urlunsplit, Util.toUrlencoded, this]
  · rcases a5 with ⟨_, b, hb, hb', hh⟩ | ⟨hp, _⟩
    · refine ⟨?_, _, b, written_body hn hb, ?_, hb'⟩
      · rw [a2, hm]
        unfold Util.getHttpUrl
        rw [if_neg (by decide)]
      · rw [hh, Dict.get?_set_self]
    · exact absurd hm hp

/-- **C97**.  For every service with an endpoint, all arguments and every client: who decodes the query of a GET or DELETE request, or the
form in the body of a POST request, finds each parameter of the message made, with its values, and no others.  The body is written in the
format the caller, the configuration or the service asks for, and the content type names it. -/
theorem C97_read_back (x : Ext) (srv : Srv) (hs : ¬ Special srv) (args : Obj) (o : CallOpts) (kwargs : Obj) (c c' : Client)
    (info : ReqInfo) (h : getRequestParameters x srv args o kwargs c = (.ok info, c')) (hd : (Dict.keys (x.msg srv).defaults).Nodup) :
    ∃ u, Destination c srv kwargs u ∧ MethodFor c srv o info.method ∧
      ((info.method = "GET" ∨ info.method = "DELETE") → '?' ∉ u.toList → '#' ∉ u.toList → info.body = none ∧
        ∃ q, (info.url = u ++ "?" ++ q ∨ (q = "" ∧ info.url = u)) ∧ FormOf x srv info.request q) ∧
      (info.method = "POST" → info.url = u ∧ ∃ t ct b, FormatFor c srv o t ∧ Written x srv info.request t ct b ∧
        Dict.get? info.headers "Content-Type" = some ct ∧ info.body = some b) := by
  have hb : buildRequest x srv args o kwargs c = (.ok info, c') := by
    cases srv <;> first | exact h | (exfalso; exact hs (by simp [Special]))
  have hn := once_request hs hd h
  obtain ⟨u, d1, d2, d3⟩ := C92_destination x srv hs args o kwargs c c' info h
  obtain ⟨am, req, c1, hdr, req', g1, g2, g3, g4⟩ := buildRequest_ok hb
  obtain ⟨u', k1, k2, k3, k4⟩ := readBack_assembled g4 hn
  have hu : u' = u := by
    obtain ⟨u2, j1, _, _, _⟩ := carries_assembled g4
    have e1 : u2 = u' := by rw [k1] at j1; injection j1 with j1; exact j1.symm
    have hm := making_buildRequest x srv args o kwargs c
    rw [hb] at hm
    unfold targetOf at k1
    cases d1 with
    | given hk => rw [hk] at k1; simp only [asStr] at k1; injection k1 with k1; exact k1.symm
    | own hk h1 h2 =>
      rw [hk] at k1
      have hne : srv ≠ .registrationRead := fun e => hs (by simp [Special, e])
      have : endpointOf c' srv = .ok (.str u) := by
        simp only [endpointOf, if_neg hne]
        exact (C44_endpoint_used _ _ _).2 (.inl ⟨by rw [hm.endpoints]; exact h1, by simpa [Val.truthy] using h2⟩)
      simp only [this, asStr] at k1
      injection k1 with k1
      exact k1.symm
    | published hk h1 h2 =>
      rw [hk] at k1
      have hne : srv ≠ .registrationRead := fun e => hs (by simp [Special, e])
      have : endpointOf c' srv = .ok (.str u) := by
        simp only [endpointOf, if_neg hne]
        exact (C44_endpoint_used _ _ _).2 (.inr ⟨by rw [hm.endpoints]; exact h1, by rw [hm.info]; exact h2⟩)
      simp only [this, asStr] at k1
      injection k1 with k1
      exact k1.symm
  subst hu
  rw [← k2] at k3 k4
  refine ⟨u', d1, d2, k3, fun hm => ?_⟩
  obtain ⟨e1, ct, b, e2, e3, e4⟩ := k4 hm
  exact ⟨e1, _, ct, b, formatFor c srv o, e2, e3, e4⟩

/-- **C97** (what is sent).  The same for the HTTP request `do_request` sends: after the pushes of the add-on there is at most one, for the message
`req` that was made, at the destination, and who decodes it finds the parameters of `req`. -/
theorem C97_sent (x : Ext) (srv : Srv) (hs : ¬ Special srv) (args : Obj) (o : CallOpts) (kwargs : Obj) (c : Client)
    (hd : (Dict.keys (x.msg srv).defaults).Nodup) :
    ∃ pushes last, (doRequest x srv args o kwargs c).2.log = c.log ++ pushes ++ last ∧ (∀ s ∈ pushes, Push c s) ∧
      (last = [] ∨ ∃ s u req, last = [s] ∧ s.srv = srv ∧ Destination c srv kwargs u ∧ MethodFor c srv o s.method ∧
        ((s.method = "GET" ∨ s.method = "DELETE") → '?' ∉ u.toList → '#' ∉ u.toList → s.body = none ∧
          ∃ q, (s.url = u ++ "?" ++ q ∨ (q = "" ∧ s.url = u)) ∧ FormOf x srv req q) ∧
        (s.method = "POST" → s.url = u ∧ ∃ t ct b, FormatFor c srv o t ∧ Written x srv req t ct b ∧
          Dict.get? s.headers "Content-Type" = some ct ∧ s.body = some b)) := by
  unfold doRequest
  rw [Py.read_bind_run]
  split
  · exact ⟨[], [], by simp [Py.raise], by simp, .inl rfl⟩
  · rw [Py.bind_run]
    have h0 := making_getRequestParameters x srv args o kwargs c
    rcases h : getRequestParameters x srv args o kwargs c with ⟨r, c1⟩
    rw [h] at h0
    obtain ⟨l, h1, h2⟩ := h0.log
    cases r with
    | error e => exact ⟨l, [], by simpa using h1, h2, .inl rfl⟩
    | ok info =>
      refine ⟨l, [sentFor srv info], ?_, h2, .inr ?_⟩
      · simp only
        rw [serviceRequest_log]
        rw [show c1.log = c.log ++ l from h1]
      · obtain ⟨u, d1, d2, d3, d4⟩ := C97_read_back x srv hs args o kwargs c c1 info h hd
        exact ⟨_, u, info.request, rfl, rfl, d1, d2, d3, d4⟩

/-! ## Non-vacuity -/

set_option maxRecDepth 20000 in
/-- The parameters of a token request in the small world: a list that is declared as space separated is one text. -/
example : ReadAs (World.ext 1000 World.s1 "n1" "") .authorization "scope" (some (.list [.str "openid", .str "email"])) ["openid email"] ∧
    (Dict.keys ((World.ext 1000 World.s1 "n1" "").msg .accesstoken).defaults).Nodup ∧
    found "scope=openid+email&a=1&a=2" "scope" = [Quote.utf8 "openid email"] ∧
    found "scope=openid+email&a=1&a=2" "a" = [Quote.utf8 "1", Quote.utf8 "2"] ∧
    ((doRequest (World.ext 1000 World.s1 "n1" "") .accesstoken [("state", .str World.s1), ("code", .str "c"),
        ("grant_type", .str "authorization_code"), ("redirect_uri", .str "https://rp.example/cb")] {}
        [("endpoint", .str "https://op.example/token"), ("state", .str World.s1)] aimedClient).2.log.map
      (fun s => (s.url, s.method, Dict.get? s.headers "Content-Type", s.body))) =
      [("https://op.example/token", "POST", some "application/x-www-form-urlencoded", some (.text ("grant_type=authorization_code&" ++
        "state=abcdefghijklmnopqrstuvwxyzABCDE1&code=c&redirect_uri=https%3A%2F%2Frp.example%2Fcb&client_id=client1")))] ∧
    FormatFor aimedClient .accesstoken {} "urlencoded" ∧ FormatFor aimedClient .accesstoken { requestBodyType := "json" } "json" := by
  refine ⟨.spaced ["openid", "email"] (by decide), by decide, by decide +kernel, by decide +kernel, by rfl, ?_, .given rfl (by decide)⟩
  exact .usual rfl (by intro s; simp [aimedClient, confOf, Dict.get?, Srv.name]) (by decide) rfl

end Verif.Props
