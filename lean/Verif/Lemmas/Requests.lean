import Verif.Lemmas.Frame
import Verif.Lemmas.Truthy
import Verif.Lemmas.StateInterface
import Verif.Props.ClientAuth
import Verif.Spec.Session
import Verif.Spec.Wire
/-! How the requests of a client come about. -/

namespace Verif

/-! ## Dictionaries and messages -/

theorem MsgType.coerce_fst (t : MsgType) (p : String × Val) : (t.coerce p).1 = p.1 := by
  unfold MsgType.coerce
  split
  · split <;> rfl
  · rfl

theorem MsgType.keys_coerce (t : MsgType) (d : Obj) : Dict.keys (d.map t.coerce) = Dict.keys d := by
  simp only [Dict.keys, List.map_map]
  exact List.map_congr_left fun p _ => t.coerce_fst p

theorem MsgType.get?_coerce (t : MsgType) (d : Obj) (p : String) :
    Dict.get? (d.map t.coerce) p = (Dict.get? d p).map (fun v => (t.coerce (p, v)).2) := by
  induction d with
  | nil => rfl
  | cons q d ih =>
    obtain ⟨k, v⟩ := q
    have h1 := t.coerce_fst (k, v)
    rcases h : t.coerce (k, v) with ⟨k', v'⟩
    rw [h] at h1
    simp only at h1
    subst h1
    rw [List.map_cons, h, Dict.get?_cons, Dict.get?_cons]
    split
    · next e => subst e; simp [h]
    · exact ih

/-- A parameter that is no space separated list is taken as it is. -/
theorem MsgType.coerce_plain (t : MsgType) (p : String) (v : Val) (h : p ∉ t.spaced) :
    (t.coerce (p, v)).2 = v := by
  unfold MsgType.coerce
  cases v <;> simp [h]

theorem Service.ask_bind_ok {α β : Type} {f : Client → Except Exc α} {g : α → Py Client β} {c : Client} {a : α}
    (h : f c = .ok a) : (Service.ask f >>= g) c = g a c := by rw [Py.bind_run]; simp only [Service.ask, h]

theorem Service.ask_bind_error {α β : Type} {f : Client → Except Exc α} {g : α → Py Client β} {c : Client} {e : Exc}
    (h : f c = .error e) : (Service.ask f >>= g) c = (.error e, c) := by rw [Py.bind_run]; simp only [Service.ask, h]

theorem Py.lift_bind_ok {σ α β : Type} {f : Except Exc α} {g : α → Py σ β} {c : σ} {a : α}
    (h : f = .ok a) : (Py.lift f >>= g) c = g a c := by rw [Py.bind_run]; simp only [Py.lift, h]

theorem Py.lift_bind_error {σ α β : Type} {f : Except Exc α} {g : α → Py σ β} {c : σ} {e : Exc}
    (h : f = .error e) : (Py.lift f >>= g) c = (.error e, c) := by rw [Py.bind_run]; simp only [Py.lift, h]

/-- Refusing an error response changes nothing. -/
theorem Handler.refused_snd (m : Py Client Resp) (c : Client) :
    ((m >>= fun r => (Py.lift (Handler.refuseError r) >>= fun _ => pure r)) c).2 = (m c).2 := by
  rw [Py.bind_run]
  rcases hmc : m c with ⟨r, c'⟩
  cases r with
  | error e => rfl
  | ok r =>
    simp only
    cases he : Handler.refuseError r with
    | error e => rfl
    | ok u => rfl

/-- What a parameter of a request message is. -/
theorem MsgType.get?_make (t : MsgType) {g : Obj} (hn : (Dict.keys g).Nodup) (p : String) :
    Dict.get? (t.make g) p =
      match Dict.get? g p with
      | some v => if Msg.emptyVal v then Dict.get? t.defaults p else some (t.coerce (p, v)).2
      | none => Dict.get? t.defaults p := by
  unfold MsgType.make
  rw [Dict.get?_update_nodup _ (by rw [t.keys_coerce]; exact Msg.keys_ofDict_nodup hn), t.get?_coerce,
    Msg.get?_ofDict hn]
  cases Dict.get? g p with
  | none => simp
  | some v => cases h : Msg.emptyVal v <;> simp [h, Option.filter]

namespace StateInterface

/-- What is copied from a stored item. -/
theorem get?_copyParams (item : Obj) (ps : List String) :
    ∀ (args : Obj) (p : String), Dict.get? (ps.foldl (copyParam false item) args) p =
      if p ∈ ps then ((Dict.get? item (Msg.verifiedName p)).or (Dict.get? item p)).or (Dict.get? args p)
      else Dict.get? args p := by
  have one : ∀ (args : Obj) (q p : String), Dict.get? (copyParam false item args q) p =
      if p = q then ((Dict.get? item (Msg.verifiedName p)).or (Dict.get? item p)).or (Dict.get? args p)
      else Dict.get? args p := by
    intro args q p
    unfold copyParam
    simp only [Bool.false_eq_true, if_false]
    by_cases e : p = q
    · subst e
      rw [if_pos rfl]
      cases Dict.get? item (Msg.verifiedName p) with
      | some v => simp
      | none => cases Dict.get? item p <;> simp
    · rw [if_neg e]
      have e' : q ≠ p := fun h => e h.symm
      cases Dict.get? item (Msg.verifiedName q) with
      | some v => simp [Dict.get?_set_ne _ _ e']
      | none => cases Dict.get? item q <;> simp [Dict.get?_set_ne _ _ e']
  induction ps with
  | nil => intro args p; simp
  | cons q ps ih =>
    intro args p
    rw [List.foldl_cons, ih, one]
    by_cases e : p = q
    · subst e
      simp only [if_true, List.mem_cons, true_or]
      split
      · cases Dict.get? item (Msg.verifiedName p) with
        | some v => simp
        | none => cases Dict.get? item p <;> simp
      · rfl
    · simp [e]

theorem nodup_copyParams (orig : Bool) (item : Obj) (ps : List String) :
    ∀ {args : Obj}, (Dict.keys args).Nodup → (Dict.keys (ps.foldl (copyParam orig item) args)).Nodup := by
  induction ps with
  | nil => intro args h; exact h
  | cons q ps ih =>
    intro args h
    refine ih ?_
    unfold copyParam
    split
    · split
      · exact Dict.nodup_set h _ _
      · exact h
    · split
      · exact Dict.nodup_set h _ _
      · split
        · exact Dict.nodup_set h _ _
        · exact h

/-- What `extend_request_args` gives: what the item has, else what was there. -/
theorem get?_extend {db : DB} {args r : Obj} {t k : String} {ps : List String}
    (h : extendRequestArgs db args t k ps = .ok r) (p : String) :
    Dict.get? r p = match getItem db t k with
      | .ok item => if p ∈ ps then
          ((Dict.get? item (Msg.verifiedName p)).or (Dict.get? item p)).or (Dict.get? args p)
          else Dict.get? args p
      | .error _ => Dict.get? args p := by
  unfold extendRequestArgs at h
  cases hi : getItem db t k with
  | error e =>
    rw [hi] at h
    simp only at h ⊢
    cases e <;> first | (injection h with h; subst h; rfl) | cases h
  | ok item =>
    rw [hi] at h
    simp only at h
    injection h with h; subst h
    simp only [get?_copyParams]

theorem nodup_extend {db : DB} {args r : Obj} {t k : String} {ps : List String}
    (h : extendRequestArgs db args t k ps = .ok r) (hn : (Dict.keys args).Nodup) : (Dict.keys r).Nodup := by
  unfold extendRequestArgs at h
  cases hi : getItem db t k with
  | error e =>
    rw [hi] at h
    cases e <;> first | (injection h with h; subst h; exact hn) | cases h
  | ok item =>
    rw [hi] at h
    simp only at h
    injection h with h; subst h
    exact nodup_copyParams _ _ _ hn

end StateInterface

namespace Service

/-! ## Gathering the parameters -/

theorem get?_gatherLoop (c : Client) (srv : Srv) (ps : List String) :
    ∀ (args : Obj) (p : String), Dict.get? (gatherLoop c srv ps args) p =
      (Dict.get? args p).or (if p ∈ ps then fallback c srv p else none) := by
  induction ps with
  | nil => intro args p; simp [gatherLoop]
  | cons q ps ih =>
    intro args p
    unfold gatherLoop
    by_cases hq : Dict.has args q = true
    · rw [if_pos hq, ih]
      by_cases e : p = q
      · subst e
        rw [Dict.has_eq, Option.isSome_iff_exists] at hq
        obtain ⟨v, hv⟩ := hq
        simp [hv]
      · simp [e]
    · rw [if_neg hq]
      have hq' : Dict.get? args q = none := by
        rw [Dict.has_eq] at hq; cases h : Dict.get? args q <;> simp_all
      cases hf : fallback c srv q with
      | none =>
        simp only
        rw [ih]
        by_cases e : p = q
        · subst e; simp [hf]
        · simp [e]
      | some v =>
        simp only
        rw [ih]
        by_cases e : p = q
        · subst e; simp [hf, hq']
        · have e' : q ≠ p := fun h => e h.symm
          simp [e, Dict.get?_set_ne _ _ e']

theorem nodup_gatherLoop (c : Client) (srv : Srv) (ps : List String) :
    ∀ {args : Obj}, (Dict.keys args).Nodup → (Dict.keys (gatherLoop c srv ps args)).Nodup := by
  induction ps with
  | nil => intro args h; exact h
  | cons q ps ih =>
    intro args h
    unfold gatherLoop
    split
    · exact ih h
    · split
      · exact ih (Dict.nodup_set h _ _)
      · exact ih h

theorem gather_ok {x : Ext} {c : Client} {srv : Srv} {args g : Obj}
    (h : gatherRequestArgs x c srv args = .ok g) :
    g = gatherLoop c srv (x.msg srv).params args ∨
    ((srv = .authorization ∨ srv = .oauth2Authorization) ∧
      Dict.get? (gatherLoop c srv (x.msg srv).params args) "redirect_uri" = none ∧
      ∃ u us, c.ctx.redirectUris = u :: us ∧
        g = Dict.set (gatherLoop c srv (x.msg srv).params args) "redirect_uri" (.str u)) := by
  unfold gatherRequestArgs at h
  simp only at h
  split at h
  · next hc =>
    right
    refine ⟨hc.1, ?_, ?_⟩
    · have := hc.2
      rw [Dict.has_eq] at this
      cases hg : Dict.get? (gatherLoop c srv (x.msg srv).params args) "redirect_uri" <;> simp_all
    · split at h
      · next u us hu => injection h with h; exact ⟨u, us, hu, h.symm⟩
      · cases h
  · injection h with h; exact Or.inl h.symm

theorem nodup_gather {x : Ext} {c : Client} {srv : Srv} {args g : Obj}
    (h : gatherRequestArgs x c srv args = .ok g) (hn : (Dict.keys args).Nodup) : (Dict.keys g).Nodup := by
  rcases gather_ok h with rfl | ⟨_, _, u, us, _, rfl⟩
  · exact nodup_gatherLoop _ _ _ hn
  · exact Dict.nodup_set (nodup_gatherLoop _ _ _ hn) _ _

/-- What the caller gave is kept. -/
theorem gather_given {x : Ext} {c : Client} {srv : Srv} {args g : Obj}
    (h : gatherRequestArgs x c srv args = .ok g) {p : String} {v : Val} (hv : Dict.get? args p = some v) :
    Dict.get? g p = some v := by
  have hl : Dict.get? (gatherLoop c srv (x.msg srv).params args) p = some v := by
    rw [get?_gatherLoop, hv]; simp
  rcases gather_ok h with rfl | ⟨_, hr, u, us, _, rfl⟩
  · exact hl
  · rw [Dict.get?_set_ne]
    · exact hl
    · rintro rfl; rw [hr] at hl; cases hl

/-! ## Building and sending -/

theorem construct_ok {x : Ext} {srv : Srv} {args kwargs req : Obj} {c c' : Client}
    (h : construct x srv args kwargs c = (.ok req, c')) :
    ∃ r c1 g, preConstruct x srv args (methodArgs (confOf c srv) "pre_construct" kwargs) c = (.ok r, c1) ∧
      gatherRequestArgs x c1 srv (stateFromKwargs (x.msg srv) r.1 kwargs) = .ok g ∧
      postConstruct x srv ((x.msg srv).make g) (withBehaviour kwargs r.2) c1 = (.ok req, c') := by
  unfold construct at h
  rw [Py.read_bind_run] at h
  obtain ⟨r, c1, h1, h2⟩ := Py.bind_eq_ok.1 h
  obtain ⟨g, c2, h3, h4⟩ := Py.bind_eq_ok.1 h2
  simp only [ask, Prod.mk.injEq] at h3
  obtain ⟨h3, rfl⟩ := h3
  exact ⟨r, c1, g, h1, h3, h4⟩

theorem getHeaders_ok {x : Ext} {srv : Srv} {request : Obj} {hm am : String} {kwargs : Obj} {c c' : Client}
    {h : Dict String} {req' : Obj} (hr : getHeaders x srv request hm am kwargs c = (.ok (h, req'), c')) :
    ∃ m h0, (if am = "" then getAuthnMethod c srv else .ok am) = .ok m ∧
      authnHeader x srv request m (Dict.set kwargs "authn_endpoint" (.str srv.endpointName)) c = .ok (h0, req') ∧
      ((usesDpop c.ctx srv = false ∧ h = h0 ∧ c' = c) ∨
       (usesDpop c.ctx srv = true ∧ dpopHeader x srv hm h0 c = (.ok h, c'))) := by
  unfold getHeaders at hr
  obtain ⟨m, c1, h1, h2⟩ := Py.bind_eq_ok.1 hr
  simp only [ask, Prod.mk.injEq] at h1
  obtain ⟨h1, rfl⟩ := h1
  obtain ⟨r, c2, h3, h4⟩ := Py.bind_eq_ok.1 h2
  simp only [ask, Prod.mk.injEq] at h3
  obtain ⟨h3, rfl⟩ := h3
  rw [Py.read_bind_run] at h4
  cases hu : usesDpop c.ctx srv with
  | false =>
    simp only [hu, Bool.false_eq_true, if_false, Py.pure_run, Prod.mk.injEq, Except.ok.injEq] at h4
    obtain ⟨h5, rfl⟩ := h4
    subst h5
    exact ⟨m, h, h1, h3, Or.inl ⟨rfl, rfl, rfl⟩⟩
  | true =>
    simp only [hu, if_true] at h4
    obtain ⟨d, c3, h5, h6⟩ := Py.bind_eq_ok.1 h4
    simp only [Py.pure_run, Prod.mk.injEq, Except.ok.injEq] at h6
    obtain ⟨⟨rfl, rfl⟩, rfl⟩ := h6
    exact ⟨m, r.1, h1, h3, Or.inr ⟨rfl, h5⟩⟩

theorem buildRequest_ok {x : Ext} {srv : Srv} {args : Obj} {o : CallOpts} {kwargs : Obj} {c c' : Client}
    {info : ReqInfo} (h : buildRequest x srv args o kwargs c = (.ok info, c')) :
    ∃ am req c1 hd req', (if o.authnMethod = "" then getAuthnMethod c srv else .ok o.authnMethod) = .ok am ∧
      construct x srv args kwargs c = (.ok req, c1) ∧
      getHeaders x srv req (orElse o.method (attr c srv "http_method" (httpMethod srv))) am (withIss c kwargs) c1
        = (.ok (hd, req'), c') ∧
      assemble x srv req' (orElse o.method (attr c srv "http_method" (httpMethod srv)))
        (orElse o.requestBodyType (attr c srv "request_body_type" (requestBodyType srv))) hd kwargs c' = .ok info := by
  unfold buildRequest at h
  rw [Py.read_bind_run] at h
  obtain ⟨am, c1, h1, h2⟩ := Py.bind_eq_ok.1 h
  simp only [ask, Prod.mk.injEq] at h1
  obtain ⟨h1, rfl⟩ := h1
  obtain ⟨req, c2, h3, h4⟩ := Py.bind_eq_ok.1 h2
  obtain ⟨r, c3, h5, h6⟩ := Py.bind_eq_ok.1 h4
  simp only [ask, Prod.mk.injEq] at h6
  obtain ⟨h6, rfl⟩ := h6
  exact ⟨am, req, c2, r.1, r.2, h1, h3, h5, h6⟩

theorem assemble_ok {x : Ext} {srv : Srv} {req : Obj} {method bt : String} {hd : Dict String} {kwargs : Obj}
    {c : Client} {info : ReqInfo} (h : assemble x srv req method bt hd kwargs c = .ok info) :
    ∃ url, targetOf srv kwargs c = .ok url ∧ info.url = Util.getHttpUrl (x.ser srv) url req method ∧
      info.method = method ∧ info.request = req ∧
      ((method = "POST" ∧ ∃ b, Util.getHttpBody (x.ser srv) req (contentType bt) = .ok b ∧ info.body = some b ∧
          info.headers = Dict.set hd "Content-Type" (contentType bt)) ∨
       (method ≠ "POST" ∧ info.body = none ∧ info.headers = hd)) := by
  unfold assemble at h
  cases ht : targetOf srv kwargs c with
  | error e => rw [ht] at h; cases h
  | ok url =>
    rw [ht] at h
    simp only at h
    refine ⟨url, rfl, ?_⟩
    split at h
    · next hm =>
      cases hb : Util.getHttpBody (x.ser srv) req (contentType bt) with
      | error e => rw [hb] at h; cases h
      | ok b =>
        rw [hb] at h
        injection h with h; subst h
        exact ⟨rfl, rfl, rfl, Or.inl ⟨hm, b, rfl, rfl, rfl⟩⟩
    · next hm =>
      injection h with h; subst h
      exact ⟨rfl, rfl, rfl, Or.inr ⟨hm, rfl, rfl⟩⟩

end Service
/-! ## Authentication and sending -/

theorem ClientAuth.construct_keeps' {env : ClientAuth.Env} {m : String} {kw : Obj} {hd hd' : Dict String}
    {req req' : Obj} (h : ClientAuth.construct env m kw hd req = .ok (hd', req')) {p : String}
    (hp : p ∉ ["client_id", "client_secret", "client_assertion", "client_assertion_type", "access_token"])
    (p6 : p ≠ "refresh_token" ∨ (m ≠ "bearer_header" ∧ m ≠ "bearer_body")) : Dict.get? req' p = Dict.get? req p := by
  simp only [List.mem_cons, List.not_mem_nil, or_false, not_or] at hp
  obtain ⟨p1, p2, p3, p4, p5⟩ := hp
  have n1 := Ne.symm p1
  have n2 := Ne.symm p2
  have n3 := Ne.symm p3
  have n4 := Ne.symm p4
  have n5 := Ne.symm p5
  have hfind : ∀ {kw r t r'} (ty : String), ty ≠ p → ClientAuth.findToken env kw r ty = .ok (t, r') →
      Dict.get? r' p = Dict.get? r p := by
    intro kw r t r' ty hty hf
    unfold ClientAuth.findToken at hf
    split at hf
    · injection hf with hf; injection hf with _ hf; subst hf; exact Dict.get?_del_ne _ hty
    · split at hf
      · injection hf with hf; injection hf with _ hf; subst hf; rfl
      · cases hs : ClientAuth.storedToken env kw with
        | error e => rw [hs] at hf; cases hf
        | ok w => rw [hs] at hf; injection hf with hf; injection hf with _ hf; subst hf; rfl
  have hjwt : ∀ m' hd'' r', ClientAuth.jwtAuthn env m' kw req = .ok (hd'', r') → Dict.get? r' p = Dict.get? req p := by
    intro m' hd'' r' hj
    unfold ClientAuth.jwtAuthn at hj
    cases hm : ClientAuth.jwtModify env m' kw req with
    | error e => rw [hm] at hj; cases hj
    | ok r0 =>
      rw [hm] at hj; injection hj with hj; injection hj with _ hj; subst hj
      unfold ClientAuth.jwtModify at hm
      cases ha : ClientAuth.withAssertion env m' kw req with
      | error e => rw [ha] at hm; cases hm
      | ok r1 =>
        rw [ha] at hm
        simp only at hm
        have h1 : Dict.get? r1 p = Dict.get? req p := by
          unfold ClientAuth.withAssertion at ha
          split at ha
          · split at ha <;>
              (injection ha with ha; subst ha; rw [Dict.get?_set_ne _ _ n4, Dict.get?_set_ne _ _ n3])
          · split at ha
            · split at ha
              · injection ha with ha; subst ha; rfl
              · injection ha with ha; subst ha; rw [Dict.get?_set_ne _ _ n4]
            · cases hc : ClientAuth.constructAssertion env m' kw with
              | error e => rw [hc] at ha; cases ha
              | ok a =>
                rw [hc] at ha; injection ha with ha; subst ha
                rw [Dict.get?_set_ne _ _ n4, Dict.get?_set_ne _ _ n3]
        split at hm
        · cases hm
        · injection hm with hm; subst hm; rw [Dict.get?_del_ne _ n2, h1]
        · injection hm with hm; subst hm; rw [Dict.get?_del_ne _ n1, Dict.get?_del_ne _ n2, h1]
  unfold ClientAuth.construct at h
  split at h
  · unfold ClientAuth.clientSecretBasic at h
    split at h
    · split at h
      · next r hr =>
        injection h with h; injection h with _ h; subst h
        unfold ClientAuth.basicModify ClientAuth.withOrWithoutClientId at hr
        have hd0 : ∀ b : Bool, Dict.get? (if b = true then Dict.del req "client_secret"
            else Dict.del (Dict.del req "client_secret") "client_id") p = Dict.get? req p := by
          intro b; cases b <;> simp [Dict.get?_del_ne _ n1, Dict.get?_del_ne _ n2]
        simp only at hr
        split at hr
        · split at hr
          · cases hr
          · split at hr
            · split at hr
              · injection hr with hr; subst hr; rw [Dict.get?_del_ne _ n2]
              · injection hr with hr; subst hr; rw [Dict.get?_set_ne _ _ n1, Dict.get?_del_ne _ n2]
            · injection hr with hr; subst hr; exact hd0 _
        · injection hr with hr; subst hr; exact hd0 _
      · cases h
    · cases h
    · cases h
  · split at h
    · unfold ClientAuth.clientSecretPost at h
      cases hm : ClientAuth.postModify env kw req with
      | error e => rw [hm] at h; cases h
      | ok r0 =>
        rw [hm] at h; injection h with h; injection h with _ h; subst h
        unfold ClientAuth.postModify at hm
        simp only at hm
        split at hm
        · injection hm with hm; subst hm; rw [Dict.get?_set_ne _ _ n1]
        · split at hm
          · injection hm with hm; subst hm; rw [Dict.get?_set_ne _ _ n1, Dict.get?_set_ne _ _ n2]
          · split at hm
            · injection hm with hm; subst hm; rw [Dict.get?_set_ne _ _ n1, Dict.get?_set_ne _ _ n2]
            · cases hm
    · split at h
      · next em =>
        have n6 : "refresh_token" ≠ p := by
          rcases p6 with p6 | p6
          · exact Ne.symm p6
          · exact absurd em p6.1
        unfold ClientAuth.bearerHeader at h
        simp only at h
        split at h
        · cases h
        · next t r' hf =>
          split at h
          · injection h with h; injection h with _ h; subst h
            refine hfind _ ?_ hf
            split <;> assumption
          · cases h
      · split at h
        · next em =>
          have n6 : "refresh_token" ≠ p := by
            rcases p6 with p6 | p6
            · exact Ne.symm p6
            · exact absurd em p6.2
          unfold ClientAuth.bearerBody at h
          cases hm : ClientAuth.bearerBodyModify env kw req with
          | error e => rw [hm] at h; cases h
          | ok r0 =>
            rw [hm] at h; injection h with h; injection h with _ h; subst h
            unfold ClientAuth.bearerBodyModify at hm
            split at hm
            · cases hm
            · next t r1 hf =>
              split at hm
              · injection hm with hm; subst hm
                rw [Dict.get?_set_ne _ _ n5]; exact hfind _ n5 hf
              · split at hm
                · cases hm
                · next t2 r2 hf2 =>
                  split at hm
                  · injection hm with hm; subst hm
                    rw [Dict.get?_set_ne _ _ n5]; exact (hfind _ n6 hf2).trans (hfind _ n5 hf)
                  · cases hm
        · split at h
          · exact hjwt _ _ _ h
          · split at h
            · exact hjwt _ _ _ h
            · cases h

theorem ClientAuth.construct_keeps {env : ClientAuth.Env} {m : String} {kw : Obj} {hd hd' : Dict String}
    {req req' : Obj} (h : ClientAuth.construct env m kw hd req = .ok (hd', req')) {p : String}
    (hp : p ∉ ["client_id", "client_secret", "client_assertion", "client_assertion_type", "access_token",
      "refresh_token"]) : Dict.get? req' p = Dict.get? req p := by
  simp only [List.mem_cons, List.not_mem_nil, or_false, not_or] at hp
  exact ClientAuth.construct_keeps' h (by simp [hp]) (Or.inl hp.2.2.2.2.2)

theorem ClientAuth.construct_clientId {env : ClientAuth.Env} {m : String} {kw : Obj} {hd hd' : Dict String}
    {req req' : Obj} (h : ClientAuth.construct env m kw hd req = .ok (hd', req')) :
    Dict.get? req' "client_id" = Dict.get? req "client_id" ∨
    Dict.get? req' "client_id" = some (.str env.ctx.clientId) ∨
    (Dict.get? req' "client_id" = none ∧
      (m = "client_secret_basic" ∨ m = "client_secret_jwt" ∨ m = "private_key_jwt")) := by
  have hfind : ∀ {kw r t r'} (ty : String), ty ≠ "client_id" → ClientAuth.findToken env kw r ty = .ok (t, r') →
      Dict.get? r' "client_id" = Dict.get? r "client_id" := by
    intro kw r t r' ty hty hf
    unfold ClientAuth.findToken at hf
    split at hf
    · injection hf with hf; injection hf with _ hf; subst hf; exact Dict.get?_del_ne _ hty
    · split at hf
      · injection hf with hf; injection hf with _ hf; subst hf; rfl
      · cases hs : ClientAuth.storedToken env kw with
        | error e => rw [hs] at hf; cases hf
        | ok w => rw [hs] at hf; injection hf with hf; injection hf with _ hf; subst hf; rfl
  have hjwt : ∀ m' hd'' r', ClientAuth.jwtAuthn env m' kw req = .ok (hd'', r') →
      Dict.get? r' "client_id" = Dict.get? req "client_id" ∨ Dict.get? r' "client_id" = none := by
    intro m' hd'' r' hj
    unfold ClientAuth.jwtAuthn at hj
    cases hm : ClientAuth.jwtModify env m' kw req with
    | error e => rw [hm] at hj; cases hj
    | ok r0 =>
      rw [hm] at hj; injection hj with hj; injection hj with _ hj; subst hj
      unfold ClientAuth.jwtModify at hm
      cases ha : ClientAuth.withAssertion env m' kw req with
      | error e => rw [ha] at hm; cases hm
      | ok r1 =>
        rw [ha] at hm
        simp only at hm
        have h1 : Dict.get? r1 "client_id" = Dict.get? req "client_id" := by
          unfold ClientAuth.withAssertion at ha
          split at ha
          · split at ha <;>
              (injection ha with ha; subst ha; rw [Dict.get?_set_ne _ _ (by decide), Dict.get?_set_ne _ _ (by decide)])
          · split at ha
            · split at ha
              · injection ha with ha; subst ha; rfl
              · injection ha with ha; subst ha; rw [Dict.get?_set_ne _ _ (by decide)]
            · cases hc : ClientAuth.constructAssertion env m' kw with
              | error e => rw [hc] at ha; cases ha
              | ok a =>
                rw [hc] at ha; injection ha with ha; subst ha
                rw [Dict.get?_set_ne _ _ (by decide), Dict.get?_set_ne _ _ (by decide)]
        split at hm
        · cases hm
        · injection hm with hm; subst hm; left; rw [Dict.get?_del_ne _ (by decide), h1]
        · injection hm with hm; subst hm; right; simp
  unfold ClientAuth.construct at h
  split at h
  · next em =>
    unfold ClientAuth.clientSecretBasic at h
    split at h
    · split at h
      · next r hr =>
        injection h with h; injection h with _ h; subst h
        unfold ClientAuth.basicModify ClientAuth.withOrWithoutClientId at hr
        have hd0 : ∀ b : Bool, Dict.get? (if b = true then Dict.del req "client_secret"
            else Dict.del (Dict.del req "client_secret") "client_id") "client_id" = Dict.get? req "client_id" ∨
            Dict.get? (if b = true then Dict.del req "client_secret"
            else Dict.del (Dict.del req "client_secret") "client_id") "client_id" = none := by
          intro b; cases b
          · right; simp
          · left; simp [Dict.get?_del_ne]
        simp only at hr
        split at hr
        · split at hr
          · cases hr
          · split at hr
            · split at hr
              · injection hr with hr; subst hr; left; rw [Dict.get?_del_ne _ (by decide)]
              · injection hr with hr; subst hr; right; left; simp
            · injection hr with hr; subst hr
              rcases hd0 ((env.msg.requires "client_id").getD false) with h | h
              · exact Or.inl h
              · exact Or.inr (Or.inr ⟨h, Or.inl em⟩)
        · injection hr with hr; subst hr
          rcases hd0 ((env.msg.requires "client_id").getD false) with h | h
          · exact Or.inl h
          · exact Or.inr (Or.inr ⟨h, Or.inl em⟩)
      · cases h
    · cases h
    · cases h
  · split at h
    · unfold ClientAuth.clientSecretPost at h
      cases hm : ClientAuth.postModify env kw req with
      | error e => rw [hm] at h; cases h
      | ok r0 =>
        rw [hm] at h; injection h with h; injection h with _ h; subst h
        unfold ClientAuth.postModify at hm
        simp only at hm
        right; left
        split at hm
        · injection hm with hm; subst hm; simp
        · split at hm
          · injection hm with hm; subst hm; simp
          · split at hm
            · injection hm with hm; subst hm; simp
            · cases hm
    · split at h
      · left
        unfold ClientAuth.bearerHeader at h
        simp only at h
        split at h
        · cases h
        · next t r' hf =>
          split at h
          · injection h with h; injection h with _ h; subst h
            refine hfind _ ?_ hf
            split <;> decide
          · cases h
      · split at h
        · left
          unfold ClientAuth.bearerBody at h
          cases hm : ClientAuth.bearerBodyModify env kw req with
          | error e => rw [hm] at h; cases h
          | ok r0 =>
            rw [hm] at h; injection h with h; injection h with _ h; subst h
            unfold ClientAuth.bearerBodyModify at hm
            split at hm
            · cases hm
            · next t r1 hf =>
              split at hm
              · injection hm with hm; subst hm
                rw [Dict.get?_set_ne _ _ (by decide)]; exact hfind _ (by decide) hf
              · split at hm
                · cases hm
                · next t2 r2 hf2 =>
                  split at hm
                  · injection hm with hm; subst hm
                    rw [Dict.get?_set_ne _ _ (by decide)]
                    exact (hfind _ (by decide) hf2).trans (hfind _ (by decide) hf)
                  · cases hm
        · split at h
          · next em =>
            rcases hjwt _ _ _ h with h | h
            · exact Or.inl h
            · exact Or.inr (Or.inr ⟨h, Or.inr (Or.inl em)⟩)
          · split at h
            · next em =>
              rcases hjwt _ _ _ h with h | h
              · exact Or.inl h
              · exact Or.inr (Or.inr ⟨h, Or.inr (Or.inr em)⟩)
            · cases h

namespace Service

theorem authnHeader_keeps {x : Ext} {srv : Srv} {req req' : Obj} {m : String} {kw : Obj} {c : Client}
    {hd : Dict String} (h : authnHeader x srv req m kw c = .ok (hd, req')) {p : String}
    (hp : p ∉ ["client_id", "client_secret", "client_assertion", "client_assertion_type", "access_token",
      "refresh_token"]) : Dict.get? req' p = Dict.get? req p := by
  unfold authnHeader at h
  split at h
  · cases hr : Registration.readHeader c.ctx m with
    | error e => rw [hr] at h; cases h
    | ok h0 => rw [hr] at h; injection h with h; injection h with _ h; rw [h]
  · split at h
    · injection h with h; injection h with _ h; rw [h]
    · exact ClientAuth.construct_keeps h hp

theorem authnHeader_keeps' {x : Ext} {srv : Srv} {req req' : Obj} {m : String} {kw : Obj} {c : Client}
    {hd : Dict String} (h : authnHeader x srv req m kw c = .ok (hd, req')) {p : String}
    (hp : p ∉ ["client_id", "client_secret", "client_assertion", "client_assertion_type", "access_token"])
    (hm : m ≠ "bearer_header" ∧ m ≠ "bearer_body") : Dict.get? req' p = Dict.get? req p := by
  unfold authnHeader at h
  split at h
  · cases hr : Registration.readHeader c.ctx m with
    | error e => rw [hr] at h; cases h
    | ok h0 => rw [hr] at h; injection h with h; injection h with _ h; rw [h]
  · split at h
    · injection h with h; injection h with _ h; rw [h]
    · exact ClientAuth.construct_keeps' h hp (Or.inr hm)

theorem authnHeader_clientId {x : Ext} {srv : Srv} {req req' : Obj} {m : String} {kw : Obj} {c : Client}
    {hd : Dict String} (h : authnHeader x srv req m kw c = .ok (hd, req')) :
    Dict.get? req' "client_id" = Dict.get? req "client_id" ∨
    Dict.get? req' "client_id" = some (.str c.ctx.clientId) ∨
    (Dict.get? req' "client_id" = none ∧
      (m = "client_secret_basic" ∨ m = "client_secret_jwt" ∨ m = "private_key_jwt")) := by
  unfold authnHeader at h
  split at h
  · cases hr : Registration.readHeader c.ctx m with
    | error e => rw [hr] at h; cases h
    | ok h0 => rw [hr] at h; injection h with h; injection h with _ h; rw [h]; exact Or.inl rfl
  · split at h
    · injection h with h; injection h with _ h; rw [h]; exact Or.inl rfl
    · exact ClientAuth.construct_clientId h

/-- Nothing but the DPoP key has changed. -/
def OnlyDpop (c c' : Client) : Prop := ∃ d, c' = { c with dpopKey := d }

instance : FrameRel OnlyDpop where
  refl c := ⟨c.dpopKey, rfl⟩
  trans := by rintro a b c ⟨d, rfl⟩ ⟨d', rfl⟩; exact ⟨d', rfl⟩

instance : DpopRel OnlyDpop where
  dpop := frame_dpopKey fun d _ _ => ⟨d, rfl⟩

/-- The HTTP request made of the parameters. -/
def sentFor (srv : Srv) (info : ReqInfo) : Sent :=
  { srv := srv, url := info.url, method := info.method, headers := info.headers, body := info.body }

theorem noSend_onDB {α : Type} (m : Py DB α) : Frame NoSend (onDB m) := fun _ => rfl
theorem noSend_onCtx {α : Type} (m : Py Ctx α) : Frame NoSend (onCtx m) := fun _ => rfl

theorem noSend_postParse (x : Ext) (srv : Srv) (r : Obj) (s : String) : Frame NoSend (postParse x srv r s) := by
  unfold postParse
  split
  · exact Frame.ask _
  · exact Frame.ask _
  · exact Frame.bind (Frame.ask _) fun _ => Frame.bind (noSend_onDB _) fun _ => Frame.pure _
  · exact Frame.pure _

theorem noSend_storeResponse (x : Ext) (t k : String) (resp : Obj) : Frame NoSend (storeResponse x t k resp) := by
  unfold storeResponse
  exact Frame.bind (Frame.lift _) fun _ => Frame.bind (noSend_onDB _) fun _ => Frame.pure _

theorem noSend_updateMsg (x : Ext) (srv : Srv) (r : Obj) (k : String) : Frame NoSend (updateMsg x srv r k) := by
  unfold updateMsg
  split
  · exact noSend_storeResponse _ _ _ _
  · refine Frame.bind (R := NoSend) ?_ fun _ => noSend_storeResponse _ _ _ _
    unfold bindIdToken
    split
    · exact Frame.pure _
    · refine Frame.bind (Frame.ask _) fun _ => ?_
      refine Frame.bind (Frame.lift _) fun _ => ?_
      exact Frame.bind (Frame.lift _) fun _ => noSend_onDB _
    · exact Frame.raise _
  · exact noSend_storeResponse _ _ _ _
  · exact noSend_storeResponse _ _ _ _
  · exact noSend_storeResponse _ _ _ _
  · exact noSend_storeResponse _ _ _ _
  · exact noSend_storeResponse _ _ _ _
  · exact noSend_storeResponse _ _ _ _
  · exact Frame.bind Frame.read fun _ => Frame.bind (noSend_onCtx _) fun _ => Frame.pure _
  · exact Frame.bind Frame.read fun _ => Frame.bind (noSend_onCtx _) fun _ => Frame.pure _
  · exact Frame.bind (noSend_onCtx _) fun _ => Frame.pure _
  · exact Frame.bind Frame.read fun _ => Frame.bind (noSend_onCtx _) fun _ => Frame.pure _
  · exact Frame.pure _

/-- After the request was sent, no other one is. -/
theorem serviceRequest_log (x : Ext) (srv : Srv) (info : ReqInfo) (bt state : String) (c : Client) :
    (serviceRequest x srv info bt state c).2.log = c.log ++ [sentFor srv info] := by
  have hp : ∀ s r, Frame NoSend (postParse x srv r s) := fun s r => noSend_postParse x srv r s
  have hget : (getResponse x srv info bt state c).2.log = c.log ++ [sentFor srv info] := by
    unfold getResponse
    rw [Py.bind_run]
    simp only [Service.send]
    cases x.http c.log { srv := srv, url := info.url, method := info.method, headers := info.headers, body := info.body } with
    | error e => rfl
    | ok r =>
      simp only
      rw [Py.read_bind_run]
      have key : ∀ (m : Py Client Resp) (c1 : Client), Frame NoSend m → c1.log = c.log ++ [sentFor srv info] →
          (m c1).2.log = c.log ++ [sentFor srv info] := fun m c1 hm h => Eq.trans (hm c1) h
      refine key _ _ ?_ rfl
      refine Frame.ite (fun _ => Frame.pure _) (fun _ => ?_)
      exact Frame.ite (fun _ => Frame.pure _) (fun _ => frame_parseRequestResponse _ _ (hp _) (hp _))
  unfold serviceRequest
  rw [Py.bind_run]
  rcases h : getResponse x srv info bt state c with ⟨r, c1⟩
  rw [h] at hget
  cases r with
  | error e => exact hget
  | ok r =>
    simp only
    have : Frame NoSend (if r.isError = true then pure r else update x srv r state) :=
      Frame.ite (fun _ => Frame.pure _) (fun _ => frame_update _ fun o => noSend_updateMsg _ _ _ _)
    exact Eq.trans (this c1) hget

/-- What a client sends for a service whose request is made without sending anything. -/
theorem doRequest_log {x : Ext} {srv : Srv} {args : Obj} {o : CallOpts} {kwargs : Obj}
    (hg : Frame NoSend (getRequestParameters x srv args o kwargs)) (c : Client) :
    (doRequest x srv args o kwargs c).2.log = c.log ∨
    ∃ info c1, getRequestParameters x srv args o kwargs c = (.ok info, c1) ∧
      (doRequest x srv args o kwargs c).2.log = c.log ++ [sentFor srv info] := by
  unfold doRequest
  rw [Py.read_bind_run]
  split
  · exact Or.inl rfl
  · rw [Py.bind_run]
    have h0 := hg c
    rcases h : getRequestParameters x srv args o kwargs c with ⟨r, c1⟩
    rw [h] at h0
    cases r with
    | error e => exact Or.inl h0
    | ok info =>
      right
      refine ⟨info, c1, rfl, ?_⟩
      simp only
      rw [serviceRequest_log]
      rw [show c1.log = c.log from h0]

open Spec.Session

theorem carries_assembled {x : Ext} {srv : Srv} {req : Obj} {method bt : String} {hd : Dict String} {kwargs : Obj}
    {c : Client} {info : ReqInfo} (h : assemble x srv req method bt hd kwargs c = .ok info) :
    ∃ url, targetOf srv kwargs c = .ok url ∧ info.method = method ∧ info.request = req ∧
      Spec.Wire.Carries x (sentFor srv info) url req := by
  obtain ⟨url, h1, h2, h3, h4, h5⟩ := assemble_ok h
  refine ⟨url, h1, h3, h4, ?_, ?_, ?_⟩
  · simp only [sentFor, h2, h3]
  · intro hm
    have hm : info.method = "POST" := hm
    rcases h5 with ⟨_, b, h6, h7, h8⟩ | ⟨h6, _⟩
    · refine ⟨contentType bt, b, ?_, ?_, h6, h7⟩
      · simp [sentFor, h8]
      · unfold contentType
        split
        · simp
        · split <;> simp
    · rw [h3] at hm; exact absurd hm h6
  · intro hm
    have hm : info.method ≠ "POST" := hm
    rcases h5 with ⟨h6, _⟩ | ⟨_, h7, _⟩
    · rw [h3] at hm; exact absurd h6 hm
    · exact h7

/-! ## What is taken from the session -/

theorem methodArgs_given (conf : Obj) (context : String) {kwargs : Obj} (hn : (Dict.keys kwargs).Nodup)
    {p : String} {v : Val} (h : Dict.get? kwargs p = some v) :
    Dict.get? (methodArgs conf context kwargs) p = some v := by
  unfold methodArgs
  split
  · rw [Dict.get?_update_nodup _ hn, h]; simp
  · exact h

theorem get?_extend_stored {db : DB} {args r : Obj} {t k : String} {ps : List String}
    (h : StateInterface.extendRequestArgs db args t k ps = .ok r) (p : String) :
    Dict.get? r p = (if p ∈ ps then storedIn db k t p else none).or (Dict.get? args p) := by
  rw [StateInterface.get?_extend h]
  unfold storedIn Msg.verifiedName
  cases StateInterface.getItem db t k with
  | error e => simp
  | ok item => by_cases hp : p ∈ ps <;> simp [hp]

theorem getStateParameter_kwargs {args kwargs : Obj} {v : Val} (h : Dict.get? kwargs "state" = some v) :
    getStateParameter args kwargs = .ok v := by
  simp [getStateParameter, h]

theorem refreshPre_get {params : List String} {args kwargs a : Obj} {c : Client} {k : String}
    (h : refreshPre params args kwargs c = .ok a) (hs : Dict.get? kwargs "state" = some (.str k))
    (hn : (Dict.keys args).Nodup) : (Dict.keys a).Nodup ∧ ∀ p, Dict.get? a p = (Dict.get? args p).or
      (if p ∈ params then (storedIn c.db k "refresh_token_response" p).or (storedIn c.db k "token_response" p)
       else none) := by
  unfold refreshPre at h
  rw [getStateParameter_kwargs hs] at h
  simp only [dbKey] at h
  cases h1 : StateInterface.extendRequestArgs c.db [] "token_response" k params with
  | error e => rw [h1] at h; cases h
  | ok a1 =>
    rw [h1] at h
    simp only at h
    cases h2 : StateInterface.extendRequestArgs c.db a1 "refresh_token_response" k params with
    | error e => rw [h2] at h; cases h
    | ok a2 =>
      rw [h2] at h
      injection h with h; subst h
      refine ⟨Dict.nodup_update (StateInterface.nodup_extend h2 (StateInterface.nodup_extend h1 (by simp [Dict.keys]))) _,
        fun p => ?_⟩
      rw [Dict.get?_update_nodup _ hn, get?_extend_stored h2, get?_extend_stored h1]
      by_cases hp : p ∈ params <;> simp [hp]

theorem tokenPre_get {params : List String} {args kwargs a : Obj} {c : Client} {k : String}
    (h : tokenPre params args kwargs c = .ok a) (hs : Dict.get? kwargs "state" = some (.str k))
    (hn : (Dict.keys args).Nodup) : (Dict.keys a).Nodup ∧ ∀ p, Dict.get? a p = ((Dict.get? args p).or
      (if p ∈ params then (storedIn c.db k "auth_response" p).or (storedIn c.db k "auth_request" p)
       else none)).or (if p = "grant_type" then some (.str "authorization_code") else none) := by
  unfold tokenPre at h
  rw [getStateParameter_kwargs hs] at h
  simp only [dbKey] at h
  cases h1 : StateInterface.extendRequestArgs c.db [] "auth_request" k params with
  | error e => rw [h1] at h; cases h
  | ok a1 =>
    rw [h1] at h
    simp only at h
    cases h2 : StateInterface.extendRequestArgs c.db a1 "auth_response" k params with
    | error e => rw [h2] at h; cases h
    | ok a2 =>
      rw [h2] at h
      injection h with h; subst h
      have hn2 := StateInterface.nodup_extend h2 (StateInterface.nodup_extend h1 (by simp [Dict.keys]))
      have hg : ∀ p, Dict.get? a2 p = (if p ∈ params then (storedIn c.db k "auth_response" p).or
          (storedIn c.db k "auth_request" p) else none) := by
        intro p
        rw [get?_extend_stored h2, get?_extend_stored h1]
        by_cases hp : p ∈ params <;> simp [hp]
      refine ⟨?_, fun p => ?_⟩
      · refine Dict.nodup_update ?_ _
        split
        · exact hn2
        · exact Dict.nodup_set hn2 _ _
      · rw [Dict.get?_update_nodup _ hn, ← hg]
        by_cases hh : Dict.has a2 "grant_type" = true
        · rw [if_pos hh]
          by_cases e : p = "grant_type"
          · subst e
            rw [Dict.has_eq, Option.isSome_iff_exists] at hh
            obtain ⟨v, hv⟩ := hh
            simp [hv]
          · simp [e]
        · rw [if_neg hh]
          have hnone : Dict.get? a2 "grant_type" = none := by
            rw [Dict.has_eq] at hh
            cases h : Dict.get? a2 "grant_type" <;> simp_all
          by_cases e : p = "grant_type"
          · subst e; simp [hnone]
          · rw [Dict.get?_set_ne _ _ (Ne.symm e)]; simp [e]

end Service

end Verif
