import Verif.Model.WebApp
import Verif.Props.Begun
/-!
# C107-C109: the example web application (example/flask_rp/views.py)
-/

namespace Verif.Props
open Verif Verif.Service Verif.Handler Verif.StateInterface Verif.Spec.Session Verif.Spec.HandlerView
open Verif.Spec.Store Verif.Spec.InFlight Verif.WebApp

/-! ## Specification -/

/-- Whom the form of the start page asks to be logged in by: an issuer (typed in, else chosen), else a user identifier; nothing if
a field is missing or all are empty. -/
def loginFor (form : Dict String) : Option (String × String) :=
  match Dict.get? form "dyn_iss", Dict.get? form "static_iss", Dict.get? form "uid" with
  | none, _, _ => none
  | some d, st, u =>
    if d ≠ "" then some (d, "")
    else match st, u with
      | none, _ => none
      | some st, u =>
        if st ≠ "" then some (st, "")
        else match u with
          | some u => if u ≠ "" then some ("", u) else none
          | none => none

/-- The call for a response to a login that came for the client `key`. -/
def finalizeCall (h : Handler) (op : Option String) (args : Obj) : Option Call :=
  match getRp h op with
  | .error _ => none
  | .ok key => match Dict.get? h.issuer2rp key, Dict.get? args "state" with
    | some c, some (.str k) =>
      if k = "" then none
      else match getIss c.db k with
        | .ok (.str iss) => some (.finalize iss args [])
        | _ => none
    | _, _ => none

/-- The one call of the library's interface a request leads to, if any. -/
def callOf (a : App) : Request → Option Call
  | .rp form => (loginFor form).map (fun p => .begin p.1 p.2 REQ_ARGS [])
  | .authzCb url args => finalizeCall a.rph (opByUri (splitQuery url) a.rph.issuer2rp) args
  | .repostFragment (some l) (some op) => finalizeCall a.rph (some op) (compact (parseQs l))
  | .logout => match Dict.get? a.session "state" with
    | some (.str k) => some (.logout k "")
    | _ => none
  | .bcLogout op form body => match getRp a.rph (some op) with
    | .ok key => some (.backchannel key (.text (requestData form body)))
    | .error _ => none
  | _ => none

/-- The session value a request makes the library draw. -/
def siteDrawn : Ext × Nat × Request → Option String
  | (x, _, .rp form) => (loginFor form).map (fun _ => x.rnd "init_state")
  | _ => none

/-- The parsing and the verification of authorization responses (of oidcmsg, external) leave `state` as it is. -/
structure KeepsState (x : Ext) : Prop where
  parse : ∀ ctx f o m, x.deser ctx .authorization f (.dict o) = .ok m → Dict.get? m "state" = Dict.get? o "state"
  verify : ∀ ctx o kw m, x.verify ctx .authorization o kw = .ok m → Dict.get? m "state" = Dict.get? o "state"

/-- A login page at the site was asked for by a browser (`br`, with the form `form`), and led to the session value `k` at `iss`:
no other request of the history did. -/
structure BegunAt (s0 : Site) (reqs : List (Ext × Nat × Request)) (k iss : String) (idt : Val)
    (lb : List (Ext × Nat × Request)) (y : Ext) (br : Nat) (form : Dict String) (la : List (Ext × Nat × Request)) : Prop where
  split : reqs = lb ++ (y, br, .rp form) :: la
  drew : y.rnd "init_state" = k
  once : ∀ q ∈ lb ++ la, siteDrawn q ≠ some k
  asked : ∃ name user, loginFor form = some (name, user) ∧ (clientSetup y name user [] (serveAll lb s0).rph).1 = .ok iss ∧
    ∀ url h1, begin_ y name user REQ_ARGS [] (serveAll lb s0).rph = (.ok (url, k), h1) →
        (∀ c, Dict.get? h1.issuer2rp iss = some c → NoNonceGiven c REQ_ARGS) → y.rnd "init_nonce" ≠ "" →
        "nonce" ∉ (y.msg .authorization).spaced →
        ∀ o, idt = .obj o → o ≠ [] → Dict.get? o "nonce" = some (.str (y.rnd "init_nonce"))

/-! ## Requests are calls -/

theorem beginPage_rph (x : Ext) (iss uid : String) (a : App) :
    (beginPage x iss uid a).2.rph = (begin_ x iss uid REQ_ARGS [] a.rph).2 := by
  unfold beginPage
  cases hb : begin_ x iss uid REQ_ARGS [] a.rph with
  | mk r h => cases r <;> rfl

theorem startLogin_rph (x : Ext) (iss uid : String) (a : App) :
    (startLogin x iss uid a).2.rph = if iss = "" ∧ uid = "" then a.rph else (begin_ x iss uid REQ_ARGS [] a.rph).2 := by
  unfold startLogin
  split
  · rfl
  · exact beginPage_rph x iss uid { a with session := Dict.set a.session "op_identifier" (.str iss) }

theorem finishLogin_rph (x : Ext) (key iss : String) (args : Obj) (a : App) :
    (finishLogin x key iss args a).2.rph = (finalize x iss args [] a.rph).2 := by
  unfold finishLogin
  cases hb : finalize x iss args [] a.rph with
  | mk r h =>
    cases r with
    | error e => dsimp only; split <;> rfl
    | ok f =>
      dsimp only
      cases Dict.get? h.issuer2rp key <;> rfl


theorem rp_rph (x : Ext) (form : Dict String) (a : App) :
    (rp x form a).2.rph = match loginFor form with
      | some p => (begin_ x p.1 p.2 REQ_ARGS [] a.rph).2
      | none => a.rph := by
  unfold rp loginFor
  cases hd : Dict.get? form "dyn_iss" with
  | none => rfl
  | some d =>
    dsimp only
    by_cases e : d = ""
    · simp only [e, ne_eq, not_true_eq_false, if_false]
      cases hs : Dict.get? form "static_iss" with
      | none => rfl
      | some st =>
        dsimp only
        by_cases e2 : st = ""
        · simp only [e2, not_true_eq_false, if_false]
          cases hu : Dict.get? form "uid" with
          | none => rfl
          | some u =>
            dsimp only
            rw [startLogin_rph]
            by_cases e3 : u = ""
            · simp [e3]
            · simp [e3]
        · simp only [e2, not_false_eq_true, if_true]
          rw [startLogin_rph]
          simp [e2]
    · simp only [e, ne_eq, not_false_eq_true, if_true]
      rw [startLogin_rph]
      simp [e]

theorem finalizeView_rph (x : Ext) (op : Option String) (args : Obj) (a : App) :
    (finalizeView x op args a).2.rph = match finalizeCall a.rph op args with
      | some c => (exec x c a.rph).2
      | none => a.rph := by
  unfold finalizeView finalizeCall
  rw [Py.read_bind_run]
  cases hg : getRp a.rph op with
  | error p => rfl
  | ok key =>
    dsimp only
    cases hc : Dict.get? a.rph.issuer2rp key with
    | none => rfl
    | some c =>
      dsimp only
      cases hs : Dict.get? args "state" with
      | none => rfl
      | some v =>
        show ((if Util.truthyO (some v) then _ else _ : Py App Page) _).2.rph = _
        cases ht : Util.truthyO (some v) with
        | false =>
          rw [if_neg (by decide)]
          cases v with
          | str k =>
            have : k = "" := by simpa [Util.truthyO, Val.truthy] using ht
            subst this
            rfl
          | _ => rfl
        | true =>
          rw [if_pos rfl]
          cases v with
          | str k =>
            have : k ≠ "" := by simpa [Util.truthyO, Val.truthy] using ht
            dsimp only
            rw [if_neg this]
            show ((Py.lift (getIss c.db k) >>= _ : Py App Page) _).2.rph = _
            cases hi : getIss c.db k with
            | error e => rfl
            | ok w =>
              cases w with
              | str iss =>
                exact finishLogin_rph x key iss args _
              | _ => rfl
          | _ => rfl


theorem clientOrFail_same (op : Option String) (a : App) : (clientOrFail op a).2 = a := by
  unfold clientOrFail
  split
  · rfl
  · split <;> rfl

/-- What does not change the application, and what follows does not either. -/
theorem bind_same {α β : Type} {m : Py App α} {f : α → Py App β} {a : App} (hm : (m a).2 = a) (hf : ∀ v, (f v a).2 = a) :
    ((m >>= f) a).2 = a := by
  rw [Py.bind_run]
  cases h : m a with
  | mk r s =>
    rw [h] at hm
    cases r with
    | error e => exact hm
    | ok v => rw [show s = a from hm]; exact hf v

theorem sessionOp_same (a : App) : (sessionOp a).2 = a := by
  unfold sessionOp
  exact bind_same rfl fun v => by cases v <;> rfl

theorem lift_same {α : Type} (r : Except Exc α) (a : App) : ((Py.lift r : Py App α) a).2 = a := rfl

theorem sessionIframe_same (a : App) : (sessionIframe a).2 = a := by
  unfold sessionIframe
  refine bind_same (sessionOp_same a) fun op => bind_same (clientOrFail_same op a) fun c => bind_same rfl fun b => ?_
  exact bind_same rfl fun i => bind_same rfl fun _ => bind_same rfl fun _ => bind_same rfl fun _ => bind_same rfl fun _ => rfl

theorem sessionChange_same (a : App) : (sessionChange a).2 = a := by
  unfold sessionChange
  exact bind_same (sessionOp_same a) fun op => bind_same (clientOrFail_same op a) fun c => rfl

theorem sessionLogout_same (url : String) (a : App) : (sessionLogout url a).2 = a := by
  unfold sessionLogout
  refine bind_same rfl fun b => bind_same (clientOrFail_same _ a) fun c => rfl

theorem fcLogout_same (op : String) (args : Dict String) (a : App) : (fcLogout op args a).2 = a := by
  unfold fcLogout
  cases Dict.get? args "sid" with
  | none => rfl
  | some sid =>
    cases Dict.get? args "iss" with
    | none => rfl
    | some iss =>
      refine bind_same (clientOrFail_same _ a) fun c => ?_
      split <;> rfl

theorem bcLogout_app (x : Ext) (op : String) (form : Bool) (body : String) (a : App) :
    (bcLogout x op form body a).2 = { a with rph := match getRp a.rph (some op) with
      | .ok key => (onClient key (ask (backchannelLogout x (.text (requestData form body)))) a.rph).2
      | .error _ => a.rph } := by
  unfold bcLogout
  rw [Py.read_bind_run]
  cases hg : getRp a.rph (some op) with
  | error p => rfl
  | ok key =>
    show (bcLogoutOf x key (requestData form body) a).2 = _
    unfold bcLogoutOf
    dsimp only
    cases ho : onClient key (ask (backchannelLogout x (.text (requestData form body)))) a.rph with
    | mk r h => cases r <;> rfl

theorem logoutView_app (x : Ext) (a : App) :
    (logoutView x a).2 = { a with rph := match Dict.get? a.session "state" with
      | some (.str k) => (onSession k (logout x k "") a.rph).2
      | _ => a.rph } := by
  unfold logoutView
  cases hv : Dict.get? a.session "state" with
  | none => rw [Py.bind_error (s' := a) (e := .keyError) (by unfold getSession Dict.getItem; rw [hv])]
  | some v =>
    rw [Py.bind_ok (s' := a) (a := v) (by unfold getSession Dict.getItem; rw [hv])]
    cases v with
    | str k =>
      rw [Py.bind_ok (x := Py.lift (dbKey (.str k))) (s' := a) (a := k) rfl, Py.bind_run]
      unfold onRph
      dsimp only
      cases (onSession k (logout x k "") a.rph).1 <;> rfl
    | _ => rfl

/-- **C107** (requests are calls).  Whatever a browser or a provider requests: the library's handler is left as the one call
`callOf` names leaves it, or as it was. -/
theorem C107_calls (x : Ext) (r : Request) (a : App) :
    (view x r a).2.rph = match callOf a r with
      | some c => (exec x c a.rph).2
      | none => a.rph := by
  cases r with
  | index => rfl
  | rp form =>
    show (rp x form a).2.rph = _
    rw [rp_rph, show callOf a (.rp form) = (loginFor form).map (fun p => .begin p.1 p.2 REQ_ARGS []) from rfl]
    cases loginFor form <;> rfl
  | authzCb url args =>
    show (authzCb x url args a).2.rph = _
    unfold authzCb
    rw [Py.read_bind_run]
    exact finalizeView_rph x _ args a
  | repostFragment f op =>
    cases f with
    | none => rfl
    | some l =>
      cases op with
      | none => rfl
      | some op => exact finalizeView_rph x _ _ a
  | authzImCb => rfl
  | sessionIframe => exact congrArg App.rph (sessionIframe_same a)
  | sessionChange => exact congrArg App.rph (sessionChange_same a)
  | sessionLogout url => exact congrArg App.rph (sessionLogout_same url a)
  | logout =>
    show (logoutView x a).2.rph = _
    rw [logoutView_app, show callOf a .logout = (match Dict.get? a.session "state" with
      | some (.str k) => some (.logout k "")
      | _ => none) from rfl]
    dsimp only
    cases Dict.get? a.session "state" with
    | none => rfl
    | some v => cases v <;> rfl
  | bcLogout op form body =>
    show (bcLogout x op form body a).2.rph = _
    rw [bcLogout_app, show callOf a (.bcLogout op form body) = (match getRp a.rph (some op) with
      | .ok key => some (.backchannel key (.text (requestData form body)))
      | .error _ => none) from rfl]
    dsimp only
    cases getRp a.rph (some op) <;> rfl
  | fcLogout op args => exact congrArg App.rph (fcLogout_same op args a)

/-! ## Histories -/

/-- The calls of a history of requests. -/
def siteCalls : List (Ext × Nat × Request) → Site → List (Ext × Call)
  | [], _ => []
  | (x, b, r) :: l, s =>
    ((callOf { session := s.sessions b, rph := s.rph } r).toList.map fun c => (x, c)) ++ siteCalls l (serve x b r s).2

theorem serve_rph (x : Ext) (b : Nat) (r : Request) (s : Site) :
    (serve x b r s).2.rph = run ((callOf { session := s.sessions b, rph := s.rph } r).toList.map fun c => (x, c)) s.rph := by
  show (view x r { session := s.sessions b, rph := s.rph }).2.rph = _
  rw [C107_calls]
  cases callOf { session := s.sessions b, rph := s.rph } r <;> rfl

/-- **C107** (histories).  A history of requests leaves the handler as the history of its calls. -/
theorem C107_history : ∀ (l : List (Ext × Nat × Request)) (s : Site), (serveAll l s).rph = run (siteCalls l s) s.rph
  | [], s => rfl
  | (x, b, r) :: l, s => by
    show (serveAll l (serve x b r s).2).rph = _
    rw [C107_history l, serve_rph, ← run_concat]
    rfl

theorem siteCalls_append : ∀ (l l' : List (Ext × Nat × Request)) (s : Site),
    siteCalls (l ++ l') s = siteCalls l s ++ siteCalls l' (serveAll l s)
  | [], l', s => rfl
  | (x, b, r) :: l, l', s => by
    show _ ++ siteCalls (l ++ l') _ = (_ ++ siteCalls l _) ++ siteCalls l' _
    rw [siteCalls_append l l', List.append_assoc]
    rfl

theorem serveAll_append : ∀ (l l' : List (Ext × Nat × Request)) (s : Site), serveAll (l ++ l') s = serveAll l' (serveAll l s)
  | [], _, _ => rfl
  | (x, b, r) :: l, l', s => serveAll_append l l' _

/-- A request draws a session value exactly if its call does. -/
theorem drawn_callOf (x : Ext) (b : Nat) (r : Request) (a : App) :
    (((callOf a r).toList.map fun c => (x, c)).filterMap drawn) = (siteDrawn (x, b, r)).toList := by
  cases r with
  | rp form =>
    rw [show callOf a (.rp form) = (loginFor form).map (fun p => .begin p.1 p.2 REQ_ARGS []) from rfl,
      show siteDrawn (x, b, .rp form) = (loginFor form).map (fun _ => x.rnd "init_state") from rfl]
    cases loginFor form <;> rfl
  | authzCb url args =>
    unfold callOf finalizeCall siteDrawn
    repeat' split
    all_goals first | rfl | simp_all [drawn]
  | repostFragment f op =>
    unfold callOf finalizeCall siteDrawn
    repeat' split
    all_goals first | rfl | simp_all [drawn]
  | logout =>
    unfold callOf siteDrawn
    dsimp only
    split <;> rfl
  | bcLogout op form body =>
    unfold callOf siteDrawn
    dsimp only
    split <;> rfl
  | _ => rfl


theorem siteCalls_drawn : ∀ (l : List (Ext × Nat × Request)) (s : Site), (siteCalls l s).filterMap drawn = l.filterMap siteDrawn
  | [], _ => rfl
  | (x, b, r) :: l, s => by
    show (_ ++ siteCalls l _).filterMap drawn = _
    rw [List.filterMap_append, siteCalls_drawn l, drawn_callOf x b, List.filterMap_cons]
    cases siteDrawn (x, b, r) <;> rfl

/-- The call of a request, if it draws a session value, is that of the login form. -/
theorem callOf_begin {r : Request} {a : App} {name user : String} {req b' : Obj} (h : callOf a r = some (.begin name user req b')) :
    ∃ form, r = .rp form ∧ loginFor form = some (name, user) ∧ req = REQ_ARGS ∧ b' = [] := by
  have hf : ∀ {h : Handler} {op : Option String} {args : Obj} {name user : String} {req b' : Obj},
      finalizeCall h op args ≠ some (.begin name user req b') := by
    intro h op args name user req b' he
    unfold finalizeCall at he
    repeat' split at he
    all_goals first | cases he | skip
  cases r with
  | rp form =>
    refine ⟨form, rfl, ?_⟩
    rw [show callOf a (.rp form) = (loginFor form).map (fun p => .begin p.1 p.2 REQ_ARGS []) from rfl] at h
    cases hl : loginFor form with
    | none => rw [hl] at h; cases h
    | some p =>
      rw [hl] at h
      simp only [Option.map_some, Option.some.injEq, Call.begin.injEq] at h
      obtain ⟨rfl, rfl, rfl, rfl⟩ := h
      exact ⟨rfl, rfl, rfl⟩
  | authzCb url args => exact absurd h hf
  | repostFragment f op =>
    cases f with
    | none => cases h
    | some l =>
      cases op with
      | none => cases h
      | some op => exact absurd h hf
  | logout =>
    rw [show callOf a .logout = (match Dict.get? a.session "state" with
      | some (.str k) => some (.logout k "")
      | _ => none) from rfl] at h
    split at h <;> cases h
  | bcLogout op form body =>
    rw [show callOf a (.bcLogout op form body) = (match getRp a.rph (some op) with
      | .ok key => some (.backchannel key (.text (requestData form body)))
      | .error _ => none) from rfl] at h
    split at h <;> cases h
  | _ => cases h

theorem siteCalls_split {y : Ext} {name user : String} {req b' : Obj} : ∀ (l : List (Ext × Nat × Request)) (s : Site)
    {before after : List (Ext × Call)}, siteCalls l s = before ++ (y, .begin name user req b') :: after →
    ∃ lb br form la, l = lb ++ (y, br, .rp form) :: la ∧ siteCalls lb s = before ∧ loginFor form = some (name, user) ∧
      req = REQ_ARGS ∧ b' = []
  | [], s, before, after, h => by
    cases before <;> cases h
  | (x, b, r) :: l, s, before, after, h => by
    change _ ++ siteCalls l _ = _ at h
    cases hc : callOf { session := s.sessions b, rph := s.rph } r with
    | none =>
      rw [hc] at h
      obtain ⟨lb, br, form, la, e1, e2, e3⟩ := siteCalls_split l _ h
      refine ⟨(x, b, r) :: lb, br, form, la, by rw [e1]; rfl, ?_, e3⟩
      show _ ++ siteCalls lb _ = _
      rw [hc]
      exact e2
    | some c =>
      rw [hc] at h
      change (x, c) :: siteCalls l _ = _ at h
      cases before with
      | nil =>
        simp only [List.nil_append, List.cons.injEq, Prod.mk.injEq] at h
        obtain ⟨⟨rfl, rfl⟩, _⟩ := h
        obtain ⟨form, rfl, e1, e2, e3⟩ := callOf_begin hc
        exact ⟨[], b, form, l, rfl, rfl, e1, e2, e3⟩
      | cons z before =>
        simp only [List.cons_append, List.cons.injEq] at h
        obtain ⟨rfl, h⟩ := h
        obtain ⟨lb, br, form, la, e1, e2, e3⟩ := siteCalls_split l _ h
        refine ⟨(x, b, r) :: lb, br, form, la, by rw [e1]; rfl, ?_, e3⟩
        show _ ++ siteCalls lb _ = _
        rw [hc, e2]
        rfl

theorem siteCalls_in {K : String → Prop} : ∀ (l : List (Ext × Nat × Request)) (s : Site),
    (∀ q ∈ l, ∀ k, siteDrawn q = some k → K k) → ∀ xc ∈ siteCalls l s, InSpace K xc := by
  intro l s h xc hx
  obtain ⟨x, c⟩ := xc
  have hfin : ∀ {h : Handler} {op : Option String} {args : Obj} {s i u : String}, finalizeCall h op args ≠ some (.close s i u) := by
    intro h op args s i u he
    unfold finalizeCall at he
    repeat' split at he
    all_goals first | cases he | skip
  have hnoclose : ∀ (l : List (Ext × Nat × Request)) (s : Site) s' i u, (x, Call.close s' i u) ∉ siteCalls l s := by
    intro l
    induction l with
    | nil => intro s s' i u h; cases h
    | cons q l ih =>
      obtain ⟨x', b, r⟩ := q
      intro s s' i u h
      change _ ∈ _ ++ siteCalls l _ at h
      rcases List.mem_append.1 h with h | h
      · rcases List.mem_map.1 h with ⟨c, hc, e⟩
        cases e
        rw [Option.mem_toList] at hc
        cases r with
        | rp form =>
          rw [show callOf { session := s.sessions b, rph := s.rph } (.rp form) = (loginFor form).map (fun p => .begin p.1 p.2 REQ_ARGS []) from rfl] at hc
          cases hl : loginFor form <;> rw [hl] at hc <;> cases hc
        | authzCb url args => exact hfin hc
        | repostFragment f op =>
          cases f with
          | none => cases hc
          | some l =>
            cases op with
            | none => cases hc
            | some op => exact hfin hc
        | logout =>
          unfold callOf at hc
          dsimp only at hc
          split at hc <;> cases hc
        | bcLogout op form body =>
          unfold callOf at hc
          dsimp only at hc
          split at hc <;> cases hc
        | _ => cases hc
      · exact ih _ _ _ _ h
  cases c with
  | begin name user req b' =>
    have : x.rnd "init_state" ∈ (siteCalls l s).filterMap drawn := List.mem_filterMap.2 ⟨_, hx, rfl⟩
    rw [siteCalls_drawn] at this
    obtain ⟨q, hq, e⟩ := List.mem_filterMap.1 this
    exact h q hq _ e
  | close s' i u => exact absurd hx (hnoclose l s s' i u)
  | _ => trivial


/-! ## Who is logged in where -/

theorem resultPage_ok {c : Client} {f : Final} {ui tok idt : Val} {eps : Obj} {chk : Option (Val × Val)} {lo : String}
    (h : resultPage c f = .ok (.result ui tok idt eps chk lo)) : ∃ st ss, f = .done ui st tok idt ss := by
  cases f with
  | error s e => cases h
  | done u st t i ss =>
    simp only [resultPage] at h
    cases hs : statusCheck c.ctx with
    | error e => rw [hs] at h; cases h
    | ok chk' =>
      rw [hs] at h
      simp only [Except.ok.injEq, Page.result.injEq] at h
      obtain ⟨rfl, rfl, rfl, _⟩ := h
      exact ⟨st, ss, rfl⟩

/-- What has happened when the result page is shown. -/
theorem finalizeView_result {x : Ext} {op : Option String} {args : Obj} {a : App} {ui tok idt : Val} {eps : Obj}
    {chk : Option (Val × Val)} {lo : String} (h : (finalizeView x op args a).1 = .ok (.result ui tok idt eps chk lo)) :
    ∃ key c k iss st ss, getRp a.rph op = .ok key ∧ Dict.get? a.rph.issuer2rp key = some c ∧
      Dict.get? args "state" = some (.str k) ∧ getIss c.db k = .ok (.str iss) ∧
      (finalize x iss args [] a.rph).1 = .ok (.done ui st tok idt ss) ∧
      Dict.get? (finalizeView x op args a).2.session "state" = some (.str k) := by
  unfold finalizeView at h ⊢
  rw [Py.read_bind_run] at h ⊢
  cases hg : getRp a.rph op with
  | error p =>
    rw [hg] at h
    exfalso
    unfold getRp at hg
    have hp : ∃ v n, p = .text v n := by
      repeat' split at hg
      all_goals first | cases hg | skip
      all_goals exact ⟨_, _, rfl⟩
    obtain ⟨v, n, rfl⟩ := hp
    cases h
  | ok key =>
    rw [hg] at h
    dsimp only at h ⊢
    cases hc : Dict.get? a.rph.issuer2rp key with
    | none => rw [hc] at h; cases h
    | some c =>
      rw [hc] at h
      dsimp only at h ⊢
      cases hs : Dict.get? args "state" with
      | none => rw [hs] at h; cases h
      | some v =>
        rw [hs] at h
        change ((if Util.truthyO (some v) then _ else _ : Py App Page) _).1 = _ at h
        show ∃ key' c' k iss st ss, _ ∧ _ ∧ _ ∧ _ ∧ _ ∧ Dict.get? ((if Util.truthyO (some v) then _ else _ : Py App Page) _).2.session "state" = _
        cases ht : Util.truthyO (some v) with
        | false => rw [ht, if_neg (by decide)] at h; cases h
        | true =>
          rw [ht, if_pos rfl] at h
          rw [if_pos rfl]
          cases v with
          | str k =>
            rw [Py.bind_ok (x := Py.lift (dbKey ((some (Val.str k)).getD .null))) (a := k) rfl] at h ⊢
            cases hi : getIss c.db k with
            | error e => rw [hi] at h; cases h
            | ok w =>
              rw [hi] at h
              cases w with
              | str iss =>
                rw [Py.bind_ok (x := Py.lift (.ok (Val.str iss))) (a := .str iss) rfl] at h ⊢
                change (finishLogin x key iss args _).1 = _ at h
                show ∃ key' c' k iss st ss, _ ∧ _ ∧ _ ∧ _ ∧ _ ∧ Dict.get? (finishLogin x key _ args _).2.session "state" = _
                unfold finishLogin at h ⊢
                dsimp only at h ⊢
                cases hf : finalize x iss args [] a.rph with
                | mk r h' =>
                  rw [hf] at h
                  cases r with
                  | error e =>
                    dsimp only at h
                    split at h <;> cases h
                  | ok f =>
                    dsimp only at h ⊢
                    cases hk : Dict.get? h'.issuer2rp key with
                    | none => rw [hk] at h; cases h
                    | some c' =>
                      rw [hk] at h
                      obtain ⟨st, ss, rfl⟩ := resultPage_ok h
                      refine ⟨key, c, k, iss, st, ss, rfl, hc, rfl, hi, by rw [hf], ?_⟩
                      simp [Dict.get?_set]
              | _ => cases h
          | _ => cases h


/-- A client that has a session is the one the `begin` that drew its session value was for. -/
theorem session_owner {K : String → Prop} (hK : KeySpace K) {h0 : Handler} (hnew : NewHandler h0)
    {before after : List (Ext × Call)} {y : Ext} {name user : String} {req b' : Obj}
    (hin : ∀ xc ∈ before ++ (y, .begin name user req b') :: after, InSpace K xc)
    (hother : ∀ xc ∈ before ++ after, drawn xc ≠ some (y.rnd "init_state"))
    {i : String} {db : DB} {v : Val}
    (hcs : Dict.get? (stores (run (before ++ (y, .begin name user req b') :: after) h0)) i = some db)
    (hst : getIss db (y.rnd "init_state") = .ok v) :
    (clientSetup y name user b' (run before h0)).1 = .ok i := by
  have hk := session_in_space hK hnew hin hcs hst
  have hin1 : ∀ xc ∈ before, NotDrawing K (y.rnd "init_state") xc := fun xc hx =>
    elsewhere_of (hin xc (List.mem_append.2 (Or.inl hx))) (hother xc (List.mem_append.2 (Or.inl hx)))
  have hin2 : ∀ xc ∈ after, NotDrawing K (y.rnd "init_state") xc := fun xc hx =>
    elsewhere_of (hin xc (List.mem_append.2 (Or.inr (List.mem_cons_of_mem _ hx)))) (hother xc (List.mem_append.2 (Or.inr hx)))
  have w0 : Whence K (y.rnd "init_state") (fun _ _ => False) (run before h0) :=
    whence_run hK hk before (Whence.new hnew.empty hnew.plain) hin1
  have w1 := whence_begin hK (issId := name) (user := user) (req := req) (b := b') hk w0
  have w2 := whence_run hK hk after w1 hin2
  have hrun : run (before ++ (y, .begin name user req b') :: after) h0 = run after (begin_ y name user req b' (run before h0)).2 := by
    rw [run_concat]; rfl
  rw [hrun] at hcs
  exact (w2.whence i db v hcs hst).1

/-- The session value of the response is that of a login begun for the client `key` of the callback, so that client and issuer of
the session agree. -/
theorem callback_owner {K : String → Prop} (hK : KeySpace K) {h0 : Handler} (hnew : NewHandler h0)
    {calls : List (Ext × Call)} (hin : ∀ xc ∈ calls, InSpace K xc) (hdist : (calls.filterMap drawn).Nodup)
    {i j : String} {db db' : DB} {v v' : Val} {k : String}
    (h1 : Dict.get? (stores (run calls h0)) i = some db) (h2 : getIss db k = .ok v)
    (h3 : Dict.get? (stores (run calls h0)) j = some db') (h4 : getIss db' k = .ok v') : i = j := by
  obtain ⟨before, y, name, user, req, b', after, rfl, rfl, hbefore⟩ := find_drawn (session_drawn hK hnew hin h1 h2)
  have hafter := not_again (k := y.rnd "init_state") (y := (y, .begin name user req b')) (by simp [drawn]) hdist
  have hother : ∀ xc ∈ before ++ after, drawn xc ≠ some (y.rnd "init_state") := by
    intro xc hx
    rcases List.mem_append.1 hx with hx | hx
    · exact hbefore xc hx
    · exact hafter xc hx
  have e1 := session_owner hK hnew hin hother h1 h2
  have e2 := session_owner hK hnew hin hother h3 h4
  rw [e1] at e2
  cases e2
  rfl

theorem opByUri_some {uri k : String} : ∀ {l : Dict Client}, opByUri uri l = some k →
    ∃ c, (k, c) ∈ l ∧ (uri ∈ c.ctx.redirectUris ∨ uri ∈ c.ctx.postLogoutRedirectUris)
  | [], h => by cases h
  | (k', c) :: l, h => by
    unfold opByUri at h
    split at h
    · next hu =>
      cases h
      exact ⟨c, List.mem_cons_self, hu⟩
    · obtain ⟨c', hm, hu⟩ := opByUri_some h
      exact ⟨c', List.mem_cons_of_mem _ hm, hu⟩


theorem doResponse_dict {x : Ext} (hk : KeepsState x) {ctx : Ctx} {o m : Obj} {f : String}
    (h : doResponse x ctx .authorization (.dict o) f = .ok m) : Dict.get? m "state" = Dict.get? o "state" := by
  unfold doResponse at h
  split at h
  · next h1 => cases h; exact hk.parse _ _ _ _ h1
  · split at h
    · split at h
      · next h1 => cases h; exact hk.parse _ _ _ _ h1
      · cases h
    · cases h

theorem parseInfo_dict {x : Ext} (hk : KeepsState x) {ctx : Ctx} {o m : Obj} {f : String}
    (h : parseInfo x ctx .authorization (.dict o) f = .ok m) : Dict.get? m "state" = Dict.get? o "state" := by
  unfold parseInfo at h
  split at h
  · cases h
  · split at h
    · cases h
    · exact doResponse_dict hk h

theorem authorizationPostParse_state {db : DB} {v o : Obj} {s : String} (h : authorizationPostParse db v s = .ok o) :
    Dict.get? o "state" = Dict.get? v "state" := by
  unfold authorizationPostParse at h
  split at h
  · cases h
  · next r hr =>
    split at h
    · cases h
    · cases h
      unfold addScope at hr
      split at hr
      · cases hr; rfl
      · split at hr
        · cases hr
        · split at hr
          · cases hr
            exact Dict.get?_set_ne _ _ (by decide)
          · cases hr; rfl

/-- A login that is finished is that of the `state` in the response. -/
theorem finalize_state {x : Ext} (hkeep : KeepsState x) {issuer : String} {response b : Obj} {h : Handler}
    {info st tok idt ss : Val} (hr : (finalize x issuer response b h).1 = .ok (.done info st tok idt ss)) :
    Dict.get? response "state" = some st := by
  cases hc : Dict.get? h.issuer2rp issuer with
  | none =>
    unfold finalize at hr
    rw [onClient_unknown hc] at hr; cases hr
  | some c =>
  unfold finalize at hr
  rw [fst_onClient hc] at hr
  rcases finalizeAuth_cases x issuer response c with ⟨e, he⟩ | ⟨resp, hp, _, hcase⟩
  · rw [finalizeClient_error he] at hr; cases hr
  · rcases hcase with ⟨he, hf⟩ | ⟨he, k, sess, resp', h1, h2, h3, h4, h5⟩
    · rw [finalizeClient_isError hf he] at hr
      simp only at hr
      split at hr
      · injection hr with hr; cases hr
      · cases hr
    · have hst : Dict.get? resp' "state" = some (.str k) := by rw [withExpiry_get h4 (by decide)]; exact h1
      have herr : Msg.isError resp' = false := by rw [isError_withExpiry h4]; exact he
      have hrun : finalizeClient x issuer response b c = finalizeTokens x resp' k b
          { c with db := Dict.set c.db k (.doc (Dict.set sess "auth_response" (.obj resp'))) } := by
        unfold finalizeClient
        rw [Py.bind_ok h5, Py.lift_bind_ok (Dict.getItem_eq_ok.2 hst), if_neg (by rw [herr]; decide),
          Py.lift_bind_ok (show dbKey (.str k) = .ok k from rfl)]
      rw [hrun] at hr
      generalize hc1 : ({ c with db := Dict.set c.db k (.doc (Dict.set sess "auth_response" (.obj resp'))) } : Client) = c1 at hr
      rcases hfin : finalizeTokens x resp' k b c1 with ⟨r, c'⟩
      rw [hfin] at hr
      simp only at hr
      subst hr
      unfold finalizeTokens at hfin
      obtain ⟨t, c2, g1, g2⟩ := Py.bind_eq_ok.1 hfin
      obtain ⟨i, c3, g3, g4⟩ := Py.bind_eq_ok.1 g2
      obtain ⟨u1, c4, g5, g6⟩ := Py.bind_eq_ok.1 g4
      obtain ⟨u2, c5, g7, g8⟩ := Py.bind_eq_ok.1 g6
      simp only [Py.pure_run, Prod.mk.injEq, Except.ok.injEq, Final.done.injEq] at g8
      obtain ⟨⟨rfl, rfl, rfl, rfl, rfl⟩, rfl⟩ := g8
      rcases parseResponse_ok hp with ⟨_, s, hs, _⟩ | ⟨_, parsed, p1, p2⟩
      · cases hs
      · rw [← h1]
        rcases p2 with ⟨p3, p4, _⟩ | ⟨_, v, o, p3, p4, _, p5⟩
        · cases p4
          exact (parseInfo_dict hkeep p1).symm
        · injection p5 with p5
          subst p5
          rw [← parseInfo_dict hkeep p1, ← hkeep.verify _ _ _ _ p3]
          have : authorizationPostParse c.db v "" = .ok resp := by
            have := congrArg Prod.fst p4
            simpa [postParse, ask] using this
          rw [authorizationPostParse_state this]

/-- What has happened when the result page is shown. -/
theorem login_finished {K : String → Prop} (hK : KeySpace K) {h0 : Handler} (hnew : NewHandler h0) {sess : Nat → WebApp.Session}
    {reqs : List (Ext × Nat × Request)} (hin : ∀ q ∈ reqs, ∀ k, siteDrawn q = some k → K k)
    (hdist : (reqs.filterMap siteDrawn).Nodup) {x : Ext} (hkeep : KeepsState x) {session : WebApp.Session} {op : Option String} {args : Obj}
    {ui tok idt : Val} {eps : Obj} {chk : Option (Val × Val)} {lo : String}
    (hr : (finalizeView x op args { session := session, rph := (serveAll reqs { sessions := sess, rph := h0 }).rph }).1 =
      .ok (.result ui tok idt eps chk lo)) :
    ∃ k iss lb y br form la, Dict.get? args "state" = some (.str k) ∧
      getRp (serveAll reqs { sessions := sess, rph := h0 }).rph op = .ok iss ∧
      BegunAt { sessions := sess, rph := h0 } reqs k iss idt lb y br form la := by
  obtain ⟨key, c, k, iss, st, ss, f1, f2, f3, f4, f5, _⟩ := finalizeView_result hr
  rw [C107_history] at f1 f2 f5 ⊢
  have hinC := siteCalls_in reqs { sessions := sess, rph := h0 } hin
  have hdistC : ((siteCalls reqs { sessions := sess, rph := h0 }).filterMap drawn).Nodup := by rw [siteCalls_drawn]; exact hdist
  have hst := finalize_state hkeep f5
  rw [f3] at hst
  cases hst
  obtain ⟨c', k', q1, q2, q3, _⟩ := finalize_nonce hK f5
  cases q2
  obtain rfl : key = iss :=
    callback_owner hK hnew hinC hdistC (by rw [get?_stores]; exact congrArg (Option.map _) f2) f4
      (by rw [get?_stores]; exact congrArg (Option.map _) q1) q3
  obtain ⟨k', before, y, name, user, req, b', after, e1, e2, e3, e4, e5, e6⟩ :=
    C105_login_was_begun hK h0 hnew _ hinC hdistC x key args [] ui _ tok idt ss f5
  cases e1
  obtain ⟨lb, br, form, la, s1, s2, s3, rfl, rfl⟩ := siteCalls_split reqs _ e2
  refine ⟨k, key, lb, y, br, form, la, f3, f1, s1, e3, ?_, name, user, s3, ?_, ?_⟩
  · subst s1
    rw [List.filterMap_append, List.filterMap_cons] at hdist
    have hd : siteDrawn (y, br, .rp form) = some k := by
      rw [show siteDrawn (y, br, .rp form) = (loginFor form).map (fun _ => y.rnd "init_state") from rfl, s3, ← e3]; rfl
    rw [hd] at hdist
    intro q hq hqk
    obtain ⟨_, d2, d3⟩ := List.nodup_append.1 hdist
    rcases List.mem_append.1 hq with hq | hq
    · exact d3 k (List.mem_filterMap.2 ⟨q, hq, hqk⟩) k List.mem_cons_self rfl
    · exact (List.nodup_cons.1 d2).1 (List.mem_filterMap.2 ⟨q, hq, hqk⟩)
  · rw [C107_history, s2]; exact e5
  · rw [C107_history, s2]; exact e6

/-- **C107** (mix-up).  After any history of requests at a new site, with session values never drawn twice: if the callback of a
provider shows a browser that it is logged in, then the address it was called at is a configured one of a client of the handler;
the `state` it was given was drawn for exactly one earlier request to begin a login, which was for the provider of just that
client; and the ID Token shown, if any, has the nonce drawn for that request.  A response at the address of one provider never
finishes a login begun with another. -/
theorem C107_login {K : String → Prop} (hK : KeySpace K) (h0 : Handler) (hnew : NewHandler h0) (sess : Nat → WebApp.Session)
    (reqs : List (Ext × Nat × Request)) (hin : ∀ q ∈ reqs, ∀ k, siteDrawn q = some k → K k)
    (hdist : (reqs.filterMap siteDrawn).Nodup) (x : Ext) (hkeep : KeepsState x) (browser : Nat) (url : String) (args : Obj)
    (ui tok idt : Val) (eps : Obj) (chk : Option (Val × Val)) (lo : String)
    (hr : (serve x browser (.authzCb url args) (serveAll reqs { sessions := sess, rph := h0 })).1 =
      .ok (.result ui tok idt eps chk lo)) :
    ∃ k iss key c lb y br form la, Dict.get? args "state" = some (.str k) ∧
      (key, c) ∈ (serveAll reqs { sessions := sess, rph := h0 }).rph.issuer2rp ∧
      (splitQuery url ∈ c.ctx.redirectUris ∨ splitQuery url ∈ c.ctx.postLogoutRedirectUris) ∧
      iss = (Dict.get? (serveAll reqs { sessions := sess, rph := h0 }).rph.hash2issuer key).getD key ∧
      BegunAt { sessions := sess, rph := h0 } reqs k iss idt lb y br form la := by
  obtain ⟨k, iss, lb, y, br, form, la, e1, e2, e3⟩ := login_finished hK hnew hin hdist hkeep (session := (serveAll reqs { sessions := sess, rph := h0 }).sessions browser) hr
  generalize hop : opByUri (splitQuery url) (serveAll reqs { sessions := sess, rph := h0 }).rph.issuer2rp = op at e2
  cases op with
  | none => cases e2
  | some key =>
    obtain ⟨c, hm, hu⟩ := opByUri_some hop
    refine ⟨k, iss, key, c, lb, y, br, form, la, e1, hm, hu, ?_, e3⟩
    unfold getRp at e2
    dsimp only at e2
    split at e2
    · next i hi =>
      split at e2
      · cases e2; rw [hi]; rfl
      · cases e2
    · next hi =>
      split at e2
      · cases e2; rw [hi]; rfl
      · cases e2

/-- **C107** (implicit and hybrid flows).  The same for what the browser posts of the fragment of an address: the provider is the
one named with it. -/
theorem C107_login_fragment {K : String → Prop} (hK : KeySpace K) (h0 : Handler) (hnew : NewHandler h0) (sess : Nat → WebApp.Session)
    (reqs : List (Ext × Nat × Request)) (hin : ∀ q ∈ reqs, ∀ k, siteDrawn q = some k → K k)
    (hdist : (reqs.filterMap siteDrawn).Nodup) (x : Ext) (hkeep : KeepsState x) (browser : Nat)
    (fragment : Option (List (String × String))) (op : Option String)
    (ui tok idt : Val) (eps : Obj) (chk : Option (Val × Val)) (lo : String)
    (hr : (serve x browser (.repostFragment fragment op) (serveAll reqs { sessions := sess, rph := h0 })).1 =
      .ok (.result ui tok idt eps chk lo)) :
    ∃ l name k iss lb y br form la, fragment = some l ∧ op = some name ∧ Dict.get? (compact (parseQs l)) "state" = some (.str k) ∧
      iss = (Dict.get? (serveAll reqs { sessions := sess, rph := h0 }).rph.hash2issuer name).getD name ∧
      BegunAt { sessions := sess, rph := h0 } reqs k iss idt lb y br form la := by
  cases fragment with
  | none => cases hr
  | some l =>
    cases op with
    | none => cases hr
    | some name =>
      obtain ⟨k, iss, lb, y, br, form, la, e1, e2, e3⟩ := login_finished hK hnew hin hdist hkeep
        (session := (serveAll reqs { sessions := sess, rph := h0 }).sessions browser) (op := some name) hr
      refine ⟨l, name, k, iss, lb, y, br, form, la, rfl, rfl, e1, ?_, e3⟩
      unfold getRp at e2
      dsimp only at e2
      split at e2
      · next i hi =>
        split at e2
        · cases e2; rw [hi]; rfl
        · cases e2
      · next hi =>
        split at e2
        · cases e2; rw [hi]; rfl
        · cases e2

/-! ## Generated callback addresses -/

theorem opByUri_none {uri : String} : ∀ {l : Dict Client},
    (∀ p ∈ l, uri ∉ p.2.ctx.redirectUris ∧ uri ∉ p.2.ctx.postLogoutRedirectUris) → opByUri uri l = none
  | [], _ => rfl
  | (k, c) :: l, h => by
    have h1 := h (k, c) List.mem_cons_self
    unfold opByUri
    rw [if_neg (by rintro (e | e); exact h1.1 e; exact h1.2 e)]
    exact opByUri_none fun p hp => h p (List.mem_cons_of_mem _ hp)

/-- **C107** is violated for addresses that are not in the configuration: whatever comes to one is answered as a request for an
unknown provider, and nothing is done with it. -/
theorem C107_unlisted_violated (x : Ext) (browser : Nat) (url : String) (args : Obj) (s : Site)
    (h : ∀ p ∈ s.rph.issuer2rp, splitQuery url ∉ p.2.ctx.redirectUris ∧ splitQuery url ∉ p.2.ctx.postLogoutRedirectUris) :
    (serve x browser (.authzCb url args) s).1 = .ok (.text (.str "Unknown OP identifier") 400) ∧
    (serve x browser (.authzCb url args) s).2.rph = s.rph ∧
    ∀ b, (serve x browser (.authzCb url args) s).2.sessions b = s.sessions b := by
  have hv : view x (.authzCb url args) { session := s.sessions browser, rph := s.rph } =
      (.ok (.text (.str "Unknown OP identifier") 400), { session := s.sessions browser, rph := s.rph }) := by
    show authzCb x url args _ = _
    unfold authzCb
    rw [Py.read_bind_run, opByUri_none h]
    rfl
  unfold serve
  rw [hv]
  refine ⟨rfl, rfl, fun b => ?_⟩
  dsimp only
  split
  · next e => rw [e]
  · rfl

/-! ## Whose login it is -/

/-- The session value a request names as that of the login it reports. -/
def named : Request → Option Val
  | .authzCb _ args => Dict.get? args "state"
  | .repostFragment (some l) (some _) => Dict.get? (compact (parseQs l)) "state"
  | _ => none

theorem finalizeView_session {x : Ext} {op : Option String} {args : Obj} {a : App} {k : String}
    (h : Dict.get? (finalizeView x op args a).2.session "state" = some (.str k)) :
    Dict.get? a.session "state" = some (.str k) ∨ Dict.get? args "state" = some (.str k) := by
  unfold finalizeView at h
  rw [Py.read_bind_run] at h
  cases hg : getRp a.rph op with
  | error p => rw [hg] at h; exact .inl h
  | ok key =>
    rw [hg] at h
    dsimp only at h
    cases hc : Dict.get? a.rph.issuer2rp key with
    | none => rw [hc] at h; exact .inl h
    | some c =>
      rw [hc] at h
      right
      dsimp only at h
      generalize hv : Dict.get? args "state" = v at h ⊢
      have hst : ∀ (m : Dict Val), Dict.get? (Dict.set m "state" (v.getD .null)) "state" = some (.str k) → v = some (.str k) := by
        intro m e
        rw [Dict.get?_set_self] at e
        cases v with
        | none => cases e
        | some w => exact e
      have hst2 : ∀ (m : Dict Val) w, Dict.get? (Dict.set (Dict.set m "state" (v.getD .null)) "session_state" w) "state" = some (.str k) →
          v = some (.str k) := by
        intro m w e
        rw [Dict.get?_set_ne _ _ (by decide)] at e
        exact hst m e
      have hfl : ∀ iss (b : App), (finishLogin x key iss args b).2.session = b.session := by
        intro iss b
        unfold finishLogin
        cases hb : finalize x iss args [] b.rph with
        | mk r h' =>
          cases r with
          | error e => dsimp only; split <;> rfl
          | ok f =>
            dsimp only
            cases Dict.get? h'.issuer2rp key <;> rfl
      change Dict.get? ((if Util.truthyO v then _ else _ : Py App Page) _).2.session "state" = _ at h
      split at h
      · cases hk : dbKey (v.getD .null) with
        | error e =>
          rw [hk] at h
          exact hst _ h
        | ok k' =>
          rw [hk] at h
          rw [Py.bind_ok (x := Py.lift (.ok k')) (a := k') rfl] at h
          cases hi : getIss c.db k' with
          | error e => rw [hi] at h; exact hst _ h
          | ok w =>
            rw [hi] at h
            rw [Py.bind_ok (x := Py.lift (.ok w)) (a := w) rfl] at h
            change Dict.get? ((Py.lift (dbKey w) >>= _ : Py App Page) _).2.session "state" = _ at h
            cases hw : dbKey w with
            | error e => rw [hw] at h; exact hst2 _ _ h
            | ok i =>
              rw [hw] at h
              rw [Py.bind_ok (x := Py.lift (.ok i)) (a := i) rfl, hfl] at h
              exact hst2 _ _ h
      · exact hst _ h

theorem startLogin_session {x : Ext} {iss uid : String} {a : App} :
    Dict.get? (startLogin x iss uid a).2.session "state" = Dict.get? a.session "state" := by
  unfold startLogin
  split
  · rfl
  · show Dict.get? (beginPage x iss uid { a with session := Dict.set a.session "op_identifier" (.str iss) }).2.session "state" = _
    unfold beginPage
    dsimp only
    cases hb : begin_ x iss uid REQ_ARGS [] a.rph with
    | mk r h => cases r <;> exact Dict.get?_set_ne _ _ (by decide)

theorem view_session {x : Ext} {r : Request} {a : App} {k : String}
    (h : Dict.get? (view x r a).2.session "state" = some (.str k)) :
    Dict.get? a.session "state" = some (.str k) ∨ named r = some (.str k) := by
  cases r with
  | index => exact .inl h
  | rp form =>
    left
    change Dict.get? (rp x form a).2.session "state" = _ at h
    have hb : ∀ {k : String}, Dict.get? ((pure badRequest : Py App Page) a).2.session "state" = some (.str k) →
        Dict.get? a.session "state" = some (.str k) := fun h => h
    unfold rp at h
    cases h1 : Dict.get? form "dyn_iss" with
    | none => rw [h1] at h; exact hb h
    | some d =>
      rw [h1] at h
      dsimp only at h
      by_cases e : d = ""
      · rw [if_neg (by simp [e])] at h
        cases h2 : Dict.get? form "static_iss" with
        | none => rw [h2] at h; exact hb h
        | some st =>
          rw [h2] at h
          dsimp only at h
          by_cases e2 : st = ""
          · rw [if_neg (by simp [e2])] at h
            cases h3 : Dict.get? form "uid" with
            | none => rw [h3] at h; exact hb h
            | some u => rw [h3] at h; rw [startLogin_session] at h; exact h
          · rw [if_pos e2, startLogin_session] at h; exact h
      · rw [if_pos e, startLogin_session] at h; exact h
  | authzCb url args =>
    change Dict.get? (authzCb x url args a).2.session "state" = _ at h
    unfold authzCb at h
    rw [Py.read_bind_run] at h
    exact finalizeView_session h
  | repostFragment f op =>
    cases f with
    | none => exact .inl h
    | some l =>
      cases op with
      | none => exact .inl h
      | some op => exact finalizeView_session h
  | authzImCb => exact .inl h
  | sessionIframe => left; rw [← sessionIframe_same a]; exact h
  | sessionChange => left; rw [← sessionChange_same a]; exact h
  | sessionLogout url => left; rw [← sessionLogout_same url a]; exact h
  | logout =>
    left
    change Dict.get? (logoutView x a).2.session "state" = _ at h
    rw [logoutView_app] at h
    exact h
  | bcLogout op form body =>
    left
    change Dict.get? (bcLogout x op form body a).2.session "state" = _ at h
    rw [bcLogout_app] at h
    exact h
  | fcLogout op args => left; rw [← fcLogout_same op args a]; exact h

/-- What a browser's session names was named by a callback of that browser. -/
theorem session_named {browser : Nat} {k : String} : ∀ (reqs : List (Ext × Nat × Request)) (s : Site),
    Dict.get? ((serveAll reqs s).sessions browser) "state" = some (.str k) →
    Dict.get? (s.sessions browser) "state" = some (.str k) ∨ ∃ y r, (y, browser, r) ∈ reqs ∧ named r = some (.str k)
  | [], s, h => .inl h
  | (y, b, r) :: l, s, h => by
    rcases session_named l (serve y b r s).2 h with h1 | ⟨y', r', hm, hn⟩
    · by_cases e : browser = b
      · subst e
        have h2 : Dict.get? (view y r { session := s.sessions browser, rph := s.rph }).2.session "state" = some (.str k) := by
          have : (serve y browser r s).2.sessions browser = (view y r { session := s.sessions browser, rph := s.rph }).2.session := by
            unfold serve
            simp
          rw [← this]; exact h1
        rcases view_session h2 with h3 | h3
        · exact .inl h3
        · exact .inr ⟨y, r, List.mem_cons_self, h3⟩
      · left
        have : (serve y b r s).2.sessions browser = s.sessions browser := by
          unfold serve
          simp [e]
        rw [← this]; exact h1
    · exact .inr ⟨y', r', List.mem_cons_of_mem _ hm, hn⟩

/-- **C108** (partial).  A browser that is sent to the provider to log out is sent there for a session that a callback of that same
browser named before.  Missing: that the browser was the one that began that login; see `C108_login_violated` and
`C108_logout_violated`. -/
theorem C108_logout_partial (h0 : Handler) (reqs : List (Ext × Nat × Request)) (x : Ext) (browser : Nat) (url : String)
    (hr : (serve x browser .logout (serveAll reqs { rph := h0 })).1 = .ok (.redirect url)) :
    ∃ k y r r', (y, browser, r) ∈ reqs ∧ named r = some (.str k) ∧
      (onSession k (logout x k "") (serveAll reqs { rph := h0 }).rph).1 = .ok r' ∧ url = r'.url := by
  change (logoutView x { session := (serveAll reqs { rph := h0 }).sessions browser, rph := (serveAll reqs { rph := h0 }).rph }).1 = _ at hr
  unfold logoutView at hr
  generalize ha : ({ session := (serveAll reqs { rph := h0 }).sessions browser, rph := (serveAll reqs { rph := h0 }).rph } : App) = a at hr
  cases hv : Dict.get? a.session "state" with
  | none => rw [Py.bind_error (s' := a) (e := .keyError) (by unfold getSession Dict.getItem; rw [hv])] at hr; cases hr
  | some v =>
    rw [Py.bind_ok (s' := a) (a := v) (by unfold getSession Dict.getItem; rw [hv])] at hr
    cases v with
    | str k =>
      rw [Py.bind_ok (x := Py.lift (dbKey (.str k))) (s' := a) (a := k) rfl] at hr
      subst ha
      rcases session_named reqs { rph := h0 } hv with h1 | ⟨y, r, hm, hn⟩
      · cases h1
      · have hrun : ∀ r, (onSession k (logout x k "") (serveAll reqs { rph := h0 }).rph).1 = r →
            onRph (onSession k (logout x k "")) { session := (serveAll reqs { rph := h0 }).sessions browser, rph := (serveAll reqs { rph := h0 }).rph } =
              (r, { session := (serveAll reqs { rph := h0 }).sessions browser, rph := (onSession k (logout x k "") (serveAll reqs { rph := h0 }).rph).2 }) := by
          intro r hl
          unfold onRph
          rw [← hl]
        cases hl : (onSession k (logout x k "") (serveAll reqs { rph := h0 }).rph).1 with
        | error e =>
          rw [Py.bind_error (hrun _ hl)] at hr
          cases hr
        | ok r' =>
          rw [Py.bind_ok (hrun _ hl)] at hr
          cases hr
          exact ⟨k, y, r, r', hm, hn, hl, rfl⟩
    | _ => cases hr

/-! ## Logout by the provider -/

/-- A logout the provider asks for, in either way. -/
inductive ProviderLogout : Request → Prop
  | back (op : String) (form : Bool) (body : String) : ProviderLogout (.bcLogout op form body)
  | front (op : String) (args : Dict String) : ProviderLogout (.fcLogout op args)

theorem notDone {v : Val} {n : Nat} (h : (Except.ok (Page.text v n) : Except Exc Page) = .ok (.text (.str "OK") 200)) (hn : n ≠ 200) :
    False := by
  injection h with h
  injection h with _ h
  exact hn h

theorem set_kept {α : Type} {k : String} {v : α} : ∀ {d : Dict α}, Dict.get? d k = some v → Dict.set d k v = d
  | [], h => by cases h
  | (k', v') :: d, h => by
    rw [Dict.get?_cons] at h
    unfold Dict.set
    by_cases e : k' = k
    · rw [if_pos e] at h
      injection h with h
      simp [e, h]
    · rw [if_neg e] at h
      simp [e, set_kept h]

theorem stores_ask {α : Type} {key : String} {f : Client → Except Exc α} {h : Handler} : stores (onClient key (ask f) h).2 = stores h := by
  unfold onClient
  cases hc : Dict.get? h.issuer2rp key with
  | none => rfl
  | some c =>
    dsimp only
    rw [stores_share]
    show (Dict.set h.issuer2rp key c).map _ = _
    rw [set_kept hc]
    rfl

/-- What a logout request of a provider does: nothing, and it is not answered with OK. -/
theorem providerLogout_never (x : Ext) (browser : Nat) (r : Request) (hr : ProviderLogout r) (s : Site) :
    (serve x browser r s).1 ≠ .ok (.text (.str "OK") 200) ∧ stores (serve x browser r s).2.rph = stores s.rph ∧
    (∀ b, (serve x browser r s).2.sessions b = s.sessions b) ∧
    ∀ op body, r = .bcLogout op true body → (serve x browser r s).1 = .ok (.text (.str "System error!") 400) := by
  have key : ∀ (out : Except Exc Page × App), view x r { session := s.sessions browser, rph := s.rph } = out →
      out.2.session = s.sessions browser → ∀ b, (serve x browser r s).2.sessions b = s.sessions b := by
    intro out ho hs b
    unfold serve
    rw [ho]
    dsimp only
    split
    · next e => rw [e, hs]
    · rfl
  cases hr with
  | back op form body =>
    refine ⟨?_, ?_, key _ rfl ?_, ?_⟩
    · show (bcLogout x op form body _).1 ≠ _
      unfold bcLogout
      rw [Py.read_bind_run]
      dsimp only
      cases getRp s.rph (some op) with
      | error p => intro h; exact notDone h (by decide)
      | ok k =>
        show (bcLogoutOf x k _ _).1 ≠ _
        unfold bcLogoutOf
        split
        · intro h; exact notDone h (by decide)
        · intro h; cases h
    · show stores (bcLogout x op form body _).2.rph = _
      rw [bcLogout_app]
      dsimp only
      split
      · exact stores_ask
      · rfl
    · show (bcLogout x op form body _).2.session = _
      rw [bcLogout_app]
    · intro op' body' e
      cases e
      show (bcLogout x op true body _).1 = _
      unfold bcLogout
      rw [Py.read_bind_run]
      dsimp only
      cases getRp s.rph (some op) with
      | error p => rfl
      | ok k =>
        show (bcLogoutOf x k "" _).1 = _
        have he : ∃ e, (onClient k (ask (backchannelLogout x (.text ""))) s.rph).1 = .error e := by
          unfold onClient
          cases hc : Dict.get? s.rph.issuer2rp k with
          | none => exact ⟨_, rfl⟩
          | some c => exact ⟨.missingRequiredAttribute, by simp [ask, backchannelLogout]⟩
        obtain ⟨e, he⟩ := he
        unfold bcLogoutOf
        split
        · rfl
        · next hh => rw [hh] at he; cases he
  | front op args =>
    refine ⟨?_, ?_, key _ rfl ?_, ?_⟩
    · show (fcLogout op args _).1 ≠ _
      unfold fcLogout
      cases Dict.get? args "sid" with
      | none => intro h; exact notDone h (by decide)
      | some sid =>
        cases Dict.get? args "iss" with
        | none => intro h; exact notDone h (by decide)
        | some iss =>
          dsimp only
          intro h
          obtain ⟨c, a, _, h⟩ := Py.bind_eq_ok.1 (Prod.ext h rfl)
          by_cases e : iss = c.ctx.issuer
          · rw [if_neg (by simp [e])] at h
            cases congrArg Prod.fst h
          · rw [if_pos e] at h
            exact notDone (congrArg Prod.fst h) (by decide)
    · show stores (fcLogout op args _).2.rph = _
      rw [fcLogout_same]
    · show (fcLogout op args _).2.session = _
      rw [fcLogout_same]
    · intro op' body' e
      cases e

/-- **C109** is violated: whatever logout a provider asks for, and whether the library verifies it or not, the answer is never that
it was done, no session of a browser and no session of a client changes; a form, as the specification of the back-channel has it,
is not even looked at. -/
theorem C109_provider_logout_violated (x : Ext) (browser : Nat) (r : Request) (hr : ProviderLogout r) (s : Site) :
    (serve x browser r s).1 ≠ .ok (.text (.str "OK") 200) ∧ stores (serve x browser r s).2.rph = stores s.rph ∧
    (∀ b, (serve x browser r s).2.sessions b = s.sessions b) ∧
    ∀ op body, r = .bcLogout op true body → (serve x browser r s).1 = .ok (.text (.str "System error!") 400) :=
  providerLogout_never x browser r hr s

/-- A logout request that must not be obeyed: at the back channel, no known provider or the library refuses it; at the front channel,
no session or no issuer is named, or an issuer that is not the one of the client the address stands for. -/
def Unverified (x : Ext) (s : Site) : Request → Prop
  | .bcLogout op form body => ∀ key, getRp s.rph (some op) = .ok key →
      ∃ e, (onClient key (ask (backchannelLogout x (.text (requestData form body)))) s.rph).1 = .error e
  | .fcLogout op args => Dict.get? args "sid" = none ∨ Dict.get? args "iss" = none ∨
      ∃ key c, getRp s.rph (some op) = .ok key ∧ Dict.get? s.rph.issuer2rp key = some c ∧ Dict.get? args "iss" ≠ some c.ctx.issuer
  | _ => False

/-- **C109**, the half that holds: a logout request that is not verified is refused (status 400) and ends no session, neither of a
browser nor of a client. -/
theorem C109_unverified_partial (x : Ext) (browser : Nat) (r : Request) (s : Site) (hu : Unverified x s r) :
    (∃ why, (serve x browser r s).1 = .ok (.text why 400) ∧ why ≠ .str "OK") ∧
    stores (serve x browser r s).2.rph = stores s.rph ∧ ∀ b, (serve x browser r s).2.sessions b = s.sessions b := by
  cases r with
  | bcLogout op form body =>
    obtain ⟨_, h2, h3, _⟩ := providerLogout_never x browser _ (.back op form body) s
    refine ⟨⟨.str "System error!", ?_, by decide⟩, h2, h3⟩
    show (bcLogout x op form body _).1 = _
    unfold bcLogout
    rw [Py.read_bind_run]
    dsimp only
    cases hk : getRp s.rph (some op) with
    | error p => rfl
    | ok k =>
      obtain ⟨e, he⟩ := hu k hk
      show (bcLogoutOf x k _ _).1 = _
      unfold bcLogoutOf
      split
      · rfl
      · next hh => rw [hh] at he; cases he
  | fcLogout op args =>
    obtain ⟨_, h2, h3, _⟩ := providerLogout_never x browser _ (.front op args) s
    refine ⟨?_, h2, h3⟩
    show ∃ why, (fcLogout op args _).1 = .ok (.text why 400) ∧ why ≠ .str "OK"
    unfold fcLogout
    cases h1 : Dict.get? args "sid" with
    | none => exact ⟨_, rfl, by decide⟩
    | some sid =>
      cases h4 : Dict.get? args "iss" with
      | none => exact ⟨_, rfl, by decide⟩
      | some iss =>
        rcases hu with h | h | ⟨key, c, hk, hc, hne⟩
        · rw [h1] at h; cases h
        · rw [h4] at h; cases h
        · refine ⟨.str "Bad request", ?_, by decide⟩
          dsimp only
          have hrun : clientOrFail (some op) { session := s.sessions browser, rph := s.rph } =
              (.ok c, { session := s.sessions browser, rph := s.rph }) := by
            unfold clientOrFail
            dsimp only
            rw [hk]
            dsimp only
            rw [hc]
          rw [Py.bind_ok hrun, if_pos (fun e => hne (by rw [h4, e]))]
          rfl
  | _ => exact hu.elim

/-! ## Runs -/

/-- The form of the start page with an issuer typed in. -/
def typedIn : Dict String := [("dyn_iss", "https://op.example"), ("static_iss", ""), ("uid", "")]

/-- What the provider sends the browser back with. -/
def sentBack : Obj := [("code", .str "c1"), ("state", .str World.s1)]

/-- A browser begins a login. -/
def loginBegun : List (Ext × Nat × Request) := [(World.ext 1000 World.s1 "n1" "n1", 0, .rp typedIn)]

/-- The new site, and the site after that. -/
def newSite : Site := { rph := World.handler }
/-- The site after a login has been begun. -/
def begunSite : Site := serveAll loginBegun newSite

/-- Whom the page shows as logged in. -/
def shownUser : Except Exc Page → Option Val
  | .ok (.result (.obj ui) _ _ _ _ _) => Dict.get? ui "name"
  | _ => none

/-- The status of a page. -/
def statusOf : Except Exc Page → Nat
  | .ok (.text _ n) => n
  | .ok (.redirect _) => 303
  | .ok _ => 200
  | .error _ => 500

/-- The address a browser is sent to. -/
def sentTo : Except Exc Page → String
  | .ok (.redirect u) => u
  | _ => ""

/-- The provider's callback as the browser is sent to it. -/
def atCallback : Request := .authzCb "https://rp.example/cb?code=c1&state=abc" sentBack

theorem keepsState_world (now : Int) (state nonce idNonce : String) : KeepsState (World.ext now state nonce idNonce) where
  parse := by
    intro ctx f o m h
    cases h
    rfl
  verify := by
    intro ctx o kw m h
    change World.check idNonce o = .ok m at h
    unfold World.check at h
    split at h
    · cases h
      exact Dict.get?_set_ne _ _ (by decide)
    · cases h
      rfl

/-- Non-vacuity of C107: a login by the same browser is finished; the provider was asked for what the history asked for; the same
response at an address that is not a configured one, and one with a state nobody began, finish nothing. -/
example :
    NewHandler World.handler ∧ KeepsState (World.ext 1001 "" "" "n1") ∧
    (∀ q ∈ loginBegun, ∀ k, siteDrawn q = some k → Spec.History.Generated k) ∧ (loginBegun.filterMap siteDrawn).Nodup ∧
    siteCalls loginBegun newSite = [(World.ext 1000 World.s1 "n1" "n1", .begin "https://op.example" "" REQ_ARGS [])] ∧
    shownUser (serve (World.ext 1001 "" "" "n1") 0 atCallback begunSite).1 = some (.str "Alice") ∧
    statusOf (serve (World.ext 1001 "" "" "n1") 0 (.authzCb "https://rp.example/other?code=c1" sentBack) begunSite).1 = 400 ∧
    statusOf (serve (World.ext 1001 "" "" "n1") 0 (.authzCb "https://rp.example/cb" [("code", .str "c1"), ("state", .str World.s2)]) begunSite).1 = 500 := by
  refine ⟨newWorld, keepsState_world _ _ _ _, ?_, by decide +kernel, rfl, by decide +kernel, by decide +kernel, by decide +kernel⟩
  intro q hq k hk
  simp only [loginBegun, List.mem_singleton] at hq
  subst hq
  cases hk
  exact gen_s1

/-- A configuration as the example's own for providers that are not known beforehand: no addresses listed. -/
def confUnlisted : ClientConf := { World.conf with config := Dict.del World.conf.config "redirect_uris" }

/-- The site with that configuration. -/
def unlistedSite : Site := { rph := { World.handler with configs := [("", confUnlisted)] } }

/-- The callback address made for the provider. -/
def generatedUri : String := "https://rp.example/authz_cb/h(seedhttps://op.example)"

/-- **C107** is violated with generated addresses: the provider is sent one, the browser comes back to it with the code and the
state, and is told that the provider is not known. -/
theorem C107_generated_violated :
    sentTo (serve (World.ext 1000 World.s1 "n1" "n1") 0 (.rp typedIn) unlistedSite).1 =
      "https://op.example/auth?redirect_uri=" ++ String.ofList (Quote.quotePlus generatedUri) ++
        "&scope=openid&response_type=code&nonce=n1&claims=%7B%7D&state=abcdefghijklmnopqrstuvwxyzABCDE1&client_id=client1" ∧
    statusOf (serve (World.ext 1001 "" "" "n1") 0 (.authzCb (generatedUri ++ "?code=c1") sentBack) (serveAll loginBegun unlistedSite)).1 = 400 := by
  refine ⟨by decide +kernel, by decide +kernel⟩

/-- **C108** is violated: a browser that never began a login is logged in as the user of another's, with the response to it. -/
theorem C108_login_violated :
    (∀ q ∈ loginBegun, q.2.1 ≠ 1) ∧
    shownUser (serve (World.ext 1001 "" "" "n1") 1 atCallback begunSite).1 = some (.str "Alice") := by
  refine ⟨by decide, by decide +kernel⟩

/-- A browser logs in; another one calls the callback with its session value only. -/
def alicesLogin : List (Ext × Nat × Request) := loginBegun ++ [(World.ext 1001 "" "" "n1", 0, atCallback),
  (World.ext 1002 "" "" "n1", 1, .authzCb "https://rp.example/cb" [("state", .str World.s1)])]

/-- **C108** is violated: a browser that never logged in names another's session at the callback, is answered with an error, and is
then sent to the provider to log out, with the other's ID Token as hint. -/
theorem C108_logout_violated :
    statusOf (serve (World.ext 1002 "" "" "n1") 1 (.authzCb "https://rp.example/cb" [("state", .str World.s1)])
      (serveAll (alicesLogin.take 2) newSite)).1 = 500 ∧
    sentTo (serve (World.ext 1003 "" "" "") 1 .logout (serveAll alicesLogin newSite)).1 =
      "https://op.example/logout?id_token_hint=header.payload.signature&state=logout_state-" := by
  refine ⟨by decide +kernel, by decide +kernel⟩

/-- The library verifies a logout token for the session identifier of that login. -/
def logoutAsked : Ext :=
  { World.ext 1003 "" "" "" with logoutReq := fun _ => .ok [("__verified_logout_token", .obj [("sid", .str "sid1")])] }

/-- The site after a login. -/
def loggedInSite : Site := serveAll (alicesLogin.take 2) newSite

/-- Non-vacuity of C109: the library verifies the request and names the session; the provider is answered with status 500, at the
front channel too, and the session is as active as before. -/
example :
    (onClient "https://op.example" (ask (backchannelLogout logoutAsked (.text "logout_token=t"))) loggedInSite.rph).1.toOption =
      some (.raw World.s1) ∧
    statusOf (serve logoutAsked 7 (.bcLogout "https://op.example" false "logout_token=t") loggedInSite).1 = 500 ∧
    statusOf (serve logoutAsked 7 (.bcLogout "https://op.example" true "logout_token=t") loggedInSite).1 = 400 ∧
    statusOf (serve logoutAsked 7 (.fcLogout "https://op.example" [("sid", "sid1"), ("iss", "https://op.example")]) loggedInSite).1 = 500 ∧
    (onSession World.s1 (ask (hasActive logoutAsked World.s1))
      (serve logoutAsked 7 (.bcLogout "https://op.example" false "logout_token=t") loggedInSite).2.rph).1.toOption = some true := by
  refine ⟨by decide +kernel, by decide +kernel, by decide +kernel, by decide +kernel, by decide +kernel⟩

/-- The library does not verify the logout token. -/
def logoutBogus : Ext := { World.ext 1003 "" "" "" with logoutReq := fun _ => .error (.external "MessageException") }

/-- Non-vacuity of `C109_unverified_partial`: a logout token the library refuses, and another provider's logout at the front channel. -/
example : Unverified logoutBogus loggedInSite (.bcLogout "https://op.example" false "logout_token=t") ∧
    Unverified logoutBogus loggedInSite (.fcLogout "https://op.example" [("sid", "sid1"), ("iss", "https://evil.example")]) := by
  have h1 : (getRp loggedInSite.rph (some "https://op.example")).toOption = some "https://op.example" := by decide +kernel
  have h2 : (onClient "https://op.example" (ask (backchannelLogout logoutBogus (.text "logout_token=t"))) loggedInSite.rph).1.toOption =
    none := by decide +kernel
  have h3 : (Dict.get? loggedInSite.rph.issuer2rp "https://op.example").map (fun c => c.ctx.issuer) = some "https://op.example" := by
    decide +kernel
  have hk : getRp loggedInSite.rph (some "https://op.example") = .ok "https://op.example" := by
    cases h : getRp loggedInSite.rph (some "https://op.example") with
    | error e => rw [h] at h1; cases h1
    | ok k => rw [h] at h1; injection h1 with h1; rw [h1]
  constructor
  · intro key h
    rw [hk] at h
    injection h with h
    subst h
    show ∃ e, (onClient "https://op.example" (ask (backchannelLogout logoutBogus (.text "logout_token=t"))) loggedInSite.rph).1 = _
    cases he : (onClient "https://op.example" (ask (backchannelLogout logoutBogus (.text "logout_token=t"))) loggedInSite.rph).1 with
    | error e => exact ⟨e, rfl⟩
    | ok v => rw [he] at h2; cases h2
  · cases hc : Dict.get? loggedInSite.rph.issuer2rp "https://op.example" with
    | none => rw [hc] at h3; cases h3
    | some c =>
      rw [hc] at h3
      injection h3 with h3
      dsimp only at h3
      refine .inr (.inr ⟨_, c, hk, hc, ?_⟩)
      rw [h3]
      decide

end Verif.Props
