import Verif.Model.Entity
import Verif.Lemmas.World
import Verif.Lemmas.Frame
import Verif.Lemmas.Made
/-!
# C96: a client is put together as configured
-/

namespace Verif.Spec.Assembly
open Verif Verif.Entity Verif.Service

/-- What an add-on is called in `context.add_on`. -/
def kind : AddOn → String
  | .pkce _ _ => "pkce"
  | .pushed _ _ _ => "pushed_authorization"
  | .dpop _ => "dpop"

/-- What is kept there. -/
def settings : AddOn → Val
  | .pkce n m => .obj [("code_challenge_length", n), ("code_challenge_method", m)]
  | .pushed b a r => .obj [("body_format", b), ("signing_algorithm", a), ("merge_rule", r)]
  | .dpop l => .obj [("sign_algs", l)]

/-- The service with a name: of several the last one that is defined. -/
def named (defs : List Srv) (n : String) : Option Srv := defs.reverse.find? (fun s => s.name = n)

/-- The services an add-on cannot do without. -/
def needs : AddOn → List String
  | .pkce _ _ => []
  | .pushed _ _ _ => ["authorization"]
  | .dpop _ => ["accesstoken"]

/-- The services without which an add-on is ignored. -/
def wants : AddOn → List String
  | .pkce _ _ => ["authorization", "accesstoken"]
  | _ => []

end Verif.Spec.Assembly

namespace Verif.Props
open Verif Verif.Entity Verif.Service Verif.Handler Verif.Spec.Assembly

/-! ## Running the methods -/

theorem py_assoc {S α β γ : Type} (m : Py S α) (f : α → Py S β) (g : β → Py S γ) :
    (m >>= f) >>= g = m >>= fun a => f a >>= g := by
  funext s
  rw [Py.bind_run, Py.bind_run, Py.bind_run]
  rcases h : m s with ⟨r, t⟩
  cases r with
  | error e => rfl
  | ok a => rfl

theorem py_pure_bind {S α β : Type} (a : α) (f : α → Py S β) : (pure a : Py S α) >>= f = f a := rfl

theorem py_bind_pure {S α : Type} (m : Py S α) : (m >>= fun a => pure a) = m := by
  funext s
  rw [Py.bind_run]
  rcases h : m s with ⟨r, t⟩
  cases r <;> rfl

/-- What the add-ons in `ao` put behind the own methods of a service. -/
def preAdded (ao : Obj) (n : String) : List Pre :=
  if Dict.has ao "pkce" then (if n = "authorization" then [.codeChallenge] else if n = "accesstoken" then [.putState] else []) else []

def postAdded (ao : Obj) (n : String) : List Post :=
  if n = "authorization" then (if Dict.has ao "pushed_authorization" then [.push] else [])
  else if n = "accesstoken" then (if Dict.has ao "pkce" then [.codeVerifier] else []) else []

def headersAdded (ao : Obj) (n : String) : List Hdr :=
  if Dict.has ao "dpop" ∧ (n = "accesstoken" ∨ n = "userinfo") then [.dpop] else []

theorem update_postArgs (kwargs : Obj) : Dict.update [] (prePostArgs kwargs) = prePostArgs kwargs := by
  unfold prePostArgs carry
  simp only [List.foldl_cons, List.foldl_nil]
  cases Dict.get? kwargs "request_object_signing_alg" <;> cases Dict.get? kwargs "algorithm" <;>
    cases Dict.get? kwargs "sig_kid" <;> cases Dict.get? kwargs "request_method" <;> rfl

theorem bind_keep {α β : Type} {m : Py Client α} {f g : α → Py Client β} {c : Client}
    (h : ∀ a c', m c = (.ok a, c') → f a c' = g a c') : (m >>= f) c = (m >>= g) c := by
  rw [Py.bind_run, Py.bind_run]
  rcases hm : m c with ⟨r, c'⟩
  cases r with
  | error e => rfl
  | ok a => exact h a c' hm

/-- The context stays. -/
def CtxKept (c c' : Client) : Prop := c'.ctx = c.ctx

instance : FrameRel CtxKept where
  refl _ := rfl
  trans h h' := Eq.trans h' h

theorem ctx_setState (x : Ext) (args kwargs : Obj) : Frame CtxKept (setState x args kwargs) := by
  unfold setState
  refine Frame.bind (Frame.lift _) fun s => Frame.bind Frame.read fun c => Frame.bind (fun _ => rfl) fun k => Frame.pure _

theorem ctx_pickRedirect (args : Obj) : Frame CtxKept (pickRedirect args) := by
  unfold pickRedirect
  exact Frame.bind (Frame.ask _) fun v => Frame.pure _

theorem pre_runs (x : Ext) (srv : Srv) (args kwargs : Obj) (c : Client) :
    runPre x srv kwargs ((newService srv).pre ++ preAdded c.ctx.addOn srv.name) (args, []) c =
      preConstruct x srv args kwargs c := by
  have hau : ∀ s : Srv, s.name = "authorization" → preAdded c.ctx.addOn s.name = if Dict.has c.ctx.addOn "pkce" then [.codeChallenge] else [] := by
    intro s e; simp [preAdded, e]
  have hat : ∀ s : Srv, s.name = "accesstoken" → preAdded c.ctx.addOn s.name = if Dict.has c.ctx.addOn "pkce" then [.putState] else [] := by
    intro s e; simp [preAdded, e]
  have hno : ∀ s : Srv, s.name ≠ "authorization" → s.name ≠ "accesstoken" → preAdded c.ctx.addOn s.name = [] := by
    intro s e1 e2; simp [preAdded, e1, e2]
  cases srv with
  | authorization =>
    rw [hau _ rfl]
    simp only [newService, List.cons_append, List.nil_append, runPre, Pre.run, py_assoc, py_pure_bind, preConstruct]
    refine bind_keep fun a c1 h1 => bind_keep fun b c2 h2 => ?_
    have e : c2.ctx = c.ctx := by
      have f1 := ctx_setState x args kwargs c
      have f2 := ctx_pickRedirect a c1
      rw [h1] at f1
      rw [h2] at f2
      exact Eq.trans f2 f1
    rw [Py.read_bind_run, Py.read_bind_run, e]
    refine bind_keep fun r c3 h3 => ?_
    have hr : Dict.update [] r.2 = r.2 := by
      have : authorizationPre (x.rnd "pre_nonce") c.ctx.behaviour b kwargs = .ok r := (Py.lift_eq_ok.1 h3).1
      unfold authorizationPre at this
      split at this
      · cases this
      · split at this
        · cases this
        · injection this with this
          rw [← this]
          exact update_postArgs kwargs
    rw [hr]
    cases Dict.has c.ctx.addOn "pkce" with
    | true => simp only [if_true, runPre, Pre.run, py_assoc, py_pure_bind]
    | false => simp only [Bool.false_eq_true, if_false, runPre]
  | oauth2Authorization =>
    rw [hau _ rfl]
    simp only [newService, List.cons_append, List.nil_append, runPre, Pre.run, py_assoc, py_pure_bind, preConstruct]
    refine bind_keep fun a c1 h1 => bind_keep fun b c2 h2 => ?_
    have e : c2.ctx = c.ctx := by
      have f1 := ctx_pickRedirect args c
      rw [h1] at f1
      rw [← (Py.lift_eq_ok.1 h2).2]
      exact f1
    rw [Py.read_bind_run, e]
    cases Dict.has c.ctx.addOn "pkce" with
    | true => simp only [if_true, runPre, Pre.run, py_assoc, py_pure_bind]
    | false => simp only [Bool.false_eq_true, if_false, runPre]
  | accesstoken =>
    rw [hat _ rfl]
    simp only [newService, List.cons_append, List.nil_append, runPre, Pre.run, py_assoc, py_pure_bind, preConstruct]
    refine bind_keep fun a c1 h1 => ?_
    have e : c1 = c := by
      have := congrArg Prod.snd h1
      exact this.symm
    rw [Py.read_bind_run, e]
    cases Dict.has c.ctx.addOn "pkce" with
    | true => simp only [if_true, runPre, Pre.run, py_assoc, py_pure_bind]
    | false => rfl
  | oauth2AccessToken =>
    rw [hat _ rfl]
    simp only [newService, List.cons_append, List.nil_append, runPre, Pre.run, py_assoc, py_pure_bind, preConstruct]
    refine bind_keep fun a c1 h1 => ?_
    have e : c1 = c := by
      have := congrArg Prod.snd h1
      exact this.symm
    rw [e]
    have hb : ∀ f : Obj → Py Client (Obj × Obj), (ask (pkcePre a kwargs) >>= f) c =
        ((Py.lift (if Dict.has c.ctx.addOn "pkce" then putState a kwargs else .ok a) : Py Client Obj) >>= f) c := fun _ => rfl
    rw [hb]
    cases Dict.has c.ctx.addOn "pkce" with
    | true => simp only [if_true, runPre, Pre.run, py_assoc, py_pure_bind]
    | false => rfl
  | ccAccessToken =>
    rw [hat _ rfl]
    have hb : ∀ f : Obj → Py Client (Obj × Obj), (ask (pkcePre args kwargs) >>= f) c =
        ((Py.lift (if Dict.has c.ctx.addOn "pkce" then putState args kwargs else .ok args) : Py Client Obj) >>= f) c := fun _ => rfl
    simp only [newService, List.nil_append, preConstruct]
    rw [hb]
    cases Dict.has c.ctx.addOn "pkce" with
    | true => simp only [if_true, runPre, Pre.run, py_assoc, py_pure_bind]
    | false => rfl
  | userinfo =>
    rw [hno _ (by decide) (by decide)]
    simp only [newService, List.append_nil, runPre, Pre.run, py_assoc, py_pure_bind, preConstruct]
    show _ = (ask (userinfoPre args kwargs) >>= fun a => pure (a, [])) c
    rw [Py.bind_run, Py.bind_run]
    simp only [ask, userinfoPre]
    cases h : userinfoToken args kwargs c with
    | error e => rfl
    | ok a =>
      simp only [putState]
      cases hg : getStateParameter a kwargs with
      | error e => simp [Py.bind_run, hg, Except.map]
      | ok v => simp [Py.bind_run, hg, Except.map]
  | _ =>
    rw [hno _ (by decide) (by decide)]
    simp only [newService, List.append_nil, runPre, Pre.run, py_assoc, py_pure_bind, preConstruct]

theorem post_runs (x : Ext) (srv : Srv) (req post : Obj) (c : Client) :
    runPost x (methodArgs (confOf c srv) "post_construct" post) ((newService srv).post ++ postAdded c.ctx.addOn srv.name) req c =
      postConstruct x srv req post c := by
  unfold postConstruct
  rw [Py.read_bind_run]
  have hau : ∀ s : Srv, s.name = "authorization" → postAdded c.ctx.addOn s.name = if Dict.has c.ctx.addOn "pushed_authorization" then [.push] else [] := by
    intro s e; simp [postAdded, e]
  have hat : ∀ s : Srv, s.name = "accesstoken" → postAdded c.ctx.addOn s.name = if Dict.has c.ctx.addOn "pkce" then [.codeVerifier] else [] := by
    intro s e; simp [postAdded, e]
  have hno : ∀ s : Srv, s.name ≠ "authorization" → s.name ≠ "accesstoken" → postAdded c.ctx.addOn s.name = [] := by
    intro s e1 e2; simp [postAdded, e1, e2]
  cases srv with
  | authorization =>
    rw [hau _ rfl]
    cases Dict.has c.ctx.addOn "pushed_authorization" <;>
      simp only [newService, List.cons_append, List.nil_append, runPost, Post.run, py_assoc, py_pure_bind, py_bind_pure,
        Bool.false_eq_true, if_true, if_false]
  | oauth2Authorization =>
    rw [hau _ rfl]
    cases Dict.has c.ctx.addOn "pushed_authorization" <;>
      simp only [newService, List.cons_append, List.nil_append, runPost, Post.run, py_assoc, py_pure_bind, py_bind_pure,
        Bool.false_eq_true, if_true, if_false]
  | accesstoken =>
    rw [hat _ rfl]
    cases Dict.has c.ctx.addOn "pkce" <;>
      simp only [newService, List.cons_append, List.nil_append, runPost, Post.run, py_assoc, py_pure_bind, py_bind_pure,
        Bool.false_eq_true, if_true, if_false]
  | oauth2AccessToken =>
    rw [hat _ rfl]
    cases Dict.has c.ctx.addOn "pkce" <;>
      simp only [newService, List.cons_append, List.nil_append, runPost, Post.run, py_assoc, py_pure_bind, py_bind_pure,
        Bool.false_eq_true, if_true, if_false]
  | ccAccessToken =>
    rw [hat _ rfl]
    cases Dict.has c.ctx.addOn "pkce" <;>
      simp only [newService, List.cons_append, List.nil_append, runPost, Post.run, py_assoc, py_pure_bind, py_bind_pure,
        Bool.false_eq_true, if_true, if_false]
  | _ =>
    rw [hno _ (by decide) (by decide)]
    simp only [newService, List.append_nil, runPost, Post.run, py_assoc, py_pure_bind]

theorem headers_run (x : Ext) (srv : Srv) (m : String) (h : Dict String) (c : Client) :
    runHeaders x srv m ((newService srv).headers ++ headersAdded c.ctx.addOn srv.name) h c =
      (if usesDpop c.ctx srv then dpopHeader x srv m h else pure h) c := by
  have h0 : (newService srv).headers = [] := by cases srv <;> rfl
  rw [h0, List.nil_append]
  unfold headersAdded usesDpop
  by_cases hd : Dict.has c.ctx.addOn "dpop" = true
  · by_cases hs : srv.name = "accesstoken" ∨ srv.name = "userinfo"
    · rw [if_pos ⟨hd, hs⟩, if_pos (by simp [hd, hs])]
      simp only [runHeaders, py_bind_pure]
    · rw [if_neg (fun e => hs e.2), if_neg (by simp [hs])]
      rfl
  · rw [if_neg (fun e => hd e.1), if_neg (by simp [hd])]
    rfl

/-! ## Putting together -/

theorem init_get : ∀ (defs : List Srv) (d : Services) (n : String),
    Dict.get? (initServices defs d) n = ((named defs n).map newService).or (Dict.get? d n) := by
  intro defs
  induction defs with
  | nil => intro d n; rfl
  | cons s l ih =>
    intro d n
    rw [initServices, ih]
    unfold named
    rw [List.reverse_cons, List.find?_append, Dict.get?_set]
    cases hl : l.reverse.find? (fun s => s.name = n) with
    | some v => simp
    | none =>
      simp only [Option.map_none, Option.none_or, List.find?_cons, List.find?_nil]
      by_cases e : s.name = n
      · simp [e]
      · simp [e]

/-- Both services of PKCE are there. -/
def HasAll (s : Services) (names : List String) : Prop := ∀ n ∈ names, Dict.has s n = true

instance (s : Services) (names : List String) : Decidable (HasAll s names) := by unfold HasAll; infer_instance

def preOf (a : AddOn) (n : String) : List Pre :=
  match a with
  | .pkce _ _ => if n = "authorization" then [.codeChallenge] else if n = "accesstoken" then [.putState] else []
  | _ => []

def postOf (a : AddOn) (n : String) : List Post :=
  match a with
  | .pkce _ _ => if n = "accesstoken" then [.codeVerifier] else []
  | .pushed _ _ _ => if n = "authorization" then [.push] else []
  | _ => []

def headersOf (a : AddOn) (n : String) : List Hdr :=
  match a with
  | .dpop _ => if n = "accesstoken" ∨ n = "userinfo" then [.dpop] else []
  | _ => []

def grown (a : AddOn) (n : String) (i : Inst) : Inst :=
  { i with pre := i.pre ++ preOf a n, post := i.post ++ postOf a n, headers := i.headers ++ headersOf a n }

theorem inst_id (i : Inst) : ({ i with pre := i.pre ++ [], post := i.post ++ [], headers := i.headers ++ [] } : Inst) = i := by
  simp

theorem add_ok (a : AddOn) (s : Services) (ao : Obj) (h : HasAll s (needs a)) (hw : HasAll s (wants a)) :
    ∃ s', addSupport a (s, ao) = .ok (s', Dict.set ao (kind a) (settings a)) ∧
      ∀ n, Dict.get? s' n = (Dict.get? s n).map (grown a n) := by
  cases a with
  | pkce l m =>
    have h1 := hw "authorization" (by simp [wants])
    have h2 := hw "accesstoken" (by simp [wants])
    rw [Dict.has_eq] at h1 h2
    obtain ⟨u, hu⟩ := Option.isSome_iff_exists.1 h1
    obtain ⟨t, ht⟩ := Option.isSome_iff_exists.1 h2
    refine ⟨_, by simp only [addSupport, addPkce, hu, ht]; rfl, fun n => ?_⟩
    rw [Dict.get?_set]
    split
    · next e => subst e; rw [ht]; simp [grown, preOf, postOf, headersOf]
    · next e =>
      rw [Dict.get?_set]
      split
      · next e' => subst e'; rw [hu]; simp [grown, preOf, postOf, headersOf]
      · next e' =>
        cases Dict.get? s n with
        | none => rfl
        | some i => simp [grown, preOf, postOf, headersOf, Ne.symm e, Ne.symm e']
  | pushed b al r =>
    have h1 := h "authorization" (by simp [needs])
    rw [Dict.has_eq] at h1
    obtain ⟨u, hu⟩ := Option.isSome_iff_exists.1 h1
    refine ⟨_, by simp only [addSupport, addPushed, hu]; rfl, fun n => ?_⟩
    rw [Dict.get?_set]
    split
    · next e => subst e; rw [hu]; simp [grown, preOf, postOf, headersOf]
    · next e =>
      cases Dict.get? s n with
      | none => rfl
      | some i => simp [grown, preOf, postOf, headersOf, Ne.symm e]
  | dpop l =>
    have h1 := h "accesstoken" (by simp [needs])
    rw [Dict.has_eq] at h1
    obtain ⟨t, ht⟩ := Option.isSome_iff_exists.1 h1
    have hne : "accesstoken" ≠ "userinfo" := by decide
    cases hu : Dict.get? s "userinfo" with
    | none =>
      refine ⟨_, by simp only [addSupport, addDpop, ht, Dict.get?_set_ne _ _ hne, hu]; rfl, fun n => ?_⟩
      rw [Dict.get?_set]
      split
      · next e => subst e; rw [ht]; simp [grown, preOf, postOf, headersOf]
      · next e =>
        cases hn : Dict.get? s n with
        | none => rfl
        | some i =>
          have : n ≠ "userinfo" := fun e' => by rw [e', hu] at hn; cases hn
          simp [grown, preOf, postOf, headersOf, Ne.symm e, this]
    | some u =>
      refine ⟨_, by simp only [addSupport, addDpop, ht, Dict.get?_set_ne _ _ hne, hu]; rfl, fun n => ?_⟩
      rw [Dict.get?_set]
      split
      · next e => subst e; rw [hu]; simp [grown, preOf, postOf, headersOf]
      · next e' =>
        rw [Dict.get?_set]
        split
        · next e => subst e; rw [ht]; simp [grown, preOf, postOf, headersOf]
        · next e =>
          cases hn : Dict.get? s n with
          | none => rfl
          | some i => simp [grown, preOf, postOf, headersOf, Ne.symm e, Ne.symm e']

theorem add_ignored (a : AddOn) (s : Services) (ao : Obj) (h : HasAll s (needs a)) (hw : ¬ HasAll s (wants a)) :
    addSupport a (s, ao) = .ok (s, ao) := by
  cases a with
  | pkce l m =>
    simp only [addSupport, addPkce]
    cases hu : Dict.get? s "authorization" with
    | none => rfl
    | some u =>
      cases ht : Dict.get? s "accesstoken" with
      | none => rfl
      | some t =>
        refine absurd (fun n hn => ?_) hw
        rw [Dict.has_eq]
        simp only [wants, List.mem_cons, List.not_mem_nil, or_false] at hn
        rcases hn with rfl | rfl
        · rw [hu]; rfl
        · rw [ht]; rfl
  | pushed b al r => exact absurd (fun n hn => by cases hn) hw
  | dpop l => exact absurd (fun n hn => by cases hn) hw

theorem add_fails (a : AddOn) (s : Services) (ao : Obj) (h : ¬ HasAll s (needs a)) :
    addSupport a (s, ao) = .error .keyError := by
  have hn : ∀ m, needs a = [m] → Dict.get? s m = none := by
    intro m hm
    cases hg : Dict.get? s m with
    | none => rfl
    | some v =>
      refine absurd (fun n hn => ?_) h
      rw [hm] at hn
      simp only [List.mem_cons, List.not_mem_nil, or_false] at hn
      subst hn
      rw [Dict.has_eq, hg]
      rfl
  cases a with
  | pkce l m => exact absurd (fun n hn => by cases hn) h
  | pushed b al r => simp only [addSupport, addPushed, hn "authorization" rfl]
  | dpop l => simp only [addSupport, addDpop, hn "accesstoken" rfl]

/-- The add-ons that have what they want. -/
def taken (s : Services) (l : List AddOn) : List AddOn := l.filter (fun a => HasAll s (wants a))

/-- What all add-ons put to a service. -/
def grownAll (l : List AddOn) (n : String) (i : Inst) : Inst :=
  { i with pre := i.pre ++ l.flatMap (preOf · n), post := i.post ++ l.flatMap (postOf · n),
           headers := i.headers ++ l.flatMap (headersOf · n) }

theorem hasAll_congr {s s' : Services} (h : ∀ n, Dict.has s' n = Dict.has s n) (names : List String) :
    HasAll s' names ↔ HasAll s names := by
  unfold HasAll
  simp only [h]

theorem addOns_ok : ∀ (l : List AddOn) (s : Services) (ao : Obj), (∀ a ∈ l, HasAll s (needs a)) →
    ∃ s', doAddOns l (s, ao) = .ok (s', (taken s l).foldl (fun o a => Dict.set o (kind a) (settings a)) ao) ∧
      ∀ n, Dict.get? s' n = (Dict.get? s n).map (grownAll (taken s l) n) := by
  intro l
  induction l with
  | nil =>
    intro s ao _
    refine ⟨s, rfl, fun n => ?_⟩
    cases Dict.get? s n with
    | none => rfl
    | some i => simp [grownAll, taken]
  | cons a l ih =>
    intro s ao h
    have ha := h a (by simp)
    by_cases hw : HasAll s (wants a)
    · obtain ⟨s1, e1, g1⟩ := add_ok a s ao ha hw
      have hhas : ∀ n, Dict.has s1 n = Dict.has s n := by
        intro n; rw [Dict.has_eq, Dict.has_eq, g1]; cases Dict.get? s n <;> rfl
      obtain ⟨s2, e2, g2⟩ := ih s1 (Dict.set ao (kind a) (settings a))
        (fun b hb => (hasAll_congr hhas _).2 (h b (by simp [hb])))
      have ht : taken s1 l = taken s l := by
        unfold taken
        congr 1
        funext b
        simp only [decide_eq_decide]
        exact hasAll_congr hhas _
      have hc : taken s (a :: l) = a :: taken s l := by
        unfold taken; rw [List.filter_cons, if_pos (by simpa using hw)]
      refine ⟨s2, ?_, fun n => ?_⟩
      · rw [doAddOns, e1, hc, List.foldl_cons, ← ht]
        exact e2
      · rw [g2, g1, ht, hc]
        cases Dict.get? s n with
        | none => rfl
        | some i => simp [grown, grownAll, List.append_assoc]
    · have e1 := add_ignored a s ao ha hw
      obtain ⟨s2, e2, g2⟩ := ih s ao (fun b hb => h b (by simp [hb]))
      have hc : taken s (a :: l) = taken s l := by
        unfold taken; rw [List.filter_cons, if_neg (by simpa using hw)]
      refine ⟨s2, ?_, fun n => ?_⟩
      · rw [doAddOns, e1, hc]; exact e2
      · rw [g2, hc]

theorem addOns_fail : ∀ (l : List AddOn) (s : Services) (ao : Obj), ¬ (∀ a ∈ l, HasAll s (needs a)) →
    doAddOns l (s, ao) = .error .keyError := by
  intro l
  induction l with
  | nil => intro s ao h; exact absurd (fun a ha => by cases ha) h
  | cons a l ih =>
    intro s ao h
    by_cases ha : HasAll s (needs a)
    · have hl : ∀ s' : Services, (∀ n, Dict.has s' n = Dict.has s n) → ¬ ∀ b ∈ l, HasAll s' (needs b) := by
        intro s' hh hb
        refine h fun b hb' => ?_
        rcases List.mem_cons.1 hb' with rfl | hb'
        · exact ha
        · exact (hasAll_congr hh _).1 (hb b hb')
      by_cases hw : HasAll s (wants a)
      · obtain ⟨s1, e1, g1⟩ := add_ok a s ao ha hw
        rw [doAddOns, e1]
        refine ih s1 _ (hl s1 fun n => ?_)
        rw [Dict.has_eq, Dict.has_eq, g1]
        cases Dict.get? s n <;> rfl
      · rw [doAddOns, add_ignored a s ao ha hw]
        exact ih s ao (hl s fun _ => rfl)
    · rw [doAddOns, add_fails a s ao ha]

theorem settings_get : ∀ (l : List AddOn) (ao : Obj), (l.map kind).Nodup → ∀ k,
    Dict.get? (l.foldl (fun o a => Dict.set o (kind a) (settings a)) ao) k =
      ((l.find? (fun a => kind a = k)).map settings).or (Dict.get? ao k) := by
  intro l
  induction l with
  | nil => intro ao _ k; rfl
  | cons a l ih =>
    intro ao hn k
    rw [List.map_cons, List.nodup_cons] at hn
    rw [List.foldl_cons, ih _ hn.2, Dict.get?_set, List.find?_cons]
    by_cases e : kind a = k
    · have hnone : l.find? (fun a => kind a = k) = none := by
        rw [List.find?_eq_none]
        intro b hb hk
        simp only [decide_eq_true_eq] at hk
        exact hn.1 (List.mem_map.2 ⟨b, hb, hk.trans e.symm⟩)
      rw [hnone]
      simp [e]
    · simp [e]

/-- Only one add-on can contribute. -/
theorem flat_one {α : Type} (f : AddOn → List α) (k : String) (v : List α) (hk : ∀ a, kind a = k → f a = v)
    (hno : ∀ a, kind a ≠ k → f a = []) : ∀ (l : List AddOn), (l.map kind).Nodup →
    l.flatMap f = if (l.find? (fun a => kind a = k)).isSome then v else [] := by
  intro l
  induction l with
  | nil => intro _; rfl
  | cons a l ih =>
    intro hn
    rw [List.map_cons, List.nodup_cons] at hn
    rw [List.flatMap_cons, ih hn.2, List.find?_cons]
    by_cases e : kind a = k
    · have hnone : l.find? (fun a => kind a = k) = none := by
        rw [List.find?_eq_none]
        intro b hb hk
        simp only [decide_eq_true_eq] at hk
        exact hn.1 (List.mem_map.2 ⟨b, hb, hk.trans e.symm⟩)
      rw [hnone, hk a e]
      simp [e]
    · rw [hno a e]
      simp [e]

theorem has_init (defs : List Srv) (n : String) : Dict.has (initServices defs []) n = true ↔ ∃ s ∈ defs, s.name = n := by
  rw [Dict.has_eq, init_get, Dict.get?_nil, Option.or_none]
  unfold named
  rw [Option.isSome_map, List.find?_isSome]
  simp

theorem hasAll_init (defs : List Srv) (names : List String) :
    HasAll (initServices defs []) names ↔ ∀ n ∈ names, ∃ s ∈ defs, s.name = n := by
  unfold HasAll
  simp only [has_init]

/-- **C96**: a client can be made exactly if the add-ons that are configured have the services they cannot do without;
otherwise `KeyError`. -/
theorem C96_made_iff (defs : List Srv) (l : List AddOn) :
    ((∀ a ∈ l, ∀ n ∈ needs a, ∃ s ∈ defs, s.name = n) → (assembled defs l).isOk = true) ∧
    ((¬ ∀ a ∈ l, ∀ n ∈ needs a, ∃ s ∈ defs, s.name = n) → assembled defs l = .error .keyError) := by
  refine ⟨fun h => ?_, fun h => addOns_fail l _ [] fun h' => h fun a ha => (hasAll_init defs _).1 (h' a ha)⟩
  obtain ⟨s', e, _⟩ := addOns_ok l (initServices defs []) [] fun a ha => (hasAll_init defs _).2 (h a ha)
  unfold assembled
  rw [e]
  rfl

theorem taken_nodup {s : Services} {l : List AddOn} (hn : (l.map kind).Nodup) : ((taken s l).map kind).Nodup :=
  hn.sublist (List.Sublist.map _ (List.filter_sublist))

theorem find_kind {l : List AddOn} (hn : (l.map kind).Nodup) {a : AddOn} (ha : a ∈ l) : l.find? (fun b => kind b = kind a) = some a := by
  induction l with
  | nil => cases ha
  | cons b l ih =>
    rw [List.map_cons, List.nodup_cons] at hn
    rw [List.find?_cons]
    rcases List.mem_cons.1 ha with rfl | ha
    · simp
    · have : kind b ≠ kind a := fun e => hn.1 (List.mem_map.2 ⟨a, ha, e.symm⟩)
      simp only [this, decide_false]
      exact ih hn.2 ha

/-- The whole of it. -/
theorem assembled_eq {defs : List Srv} {l : List AddOn} {s : Services} {ao : Obj} (hn : (l.map kind).Nodup)
    (h : assembled defs l = .ok (s, ao)) :
    (∀ n, Dict.get? s n = (named defs n).map fun d => { newService d with
        pre := (newService d).pre ++ preAdded ao n, post := (newService d).post ++ postAdded ao n,
        headers := (newService d).headers ++ headersAdded ao n }) ∧
    ∀ k v, Dict.get? ao k = some v ↔
      ∃ a ∈ l, kind a = k ∧ settings a = v ∧ ∀ n ∈ wants a, ∃ d ∈ defs, d.name = n := by
  have hneed : ∀ a ∈ l, HasAll (initServices defs []) (needs a) := by
    apply Classical.byContradiction
    intro hno
    have := addOns_fail l _ [] hno
    unfold assembled at h
    rw [this] at h
    cases h
  obtain ⟨s', e, g⟩ := addOns_ok l (initServices defs []) [] hneed
  unfold assembled at h
  rw [e] at h
  injection h with h
  injection h with h1 h2
  subst h1
  have htn := taken_nodup (s := initServices defs []) hn
  have hget := settings_get (taken (initServices defs []) l) [] htn
  rw [h2] at hget
  simp only [Dict.get?_nil, Option.or_none] at hget
  have hhas : ∀ k, ((taken (initServices defs []) l).find? (fun a => kind a = k)).isSome = Dict.has ao k := by
    intro k; rw [Dict.has_eq, hget, Option.isSome_map]
  refine ⟨fun n => ?_, fun k v => ?_⟩
  · rw [g n, init_get, Dict.get?_nil, Option.or_none]
    cases named defs n with
    | none => rfl
    | some d =>
      simp only [Option.map_some, Option.some.injEq, grownAll]
      have e1 : (taken (initServices defs []) l).flatMap (preOf · n) = preAdded ao n := by
        rw [flat_one (preOf · n) "pkce" (if n = "authorization" then [.codeChallenge] else if n = "accesstoken" then [.putState] else [])
          (fun a ha => by cases a <;> first | rfl | (exact absurd ha (by simp [kind])))
          (fun a ha => by cases a <;> first | rfl | (exact absurd rfl ha)) _ htn, hhas]
        rfl
      have e2 : (taken (initServices defs []) l).flatMap (postOf · n) = postAdded ao n := by
        unfold postAdded
        by_cases hau : n = "authorization"
        · subst hau
          rw [flat_one (postOf · "authorization") "pushed_authorization" [.push]
            (fun a ha => by cases a <;> first | rfl | (exact absurd ha (by simp [kind])))
            (fun a ha => by cases a <;> first | rfl | (exact absurd rfl ha)) _ htn, hhas]
          simp
        · rw [if_neg hau, flat_one (postOf · n) "pkce" (if n = "accesstoken" then [.codeVerifier] else [])
            (fun a ha => by cases a <;> first | rfl | (exact absurd ha (by simp [kind])))
            (fun a ha => by cases a <;> first | rfl | (exact absurd rfl ha) | (simp [postOf, hau])) _ htn, hhas]
          by_cases hat : n = "accesstoken" <;> simp [hat]
      have e3 : (taken (initServices defs []) l).flatMap (headersOf · n) = headersAdded ao n := by
        rw [flat_one (headersOf · n) "dpop" (if n = "accesstoken" ∨ n = "userinfo" then [.dpop] else [])
          (fun a ha => by cases a <;> first | rfl | (exact absurd ha (by simp [kind])))
          (fun a ha => by cases a <;> first | rfl | (exact absurd rfl ha)) _ htn, hhas]
        unfold headersAdded
        by_cases hd : Dict.has ao "dpop" = true <;> by_cases hat : n = "accesstoken" ∨ n = "userinfo" <;> simp [hd, hat]
      rw [e1, e2, e3]
  · rw [hget]
    constructor
    · intro hf
      obtain ⟨a, ha, hv⟩ := Option.map_eq_some_iff.1 hf
      have hk := List.find?_some ha
      have hm := List.mem_of_find?_eq_some ha
      unfold taken at hm
      rw [List.mem_filter] at hm
      exact ⟨a, hm.1, by simpa using hk, hv, (hasAll_init defs _).1 (by simpa using hm.2)⟩
    · rintro ⟨a, ha, rfl, rfl, hw⟩
      have hm : a ∈ taken (initServices defs []) l := by
        unfold taken
        rw [List.mem_filter]
        exact ⟨ha, by simpa using (hasAll_init defs _).2 hw⟩
      rw [find_kind htn hm]
      rfl

/-- **C96**: the client has the services that are defined, of several with one name the last one; the add-ons that are
configured are in force with their settings, but for those that lack a service they want; and requests are made by the
methods of the service followed by those of the add-ons: what the methods put there by the constructors and `add_support`
do, run one after the other, is what all other theorems say a client with these add-ons does. -/
theorem C96_as_configured (defs : List Srv) (l : List AddOn) (hn : (l.map kind).Nodup) (s : Services) (ao : Obj)
    (h : assembled defs l = .ok (s, ao)) :
    (∀ n, (Dict.get? s n).map (·.srv) = named defs n) ∧
    (∀ k v, Dict.get? ao k = some v ↔ ∃ a ∈ l, kind a = k ∧ settings a = v ∧ ∀ n ∈ wants a, ∃ d ∈ defs, d.name = n) ∧
    ∀ n i, Dict.get? s n = some i → ∀ (x : Ext) (c : Client), c.ctx.addOn = ao →
      (∀ args kwargs, runPre x i.srv kwargs i.pre (args, []) c = preConstruct x i.srv args kwargs c) ∧
      (∀ req post, runPost x (methodArgs (confOf c i.srv) "post_construct" post) i.post req c = postConstruct x i.srv req post c) ∧
      (∀ m hd, runHeaders x i.srv m i.headers hd c = (if usesDpop c.ctx i.srv then dpopHeader x i.srv m hd else pure hd) c) := by
  obtain ⟨g, g'⟩ := assembled_eq hn h
  have hsrv : ∀ d, (newService d).srv = d := fun d => by cases d <;> rfl
  refine ⟨fun n => ?_, g', fun n i hi x c hc => ?_⟩
  · rw [g n]
    cases named defs n with
    | none => rfl
    | some d => simp [hsrv]
  · rw [g n] at hi
    cases hd : named defs n with
    | none => rw [hd] at hi; cases hi
    | some d =>
      rw [hd] at hi
      injection hi with hi
      have hname : n = d.name := by
        have := List.find?_some hd
        simp only [decide_eq_true_eq] at this
        exact this.symm
      subst hi hname hc
      simp only [hsrv]
      exact ⟨fun args kwargs => pre_runs x d args kwargs c, fun req post => post_runs x d req post c, fun m hd => headers_run x d m hd c⟩

/-- **C96**: the order in which the add-ons are listed does not matter. -/
theorem C96_any_order (defs : List Srv) (l l' : List AddOn) (hp : l.Perm l') (hn : (l.map kind).Nodup) :
    (∀ e, assembled defs l = .error e → assembled defs l' = .error e) ∧
    ∀ s ao, assembled defs l = .ok (s, ao) → ∃ s' ao', assembled defs l' = .ok (s', ao') ∧
      (∀ n, Dict.get? s' n = Dict.get? s n) ∧ ∀ k, Dict.get? ao' k = Dict.get? ao k := by
  have hn' : (l'.map kind).Nodup := (hp.map kind).nodup_iff.1 hn
  have hneed : (∀ a ∈ l, ∀ n ∈ needs a, ∃ s ∈ defs, s.name = n) ↔ ∀ a ∈ l', ∀ n ∈ needs a, ∃ s ∈ defs, s.name = n :=
    ⟨fun h a ha => h a (hp.mem_iff.2 ha), fun h a ha => h a (hp.mem_iff.1 ha)⟩
  obtain ⟨m1, m2⟩ := C96_made_iff defs l
  obtain ⟨m1', m2'⟩ := C96_made_iff defs l'
  refine ⟨fun e he => ?_, fun s ao h => ?_⟩
  · by_cases hx : ∀ a ∈ l, ∀ n ∈ needs a, ∃ s ∈ defs, s.name = n
    · have := m1 hx; rw [he] at this; cases this
    · rw [m2 hx] at he
      rw [m2' (fun hx' => hx (hneed.2 hx')), ← he]
  · have hx : ∀ a ∈ l, ∀ n ∈ needs a, ∃ s ∈ defs, s.name = n := by
      apply Classical.byContradiction
      intro hx
      rw [m2 hx] at h
      cases h
    have := m1' (hneed.1 hx)
    cases h' : assembled defs l' with
    | error e => rw [h'] at this; cases this
    | ok r =>
      obtain ⟨s', ao'⟩ := r
      obtain ⟨g, f⟩ := assembled_eq hn h
      obtain ⟨g', f'⟩ := assembled_eq hn' h'
      have hao : ∀ k, Dict.get? ao' k = Dict.get? ao k := by
        intro k
        apply Option.ext
        intro v
        rw [f k v, f' k v]
        exact ⟨fun ⟨a, ha, hr⟩ => ⟨a, hp.mem_iff.2 ha, hr⟩, fun ⟨a, ha, hr⟩ => ⟨a, hp.mem_iff.1 ha, hr⟩⟩
      refine ⟨s', ao', rfl, fun n => ?_, hao⟩
      rw [g n, g' n]
      have hh : ∀ k, Dict.has ao' k = Dict.has ao k := fun k => by rw [Dict.has_eq, Dict.has_eq, hao]
      have e1 : preAdded ao' n = preAdded ao n := by unfold preAdded; rw [hh]
      have e2 : postAdded ao' n = postAdded ao n := by unfold postAdded; rw [hh, hh]
      have e3 : headersAdded ao' n = headersAdded ao n := by unfold headersAdded; rw [hh]
      rw [e1, e2, e3]

/-- **C96**, what may surprise: PKCE that is configured is silently left out if the client has no token service. -/
theorem C96_pkce_left_out (defs : List Srv) (l : List AddOn) (hn : (l.map kind).Nodup) (s : Services) (ao : Obj)
    (h : assembled defs l = .ok (s, ao)) (hno : ∀ d ∈ defs, d.name ≠ "accesstoken") : Dict.has ao "pkce" = false := by
  obtain ⟨_, f⟩ := assembled_eq hn h
  rw [Dict.has_eq]
  cases hg : Dict.get? ao "pkce" with
  | none => rfl
  | some v =>
    obtain ⟨a, _, hk, _, hw⟩ := (f "pkce" v).1 hg
    cases a with
    | pkce n m =>
      obtain ⟨d, hd, e⟩ := hw "accesstoken" (by simp [wants])
      exact absurd e (hno d hd)
    | pushed b al r => exact absurd hk (by simp [kind])
    | dpop al => exact absurd hk (by simp [kind])

/-- **C96** (every client of a handler).  The handler was given configurations put together in this way.  After every history of
calls, with all answers and failures, every client it keeps has the services, settings and add-ons of the configuration it was made of, and
makes its requests by the methods of its services followed by those of the add-ons. -/
theorem C96_clients (h0 : Handler) (hnew : h0.issuer2rp = [])
    (hconf : ∀ n cc, Dict.get? h0.configs n = some cc → ∃ defs l s ao config sc, (l.map kind).Nodup ∧ assembled defs l = .ok (s, ao) ∧
      cc = clientConf config sc (s, ao))
    (calls : List (Ext × Call)) (name : String) (c : Client) (hc : Dict.get? (run calls h0).issuer2rp name = some c) :
    ∃ defs l s ao config sc, (l.map kind).Nodup ∧ assembled defs l = .ok (s, ao) ∧
      Dict.get? h0.configs c.cfg = some (clientConf config sc (s, ao)) ∧
      c.services = s.map (fun p => p.2.srv) ∧ c.conf = sc ∧ c.ctx.addOn = ao ∧
      ∀ n i, Dict.get? s n = some i → ∀ x : Ext,
        (∀ args kwargs, runPre x i.srv kwargs i.pre (args, []) c = preConstruct x i.srv args kwargs c) ∧
        (∀ req post, runPost x (methodArgs (confOf c i.srv) "post_construct" post) i.post req c = postConstruct x i.srv req post c) ∧
        (∀ m hd, runHeaders x i.srv m i.headers hd c = (if usesDpop c.ctx i.srv then dpopHeader x i.srv m hd else pure hd) c) := by
  obtain ⟨cc, e1, e2, e3, e4, _⟩ := (madeOf_run calls (madeOf_new hnew)).clients name c hc
  obtain ⟨defs, l, s, ao, config, sc, hn, ha, rfl⟩ := hconf _ cc e1
  exact ⟨defs, l, s, ao, config, sc, hn, ha, e1, e2, e3, e4, fun n i hi x => (C96_as_configured defs l hn s ao ha).2.2 n i hi x c e4⟩

/-! ## Non-vacuity -/

/-- All services and all add-ons. -/
example : ((assembled World.services [.dpop (.list [.str "ES256"]), .pushed (.str "jws") (.str "RS256") (.str "strict"),
      .pkce (.int 64) (.str "S256")]).toOption.map fun r =>
        (r.1.map (fun p => p.2.srv) == World.services, Dict.keys r.2, (Dict.get? r.1 "authorization").map (·.post),
          (Dict.get? r.1 "accesstoken").map (fun i => (i.pre, i.post, i.headers)))) =
    some (true, ["dpop", "pushed_authorization", "pkce"], some [.oidcAuthorization, .push],
      some ([.oauthToken, .putState], [.codeVerifier], [.dpop])) ∧
    (assembled [.authorization] [.dpop (.list [])]).isOk = false ∧
    ((assembled [.authorization] [.pkce (.int 64) (.str "S256")]).toOption.map (·.2)) = some [] ∧
    ((assembled [.authorization, .oauth2Authorization] []).toOption.map fun r => r.1.map (·.2.srv)) = some [.oauth2Authorization] :=
  ⟨by rfl, by rfl, by rfl, by rfl⟩

/-- The configuration of the small world with PKCE, put together by `assembled`, ... -/
def assembledHandler : Handler :=
  { World.handler with configs := match assembled World.services [.pkce (.int 64) (.str "S256")] with
      | .ok r => [("", clientConf World.conf.config World.conf.srvConf r)]
      | .error _ => [] }

/-- ... is as `C96_clients` demands, and after a `begin` the handler keeps a client with the add-on. -/
example : assembledHandler.issuer2rp = [] ∧
    (∀ n cc, Dict.get? assembledHandler.configs n = some cc → ∃ defs l s ao config sc, (l.map kind).Nodup ∧
      assembled defs l = .ok (s, ao) ∧ cc = clientConf config sc (s, ao)) ∧
    (Dict.get? (run [(World.ext 1000 World.s1 "n1" "", .begin "https://op.example" "" [] [])] assembledHandler).issuer2rp
      "https://op.example").map (fun c => (Dict.keys c.ctx.addOn, c.services == World.services, c.cfg)) = some (["pkce"], true, "") := by
  refine ⟨rfl, fun n cc h => ?_, by rfl⟩
  cases ha : assembled World.services [.pkce (.int 64) (.str "S256")] with
  | error e => simp only [assembledHandler, ha] at h; cases h
  | ok r =>
    simp only [assembledHandler, ha, Dict.get?_cons] at h
    split at h
    · injection h with h
      exact ⟨_, _, r.1, r.2, _, _, by simp, ha, h.symm⟩
    · cases h

end Verif.Props
