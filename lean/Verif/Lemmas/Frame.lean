import Verif.Model.Handler
import Verif.Lemmas.StoreHistory
/-!
# What the calls of a client leave alone

`Acts P db db'`: the store went from `db` to `db'` by calls of the store's interface that satisfy `P`.
`Local k`: a call that works for session `k` only.
-/

namespace Verif
open StateInterface (Op)

/-- A relation between the states before and after that composes. -/
class FrameRel {σ : Type} (R : σ → σ → Prop) : Prop where
  refl : ∀ s, R s s
  trans : ∀ {s t u}, R s t → R t u → R s u

/-- Whatever happens, before and after are related by `R`. -/
def Frame {σ α : Type} (R : σ → σ → Prop) (m : Py σ α) : Prop := ∀ s, R s (m s).2

namespace Frame
variable {σ α β : Type} {R : σ → σ → Prop} [FrameRel R]

theorem pure (a : α) : Frame R (Pure.pure a : Py σ α) := fun s => FrameRel.refl s
theorem ret (a : α) : Frame R (Py.ret a : Py σ α) := fun s => FrameRel.refl s
theorem raise (e : Exc) : Frame R (Py.raise e : Py σ α) := fun s => FrameRel.refl s
theorem read : Frame R (Py.read : Py σ σ) := fun s => FrameRel.refl s
theorem lift (x : Except Exc α) : Frame R (Py.lift x : Py σ α) := fun s => FrameRel.refl s

theorem bind {x : Py σ α} {f : α → Py σ β} (hx : Frame R x) (hf : ∀ a, Frame R (f a)) :
    Frame R (x >>= f) := by
  intro s
  rw [Py.bind_run]
  have h := hx s
  rcases hxs : x s with ⟨r, s'⟩
  rw [hxs] at h
  cases r with
  | ok a => exact FrameRel.trans h (hf a s')
  | error e => exact h

/-- As `bind`, with what is known about the first result. -/
theorem bind' {x : Py σ α} {f : α → Py σ β} (hx : Frame R x) {s : σ}
    (hf : ∀ a s', x s = (.ok a, s') → R s' (f a s').2) : R s ((x >>= f) s).2 := by
  rw [Py.bind_run]
  have h := hx s
  rcases hxs : x s with ⟨r, s'⟩
  rw [hxs] at h
  cases r with
  | ok a => exact FrameRel.trans h (hf a s' hxs)
  | error e => exact h

theorem read_bind {f : σ → Py σ β} (hf : ∀ a, Frame R (f a)) : Frame R (Py.read >>= f) :=
  bind read hf

theorem try_ {x : Py σ α} {h : Exc → Option (Py σ α)} (hx : Frame R x)
    (hh : ∀ e k, h e = some k → Frame R k) : Frame R (Py.try_ x h) := by
  intro s
  unfold Py.try_
  have hs := hx s
  rcases hxs : x s with ⟨r, s'⟩
  rw [hxs] at hs
  cases r with
  | ok a => exact hs
  | error e =>
    simp only
    cases he : h e with
    | none => exact hs
    | some k => exact FrameRel.trans hs (hh e k he s')

omit [FrameRel R] in
theorem ite {p : Prop} [Decidable p] {x y : Py σ α} (hx : p → Frame R x) (hy : ¬ p → Frame R y) :
    Frame R (if p then x else y) := by
  split
  · exact hx ‹_›
  · exact hy ‹_›

theorem ask {R : Client → Client → Prop} [FrameRel R] (f : Client → Except Exc α) :
    Frame R (Service.ask f) := fun s => FrameRel.refl s

end Frame

/-! ## Actions on the store -/

/-- The store went from `db` to `db'` by calls that satisfy `P`. -/
def Acts (P : Op → Prop) (db db' : DB) : Prop :=
  ∃ ops, db' = (StateInterface.run ops db).2 ∧ ∀ op ∈ ops, P op

namespace Acts
variable {P : Op → Prop}

theorem refl (db : DB) : Acts P db db := ⟨[], rfl, by simp⟩

theorem trans {a b c : DB} (h : Acts P a b) (h' : Acts P b c) : Acts P a c := by
  obtain ⟨o, e, ho⟩ := h
  obtain ⟨o', e', ho'⟩ := h'
  refine ⟨o ++ o', ?_, ?_⟩
  · rw [e', e]; exact (StoreHistory.db_run_append_snd o o' a).symm
  · intro op hop
    rcases List.mem_append.1 hop with h | h
    · exact ho op h
    · exact ho' op h

theorem step {op : Op} (h : P op) (db : DB) : Acts P db (StateInterface.step op db).2 :=
  ⟨[op], rfl, by simpa using h⟩

theorem mono {Q : Op → Prop} (hpq : ∀ op, P op → Q op) {a b : DB} (h : Acts P a b) : Acts Q a b :=
  let ⟨o, e, ho⟩ := h; ⟨o, e, fun op hop => hpq op (ho op hop)⟩

/-- What every call keeps is kept. -/
theorem invariant {I : DB → Prop} (hI : ∀ op db, P op → I db → I (StateInterface.step op db).2)
    {a b : DB} (h : Acts P a b) (ha : I a) : I b := by
  obtain ⟨o, e, ho⟩ := h
  subst e
  induction o generalizing a with
  | nil => exact ha
  | cons op ops ih => exact ih (hI op a (ho op (by simp)) ha) (fun op' h' => ho op' (by simp [h']))

end Acts

/-- The entries of a session record that are written when the session is started, and the one that nobody writes. -/
abbrev STARTED : List String := ["iss", "auth_request", "pkce", "refresh_token_response"]

/-- A call that stores an item of, or binds a value to, the session `k` (or the nameless session `""`);
what was written when the session was started is not stored again, and no nonce is bound. -/
def Touches (k : String) : Op → Prop
  | .store _ t k' => (k' = k ∨ k' = "") ∧ t ∉ STARTED
  | .bind x _ k' => k' = k ∧ x ≠ .nonce
  | _ => False

/-- A DPoP key that was made stays. -/
def KeyKept (c c' : Client) : Prop := ∀ k, c.dpopKey = some k → c'.dpopKey = some k

/-- A call of the client that works for session `k`: the context, the services and their configuration
stay, HTTP requests are only added, and the store is changed at session `k` only. -/
structure Local (k : String) (c c' : Client) : Prop where
  db : Acts (Touches k) c.db c'.db
  ctx : c'.ctx = c.ctx
  services : c'.services = c.services
  conf : c'.conf = c.conf
  cfg : c'.cfg = c.cfg
  log : c.log <+: c'.log
  key : KeyKept c c'

instance (k : String) : FrameRel (Local k) where
  refl _ := ⟨Acts.refl _, rfl, rfl, rfl, rfl, List.prefix_rfl, fun _ => id⟩
  trans h h' := ⟨h.db.trans h'.db, h'.ctx.trans h.ctx, h'.services.trans h.services,
    h'.conf.trans h.conf, h'.cfg.trans h.cfg, h.log.trans h'.log, fun k hk => h'.key k (h.key k hk)⟩

/-- A call of the client that does not touch the store. -/
structure NoStore (c c' : Client) : Prop where
  db : c'.db = c.db
  services : c'.services = c.services
  conf : c'.conf = c.conf
  cfg : c'.cfg = c.cfg
  log : c.log <+: c'.log

instance : FrameRel NoStore where
  refl _ := ⟨rfl, rfl, rfl, rfl, List.prefix_rfl⟩
  trans h h' := ⟨h'.db.trans h.db, h'.services.trans h.services,
    h'.conf.trans h.conf, h'.cfg.trans h.cfg, h.log.trans h'.log⟩

namespace Service

theorem Local.onDB_store (k : String) (item : Obj) (t k' : String) (hk : k' = k ∨ k' = "") (ht : t ∉ STARTED) :
    Frame (Local k) (onDB (StateInterface.storeItem item t k')) := by
  intro c
  refine ⟨?_, rfl, rfl, rfl, rfl, List.prefix_rfl, fun _ => id⟩
  have h := Acts.step (P := Touches k) (op := .store item t k') ⟨hk, ht⟩ c.db
  have e : (StateInterface.step (.store item t k') c.db).2 = (StateInterface.storeItem item t k' c.db).2 := by
    simp only [StateInterface.step]
    rcases StateInterface.storeItem item t k' c.db with ⟨r, d⟩
    cases r <;> rfl
  rw [e] at h
  exact h

theorem Local.onDB_bind (k v : String) (x : XTyp) (hx : x ≠ .nonce) : Frame (Local k) (onDB (StateInterface.storeX2State v k x)) := by
  intro c
  refine ⟨?_, rfl, rfl, rfl, rfl, List.prefix_rfl, fun _ => id⟩
  have h := Acts.step (P := Touches k) (op := .bind x v k) ⟨rfl, hx⟩ c.db
  have e : (StateInterface.step (.bind x v k) c.db).2 = (StateInterface.storeX2State v k x c.db).2 := by
    simp only [StateInterface.step]
    rcases StateInterface.storeX2State v k x c.db with ⟨r, d⟩
    cases r <;> rfl
  rw [e] at h
  exact h

theorem Local.send (k : String) (x : Ext) (s : Sent) : Frame (Local k) (Service.send x s) := by
  intro c
  exact ⟨Acts.refl _, rfl, rfl, rfl, rfl, List.prefix_append _ _, fun _ => id⟩

theorem NoStore.send (x : Ext) (s : Sent) : Frame NoStore (Service.send x s) := by
  intro c
  exact ⟨rfl, rfl, rfl, rfl, List.prefix_append _ _⟩

theorem NoStore.onCtx {α : Type} (m : Py Ctx α) : Frame NoStore (Service.onCtx m) := by
  intro c
  exact ⟨rfl, rfl, rfl, rfl, List.prefix_rfl⟩

theorem frame_dpopKey {R : Client → Client → Prop} [FrameRel R]
    (h : ∀ d (c : Client), (∀ k, c.dpopKey = some k → d = some k) → R c { c with dpopKey := d })
    (x : Ext) (srv : Srv) (m : String) (hd : Dict String) : Frame R (dpopHeader x srv m hd) := by
  unfold dpopHeader
  intro c
  refine Frame.bind' (Frame.ask _) fun ko c1 h1 => ?_
  have hko : dpopKeyFor x c = .ok ko := congrArg Prod.fst h1
  obtain rfl : c1 = c := (congrArg Prod.snd h1).symm
  split
  · exact FrameRel.refl _
  · next key alg =>
    rw [Py.modify_bind_run]
    refine FrameRel.trans (h (some (key, alg)) c1 ?_) ?_
    · intro k hk
      unfold dpopKeyFor at hko
      rw [hk] at hko
      injection hko with hko
      exact hko.symm
    · exact Frame.bind (Frame.ask _) (fun _ => Frame.bind (Frame.lift _) fun _ => Frame.pure _) _

/-- A relation that making a DPoP proof respects. -/
class DpopRel (R : Client → Client → Prop) : Prop extends FrameRel R where
  dpop : ∀ x srv m h, Frame R (dpopHeader x srv m h)

/-- A relation that sending a request respects, too. -/
class ClientRel (R : Client → Client → Prop) : Prop extends DpopRel R where
  send : ∀ x s, Frame R (Service.send x s)

/-- No HTTP request was sent. -/
def NoSend (c c' : Client) : Prop := c'.log = c.log

instance : FrameRel NoSend where
  refl _ := rfl
  trans h h' := Eq.trans h' h

instance : DpopRel NoSend where
  dpop := frame_dpopKey fun _ _ _ => rfl

instance (k : String) : ClientRel (Local k) where
  send := Local.send k
  dpop := frame_dpopKey fun _ _ hk => ⟨Acts.refl _, rfl, rfl, rfl, rfl, List.prefix_rfl, hk⟩

instance : ClientRel NoStore where
  send := NoStore.send
  dpop := frame_dpopKey fun _ _ _ => ⟨rfl, rfl, rfl, rfl, List.prefix_rfl⟩

section messages
variable {R : Client → Client → Prop} [FrameRel R]

theorem frame_construct {x : Ext} {srv : Srv} (args kwargs : Obj)
    (hpre : ∀ kw, Frame R (preConstruct x srv args kw))
    (hpost : ∀ req post, Frame R (postConstruct x srv req post)) :
    Frame R (construct x srv args kwargs) := by
  unfold construct
  refine Frame.bind Frame.read fun c => ?_
  refine Frame.bind (hpre _) fun r => ?_
  exact Frame.bind (Frame.ask _) fun g => hpost _ _

/-- Making the message changes nothing, for the services that only read the store. -/
theorem frame_construct_reading' {x : Ext} {srv : Srv} (hs : srv ≠ .authorization ∧ srv ≠ .oauth2Authorization ∧
    srv ≠ .endSession ∧ srv ≠ .registration) (args kwargs : Obj) : Frame R (construct x srv args kwargs) := by
  obtain ⟨h1, h2, h3, h4⟩ := hs
  refine frame_construct args kwargs (fun kw => ?_) (fun req post => ?_)
  · cases srv <;> simp only [preConstruct] <;> first
      | contradiction
      | exact Frame.pure _
      | exact Frame.bind (Frame.ask _) fun _ => Frame.pure _
      | exact Frame.bind (Frame.ask _) fun _ => Frame.bind (Frame.ask _) fun _ => Frame.pure _
      | exact Frame.bind (Frame.ask _) fun _ => Frame.bind Frame.read fun _ => Frame.bind (Frame.lift _) fun _ => Frame.pure _
  · unfold postConstruct
    refine Frame.bind Frame.read fun c => ?_
    cases srv <;> simp only <;> first
      | contradiction
      | exact Frame.pure _
      | exact Frame.ite (fun _ => Frame.ask _) (fun _ => Frame.pure _)

theorem frame_construct_reading {x : Ext} {srv : Srv} (hs : srv = .accesstoken ∨ srv = .refreshToken ∨
    srv = .userinfo ∨ srv = .registrationRead) (args kwargs : Obj) : Frame R (construct x srv args kwargs) :=
  frame_construct_reading' (by rcases hs with rfl | rfl | rfl | rfl <;> decide) args kwargs

end messages

section making
variable {R : Client → Client → Prop} [DpopRel R]

theorem frame_getHeaders (x : Ext) (srv : Srv) (request : Obj) (hm am : String) (kwargs : Obj) :
    Frame R (getHeaders x srv request hm am kwargs) := by
  unfold getHeaders
  refine Frame.bind (Frame.ask _) fun _ => ?_
  refine Frame.bind (Frame.ask _) fun r => ?_
  refine Frame.bind Frame.read fun c => ?_
  refine Frame.ite (fun _ => ?_) (fun _ => Frame.pure _)
  exact Frame.bind (DpopRel.dpop _ _ _ _) fun _ => Frame.pure _

theorem frame_buildRequest {x : Ext} {srv : Srv} {args : Obj} (o : CallOpts) {kwargs : Obj}
    (hc : Frame R (construct x srv args kwargs)) : Frame R (buildRequest x srv args o kwargs) := by
  unfold buildRequest
  refine Frame.bind Frame.read fun c => ?_
  refine Frame.bind (Frame.ask _) fun _ => ?_
  refine Frame.bind hc fun _ => ?_
  exact Frame.bind (frame_getHeaders _ _ _ _ _ _) fun _ => Frame.ask _

/-- Making a request changes nothing but the DPoP key, for the services that only read the store. -/
theorem frame_request_reading' {x : Ext} {srv : Srv} (hs : srv ≠ .authorization ∧ srv ≠ .oauth2Authorization ∧
    srv ≠ .endSession ∧ srv ≠ .registration) (args : Obj) (o : CallOpts) (kwargs : Obj) :
    Frame R (getRequestParameters x srv args o kwargs) := by
  have hb : Frame R (buildRequest x srv args o kwargs) := by
    exact frame_buildRequest o (frame_construct_reading' hs args kwargs)
  unfold getRequestParameters
  split
  · exact Frame.ask _
  · exact Frame.ask _
  · exact Frame.ask _
  · exact hb

theorem frame_request_reading {x : Ext} {srv : Srv} (hs : srv = .accesstoken ∨ srv = .refreshToken ∨
    srv = .userinfo ∨ srv = .registrationRead) (args : Obj) (o : CallOpts) (kwargs : Obj) :
    Frame R (getRequestParameters x srv args o kwargs) :=
  frame_request_reading' (by rcases hs with rfl | rfl | rfl | rfl <;> decide) args o kwargs

end making

section parsing
variable {R : Client → Client → Prop} [FrameRel R]

theorem frame_verified {x : Ext} {srv : Srv} {state : String} (resp : Obj)
    (hp : ∀ r, Frame R (postParse x srv r state)) : Frame R (verified x srv resp state) := by
  unfold verified
  refine Frame.bind (R := R) ?_ fun r => ?_
  · unfold checkedResponse
    refine Frame.ite (fun _ => Frame.pure _) (fun _ => ?_)
    exact Frame.bind (Frame.ask _) fun v => hp _
  · exact Frame.ite (fun _ => Frame.raise _) (fun _ => Frame.pure _)

theorem frame_parseResponse {x : Ext} {srv : Srv} {state : String} (info : Info) (f : String)
    (hp : ∀ r, Frame R (postParse x srv r state)) : Frame R (parseResponse x srv info f state) := by
  unfold parseResponse
  refine Frame.bind Frame.read fun c => ?_
  refine Frame.ite (fun _ => ?_) (fun _ => ?_)
  · split
    · exact Frame.lift _
    · exact Frame.raise _
  · exact Frame.bind (Frame.lift _) fun _ => frame_verified _ hp

theorem frame_parseRequestResponse {x : Ext} {srv : Srv} {state : String} (r : HttpResp) (bt : String)
    (hp : ∀ r, Frame R (postParse x srv r state)) (hp0 : ∀ r, Frame R (postParse x srv r "")) :
    Frame R (parseRequestResponse x srv r bt state) := by
  unfold parseRequestResponse
  refine Frame.ite (fun _ => frame_parseResponse _ _ hp) (fun _ => ?_)
  refine Frame.ite (fun _ => Frame.raise _) (fun _ => ?_)
  refine Frame.ite (fun _ => ?_) (fun _ => Frame.raise _)
  refine Frame.bind ?_ fun _ => Frame.lift _
  refine Frame.try_ (frame_parseResponse _ _ hp0) fun e k hk => ?_
  unfold errorFallback at hk
  split at hk
  · split at hk
    · injection hk with hk; subst hk
      refine Frame.try_ (frame_parseResponse _ _ hp0) fun e' k' hk' => ?_
      split at hk'
      · injection hk' with hk'; subst hk'; exact Frame.raise _
      · cases hk'
    · injection hk with hk; subst hk; exact Frame.raise _
  · split at hk
    · injection hk with hk; subst hk; exact Frame.ret _
    · cases hk

theorem frame_update {x : Ext} {srv : Srv} {key : String} (r : Resp)
    (hu : ∀ o, Frame R (updateMsg x srv o key)) : Frame R (update x srv r key) := by
  unfold update
  split
  · exact Frame.bind (hu _) fun _ => Frame.pure _
  · split <;> first | exact Frame.raise _ | exact Frame.bind (hu _) fun _ => Frame.pure _
  · split <;> first | exact Frame.pure _ | exact Frame.raise _

end parsing

section generic
variable {R : Client → Client → Prop} [ClientRel R]

theorem frame_getResponse {x : Ext} {srv : Srv} {state : String} (info : ReqInfo) (bt : String)
    (hp : ∀ r, Frame R (postParse x srv r state)) (hp0 : ∀ r, Frame R (postParse x srv r "")) :
    Frame R (getResponse x srv info bt state) := by
  unfold getResponse
  refine Frame.bind (ClientRel.send _ _) fun r => ?_
  refine Frame.bind Frame.read fun c => ?_
  refine Frame.ite (fun _ => Frame.pure _) (fun _ => ?_)
  exact Frame.ite (fun _ => Frame.pure _) (fun _ => frame_parseRequestResponse _ _ hp hp0)

theorem frame_serviceRequest {x : Ext} {srv : Srv} {state : String} (info : ReqInfo) (bt : String)
    (hp : ∀ r, Frame R (postParse x srv r state)) (hp0 : ∀ r, Frame R (postParse x srv r ""))
    (hu : ∀ o, Frame R (updateMsg x srv o state)) : Frame R (serviceRequest x srv info bt state) := by
  unfold serviceRequest
  refine Frame.bind (frame_getResponse _ _ hp hp0) fun r => ?_
  exact Frame.ite (fun _ => Frame.pure _) (fun _ => frame_update _ hu)

theorem frame_doRequest {x : Ext} {srv : Srv} {args kwargs : Obj} {o : CallOpts}
    (hg : Frame R (getRequestParameters x srv args o kwargs))
    (hp : ∀ r, Frame R (postParse x srv r (stateOf kwargs))) (hp0 : ∀ r, Frame R (postParse x srv r ""))
    (hu : ∀ m, Frame R (updateMsg x srv m (stateOf kwargs))) :
    Frame R (doRequest x srv args o kwargs) := by
  unfold doRequest
  refine Frame.bind Frame.read fun c => ?_
  refine Frame.ite (fun _ => Frame.raise _) (fun _ => ?_)
  exact Frame.bind hg fun _ => frame_serviceRequest _ _ hp hp0 hu

end generic

/-! ## The calls that work for one session -/

theorem local_storeResponse (x : Ext) (k t : String) (ht : t ∉ STARTED) (resp : Obj) :
    Frame (Local k) (storeResponse x t k resp) := by
  unfold storeResponse
  refine Frame.bind (Frame.lift _) fun r => ?_
  exact Frame.bind (Local.onDB_store k _ _ _ (Or.inl rfl) ht) fun _ => Frame.pure _

theorem local_bindIdToken (k : String) (resp : Obj) : Frame (Local k) (bindIdToken resp k) := by
  unfold bindIdToken
  split
  · exact Frame.pure _
  · refine Frame.bind (Frame.ask _) fun _ => ?_
    refine Frame.bind (Frame.lift _) fun _ => ?_
    exact Frame.bind (Frame.lift _) fun _ => Local.onDB_bind _ _ _ (by decide)
  · exact Frame.raise _

/-- Every service but discovery, registration and WebFinger stores its answer in the session only. -/
theorem local_updateMsg' {x : Ext} {srv : Srv} (hs : srv ≠ .providerInfo ∧ srv ≠ .oauth2ProviderInfo ∧
    srv ≠ .registration ∧ srv ≠ .webfinger) (resp : Obj) (k : String) :
    Frame (Local k) (updateMsg x srv resp k) := by
  obtain ⟨h1, h2, h3, h4⟩ := hs
  cases srv <;> simp only [updateMsg] <;> first
    | exact local_storeResponse _ _ _ (by decide) _
    | exact Frame.bind (local_bindIdToken _ _) fun _ => local_storeResponse _ _ _ (by decide) _
    | exact Frame.pure _
    | contradiction

theorem local_updateMsg {x : Ext} {srv : Srv} (hs : srv = .authorization ∨ srv = .accesstoken ∨
    srv = .refreshToken ∨ srv = .userinfo ∨ srv = .endSession ∨ srv = .registrationRead) (resp : Obj) (k : String) :
    Frame (Local k) (updateMsg x srv resp k) := by
  refine local_updateMsg' ?_ resp k
  rcases hs with rfl | rfl | rfl | rfl | rfl | rfl <;> decide

theorem local_postParse {x : Ext} (srv : Srv) (resp : Obj) (k s : String) (hs : s = k ∨ s = "") :
    Frame (Local k) (postParse x srv resp s) := by
  unfold postParse
  split
  · exact Frame.ask _
  · exact Frame.ask _
  · refine Frame.bind (Frame.ask _) fun _ => ?_
    exact Frame.bind (Local.onDB_store k _ _ _ hs (by decide)) fun _ => Frame.pure _
  · exact Frame.pure _

/-- Making a logout request works for its session. -/
theorem local_logoutRequest (x : Ext) (args : Obj) (o : CallOpts) (kwargs : Obj) (k : String) (hn : (Dict.keys kwargs).Nodup)
    (hk : Dict.get? kwargs "state" = some (.str k)) :
    Frame (Local k) (getRequestParameters x .endSession args o kwargs) := by
  have hk' : ∀ conf : Obj, Dict.get? (methodArgs conf "pre_construct" kwargs) "state" = some (.str k) := by
    intro conf
    unfold methodArgs
    split
    · rw [Dict.get?_update_nodup _ hn, hk]; rfl
    · exact hk
  refine frame_buildRequest o ?_
  unfold construct
  refine Frame.bind Frame.read fun c => ?_
  refine Frame.bind ?_ fun r => ?_
  · simp only [preConstruct]
    refine Frame.bind (Frame.ask _) fun a => ?_
    refine Frame.bind (Frame.ask _) fun b => ?_
    refine Frame.bind ?_ fun _ => Frame.pure _
    unfold addState
    refine Frame.bind (Frame.lift _) fun v => ?_
    refine Frame.bind (Frame.lift _) fun s => ?_
    have : stateArg (methodArgs (confOf c .endSession) "pre_construct" kwargs) = .ok k := by
      unfold stateArg
      rw [Dict.getItem_eq_ok.2 (hk' _)]
      rfl
    rw [this]
    intro c'
    refine Frame.bind' (Frame.lift _) fun a' s' h => ?_
    have h1 : Except.ok (ε := Exc) k = .ok a' := congrArg Prod.fst h
    injection h1 with h1
    subst h1
    exact Frame.bind (Local.onDB_bind k _ _ (by decide)) (fun _ => Frame.pure _) s'
  · refine Frame.bind (Frame.ask _) fun g => ?_
    unfold postConstruct
    exact Frame.bind Frame.read fun c => Frame.pure _

/-- The requests of the services that only read the store, and do not configure the client, work for their session. -/
theorem local_doRequest' {x : Ext} {srv : Srv} (hs : srv ≠ .authorization ∧ srv ≠ .oauth2Authorization ∧
    srv ≠ .endSession ∧ srv ≠ .registration) (hs' : srv ≠ .providerInfo ∧ srv ≠ .oauth2ProviderInfo ∧
    srv ≠ .registration ∧ srv ≠ .webfinger) (args : Obj) (o : CallOpts) (kwargs : Obj) (k : String)
    (hk : stateOf kwargs = k) :
    Frame (Local k) (doRequest x srv args o kwargs) := by
  refine frame_doRequest ?_ (fun r => ?_) (fun r => ?_) (fun m => ?_)
  · exact frame_request_reading' hs _ _ _
  · rw [hk]; exact local_postParse _ _ _ _ (Or.inl rfl)
  · exact local_postParse _ _ _ _ (Or.inr rfl)
  · rw [hk]; exact local_updateMsg' hs' _ _

/-- Token, refresh and userinfo requests work for their session. -/
theorem local_doRequest {x : Ext} {srv : Srv} (hs : srv = .accesstoken ∨ srv = .refreshToken ∨
    srv = .userinfo) (args : Obj) (o : CallOpts) (k : String) :
    Frame (Local k) (doRequest x srv args o [("state", .str k)]) :=
  local_doRequest' (by rcases hs with rfl | rfl | rfl <;> decide) (by rcases hs with rfl | rfl | rfl <;> decide) _ _ _ _ rfl

end Service

namespace Handler
open Service

theorem local_getTokens (x : Ext) (k : String) : Frame (Local k) (getTokens x k) := by
  unfold getTokens
  refine Frame.bind (Frame.ask _) fun _ => ?_
  refine Frame.bind (Frame.ask _) fun _ => ?_
  refine Frame.bind (local_doRequest (Or.inl rfl) _ _ _) fun _ => ?_
  exact Frame.bind (Frame.lift _) fun _ => Frame.pure _

theorem local_refresh (x : Ext) (k sc : String) : Frame (Local k) (refreshAccessToken x k sc) := by
  unfold refreshAccessToken
  refine Frame.bind (Frame.ask _) fun _ => ?_
  refine Frame.bind (local_doRequest (Or.inr (Or.inl rfl)) _ _ _) fun _ => ?_
  exact Frame.bind (Frame.lift _) fun _ => Frame.pure _

theorem local_userInfo (x : Ext) (k : String) (t : Val) : Frame (Local k) (getUserInfo x k t) := by
  unfold getUserInfo
  refine Frame.bind (Frame.ask _) fun _ => ?_
  refine Frame.bind (local_doRequest (Or.inr (Or.inr rfl)) _ _ _) fun _ => ?_
  exact Frame.bind (Frame.lift _) fun _ => Frame.pure _

theorem local_logout (x : Ext) (k uri : String) : Frame (Local k) (logout x k uri) := by
  unfold logout
  refine Frame.bind Frame.read fun c => ?_
  refine Frame.ite (fun _ => Frame.raise _) (fun _ => ?_)
  exact local_logoutRequest x _ _ _ k (by simp [Dict.keys]) (by simp [Dict.get?])

theorem local_endpointTokens (x : Ext) (k : String) : Frame (Local k) (endpointTokens x k) := by
  unfold endpointTokens
  refine Frame.bind (local_getTokens _ _) fun _ => ?_
  refine Frame.bind (Frame.lift _) fun _ => ?_
  exact Frame.bind (Frame.lift _) fun _ => Frame.pure _

theorem local_getAccessAndIdToken (x : Ext) (resp : Obj) (k : String) (b : Obj) :
    Frame (Local k) (getAccessAndIdToken x resp k b) := by
  unfold getAccessAndIdToken
  refine Frame.bind (Frame.ask _) fun rt => ?_
  refine Frame.bind (Frame.lift _) fun idt => ?_
  refine Frame.ite (fun _ => ?_) (fun _ => ?_)
  · refine Frame.bind (Frame.lift _) fun _ => ?_
    exact Frame.ite (fun _ => local_endpointTokens _ _) (fun _ => Frame.pure _)
  · exact Frame.ite (fun _ => local_endpointTokens _ _) (fun _ => Frame.pure _)

theorem local_collectUserInfo (x : Ext) (k : String) (t i : Val) : Frame (Local k) (collectUserInfo x k t i) := by
  unfold collectUserInfo
  refine Frame.bind Frame.read fun c => ?_
  refine Frame.ite (fun _ => ?_) (fun _ => ?_)
  · exact Frame.bind (local_userInfo _ _ _) fun _ => Frame.pure _
  · refine Frame.ite (fun _ => ?_) (fun _ => Frame.pure _)
    split
    · exact Frame.pure _
    · exact Frame.raise _

theorem local_bindSid (k : String) (i : Val) : Frame (Local k) (bindSid k i) := by
  unfold bindSid
  refine Frame.bind Frame.read fun c => ?_
  refine Frame.ite (fun _ => ?_) (fun _ => Frame.pure _)
  split
  · exact Frame.pure _
  · exact Frame.raise _
  · exact Frame.bind (Frame.lift _) fun _ => Local.onDB_bind _ _ _ (by decide)

theorem local_bindSub (k : String) (i u : Val) : Frame (Local k) (bindSub k i u) := by
  unfold bindSub
  refine Frame.bind (Frame.lift _) fun _ => ?_
  exact Frame.bind (Frame.lift _) fun _ => Local.onDB_bind _ _ _ (by decide)

theorem local_finalizeTokens (x : Ext) (resp : Obj) (k : String) (b : Obj) :
    Frame (Local k) (finalizeTokens x resp k b) := by
  unfold finalizeTokens
  refine Frame.bind (local_getAccessAndIdToken _ _ _ _) fun _ => ?_
  refine Frame.bind (local_collectUserInfo _ _ _ _) fun _ => ?_
  refine Frame.bind (local_bindSid _ _) fun _ => ?_
  exact Frame.bind (local_bindSub _ _ _) fun _ => Frame.pure _

end Handler
end Verif
