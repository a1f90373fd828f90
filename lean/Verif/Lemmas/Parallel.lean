import Verif.Lemmas.Quiet
/-!
# The same call at two clients that differ in other sessions only

`Twin n k c c'`: two clients with the same set-up and the same record of session `k`, in both of which the nonce `n`, and
no other, leads to `k`.  `Par E n k m`: what `m` does at such clients is the same: the results agree (errors up to `E`), the
same requests are sent, and the clients are again of this kind.
-/

namespace Verif
open StateInterface Service Handler
open Spec.Store (KeySpace)

/-- What a store has for session `k` besides its record. -/
structure Own (n k : String) (db : DB) : Prop where
  nonce : Dict.get? db (indexKey .nonce n) = some (.raw k)
  indexed : Indexed db k
  quiet : Quiet (fun v => v = n) k db

/-- Two clients that differ in other sessions and in what they have sent. -/
structure Twin (n k : String) (c c' : Client) : Prop where
  ctx : c'.ctx = c.ctx
  services : c'.services = c.services
  conf : c'.conf = c.conf
  cfg : c'.cfg = c.cfg
  key : Dict.has c.ctx.addOn "dpop" = true → c.dpopKey.isSome ∧ c'.dpopKey = c.dpopKey
  record : getState c'.db k = getState c.db k
  own : Own n k c.db
  own' : Own n k c'.db

/-- Results that agree; errors up to `E`. -/
def Agree {α : Type} (E : Exc → Exc → Prop) : Except Exc α → Except Exc α → Prop
  | .ok a, .ok b => a = b
  | .error e, .error e' => E e e'
  | _, _ => False

/-- Errors that may be compared. -/
class Lenient (E : Exc → Exc → Prop) : Prop where
  refl : ∀ e, E e e

instance : Lenient (fun e e' => e = e') := ⟨fun _ => rfl⟩

/-- The two errors by which an ID Token with the nonce of no session, or of another one, is refused. -/
def Refused (e e' : Exc) : Prop :=
  e = e' ∨ (e ∈ [Exc.parameterError, .valueError] ∧ e' ∈ [Exc.parameterError, .valueError])

instance : Lenient Refused := ⟨fun _ => Or.inl rfl⟩

theorem Agree.of_eq {α : Type} {E : Exc → Exc → Prop} [Lenient E] {r r' : Except Exc α} (h : r = r') : Agree E r r' := by
  subst h
  cases r with
  | ok a => rfl
  | error e => exact Lenient.refl e

theorem Agree.eq {α : Type} {r r' : Except Exc α} (h : Agree (fun e e' => e = e') r r') : r = r' := by
  cases r <;> cases r' <;> first | exact h.elim | skip
  · exact congrArg Except.error h
  · exact congrArg Except.ok h

/-- `m` does the same at clients that differ in other sessions. -/
def Par {α : Type} (E : Exc → Exc → Prop) (n k : String) (m : Py Client α) : Prop :=
  ∀ c c', Twin n k c c' → Agree E (m c).1 (m c').1 ∧ Twin n k (m c).2 (m c').2 ∧
    ∃ l, (m c).2.log = c.log ++ l ∧ (m c').2.log = c'.log ++ l

variable {α β : Type} {E : Exc → Exc → Prop} {K : String → Prop} {n k : String}

theorem Twin.eq {c c' : Client} (h : Twin n k c c') :
    c' = { c with db := c'.db, log := c'.log, dpopKey := c'.dpopKey } := by
  obtain ⟨c1, c2, c3, c4, c5, c6, c7⟩ := c
  obtain ⟨d1, d2, d3, d4, d5, d6, d7⟩ := c'
  obtain ⟨h1, h2, h3, h4, _, _, _, _⟩ := h
  simp only at h1 h2 h3 h4
  subst h1 h2 h3 h4
  rfl

/-- A function that looks at neither the store, nor the requests sent, nor the key. -/
def Blind {γ : Type} (f : Client → γ) : Prop :=
  ∀ (c : Client) db log key, f { c with db := db, log := log, dpopKey := key } = f c

theorem Twin.blind {γ : Type} {c c' : Client} (h : Twin n k c c') {f : Client → γ} (hf : Blind f) : f c' = f c := by
  rw [h.eq]; exact hf c _ _ _

namespace Par

theorem strict [Lenient E] {m : Py Client α} (h : Par (fun e e' => e = e') n k m) : Par E n k m := fun c c' hs =>
  ⟨Agree.of_eq (h c c' hs).1.eq, (h c c' hs).2⟩

/-- A call that changes nothing. -/
theorem still [Lenient E] {m : Py Client α} (h1 : ∀ c, (m c).2 = c) (h2 : ∀ c c', Twin n k c c' → (m c).1 = (m c').1) :
    Par E n k m := fun c c' hs => by
  rw [h1 c, h1 c']
  exact ⟨Agree.of_eq (h2 c c' hs), hs, [], by simp, by simp⟩

theorem pure [Lenient E] (a : α) : Par E n k (Pure.pure a : Py Client α) := still (fun _ => rfl) fun _ _ _ => rfl
theorem ret [Lenient E] (a : α) : Par E n k (Py.ret a : Py Client α) := still (fun _ => rfl) fun _ _ _ => rfl
theorem raise [Lenient E] (e : Exc) : Par E n k (Py.raise e : Py Client α) := still (fun _ => rfl) fun _ _ _ => rfl
theorem lift [Lenient E] (r : Except Exc α) : Par E n k (Py.lift r : Py Client α) := still (fun _ => rfl) fun _ _ _ => rfl

theorem ask [Lenient E] {f : Client → Except Exc α} (h : ∀ c c', Twin n k c c' → f c = f c') : Par E n k (Service.ask f) :=
  still (fun _ => rfl) h

theorem blind [Lenient E] {f : Client → Except Exc α} (h : Blind f) : Par E n k (Service.ask f) :=
  ask fun _ _ hs => (hs.blind h).symm

/-- Two steps; about the result of the first, `P` is known. -/
theorem bind' {m : Py Client α} {f : α → Py Client β} {P : α → Prop} (hm : Par E n k m)
    (hP : ∀ c c' a, Twin n k c c' → (m c).1 = .ok a → P a) (hf : ∀ a, P a → Par E n k (f a)) : Par E n k (m >>= f) := by
  intro c c' hs
  obtain ⟨h1, h2, l, h3, h4⟩ := hm c c' hs
  have hp := fun a => hP c c' a hs
  rw [Py.bind_run, Py.bind_run]
  rcases hmc : m c with ⟨r, d⟩
  rcases hmc' : m c' with ⟨r', d'⟩
  rw [hmc] at h1 h2 h3 hp
  rw [hmc'] at h1 h2 h4
  simp only at h1 h2 h3 h4
  cases r with
  | error e =>
    cases r' with
    | error e' => exact ⟨h1, h2, l, h3, h4⟩
    | ok a' => exact h1.elim
  | ok a =>
    cases r' with
    | error e' => exact h1.elim
    | ok a' =>
      have h1 : a = a' := h1
      subst h1
      obtain ⟨g1, g2, l', g3, g4⟩ := hf a (hp a rfl) d d' h2
      exact ⟨g1, g2, l ++ l', by simp only; rw [g3, h3, List.append_assoc], by simp only; rw [g4, h4, List.append_assoc]⟩

theorem bind {m : Py Client α} {f : α → Py Client β} (hm : Par E n k m) (hf : ∀ a, Par E n k (f a)) : Par E n k (m >>= f) :=
  bind' (P := fun _ => True) hm (fun _ _ _ _ _ => trivial) fun a _ => hf a

theorem read_bind {f : Client → Py Client β} (hb : Blind f) (hf : ∀ c, Par E n k (f c)) : Par E n k (Py.read >>= f) := by
  intro c c' hs
  rw [Py.read_bind_run, Py.read_bind_run, hs.blind hb]
  exact hf c c c' hs

/-- As `read_bind`, with what is known of the client. -/
theorem read_bind' {f : Client → Py Client β} (hf : ∀ c c', Twin n k c c' → f c' = f c ∧ Par E n k (f c)) :
    Par E n k (Py.read >>= f) := by
  intro c c' hs
  rw [Py.read_bind_run, Py.read_bind_run, (hf c c' hs).1]
  exact (hf c c' hs).2 c c' hs

theorem ite {p : Prop} [Decidable p] {x y : Py Client α} (hx : p → Par E n k x) (hy : ¬ p → Par E n k y) :
    Par E n k (if p then x else y) := by
  split
  · exact hx ‹_›
  · exact hy ‹_›

theorem try_ {m : Py Client α} {h : Exc → Option (Py Client α)} (hm : Par (fun e e' => e = e') n k m)
    (hh : ∀ e m', h e = some m' → Par (fun e e' => e = e') n k m') : Par (fun e e' => e = e') n k (Py.try_ m h) := by
  intro c c' hs
  obtain ⟨h1, h2, l, h3, h4⟩ := hm c c' hs
  have h1 := h1.eq
  unfold Py.try_
  rcases hmc : m c with ⟨r, d⟩
  rcases hmc' : m c' with ⟨r', d'⟩
  rw [hmc] at h1 h2 h3
  rw [hmc'] at h1 h2 h4
  simp only at h1 h2 h3 h4
  subst h1
  cases r with
  | ok a => exact ⟨rfl, h2, l, h3, h4⟩
  | error e =>
    simp only
    cases he : h e with
    | none => exact ⟨rfl, h2, l, h3, h4⟩
    | some m' =>
      obtain ⟨g1, g2, l', g3, g4⟩ := hh e m' he d d' h2
      exact ⟨g1, g2, l ++ l', by simp only; rw [g3, h3, List.append_assoc], by simp only; rw [g4, h4, List.append_assoc]⟩

end Par

/-! ## The store -/

theorem Own.store (hK : KeySpace K) (hk : K k) (item : Obj) (t : String) {db : DB} (ho : Own n k db) :
    Own n k (storeItem item t k db).2 :=
  ⟨by rw [Props.get?_storeItem_ne (KeySpace.ne_index hK hk _ _)]; exact ho.nonce,
   by
    obtain ⟨refs, hr⟩ := ho.indexed
    exact ⟨refs, by rw [Props.get?_storeItem_ne (KeySpace.ne_ref hK hk hk)]; exact hr⟩,
   ho.quiet.store hK hk item t⟩

theorem getState_storeItem (item : Obj) (t : String) {db db' : DB} (h : getState db' k = getState db k) :
    (storeItem item t k db').1 = (storeItem item t k db).1 ∧
    getState (storeItem item t k db').2 k = getState (storeItem item t k db).2 k := by
  unfold storeItem
  rw [h]
  cases hg : getState db k with
  | ok st =>
    simp only
    refine ⟨trivial, ?_⟩
    unfold getState
    rw [Dict.get?_set_self, Dict.get?_set_self]
  | error e =>
    cases e <;> simp only <;> first | (refine ⟨trivial, ?_⟩; unfold getState; rw [Dict.get?_set_self, Dict.get?_set_self]) | exact ⟨trivial, h.trans rfl⟩

theorem Par.store [Lenient E] (hK : KeySpace K) (hk : K k) (item : Obj) (t : String) : Par E n k (onDB (storeItem item t k)) := by
  intro c c' hs
  obtain ⟨h1, h2⟩ := getState_storeItem item t hs.record
  exact ⟨Agree.of_eq h1.symm, ⟨hs.ctx, hs.services, hs.conf, hs.cfg, hs.key, h2, hs.own.store hK hk item t, hs.own'.store hK hk item t⟩,
    [], by simp [onDB], by simp [onDB]⟩

theorem bind_indexed {x : XTyp} (v : String) {db : DB} (h : Indexed db k) :
    ∃ refs, storeX2State v k x db = (.ok (), Dict.set (Dict.set db (indexKey x v) (.raw k)) (refKey k) (.doc refs)) := by
  obtain ⟨refs, hr⟩ := h
  unfold storeX2State
  simp only
  rw [Dict.get?_set_ne _ _ (indexKey_ne_refKey _ _ _), hr]
  exact ⟨_, rfl⟩

theorem Own.bind {x : XTyp} (hx : x ≠ .nonce) (v : String) {db : DB} (ho : Own n k db) :
    Own n k (storeX2State v k x db).2 := by
  have hq := ho.quiet.bind (x := x) (v := v) (s := k) (fun e => absurd e hx)
  obtain ⟨refs, hr⟩ := bind_indexed (x := x) v ho.indexed
  rw [hr] at hq ⊢
  refine ⟨?_, ⟨refs, Dict.get?_set_self _ _ _⟩, hq⟩
  rw [Dict.get?_set_ne _ _ (refKey_ne_indexKey _ _ _), Dict.get?_set_ne _ _ (fun e => hx (indexKey_inj.1 e).1)]
  exact ho.nonce

theorem getState_bind (hK : KeySpace K) (hk : K k) {x : XTyp} (v : String) {db : DB} (hi : Indexed db k) :
    getState (storeX2State v k x db).2 k = getState db k := by
  obtain ⟨refs, hr⟩ := bind_indexed (x := x) v hi
  rw [hr]
  unfold getState
  simp only
  rw [Dict.get?_set_ne _ _ (Ne.symm (KeySpace.ne_ref hK hk hk)), Dict.get?_set_ne _ _ (Ne.symm (KeySpace.ne_index hK hk _ _))]

theorem Par.bindX [Lenient E] (hK : KeySpace K) (hk : K k) {x : XTyp} (hx : x ≠ .nonce) (v : String) :
    Par E n k (onDB (storeX2State v k x)) := by
  intro c c' hs
  obtain ⟨r1, h1⟩ := bind_indexed (x := x) v hs.own.indexed
  obtain ⟨r2, h2⟩ := bind_indexed (x := x) v hs.own'.indexed
  refine ⟨Agree.of_eq ?_, ⟨hs.ctx, hs.services, hs.conf, hs.cfg, hs.key, ?_, hs.own.bind hx v, hs.own'.bind hx v⟩,
    [], by simp [onDB], by simp [onDB]⟩
  · simp only [onDB, h1, h2]
  · simp only [onDB]
    rw [getState_bind hK hk v hs.own.indexed, getState_bind hK hk v hs.own'.indexed, hs.record]

/-- The outside world answers a request in the same way whatever was sent before. -/
def Forgetful (x : Ext) : Prop := ∀ l l' s, x.http l s = x.http l' s

theorem Par.send [Lenient E] {x : Ext} (hx : Forgetful x) (s : Sent) : Par E n k (Service.send x s) := by
  intro c c' hs
  refine ⟨Agree.of_eq (hx _ _ _), ⟨hs.ctx, hs.services, hs.conf, hs.cfg, hs.key, hs.record, hs.own, hs.own'⟩, [s], rfl, rfl⟩

theorem Twin.item {c c' : Client} (h : Twin n k c c') (t : String) : getItem c'.db t k = getItem c.db t k := by
  unfold getItem; rw [h.record]

theorem Twin.iss {c c' : Client} (h : Twin n k c c') : getIss c'.db k = getIss c.db k := by
  unfold getIss; rw [h.record]

theorem Twin.extend {c c' : Client} (h : Twin n k c c') (args : Obj) (t : String) (ps : List String) (o : Bool) :
    extendRequestArgs c'.db args t k ps o = extendRequestArgs c.db args t k ps o := by
  unfold extendRequestArgs; rw [h.item]

theorem Twin.multi {c c' : Client} (h : Twin n k c c') (args : Obj) (ps ts : List String) (o : Bool) :
    multipleExtendRequestArgs c'.db args k ps ts o = multipleExtendRequestArgs c.db args k ps ts o := by
  unfold multipleExtendRequestArgs; rw [h.record]

theorem Own.nameless {db : DB} (h : Own n k db) (args : Obj) (ps ts : List String) (o : Bool) :
    multipleExtendRequestArgs db args "" ps ts o = .error .keyError := by
  unfold multipleExtendRequestArgs getState; rw [h.quiet.nameless]

/-! ## Requests -/

namespace Service

theorem twin_tokenPre {c c' : Client} (hs : Twin n k c c') (params : List String) (args : Obj) {kwargs : Obj}
    (hkw : Dict.get? kwargs "state" = some (.str k)) : tokenPre params args kwargs c = tokenPre params args kwargs c' := by
  unfold tokenPre
  rw [getStateParameter_kwargs hkw]
  simp only [dbKey, hs.extend]

theorem twin_refreshPre {c c' : Client} (hs : Twin n k c c') (params : List String) (args : Obj) {kwargs : Obj}
    (hkw : Dict.get? kwargs "state" = some (.str k)) : refreshPre params args kwargs c = refreshPre params args kwargs c' := by
  unfold refreshPre
  rw [getStateParameter_kwargs hkw]
  simp only [dbKey, hs.extend]

theorem twin_userinfoPre {c c' : Client} (hs : Twin n k c c') (args : Obj) {kwargs : Obj}
    (hkw : Dict.get? kwargs "state" = some (.str k)) : userinfoPre args kwargs c = userinfoPre args kwargs c' := by
  unfold userinfoPre userinfoToken stateArg
  rw [Dict.getItem_eq_ok.2 hkw]
  simp only [dbKey, hs.multi]

theorem twin_idTokenHint {c c' : Client} (hs : Twin n k c c') (args : Obj) {kwargs : Obj}
    (hkw : Dict.get? kwargs "state" = some (.str k)) : idTokenHint args kwargs c = idTokenHint args kwargs c' := by
  unfold idTokenHint stateArg
  rw [Dict.getItem_eq_ok.2 hkw]
  simp only [dbKey, hs.multi]

theorem blind_postLogoutUri (args : Obj) : Blind (postLogoutUri args) := fun _ _ _ _ => rfl

/-- What the services of a running session do. -/
def Running (srv : Srv) : Prop := srv = .accesstoken ∨ srv = .refreshToken ∨ srv = .userinfo ∨ srv = .endSession

theorem par_preConstruct [Lenient E] (hK : KeySpace K) (hk : K k) (x : Ext) {srv : Srv} (hr : Running srv) (args : Obj) {kwargs : Obj}
    (hkw : Dict.get? kwargs "state" = some (.str k)) : Par E n k (preConstruct x srv args kwargs) := by
  rcases hr with rfl | rfl | rfl | rfl
  · refine Par.bind (Par.ask fun _ _ hs => twin_tokenPre hs _ _ hkw) fun a => ?_
    refine Par.read_bind (fun _ _ _ _ => rfl) fun c => ?_
    exact Par.bind (Par.lift _) fun b => Par.pure _
  · exact Par.bind (Par.ask fun _ _ hs => twin_refreshPre hs _ _ hkw) fun a => Par.pure _
  · exact Par.bind (Par.ask fun _ _ hs => twin_userinfoPre hs _ hkw) fun a => Par.pure _
  · refine Par.bind (Par.ask fun _ _ hs => twin_idTokenHint hs _ hkw) fun a => ?_
    refine Par.bind (Par.blind (blind_postLogoutUri a)) fun b => ?_
    refine Par.bind ?_ fun d => Par.pure _
    unfold addState
    refine Par.bind (Par.lift _) fun v => Par.bind (Par.lift _) fun s => ?_
    have : stateArg kwargs = .ok k := by
      unfold stateArg
      rw [Dict.getItem_eq_ok.2 hkw]
      rfl
    rw [this]
    refine Par.bind' (P := fun q => q = k) (Par.lift _) (fun _ _ a _ h => by injection h with h; exact h.symm) fun q hq => ?_
    subst hq
    exact Par.bind (Par.bindX hK hk (by decide) _) fun _ => Par.pure _

theorem twin_addCodeVerifier {c c' : Client} (hs : Twin n k c c') {req kwargs : Obj} {w : Val}
    (hw : Dict.get? req "state" = some w) (hk : ∀ s, w = .str s → s = k) :
    addCodeVerifier req kwargs c = addCodeVerifier req kwargs c' := by
  unfold addCodeVerifier
  rw [hw]
  simp only [Option.or]
  cases w with
  | str s =>
    have := hk s rfl
    subst this
    simp only [dbKey, hs.item]
  | _ => simp only [dbKey]

theorem blind_gather (x : Ext) (srv : Srv) (args : Obj) : Blind (fun c => gatherRequestArgs x c srv args) := by
  intro c db log key
  have : ∀ ps a, gatherLoop { c with db := db, log := log, dpopKey := key } srv ps a = gatherLoop c srv ps a := by
    intro ps
    induction ps with
    | nil => intro a; rfl
    | cons p ps ih =>
      intro a
      unfold gatherLoop
      simp only [ih]
      rfl
  unfold gatherRequestArgs
  simp only [this]


/-- The state of the token request is that of the session. -/
theorem token_state {t : MsgType} {g : Obj} (hn : (Dict.keys g).Nodup) (hne : k ≠ "") (hg : Dict.get? g "state" = some (.str k)) :
    ∃ w, Dict.get? (t.make g) "state" = some w ∧ ∀ s, w = .str s → s = k := by
  rw [t.get?_make hn, hg]
  have he : Msg.emptyVal (.str k) = false := by simp [Msg.emptyVal, hne]
  simp only [he]
  refine ⟨_, rfl, fun s h => ?_⟩
  unfold MsgType.coerce at h
  simp only at h
  split at h
  · cases h
  · injection h with h; exact h.symm

/-- What is given to the services of a running session: the token service gets the state among the arguments. -/
structure Given (k : String) (srv : Srv) (args kwargs : Obj) : Prop where
  nodup : (Dict.keys args).Nodup
  kwargs : kwargs = [("state", .str k)]
  token : srv = .accesstoken → Dict.get? args "state" = some (.str k)

theorem par_construct [Lenient E] (hK : KeySpace K) (hk : K k) (x : Ext) {srv : Srv} (hr : Running srv) {args kwargs : Obj}
    (hg : Given k srv args kwargs) : Par E n k (construct x srv args kwargs) := by
  have hkw : ∀ c, Dict.get? (methodArgs (confOf c srv) "pre_construct" kwargs) "state" = some (.str k) := by
    intro c
    rw [hg.kwargs]
    exact methodArgs_given _ _ (by simp [Dict.keys]) rfl
  unfold construct
  refine Par.read_bind' fun d d' hd => ⟨?_, ?_⟩
  · have : confOf d' srv = confOf d srv := by unfold confOf; rw [hd.conf]
    rw [this]
  refine Par.bind' (P := fun r => srv = .accesstoken → (Dict.keys r.1).Nodup ∧ Dict.get? r.1 "state" = some (.str k))
    (par_preConstruct hK hk x hr args (hkw d)) ?_ fun r hP => ?_
  · rintro c c' r - h rfl
    have h : (preConstruct x .accesstoken args (methodArgs (confOf d .accesstoken) "pre_construct" kwargs) c) = (.ok r, _) :=
      Prod.ext h rfl
    unfold preConstruct at h
    obtain ⟨a, c1, h1, h2⟩ := Py.bind_eq_ok.1 h
    rw [Py.read_bind_run] at h2
    obtain ⟨b, c2, h3, h4⟩ := Py.bind_eq_ok.1 h2
    simp only [ask, Prod.mk.injEq] at h1
    obtain ⟨h1, rfl⟩ := h1
    obtain ⟨t1, t2⟩ := tokenPre_get h1 (hkw d) hg.nodup
    have hb : b = a := by
      have h3 := (Py.lift_eq_ok.1 h3).1
      split at h3
      · unfold putState at h3
        rw [getStateParameter_kwargs (hkw d)] at h3
        injection h3 with h3; exact h3.symm
      · injection h3 with h3; exact h3.symm
    have hr' : r.1 = b := by
      have h4 := congrArg Prod.fst h4
      injection h4 with h4
      rw [← h4]
    rw [hr', hb]
    refine ⟨t1, ?_⟩
    rw [t2, hg.token rfl]
    rfl
  refine Par.bind' (P := fun g => srv = .accesstoken → (Dict.keys g).Nodup ∧ Dict.get? g "state" = some (.str k))
    (Par.blind (blind_gather x srv _)) ?_ fun g hP => ?_
  · rintro c c' g - h e
    obtain ⟨q1, q2⟩ := hP e
    have h : gatherRequestArgs x c srv (stateFromKwargs (x.msg srv) r.1 kwargs) = .ok g := h
    have hst : stateFromKwargs (x.msg srv) r.1 kwargs = r.1 := by
      unfold stateFromKwargs
      rw [if_neg]
      rw [Dict.has_eq, q2]
      simp
    rw [hst] at h
    exact ⟨nodup_gather h q1, gather_given h q2⟩
  unfold postConstruct
  refine Par.read_bind' fun c0 c0' h0 => ⟨?_, ?_⟩
  · have : confOf c0' srv = confOf c0 srv := by unfold confOf; rw [h0.conf]
    rw [this, h0.ctx]
  rcases hr with rfl | rfl | rfl | rfl
  · obtain ⟨q1, q2⟩ := hP rfl
    obtain ⟨w, w1, w2⟩ := token_state (t := x.msg .accesstoken) q1 (hK.nonempty k hk) q2
    refine Par.ite (fun _ => ?_) fun _ => Par.pure _
    exact Par.ask fun c c' hs => twin_addCodeVerifier hs w1 w2
  · exact Par.pure _
  · exact Par.pure _
  · exact Par.pure _


/-- The keyword arguments name no session to look for a token in, or this one. -/
def NoOtherKey (k : String) (kwargs : Obj) : Prop := Dict.get? kwargs "key" = none ∨ Dict.get? kwargs "key" = some (.str k)

theorem twin_authn {c c' : Client} (hs : Twin n k c c') (x : Ext) (srv : Srv) (req : Obj) (m : String) {kwargs : Obj}
    (hkw : NoOtherKey k kwargs) : authnHeader x srv req m kwargs c = authnHeader x srv req m kwargs c' := by
  have henv : authEnv x c' srv = { authEnv x c srv with db := c'.db } := by
    unfold authEnv; rw [hs.ctx]
  have hst : ClientAuth.storedToken (authEnv x c' srv) kwargs = ClientAuth.storedToken (authEnv x c srv) kwargs := by
    unfold ClientAuth.storedToken
    rcases hkw with hkw | hkw
    · rw [hkw]
    · rw [hkw]
      simp only [asStr]
      rw [show (authEnv x c' srv).db = c'.db from rfl, show (authEnv x c srv).db = c.db from rfl, hs.multi]
  have hft : ∀ r t, ClientAuth.findToken (authEnv x c' srv) kwargs r t = ClientAuth.findToken (authEnv x c srv) kwargs r t := by
    intro r t
    unfold ClientAuth.findToken
    rw [hst]
  have hc : ClientAuth.construct (authEnv x c' srv) m kwargs [] req = ClientAuth.construct (authEnv x c srv) m kwargs [] req := by
    unfold ClientAuth.construct
    have h3 : ClientAuth.bearerHeader (authEnv x c' srv) kwargs [] req = ClientAuth.bearerHeader (authEnv x c srv) kwargs [] req := by
      unfold ClientAuth.bearerHeader
      rw [show (authEnv x c' srv).serviceName = (authEnv x c srv).serviceName from rfl]
      simp only [hft]
    have h4 : ClientAuth.bearerBody (authEnv x c' srv) kwargs [] req = ClientAuth.bearerBody (authEnv x c srv) kwargs [] req := by
      unfold ClientAuth.bearerBody ClientAuth.bearerBodyModify
      simp only [hft]
    rw [h3, h4, henv]
    rfl
  unfold authnHeader
  rw [hs.ctx, hc]

theorem par_dpop [Lenient E] (x : Ext) (srv : Srv) (method : String) (headers : Dict String) :
    ∀ c c', Twin n k c c' → Dict.has c.ctx.addOn "dpop" = true →
      Agree E (dpopHeader x srv method headers c).1 (dpopHeader x srv method headers c').1 ∧
      Twin n k (dpopHeader x srv method headers c).2 (dpopHeader x srv method headers c').2 ∧
      ∃ l, (dpopHeader x srv method headers c).2.log = c.log ++ l ∧ (dpopHeader x srv method headers c').2.log = c'.log ++ l := by
  intro c c' hs hd
  obtain ⟨k1, k2⟩ := hs.key hd
  obtain ⟨⟨ky, alg⟩, hky⟩ := Option.isSome_iff_exists.1 k1
  have key : ∀ d : Client, d.dpopKey = some (ky, alg) → dpopHeader x srv method headers d =
      ((ask (fun c => Dict.getItem c.ctx.providerInfo srv.endpointName) >>= fun htu =>
        (Py.lift (x.dpopSign ky (dpopClaims x ky alg method htu)) >>= fun jws => pure (Dict.set headers "dpop" jws))) d) := by
    intro d hd
    unfold dpopHeader
    rw [ask_bind_ok (a := some (ky, alg)) (by unfold dpopKeyFor; rw [hd])]
    simp only
    rw [Py.modify_bind_run]
    have : ({ d with dpopKey := some (ky, alg) } : Client) = d := by
      obtain ⟨d1, d2, d3, d4, d5, d6, d7⟩ := d
      simp only at hd
      subst hd
      rfl
    rw [this]
  rw [key c hky, key c' (k2.trans hky)]
  exact (Par.bind (Par.blind fun _ _ _ _ => rfl) fun htu => Par.bind (Par.lift _) fun _ => Par.pure _ : Par E n k _) c c' hs

theorem par_getHeaders [Lenient E] (x : Ext) (srv : Srv) (req : Obj) (hm am : String) {kwargs : Obj}
    (hkw : NoOtherKey k (Dict.set kwargs "authn_endpoint" (.str srv.endpointName))) :
    Par E n k (getHeaders x srv req hm am kwargs) := by
  unfold getHeaders
  refine Par.bind (Par.blind fun _ _ _ _ => rfl) fun m => ?_
  refine Par.bind (Par.ask fun c c' hs => twin_authn hs x srv req m hkw) fun r => ?_
  intro c c' hs
  rw [Py.read_bind_run, Py.read_bind_run]
  simp only [hs.ctx]
  by_cases hd : usesDpop c.ctx srv = true
  · rw [if_pos hd]
    have ha : Dict.has c.ctx.addOn "dpop" = true := by
      unfold usesDpop at hd
      simp only [Bool.and_eq_true] at hd
      exact hd.1
    have h1 := par_dpop (E := E) x srv hm r.1 c c' hs ha
    obtain ⟨g1, g2, l, g3, g4⟩ := h1
    rw [Py.bind_run, Py.bind_run]
    rcases hmc : dpopHeader x srv hm r.1 c with ⟨q, d⟩
    rcases hmc' : dpopHeader x srv hm r.1 c' with ⟨q', d'⟩
    rw [hmc] at g1 g2 g3
    rw [hmc'] at g1 g2 g4
    cases q <;> cases q' <;> first | exact g1.elim | skip
    · exact ⟨g1, g2, l, g3, g4⟩
    · have g1 : _ = _ := g1
      subst g1
      exact ⟨rfl, g2, l, g3, g4⟩
  · rw [if_neg hd]
    exact (Par.pure r : Par E n k _) c c' hs

theorem blind_assemble (x : Ext) (srv : Srv) (req : Obj) (method bt : String) (h : Dict String) (kwargs : Obj) :
    Blind (assemble x srv req method bt h kwargs) := fun _ _ _ _ => rfl

theorem par_buildRequest [Lenient E] (hK : KeySpace K) (hk : K k) (x : Ext) {srv : Srv} (hr : Running srv) {args kwargs : Obj}
    (o : CallOpts) (hg : Given k srv args kwargs) : Par E n k (buildRequest x srv args o kwargs) := by
  unfold buildRequest
  refine Par.read_bind (fun _ _ _ _ => rfl) fun c => ?_
  refine Par.bind (Par.blind fun _ _ _ _ => rfl) fun am => ?_
  refine Par.bind (par_construct hK hk x hr hg) fun req => ?_
  refine Par.bind (par_getHeaders x srv req _ am ?_) fun h => Par.blind (blind_assemble _ _ _ _ _ _ _)
  left
  rw [hg.kwargs]
  unfold withIss
  rw [Dict.get?_set_ne _ _ (by decide)]
  split
  · rfl
  · rw [Dict.get?_set_ne _ _ (by decide)]; rfl

theorem par_getRequestParameters [Lenient E] (hK : KeySpace K) (hk : K k) (x : Ext) {srv : Srv} (hr : Running srv) {args kwargs : Obj}
    (o : CallOpts) (hg : Given k srv args kwargs) : Par E n k (getRequestParameters x srv args o kwargs) := by
  have := par_buildRequest (E := E) (n := n) hK hk x hr o hg
  rcases hr with rfl | rfl | rfl | rfl <;> exact this

/-! ## Answers -/

theorem twin_claimSources {c c' : Client} (hs : Twin n k c c') (x : Ext) : ∀ (l resp : Obj),
    claimSources x c k l resp = claimSources x c' k l resp := by
  intro l
  induction l with
  | nil => intro resp; rfl
  | cons p l ih =>
    intro resp
    obtain ⟨csrc, spec⟩ := p
    have h : claimSource x c k csrc spec resp = claimSource x c' k csrc spec resp := by
      unfold claimSource sourceHeader
      have h1 : attr c' .userinfo "default_authn_method" (defaultAuthn .userinfo) =
          attr c .userinfo "default_authn_method" (defaultAuthn .userinfo) := hs.blind (f := fun c => attr c .userinfo _ _) fun _ _ _ _ => rfl
      rw [h1, hs.ctx]
      simp only [twin_authn hs x .userinfo [] _ (kwargs := [("authn_endpoint", .str Srv.userinfo.endpointName), ("key", .str k)]) (Or.inr rfl)]
    unfold claimSources
    rw [h]
    simp only [ih]

theorem twin_userinfoChecked {c c' : Client} (hs : Twin n k c c') (x : Ext) (resp : Obj) {s : String} (hk : s = k ∨ s = "") :
    userinfoChecked x resp s c = userinfoChecked x resp s c' := by
  unfold userinfoChecked
  rcases hk with rfl | rfl
  · rw [hs.multi]
    unfold allSources
    simp only [twin_claimSources hs]
  · rw [hs.own.nameless, hs.own'.nameless]

theorem par_postParse [Lenient E] (hK : KeySpace K) (hk : K k) (x : Ext) {srv : Srv} (hr : Running srv) (resp : Obj) {s : String}
    (hsk : s = k ∨ s = "") : Par E n k (postParse x srv resp s) := by
  rcases hr with rfl | rfl | rfl | rfl
  · exact Par.pure _
  · exact Par.pure _
  · rcases hsk with rfl | rfl
    · exact Par.bind (Par.ask fun c c' hs => twin_userinfoChecked hs x resp (Or.inl rfl)) fun r =>
        Par.bind (Par.store hK hk _ _) fun _ => Par.pure _
    · have : ∀ c c', Twin n k c c' → postParse x .userinfo resp "" c = (.error .keyError, c) := by
        intro c c' hs
        refine ask_bind_error ?_
        unfold userinfoChecked
        rw [hs.own.nameless]
      have this' : ∀ c c', Twin n k c c' → postParse x .userinfo resp "" c' = (.error .keyError, c') := by
        intro c c' hs
        refine ask_bind_error ?_
        unfold userinfoChecked
        rw [hs.own'.nameless]
      intro c c' hs
      rw [this c c' hs, this' c c' hs]
      exact ⟨Lenient.refl _, hs, [], by simp, by simp⟩
  · exact Par.pure _

theorem par_verified [Lenient E] (hK : KeySpace K) (hk : K k) (x : Ext) {srv : Srv} (hr : Running srv) (resp : Obj) {s : String}
    (hsk : s = k ∨ s = "") : Par E n k (verified x srv resp s) := by
  unfold verified checkedResponse
  refine Par.bind (Par.ite (fun _ => Par.pure _) fun _ => ?_) fun r => Par.ite (fun _ => Par.raise _) fun _ => Par.pure _
  exact Par.bind (Par.blind fun _ _ _ _ => rfl) fun v => par_postParse hK hk x hr v hsk

theorem par_parse [Lenient E] (hK : KeySpace K) (hk : K k) (x : Ext) {srv : Srv} (hr : Running srv) (info : Info) (f : String) {s : String}
    (hsk : s = k ∨ s = "") : Par E n k (parseResponse x srv info f s) := by
  unfold parseResponse
  refine Par.read_bind' fun c c' hs => ⟨?_, ?_⟩
  · have h1 : formatOf c' srv f = formatOf c srv f := hs.blind (f := fun c => formatOf c srv f) fun _ _ _ _ => rfl
    rw [h1, hs.ctx]
    split
    · split
      · next t =>
        congr 1
        unfold postParseText
        rcases hr with rfl | rfl | rfl | rfl <;> rfl
      · rfl
    · rfl
  · refine Par.ite (fun _ => ?_) fun _ => Par.bind (Par.lift _) fun resp => par_verified hK hk x hr resp hsk
    split
    · exact Par.lift _
    · exact Par.raise _

theorem par_parseRequestResponse [Lenient E] (hK : KeySpace K) (hk : K k) (x : Ext) {srv : Srv} (hr : Running srv) (r : HttpResp) (bt : String) {s : String}
    (hsk : s = k ∨ s = "") : Par E n k (parseRequestResponse x srv r bt s) := by
  refine Par.strict ?_
  unfold parseRequestResponse
  refine Par.ite (fun _ => par_parse hK hk x hr _ _ hsk) fun _ => Par.ite (fun _ => Par.raise _) fun _ => Par.ite (fun _ => ?_) fun _ => Par.raise _
  refine Par.bind (Par.try_ (par_parse hK hk x hr _ _ (Or.inr rfl)) fun e m' hm => ?_) fun e => Par.lift _
  unfold errorFallback at hm
  split at hm
  · split at hm
    · injection hm with hm; subst hm
      refine Par.try_ (par_parse hK hk x hr _ _ (Or.inr rfl)) fun e' m'' hm' => ?_
      split at hm'
      · injection hm' with hm'; subst hm'; exact Par.raise _
      · cases hm'
    · injection hm with hm; subst hm; exact Par.raise _
  · split at hm
    · injection hm with hm; subst hm; exact Par.ret _
    · cases hm

theorem par_getResponse [Lenient E] (hK : KeySpace K) (hk : K k) {x : Ext} (hx : Forgetful x) {srv : Srv} (hr : Running srv) (info : ReqInfo) (bt : String) {s : String}
    (hsk : s = k ∨ s = "") : Par E n k (getResponse x srv info bt s) := by
  unfold getResponse
  refine Par.bind (Par.send hx _) fun r => Par.read_bind (fun _ _ _ _ => rfl) fun c => ?_
  refine Par.ite (fun _ => Par.pure _) fun _ => Par.ite (fun _ => Par.pure _) fun _ => ?_
  exact par_parseRequestResponse hK hk x hr r _ hsk

theorem par_storeResponse [Lenient E] (hK : KeySpace K) (hk : K k) (x : Ext) (t : String) (resp : Obj) : Par E n k (storeResponse x t k resp) := by
  unfold storeResponse
  exact Par.bind (Par.lift _) fun r => Par.bind (Par.store hK hk _ _) fun _ => Par.pure _

/-- The nonce of an ID Token leads to the session in both stores, or in neither. -/
theorem nonceOfSession_own (hne : k ≠ "") {db : DB} (ho : Own n k db) (idt : Obj) :
    (Dict.get? idt "nonce" = some (.str n) → nonceOfSession db idt k = .ok ()) ∧
    (Dict.get? idt "nonce" ≠ some (.str n) → nonceOfSession db idt k = .error .parameterError ∨ nonceOfSession db idt k = .error .valueError) := by
  constructor
  · intro h
    unfold nonceOfSession getStateByX
    rw [h]
    simp [ho.nonce, hne]
  · intro h
    unfold nonceOfSession
    split
    · next m hm =>
      unfold getStateByX
      cases hg : Dict.get? db (indexKey .nonce m) with
      | none => right; rfl
      | some p =>
        cases p with
        | doc o => left; simp
        | raw s =>
          by_cases hs : s = ""
          · right; simp [hs]
          · left
            simp only [if_neg hs]
            rw [if_neg]
            intro e
            injection e with e
            subst e
            have := ho.quiet.nonces m hg
            subst this
            exact h hm
    · right; rfl

theorem par_bindIdToken (hK : KeySpace K) (hk : K k) (resp : Obj) : Par Refused n k (bindIdToken resp k) := by
  unfold bindIdToken
  split
  · exact Par.pure _
  · next idt _ =>
    refine Par.bind ?_ fun _ => Par.bind (Par.lift _) fun sv => Par.bind (Par.lift _) fun s =>
      Par.bindX hK hk (by decide) _
    intro c c' hs
    refine ⟨?_, hs, [], by simp [ask], by simp [ask]⟩
    have h1 := nonceOfSession_own (hK.nonempty k hk) hs.own idt
    have h2 := nonceOfSession_own (hK.nonempty k hk) hs.own' idt
    show Agree Refused (nonceOfSession c.db idt k) (nonceOfSession c'.db idt k)
    by_cases e : Dict.get? idt "nonce" = some (.str n)
    · rw [h1.1 e, h2.1 e]; rfl
    · rcases h1.2 e with h1 | h1 <;> rcases h2.2 e with h2 | h2 <;> rw [h1, h2] <;> right <;> simp
  · exact Par.raise _

theorem par_updateMsg (hK : KeySpace K) (hk : K k) (x : Ext) {srv : Srv} (hr : Running srv) (resp : Obj) :
    Par Refused n k (updateMsg x srv resp k) := by
  rcases hr with rfl | rfl | rfl | rfl
  · exact Par.bind (par_bindIdToken hK hk resp) fun _ => par_storeResponse hK hk x _ _
  · exact par_storeResponse hK hk x _ _
  · exact Par.pure _
  · exact Par.pure _

theorem par_update (hK : KeySpace K) (hk : K k) (x : Ext) {srv : Srv} (hr : Running srv) (r : Resp) :
    Par Refused n k (update x srv r k) := by
  unfold update
  split
  · exact Par.bind (par_updateMsg hK hk x hr _) fun _ => Par.pure _
  · rcases hr with rfl | rfl | rfl | rfl
    · exact Par.raise _
    · exact Par.raise _
    · exact Par.bind (par_updateMsg hK hk x (by simp [Running]) _) fun _ => Par.pure _
    · exact Par.bind (par_updateMsg hK hk x (by simp [Running]) _) fun _ => Par.pure _
  · rcases hr with rfl | rfl | rfl | rfl
    · exact Par.raise _
    · exact Par.raise _
    · exact Par.pure _
    · exact Par.pure _

theorem par_doRequest (hK : KeySpace K) (hk : K k) {x : Ext} (hx : Forgetful x) {srv : Srv} (hr : Running srv) {args kwargs : Obj}
    (o : CallOpts) (hg : Given k srv args kwargs) : Par Refused n k (doRequest x srv args o kwargs) := by
  unfold doRequest
  refine Par.read_bind (fun _ _ _ _ => rfl) fun c => Par.ite (fun _ => Par.raise _) fun _ => ?_
  refine Par.bind (par_getRequestParameters hK hk x hr o hg) fun info => ?_
  have hst : stateOf kwargs = k := by rw [hg.kwargs]; rfl
  rw [hst]
  unfold serviceRequest
  refine Par.bind (par_getResponse hK hk hx hr info _ (Or.inl rfl)) fun r => ?_
  exact Par.ite (fun _ => Par.pure _) fun _ => par_update hK hk x hr r

end Service

namespace Handler

theorem par_getTokens (hK : KeySpace K) (hk : K k) {x : Ext} (hx : Forgetful x) : Par Refused n k (getTokens x k) := by
  unfold getTokens
  refine Par.bind' (P := fun a => (Dict.keys a).Nodup ∧ Dict.get? a "state" = some (.str k)) (Par.ask fun c c' hs => ?_) ?_ fun args ha => ?_
  · unfold tokenArgs
    rw [hs.item, hs.item, hs.ctx]
  · intro c c' a _ h
    have h : tokenArgs k c = .ok a := h
    unfold tokenArgs at h
    cases h1 : getItem c.db "auth_response" k with
    | error e => rw [h1] at h; cases h
    | ok resp =>
      rw [h1] at h
      cases h2 : getItem c.db "auth_request" k with
      | error e => rw [h2] at h; cases h
      | ok req =>
        rw [h2] at h
        simp only at h
        cases h3 : Dict.getItem resp "code" with
        | error e => rw [h3] at h; cases h
        | ok code =>
          rw [h3] at h
          simp only at h
          cases h4 : Dict.getItem req "redirect_uri" with
          | error e => rw [h4] at h; cases h
          | ok ru =>
            rw [h4] at h
            injection h with h
            subst h
            exact ⟨by simp [Dict.keys], rfl⟩
  refine Par.bind (Par.blind fun _ _ _ _ => rfl) fun am => ?_
  refine Par.bind (par_doRequest hK hk hx (by simp [Running]) _ ⟨ha.1, rfl, fun _ => ha.2⟩) fun r => ?_
  exact Par.bind (Par.lift _) fun _ => Par.pure _

theorem par_refresh (hK : KeySpace K) (hk : K k) {x : Ext} (hx : Forgetful x) (sc : String) : Par Refused n k (refreshAccessToken x k sc) := by
  unfold refreshAccessToken
  refine Par.bind (Par.blind fun _ _ _ _ => rfl) fun am => ?_
  refine Par.bind (par_doRequest hK hk hx (by simp [Running]) _ ⟨?_, rfl, fun e => by cases e⟩) fun r => ?_
  · split <;> simp [Dict.keys]
  exact Par.bind (Par.lift _) fun _ => Par.pure _

theorem par_userInfo (hK : KeySpace K) (hk : K k) {x : Ext} (hx : Forgetful x) (t : Val) : Par Refused n k (getUserInfo x k t) := by
  unfold getUserInfo
  refine Par.bind (Par.ask fun c c' hs => ?_) fun _ => ?_
  · unfold lookedUp
    rw [hs.multi]
  refine Par.bind (par_doRequest hK hk hx (by simp [Running]) _ ⟨by simp [Dict.keys], rfl, fun e => by cases e⟩) fun r => ?_
  exact Par.bind (Par.lift _) fun _ => Par.pure _

theorem par_hasActive [Lenient E] (x : Ext) : Par E n k (ask (hasActive x k)) := Par.ask fun c c' hs => by
  unfold hasActive
  rw [hs.multi]

theorem par_validToken [Lenient E] (x : Ext) : Par E n k (ask (validAccessToken x k)) := Par.ask fun c c' hs => by
  have : ∀ ts f, findTokens x.now c'.db k ts f = findTokens x.now c.db k ts f := by
    intro ts
    induction ts with
    | nil => intro f; rfl
    | cons t ts ih =>
      intro f
      unfold findTokens
      rw [hs.item]
      simp only [ih]
  unfold validAccessToken
  rw [this]

theorem par_logout [Lenient E] (hK : KeySpace K) (hk : K k) (x : Ext) (uri : String) : Par E n k (logout x k uri) := by
  unfold logout
  refine Par.read_bind (fun _ _ _ _ => rfl) fun c => Par.ite (fun _ => Par.raise _) fun _ => ?_
  refine par_getRequestParameters hK hk x (by simp [Running]) _ ⟨?_, rfl, fun e => by cases e⟩
  split <;> simp [Dict.keys]

/-- Whatever the response verifies to carries the state `k`. -/
def AnswersSession (k : String) (x : Ext) (r : Obj) : Prop :=
  ∀ ctx o args v, parseInfo x ctx .authorization (.dict r) "dict" = .ok o → x.verify ctx .authorization o args = .ok v →
    Dict.get? v "state" = some (.str k)

theorem parseAuthorization_run (x : Ext) (r : Obj) (c : Client) :
    parseResponse x .authorization (.dict r) "dict" "" c =
      (Py.lift (parseInfo x c.ctx .authorization (.dict r) "dict") >>= fun resp => verified x .authorization resp "") c := by
  unfold parseResponse
  rw [Py.read_bind_run]
  have : formatOf c .authorization "dict" = "dict" := rfl
  rw [this]
  rfl

theorem twin_authPostParse {c c' : Client} (hs : Twin n k c c') {v : Obj} (hv : Dict.get? v "state" = some (.str k)) :
    authorizationPostParse c.db v "" = authorizationPostParse c'.db v "" := by
  have h1 : ∀ db, addScope db v "" = .ok v := by intro db; unfold addScope; simp
  have h2 : checkNonce c.db v = checkNonce c'.db v := by
    unfold checkNonce requestOf
    rw [Dict.getItem_eq_ok.2 hv]
    simp only [dbKey, hs.item]
  unfold authorizationPostParse
  rw [h1, h1]
  simp only [h2]

theorem authPostParse_ok {db : DB} {v r : Obj} (h : authorizationPostParse db v "" = .ok r) : r = v := by
  have h1 : addScope db v "" = .ok v := by unfold addScope; simp
  unfold authorizationPostParse at h
  rw [h1] at h
  simp only at h
  split at h
  · cases h
  · injection h with h; exact h.symm

/-- What parsing an authorization response comes to. -/
def authOutcome (x : Ext) (r : Obj) (c : Client) : Except Exc Obj :=
  match parseInfo x c.ctx .authorization (.dict r) "dict" with
  | .error e => .error e
  | .ok o =>
    if Msg.isError o then .ok o
    else match x.verify c.ctx .authorization o (gatherVerify c.ctx .authorization) with
      | .error e => .error e
      | .ok v => authorizationPostParse c.db v ""

theorem parseAuthorization_eq (x : Ext) (r : Obj) (c : Client) :
    parseResponse x .authorization (.dict r) "dict" "" c =
      ((match authOutcome x r c with
        | .error e => .error e
        | .ok o => if o.isEmpty then .error .responseError else .ok (.msg o)), c) := by
  rw [parseAuthorization_run]
  unfold authOutcome
  cases hp : parseInfo x c.ctx .authorization (.dict r) "dict" with
  | error e => rw [Py.lift_bind_error rfl]
  | ok o =>
    rw [Py.lift_bind_ok rfl]
    simp only
    unfold verified checkedResponse
    by_cases he : Msg.isError o = true
    · rw [if_pos he, if_pos he]
      by_cases h0 : o.isEmpty = true
      · simp only [h0, if_true]; rw [Py.bind_run]; simp only [Py.pure_run]; rw [if_pos h0]; rfl
      · simp only [h0]; rw [Py.bind_run]; simp only [Py.pure_run]; rw [if_neg h0]; rfl
    · rw [if_neg he, if_neg he]
      cases hv : x.verify c.ctx .authorization o (gatherVerify c.ctx .authorization) with
      | error e =>
        rw [Py.bind_run, ask_bind_error (e := e) hv]
      | ok v =>
        rw [Py.bind_run, ask_bind_ok (a := v) hv]
        rw [show postParse x .authorization v "" c = (authorizationPostParse c.db v "", c) from rfl]
        simp only
        cases h3 : authorizationPostParse c.db v "" with
        | error e => rfl
        | ok w =>
          simp only
          by_cases h0 : w.isEmpty = true
          · rw [if_pos h0, if_pos h0]; rfl
          · rw [if_neg h0, if_neg h0]; rfl

theorem twin_authOutcome {c c' : Client} (hs : Twin n k c c') {x : Ext} {r : Obj} (ha : AnswersSession k x r) :
    authOutcome x r c = authOutcome x r c' := by
  unfold authOutcome
  rw [hs.ctx]
  cases hp : parseInfo x c.ctx .authorization (.dict r) "dict" with
  | error e => rfl
  | ok o =>
    simp only
    split
    · rfl
    · cases hv : x.verify c.ctx .authorization o (gatherVerify c.ctx .authorization) with
      | error e => rfl
      | ok v => exact twin_authPostParse hs (ha _ _ _ _ hp hv)

theorem authOutcome_state {c : Client} {x : Ext} {r o : Obj} (ha : AnswersSession k x r) (h : authOutcome x r c = .ok o) :
    Msg.isError o = true ∨ Dict.get? o "state" = some (.str k) := by
  unfold authOutcome at h
  cases hp : parseInfo x c.ctx .authorization (.dict r) "dict" with
  | error e => rw [hp] at h; cases h
  | ok o' =>
    rw [hp] at h
    simp only at h
    split at h
    · next he => injection h with h; subst h; exact Or.inl he
    · cases hv : x.verify c.ctx .authorization o' (gatherVerify c.ctx .authorization) with
      | error e => rw [hv] at h; cases h
      | ok v =>
        rw [hv] at h
        have := authPostParse_ok h
        subst this
        exact Or.inr (ha _ _ _ _ hp hv)

theorem withExpiry_state {x : Ext} {resp r : Obj} (h : withExpiry x resp = .ok r) : Dict.get? r "state" = Dict.get? resp "state" := by
  unfold withExpiry at h
  split at h
  · injection h with h; rw [h]
  · next v _ =>
    cases hv : toInt v with
    | error e => rw [hv] at h; cases h
    | ok i =>
      rw [hv] at h
      injection h with h
      rw [← h, Dict.get?_set_ne _ _ (by decide)]

theorem par_finalizeAuth [Lenient E] (hK : KeySpace K) (hk : K k) {x : Ext} {r : Obj} (ha : AnswersSession k x r) (issuer : String) :
    Par E n k (finalizeAuth x issuer r) := by
  unfold finalizeAuth
  refine Par.read_bind (fun _ _ _ _ => rfl) fun c => Par.ite (fun _ => Par.raise _) fun _ => ?_
  refine Par.bind' (P := fun w => ∀ o, w = .msg o → Msg.isError o = true ∨ Dict.get? o "state" = some (.str k)) ?_ ?_ fun w hw => ?_
  · refine Par.still (fun c => by rw [parseAuthorization_eq]) fun c c' hs => ?_
    rw [parseAuthorization_eq, parseAuthorization_eq, twin_authOutcome hs ha]
  · intro c c' w _ h o e
    subst e
    rw [parseAuthorization_eq] at h
    cases hO : authOutcome x r c with
    | error e => rw [hO] at h; cases h
    | ok o' =>
      rw [hO] at h
      simp only at h
      split at h
      · cases h
      · injection h with h
        injection h with h
        subst h
        exact authOutcome_state ha hO
  · refine Par.bind' (P := fun o => w = .msg o) (Par.lift _) ?_ fun o ho => ?_
    · intro c c' o _ h
      cases w with
      | msg o' => injection h with h; rw [h]
      | text s => cases h
      | http s => cases h
    refine Par.ite (fun _ => Par.pure _) fun he => ?_
    have hst := (hw o ho).resolve_left he
    refine Par.bind' (P := fun q => q = k) (Par.ask fun c c' hs => ?_) ?_ fun q hq => ?_
    · unfold checkIssuer
      rw [Dict.getItem_eq_ok.2 hst]
      simp only [dbKey, hs.iss]
    · intro c c' q _ h
      have h : checkIssuer c.db issuer o = .ok q := h
      unfold checkIssuer at h
      rw [Dict.getItem_eq_ok.2 hst] at h
      simp only [dbKey] at h
      split at h
      · cases h
      · split at h
        · injection h with h; exact h.symm
        · cases h
    · subst hq
      refine Par.bind (par_storeResponse hK hk x _ _) fun resp' => Par.bind (Par.store hK hk _ _) fun _ => Par.pure _

theorem finalizeAuth_state {x : Ext} {r resp : Obj} (ha : AnswersSession k x r) {issuer : String} {c : Client}
    (h : (finalizeAuth x issuer r c).1 = .ok resp) : Msg.isError resp = true ∨ Dict.get? resp "state" = some (.str k) := by
  rcases finalizeAuth_cases x issuer r c with ⟨e, he⟩ | ⟨o, hp, _, hc⟩
  · rw [he] at h; cases h
  · have ho : Msg.isError o = true ∨ Dict.get? o "state" = some (.str k) := by
      rw [parseAuthorization_eq] at hp
      cases hO : authOutcome x r c with
      | error e => rw [hO] at hp; cases hp
      | ok o' =>
        rw [hO] at hp
        simp only at hp
        split at hp
        · cases hp
        · simp only [Prod.mk.injEq, Except.ok.injEq, Resp.msg.injEq, and_true] at hp
          subst hp
          exact authOutcome_state ha hO
    rcases hc with ⟨h1, h2⟩ | ⟨h1, κ, st, resp', h2, _, _, h5, h6⟩
    · rw [h2] at h
      injection h with h
      subst h
      exact Or.inl h1
    · rw [h6] at h
      injection h with h
      subst h
      right
      rw [withExpiry_state h5]
      rcases ho with ho | ho
      · rw [h1] at ho; cases ho
      · exact ho

theorem par_endpointTokens (hK : KeySpace K) (hk : K k) {x : Ext} (hx : Forgetful x) : Par Refused n k (endpointTokens x k) := by
  unfold endpointTokens
  exact Par.bind (par_getTokens hK hk hx) fun r => Par.bind (Par.lift _) fun _ => Par.bind (Par.lift _) fun _ => Par.pure _

theorem par_getAccessAndIdToken (hK : KeySpace K) (hk : K k) {x : Ext} (hx : Forgetful x) (resp b : Obj) :
    Par Refused n k (getAccessAndIdToken x resp k b) := by
  unfold getAccessAndIdToken
  refine Par.bind (Par.ask fun c c' hs => ?_) fun rt => Par.bind (Par.lift _) fun idt => Par.ite (fun _ => ?_) fun _ => ?_
  · unfold storedResponseType
    rw [hs.item]
  · exact Par.bind (Par.lift _) fun tok => Par.ite (fun _ => par_endpointTokens hK hk hx) fun _ => Par.pure _
  · exact Par.ite (fun _ => par_endpointTokens hK hk hx) fun _ => Par.pure _

theorem par_collectUserInfo (hK : KeySpace K) (hk : K k) {x : Ext} (hx : Forgetful x) (tok idt : Val) :
    Par Refused n k (collectUserInfo x k tok idt) := by
  unfold collectUserInfo
  refine Par.read_bind (fun _ _ _ _ => rfl) fun c => Par.ite (fun _ => ?_) fun _ => Par.ite (fun _ => ?_) fun _ => Par.pure _
  · exact Par.bind (par_userInfo hK hk hx tok) fun r => Par.pure _
  · split
    · exact Par.pure _
    · exact Par.raise _

theorem par_bindSid [Lenient E] (hK : KeySpace K) (hk : K k) (idt : Val) : Par E n k (bindSid k idt) := by
  unfold bindSid
  refine Par.read_bind (fun _ _ _ _ => rfl) fun c => Par.ite (fun _ => ?_) fun _ => Par.pure _
  split
  · exact Par.pure _
  · exact Par.raise _
  · exact Par.bind (Par.lift _) fun s => Par.bindX hK hk (by decide) s

theorem par_bindSub [Lenient E] (hK : KeySpace K) (hk : K k) (idt info : Val) : Par E n k (bindSub k idt info) := by
  unfold bindSub
  exact Par.bind (Par.lift _) fun v => Par.bind (Par.lift _) fun s => Par.bindX hK hk (by decide) s

theorem par_finalizeClient (hK : KeySpace K) (hk : K k) {x : Ext} (hx : Forgetful x) {r : Obj} (ha : AnswersSession k x r)
    (issuer : String) (b : Obj) : Par Refused n k (finalizeClient x issuer r b) := by
  unfold finalizeClient
  refine Par.bind' (P := fun resp => Msg.isError resp = true ∨ Dict.get? resp "state" = some (.str k))
    (par_finalizeAuth hK hk ha issuer) (fun c c' a _ h => finalizeAuth_state ha h) fun resp hresp => ?_
  refine Par.bind' (P := fun sv => Dict.get? resp "state" = some sv) (Par.lift _) (fun _ _ sv _ h => Dict.getItem_eq_ok.1 h) fun sv hsv => ?_
  refine Par.ite (fun _ => Par.bind (Par.lift _) fun _ => Par.pure _) fun he => ?_
  have hst := hresp.resolve_left he
  rw [hsv] at hst
  injection hst with hst
  subst hst
  refine Par.bind' (P := fun q => q = k) (Par.lift _) (fun _ _ q _ h => by injection h with h; exact h.symm) fun q hq => ?_
  subst hq
  unfold finalizeTokens
  refine Par.bind (par_getAccessAndIdToken hK hk hx resp b) fun t => Par.bind (par_collectUserInfo hK hk hx _ _) fun info => ?_
  exact Par.bind (par_bindSid hK hk _) fun _ => Par.bind (par_bindSub hK hk _ _) fun _ => Par.pure _

end Handler
end Verif
