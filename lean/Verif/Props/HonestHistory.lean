import Verif.Props.Honest
import Verif.Props.Isolation
import Verif.Props.Setup
/-!
# C81 among other sessions
-/

namespace Verif.Props
open Verif Verif.Service Verif.Handler Verif.StateInterface Verif.Spec.Session Verif.Spec.HandlerView Verif.Spec.Wire
open Verif.Spec.Store (KeySpace)
open Verif.Spec.InFlight

/-! ## Specification -/

/-- A `begin` draws another nonce than `n` and nobody gives it a nonce. -/
def FreshNonce (n : String) (h : Handler) : Ext × Call → Prop
  | (x, .begin issuer user req b) => x.rnd "init_nonce" ≠ n ∧ x.rnd "init_nonce" ≠ "" ∧
      ∀ i g c, clientSetup x issuer user b h = (.ok i, g) → Dict.get? g.issuer2rp i = some c → NoNonceGiven c req
  | _ => True

/-- `FreshNonce` for every call of a history. -/
def FreshNonces (n : String) : List (Ext × Call) → Handler → Prop
  | [], _ => True
  | xc :: l, h => FreshNonce n h xc ∧ FreshNonces n l (exec xc.1 xc.2 h).2

/-! ## The store -/

/-- A store call that leaves the nonce `n` to session `k`. -/
def Spares (K : String → Prop) (n k : String) : Op → Prop
  | .create _ key rnd => K (if key = "" then rnd else key)
  | .store _ t q => (K q ∨ q = "") ∧ t ≠ "refresh_token_response"
  | .bind x v q => K q ∧ (q ≠ k → x = .nonce → v ≠ n)
  | .remove q => K q ∧ q ≠ k
  | _ => True

/-- No other session has the nonce `n`. -/
def FreeNonce (K : String → Prop) (n k : String) (db : DB) : Prop :=
  ∀ q, K q → q ≠ k → ∀ refs, Dict.get? db (refKey q) = some (.doc refs) → (XTyp.nonce.name, Val.str n) ∉ refs

theorem empty_ne_refKey (q : String) : "" ≠ refKey q := by
  intro h
  have := congrArg String.toList h
  simp [refKey] at this

theorem empty_ne_indexKey (x : XTyp) (v : String) : "" ≠ indexKey x v := by
  intro h
  have := congrArg String.toList h
  cases x <;> simp [indexKey] at this

theorem get?_storeItem_ne {key κ : String} (h : κ ≠ key) (item : Obj) (t : String) (db : DB) :
    Dict.get? (storeItem item t κ db).2 key = Dict.get? db key := by
  unfold storeItem
  split
  · exact Dict.get?_set_ne _ _ h
  · exact Dict.get?_set_ne _ _ h
  · rfl

theorem get?_createState_ne {key iss k rnd : String} (h : (if k = "" then rnd else k) ≠ key) (db : DB) :
    Dict.get? (createState iss k rnd db).2 key = Dict.get? db key := by
  rcases Kept.createState_cases iss k rnd db with e | e <;> rw [e]
  exact Dict.get?_set_ne _ _ h

theorem removeRefs_index {n : String} : ∀ (refs : Obj) (db : DB), (XTyp.nonce.name, Val.str n) ∉ refs →
    Dict.get? (removeRefs refs db).2 (indexKey .nonce n) = Dict.get? db (indexKey .nonce n) := by
  intro refs
  induction refs with
  | nil => intro db _; rfl
  | cons p refs ih =>
    intro db hn
    obtain ⟨xt, v⟩ := p
    unfold removeRefs
    split
    · next x s hx =>
      split
      · rw [ih _ (fun h => hn (by simp [h])), Dict.get?_del_ne]
        intro e
        obtain ⟨rfl, rfl⟩ := indexKey_inj.1 e
        apply hn
        have : xt = XTyp.nonce.name := by
          unfold XTyp.ofName? at hx
          by_cases e : xt = "nonce"
          · exact e
          · simp only [if_neg e] at hx
            split at hx <;> (try split at hx) <;> (try split at hx) <;> simp at hx
        simp [this]
      · rfl
    · rfl

variable {K : String → Prop} {k n : String}

theorem free_step (hK : KeySpace K) (op : Op) (db : DB) (hs : Spares K n k op) (hf : FreeNonce K n k db) :
    FreeNonce K n k (StateInterface.step op db).2 := by
  intro q hq hqk refs hr
  cases op with
  | create iss key rnd =>
    rw [Kept.step_snd_create, get?_createState_ne (KeySpace.ne_ref hK hs hq)] at hr
    exact hf q hq hqk refs hr
  | store item t κ =>
    rw [Kept.step_snd_store, get?_storeItem_ne] at hr
    · exact hf q hq hqk refs hr
    · rcases hs.1 with h | rfl
      · exact KeySpace.ne_ref hK h hq
      · exact empty_ne_refKey q
  | bind x v κ =>
    rw [Kept.step_snd_bind] at hr
    unfold storeX2State at hr
    have e : Dict.get? (Dict.set db (indexKey x v) (.raw κ)) (refKey κ) = Dict.get? db (refKey κ) :=
      Dict.get?_set_ne _ _ (indexKey_ne_refKey _ _ _)
    simp only [e] at hr
    by_cases hκ : κ = q
    · subst hκ
      have hnew : ∀ o : Obj, (XTyp.nonce.name, Val.str n) ∉ o → (XTyp.nonce.name, Val.str n) ∉ Dict.set o x.name (.str v) := by
        intro o ho hm
        rcases Dict.mem_set hm with h | h
        · exact ho h
        · have h1 := congrArg Prod.fst h
          have h2 := congrArg Prod.snd h
          simp only [Val.str.injEq] at h1 h2
          have hx : x = .nonce := by cases x <;> first | rfl | (exact absurd h1 (by decide))
          exact hs.2 hqk hx h2.symm
      split at hr
      · rw [Dict.get?_set_self] at hr
        injection hr with hr
        injection hr with hr
        rw [← hr]
        exact hnew [] (by simp)
      · next refs' hg =>
        rw [Dict.get?_set_self] at hr
        injection hr with hr
        injection hr with hr
        rw [← hr]
        exact hnew _ (hf κ hq hqk _ hg)
      · next s hg =>
        rw [Dict.get?_set_ne _ _ (indexKey_ne_refKey _ _ _)] at hr
        exact hf κ hq hqk refs hr
    · have hne : refKey κ ≠ refKey q := fun e => hκ (refKey_inj.1 e)
      have : Dict.get? db (refKey q) = some (.doc refs) := by
        split at hr
        · rw [Dict.get?_set_ne _ _ hne, Dict.get?_set_ne _ _ (indexKey_ne_refKey _ _ _)] at hr; exact hr
        · rw [Dict.get?_set_ne _ _ hne, Dict.get?_set_ne _ _ (indexKey_ne_refKey _ _ _)] at hr; exact hr
        · rw [Dict.get?_set_ne _ _ (indexKey_ne_refKey _ _ _)] at hr; exact hr
      exact hf q hq hqk refs this
  | remove κ =>
    rw [Kept.step_snd_remove, get?_removeState (fun x v => refKey_ne_indexKey x v q), if_neg (KeySpace.ne_ref hK hs.1 hq)] at hr
    exact hf q hq hqk refs hr
  | item t κ =>
    have : (StateInterface.step (.item t κ) db).2 = db := by
      simp only [StateInterface.step]; cases getItem db t κ <;> rfl
    rw [this] at hr
    exact hf q hq hqk refs hr
  | issuer κ =>
    have : (StateInterface.step (.issuer κ) db).2 = db := by
      simp only [StateInterface.step]; cases getIss db κ <;> rfl
    rw [this] at hr
    exact hf q hq hqk refs hr
  | lookup x v =>
    have : (StateInterface.step (.lookup x v) db).2 = db := by
      simp only [StateInterface.step]; cases getStateByX db v x <;> rfl
    rw [this] at hr
    exact hf q hq hqk refs hr

/-- The nonce `n` leads to session `k`, whose index is in order; nothing was ever refreshed in it. -/
def Leads (n k : String) (db : DB) : Prop :=
  (Dict.get? db (indexKey .nonce n) = some (.raw k) ∧ Indexed db k) ∧
    getItem db "refresh_token_response" k = .error .keyError

theorem getItem_congr {t k : String} {db db' : DB} (h : Dict.get? db' k = Dict.get? db k) : getItem db' t k = getItem db t k := by
  unfold getItem getState
  rw [h]

theorem unrefreshed_step (hK : KeySpace K) (hk : K k) (op : Op) (db : DB) (hs : Spares K n k op)
    (hl : getItem db "refresh_token_response" k = .error .keyError) :
    getItem (StateInterface.step op db).2 "refresh_token_response" k = .error .keyError := by
  cases op with
  | create iss key rnd =>
    rw [Kept.step_snd_create]
    by_cases e : (if key = "" then rnd else key) = k
    · rcases Kept.createState_cases iss key rnd db with e' | e' <;> rw [e']
      · exact hl
      · rw [e]
        unfold getItem getState
        rw [Dict.get?_set_self]
        by_cases hi : iss = "" <;> simp [Msg.ofDict, Msg.emptyVal, hi, asItem, Dict.get?]
    · rw [getItem_congr (get?_createState_ne e db)]; exact hl
  | store item t κ => rw [Kept.step_snd_store, Kept.getItem_storeItem_ne hs.2]; exact hl
  | bind x v κ =>
    rw [Kept.step_snd_bind]
    have := Kept.getState_storeX2State (κ := k) (k' := κ) (fun x v => KeySpace.ne_index hK hk x v) (KeySpace.ne_ref hK hk hs.1) x v db
    unfold getItem at hl ⊢
    rw [this]; exact hl
  | remove κ =>
    rw [Kept.step_snd_remove, getItem_congr (db := db)]
    · exact hl
    · rw [Handler.get?_removeState (fun x v => KeySpace.ne_index hK hk x v), if_neg hs.2]
  | item t κ =>
    have : (StateInterface.step (.item t κ) db).2 = db := by
      simp only [StateInterface.step]; cases getItem db t κ <;> rfl
    rw [this]; exact hl
  | issuer κ =>
    have : (StateInterface.step (.issuer κ) db).2 = db := by
      simp only [StateInterface.step]; cases getIss db κ <;> rfl
    rw [this]; exact hl
  | lookup x v =>
    have : (StateInterface.step (.lookup x v) db).2 = db := by
      simp only [StateInterface.step]; cases getStateByX db v x <;> rfl
    rw [this]; exact hl

theorem leads_step (hK : KeySpace K) (hk : K k) (op : Op) (db : DB) (hs : Spares K n k op) (hf : FreeNonce K n k db)
    (hl : Leads n k db) : Leads n k (StateInterface.step op db).2 := by
  refine ⟨?_, unrefreshed_step hK hk op db hs hl.2⟩
  obtain ⟨⟨l1, refs, l2⟩, -⟩ := hl
  cases op with
  | create iss key rnd =>
    rw [Kept.step_snd_create]
    exact ⟨by rw [get?_createState_ne (KeySpace.ne_index hK hs _ _)]; exact l1, refs,
      by rw [get?_createState_ne (KeySpace.ne_ref hK hs hk)]; exact l2⟩
  | store item t κ =>
    rw [Kept.step_snd_store]
    rcases hs.1 with h | rfl
    · exact ⟨by rw [get?_storeItem_ne (KeySpace.ne_index hK h _ _)]; exact l1, refs,
        by rw [get?_storeItem_ne (KeySpace.ne_ref hK h hk)]; exact l2⟩
    · exact ⟨by rw [get?_storeItem_ne (empty_ne_indexKey _ _)]; exact l1, refs,
        by rw [get?_storeItem_ne (empty_ne_refKey _)]; exact l2⟩
  | bind x v κ =>
    rw [Kept.step_snd_bind]
    by_cases hκ : κ = k
    · subst hκ
      exact ⟨get?_bind_index _ _ _ _ _ _ l1, indexed_bind ⟨refs, l2⟩ _ _⟩
    · have hne : indexKey x v ≠ indexKey .nonce n := by
        intro e
        obtain ⟨rfl, rfl⟩ := indexKey_inj.1 e
        exact hs.2 hκ rfl rfl
      have hne' : refKey κ ≠ refKey k := fun e => hκ (refKey_inj.1 e)
      have keep : ∀ key, indexKey x v ≠ key → refKey κ ≠ key → Dict.get? (storeX2State v κ x db).2 key = Dict.get? db key := by
        intro key h1 h2
        unfold storeX2State
        simp only
        split
        · rw [Dict.get?_set_ne _ _ h2, Dict.get?_set_ne _ _ h1]
        · rw [Dict.get?_set_ne _ _ h2, Dict.get?_set_ne _ _ h1]
        · rw [Dict.get?_set_ne _ _ h1]
      exact ⟨by rw [keep _ hne (refKey_ne_indexKey _ _ _)]; exact l1, refs,
        by rw [keep _ (indexKey_ne_refKey _ _ _) hne']; exact l2⟩
  | remove κ =>
    rw [Kept.step_snd_remove]
    refine ⟨?_, refs, by rw [Handler.get?_removeState (fun x v => refKey_ne_indexKey x v k), if_neg (KeySpace.ne_ref hK hs.1 hk)]; exact l2⟩
    unfold removeState
    have e : Dict.get? (Dict.del db κ) (indexKey .nonce n) = some (.raw k) := by
      rw [Dict.get?_del_ne _ (KeySpace.ne_index hK hs.1 _ _)]; exact l1
    split
    · simp only
      split
      · exact e
      · exact e
      · next refs' hr =>
        rw [Dict.get?_del_ne _ (KeySpace.ne_ref hK hs.1 hs.1)] at hr
        rw [removeRefs_index _ _ (hf κ hs.1 hs.2 _ hr)]
        exact e
    · exact l1
  | item t κ =>
    have : (StateInterface.step (.item t κ) db).2 = db := by
      simp only [StateInterface.step]; cases getItem db t κ <;> rfl
    rw [this]
    exact ⟨l1, refs, l2⟩
  | issuer κ =>
    have : (StateInterface.step (.issuer κ) db).2 = db := by
      simp only [StateInterface.step]; cases getIss db κ <;> rfl
    rw [this]
    exact ⟨l1, refs, l2⟩
  | lookup x v =>
    have : (StateInterface.step (.lookup x v) db).2 = db := by
      simp only [StateInterface.step]; cases getStateByX db v x <;> rfl
    rw [this]
    exact ⟨l1, refs, l2⟩

/-! ## The calls -/

theorem spares_touches {s : String} (hs : K s) {db db' : DB} (h : Acts (Touches s) db db') : Acts (Spares K n k) db db' := by
  refine h.mono fun op hop => ?_
  cases op with
  | store item t q =>
    have ht : t ≠ "refresh_token_response" := fun e => hop.2 (by simp [e])
    rcases hop.1 with rfl | rfl
    · exact ⟨Or.inl hs, ht⟩
    · exact ⟨Or.inr rfl, ht⟩
  | bind x v q => obtain ⟨rfl, h2⟩ := hop; exact ⟨hs, fun _ e => absurd e h2⟩
  | _ => exact hop.elim

theorem spares_starts {s : String} (hs : K s) {db db' : DB} (h : Acts (Starts (fun v => v ≠ n) s) db db') :
    Acts (Spares K n k) db db' := by
  refine h.mono fun op hop => ?_
  cases op with
  | create iss key rnd =>
    have hop : (if key = "" then rnd else key) = s := hop
    show K (if key = "" then rnd else key)
    rw [hop]; exact hs
  | store item t q => obtain ⟨rfl, _, h2⟩ := hop; exact ⟨Or.inl hs, h2⟩
  | bind x v q => obtain ⟨rfl, h2⟩ := hop; exact ⟨hs, fun _ e => h2 e⟩
  | _ => exact hop.elim

theorem spares_finalizeClient (x : Ext) (issuer : String) (response b : Obj) (c : Client) (hkn : Known K c.db) :
    Acts (Spares K n k) c.db (finalizeClient x issuer response b c).2.db := by
  unfold finalizeClient
  rcases finalizeAuth_cases x issuer response c with ⟨e, he⟩ | ⟨resp, hpr, _, ⟨hie, hf⟩ | ⟨hie, κ, st, resp', k1, k2, k3, k4, hf⟩⟩
  · rw [Py.bind_error he]; exact Acts.refl _
  · rw [Py.bind_ok hf]
    cases h1 : Dict.getItem resp "state" with
    | error e => rw [Py.lift_bind_error rfl]; exact Acts.refl _
    | ok sv =>
      rw [Py.lift_bind_ok rfl, if_pos hie]
      cases h2 : Dict.getItem resp "error" with
      | error e => rw [Py.lift_bind_error rfl]; exact Acts.refl _
      | ok ev => rw [Py.lift_bind_ok rfl]; exact Acts.refl _
  · rw [Py.bind_ok hf]
    have hKκ : K κ := hkn κ _ (getIss_of k2 k3)
    have hfirst : Acts (Spares K n k) c.db (Dict.set c.db κ (.doc (Dict.set st "auth_response" (.obj resp')))) := by
      have := Acts.step (P := Spares K n k) (op := .store resp' "auth_response" κ) ⟨Or.inl hKκ, by decide⟩ c.db
      rw [Kept.step_snd_store, storeItem_run k2] at this
      exact this
    have hstate : Dict.get? resp' "state" = some (.str κ) := by
      rw [withExpiry_get k4 (by decide)]; exact k1
    rw [Dict.getItem_eq_ok.2 hstate, Py.lift_bind_ok rfl]
    split
    · cases h2 : Dict.getItem resp' "error" with
      | error e => rw [Py.lift_bind_error rfl]; exact hfirst
      | ok ev => rw [Py.lift_bind_ok rfl]; exact hfirst
    · rw [show dbKey (.str κ) = .ok κ from rfl, Py.lift_bind_ok rfl]
      have hl := local_finalizeTokens x resp' κ b { c with db := Dict.set c.db κ (.doc (Dict.set st "auth_response" (.obj resp'))) }
      exact hfirst.trans (spares_touches hKκ hl.db)

/-- Every store afterwards comes from the one before by calls that spare the nonce, or is new. -/
def Spared (K : String → Prop) (n k i : String) (h h' : Handler) (P : Prop) : Prop :=
  ∀ db', Dict.get? (stores h') i = some db' →
    (∃ db, Dict.get? (stores h) i = some db ∧ Acts (Spares K n k) db db') ∨ (P ∧ Acts (Spares K n k) [] db')

theorem spared_same {i : String} {P : Prop} {h h' : Handler} (e : stores h' = stores h) : Spared K n k i h h' P :=
  fun db hd => Or.inl ⟨db, by rw [← e]; exact hd, Acts.refl _⟩

theorem spared_onClient {α : Type} {i j : String} {P : Prop} {m : Py Client α} {h : Handler}
    (hm : ∀ c, Dict.get? h.issuer2rp j = some c → Acts (Spares K n k) c.db (m c).2.db) :
    Spared K n k i h (onClient j m h).2 P := by
  cases hc : Dict.get? h.issuer2rp j with
  | none => rw [show onClient j m h = (.error .keyError, h) by unfold onClient; rw [hc]]; exact spared_same rfl
  | some c =>
    intro db hd
    rw [stores_onClient hc, Dict.get?_set] at hd
    split at hd
    · next e =>
      subst e
      injection hd with hd
      subst hd
      exact Or.inl ⟨c.db, by rw [get?_stores, hc]; rfl, hm c hc⟩
    · exact Or.inl ⟨db, hd, Acts.refl _⟩

theorem spared_session {α : Type} {w : Where} {h : Handler} (hi : Inv K k w h) {i s : String} {P : Prop}
    {m : Py Client α} (hm : Frame (Local s) m) : Spared K n k i h (onSession s m h).2 P := by
  unfold onSession
  cases hr : sessionIssuer h s with
  | error e => exact spared_same rfl
  | ok j => exact spared_onClient fun c _ => spares_touches (hi.resolved hr) (hm c).db

/-- One call that draws another nonce. -/
theorem spared_exec (hK : KeySpace K) {w : Where} {h : Handler} (hi : Inv K k w h) {i : String} (xc : Ext × Call)
    (hc : CallOk K k xc) (hn : FreshNonce n h xc) (hw : ∀ j p q, w = some (j, p, q) → NotReplaced j h xc) :
    Spared K n k i h (exec xc.1 xc.2 h).2 (¬ (NotReplaced i h xc ∧ Dict.has h.issuer2rp i = true)) := by
  obtain ⟨x, call⟩ := xc
  cases call with
  | begin issId user req b =>
    obtain ⟨c1, c2⟩ := hc
    obtain ⟨n1, n2, n3⟩ := hn
    show Spared K n k i h (begin_ x issId user req b h).2 _
    unfold begin_
    rw [Py.bind_run]
    have h0 := inv_setup hi x issId user b hw
    have hs0 : Spared K n k i h (clientSetup x issId user b h).2
        (¬ (NotReplaced i h (x, .begin issId user req b) ∧ Dict.has h.issuer2rp i = true)) := by
      obtain ⟨_, hc⟩ := clientSetup_cases x issId user b hi.plain
      rcases hc with ⟨e, _, hs⟩ | ⟨_, _, hs⟩ | ⟨j, hr, hno, hs⟩
      · exact spared_same hs
      · exact spared_same hs
      · intro db hd
        rw [hs, Dict.get?_set] at hd
        split at hd
        · next e =>
          subst e
          injection hd with hd
          subst hd
          refine Or.inr ⟨fun ⟨e1, e2⟩ => ?_, Acts.refl _⟩
          have := e1 hr
          subst this
          rw [hno] at e2
          cases e2
        · exact Or.inl ⟨db, hd, Acts.refl _⟩
    rcases hs : clientSetup x issId user b h with ⟨r, h1⟩
    rw [hs] at h0 hs0
    cases r with
    | error e => exact hs0
    | ok j =>
      simp only
      have hb : Spared K n k i h1 (onClient j (initAuthorization x req b) h1).2 False := by
        refine spared_onClient fun c hc => ?_
        have hg := n3 j h1 c hs hc
        have hb := begins_init_nonce (N := fun v => v ≠ n) x req b (hK.nonempty _ c1) c
          (h0.plain.clients j c (Dict.get?_eq_some_mem hc)) n1
          (Or.inr fun args ha => ⟨_, n2, n1, initArgs_nonce ha hg.1 hg.2⟩)
        exact spares_starts c1 hb.db
      intro db' hd
      rcases hb db' hd with ⟨db, d1, d2⟩ | ⟨hf, _⟩
      · rcases hs0 db d1 with ⟨db0, e1, e2⟩ | ⟨e1, e2⟩
        · exact Or.inl ⟨db0, e1, e2.trans d2⟩
        · exact Or.inr ⟨e1, e2.trans d2⟩
      · exact hf.elim
  | finalize j r b =>
    refine spared_onClient fun c hcl => spares_finalizeClient x j r b c (hi.known j _ ?_)
    rw [get?_stores, hcl]; rfl
  | getTokens s => exact spared_session hi (local_getTokens x s)
  | refresh s sc => exact spared_session hi (local_refresh x s sc)
  | userInfo s t => exact spared_session hi (local_userInfo x s t)
  | hasActive s => exact spared_session hi (s := s) (m := ask (hasActive x s)) (Frame.ask _)
  | validToken s => exact spared_session hi (s := s) (m := ask (validAccessToken x s)) (Frame.ask _)
  | logout s u => exact spared_session hi (local_logout x s u)
  | close s j u =>
    show Spared K n k i h (close x s j u h).2 _
    unfold close
    split
    · exact spared_onClient fun c _ => spares_touches hc (local_logout x s u c).db
    · exact spared_session hi (local_logout x s u)
  | clear s =>
    show Spared K n k i h (clearSession s h).2 _
    unfold clearSession onSession
    cases hr : sessionIssuer h s with
    | error e => exact spared_same rfl
    | ok j =>
      refine spared_onClient fun c _ => ?_
      have := Acts.step (P := Spares K n k) (op := .remove s) ⟨hi.resolved hr, hc⟩ c.db
      rw [Kept.step_snd_remove] at this
      exact this
  | backchannel j info =>
    exact spared_onClient (j := j) (m := ask (backchannelLogout x info)) fun c _ => Acts.refl _

/-- Nowhere the nonce `n` belongs to another session. -/
def Free (K : String → Prop) (n k : String) (h : Handler) : Prop :=
  ∀ i db, Dict.get? (stores h) i = some db → FreeNonce K n k db

theorem free_empty : FreeNonce K n k [] := fun _ _ _ _ h => by cases h

theorem free_acts (hK : KeySpace K) {db db' : DB} (h : Acts (Spares K n k) db db') (hf : FreeNonce K n k db) :
    FreeNonce K n k db' :=
  h.invariant (fun op d ho hi => free_step hK op d ho hi) hf

theorem leads_acts (hK : KeySpace K) (hk : K k) {db db' : DB} (h : Acts (Spares K n k) db db') (hf : FreeNonce K n k db)
    (hl : Leads n k db) : Leads n k db' :=
  (h.invariant (I := fun d => FreeNonce K n k d ∧ Leads n k d)
    (fun op d ho hi => ⟨free_step hK op d ho hi.1, leads_step hK hk op d ho hi.1 hi.2⟩) ⟨hf, hl⟩).2

theorem free_run (hK : KeySpace K) (hk : K k) {w : Where} : ∀ (l : List (Ext × Call)) {h : Handler}, Inv K k w h →
    (∀ xc ∈ l, CallOk K k xc) → FreshNonces n l h → (∀ i p q, w = some (i, p, q) → NeverReplaced i l h) →
    Free K n k h → Free K n k (run l h) ∧
      ∀ i p q, w = some (i, p, q) → ∀ db, Dict.get? (stores h) i = some db → Leads n k db →
        ∀ db', Dict.get? (stores (run l h)) i = some db' → Leads n k db' := by
  intro l
  induction l with
  | nil =>
    intro h _ _ _ _ hf
    refine ⟨hf, fun i p q _ db hd hl db' hd' => ?_⟩
    rw [show run [] h = h from rfl, hd] at hd'
    injection hd' with hd'
    exact hd' ▸ hl
  | cons xc l ih =>
    intro h hi hc hn hrep hf
    have h1 := inv_exec hK hk hi xc (hc xc (by simp)) (fun i p q hw => (hrep i p q hw).1)
    have hsp : ∀ i, Spared K n k i h (exec xc.1 xc.2 h).2 _ :=
      fun i => spared_exec hK hi (i := i) xc (hc xc (by simp)) hn.1 (fun i p q hw => (hrep i p q hw).1)
    have hf1 : Free K n k (exec xc.1 xc.2 h).2 := by
      intro i db' hd
      rcases hsp i db' hd with ⟨db, d1, d2⟩ | ⟨_, d2⟩
      · exact free_acts hK d2 (hf i db d1)
      · exact free_acts hK d2 free_empty
    obtain ⟨g1, g2⟩ := ih h1 (fun y hy => hc y (by simp [hy])) hn.2 (fun i p q hw => (hrep i p q hw).2) hf1
    refine ⟨g1, fun i p q hw db hd hl db' hd' => ?_⟩
    obtain ⟨db1, e1, _⟩ := h1.here i p q hw
    refine g2 i p q hw db1 e1 ?_ db' hd'
    rcases hsp i db1 e1 with ⟨db0, f1, f2⟩ | ⟨f1, _⟩
    · rw [hd] at f1
      injection f1 with f1
      subst f1
      exact leads_acts hK hk f2 (hf i db hd) hl
    · refine absurd ⟨(hrep i p q hw).1, ?_⟩ f1
      rw [get?_stores] at hd
      rw [Dict.has_eq]
      cases h3 : Dict.get? h.issuer2rp i with
      | none => rw [h3] at hd; cases hd
      | some c => rfl

/-- `begin` of the session itself. -/
theorem free_begun (hK : KeySpace K) {x : Ext} {issuer user : String} {req b : Obj} {h h1 : Handler} {url : String}
    (hkx : K (x.rnd "init_state")) (hp : PlainHandler h) (hb : begin_ x issuer user req b h = (.ok (url, k), h1))
    (hf : Free K n k h) : Free K n k h1 := by
  obtain ⟨j, g, c, b1, b2, b3, b4⟩ := begin_ok hb
  obtain ⟨hpg, hcs⟩ := clientSetup_cases x issuer user b hp
  rw [b1] at hpg hcs
  have hg : Free K n k g := by
    rcases hcs with ⟨e, _, hs⟩ | ⟨_, _, hs⟩ | ⟨i, hr, hno, hs⟩
    · intro i db hd; rw [hs] at hd; exact hf i db hd
    · intro i db hd; rw [hs] at hd; exact hf i db hd
    · intro i' db hd
      rw [hs, Dict.get?_set] at hd
      split at hd
      · injection hd with hd; subst hd; exact free_empty
      · exact hf i' db hd
  have hk := init_key b3
  have hbe := begins_init x req b (hK.nonempty _ hkx) c (hpg.clients j c (Dict.get?_eq_some_mem b2))
  intro i db hd
  rw [← b4, stores_onClient b2, Dict.get?_set] at hd
  split at hd
  · injection hd with hd
    subst hd
    refine free_acts hK ?_ (hg j c.db (by rw [get?_stores, b2]; rfl))
    refine hbe.db.mono fun op hop => ?_
    cases op with
    | create iss key rnd =>
      have hop : (if key = "" then rnd else key) = _ := hop
      show K (if key = "" then rnd else key)
      rw [hop]; exact hkx
    | store item t q => obtain ⟨rfl, _, h2⟩ := hop; exact ⟨Or.inl hkx, h2⟩
    | bind x v q => obtain ⟨rfl, _⟩ := hop; exact ⟨hkx, fun e => absurd hk.symm e⟩
    | _ => exact hop.elim
  · exact hg i db hd

/-- **C81**, among other sessions.  A handler is made; any calls are made (`before`); `begin` returns `k` for the client
kept as `i`, with the generated nonce; any calls are made but clearing `k` (`after`): sessions, `k` among them, are
started, finalized, refreshed and cleared, with any answers and failures.  If the nonces drawn by the other `begin`s are others and
the client is not replaced, the session still waits for its response, at the client that was set up: `C81_code_login` and
`C81_implicit_login` say how an honest response ends it. -/
theorem C81_waits_among_others {K : String → Prop} (hK : KeySpace K) (h0 : Handler) (hnew : NewHandler h0)
    (before : List (Ext × Call)) (x : Ext) (issuer user : String) (req b : Obj) (url k : String) (h1 : Handler)
    (hbefore : ∀ xc ∈ before, CallOk K k xc) (hkx : K (x.rnd "init_state"))
    (hv : x.rnd "code_verifier" ≠ "") (hn : x.rnd "init_nonce" ≠ "")
    (hmsg : (Dict.keys (x.msg .authorization).defaults).Nodup ∧ "nonce" ∉ (x.msg .authorization).spaced)
    (hbegin : begin_ x issuer user req b (run before h0) = (.ok (url, k), h1))
    (i : String) (hsetup : (clientSetup x issuer user b (run before h0)).1 = .ok i) (hne : i ≠ "")
    (hname : NamedAfterIssuer h1 i) (hgiven : ∀ c, Dict.get? h1.issuer2rp i = some c → NoNonceGiven c req)
    (after : List (Ext × Call)) (hafter : ∀ xc ∈ after, CallOk K k xc)
    (hkeep : NeverReplaced i after h1)
    (hfresh : FreshNonces (x.rnd "init_nonce") before h0 ∧ FreshNonces (x.rnd "init_nonce") after h1) :
    ∃ c c' areq ver, Dict.get? h1.issuer2rp i = some c ∧ Dict.get? (run after h1).issuer2rp i = some c' ∧
      c'.ctx = { c.ctx with behaviour := c'.ctx.behaviour } ∧ c'.services = c.services ∧ c'.conf = c.conf ∧
      Dict.get? areq "state" = some (.str k) ∧ Dict.get? areq "nonce" = some (.str (x.rnd "init_nonce")) ∧
      Waiting c i k areq (x.rnd "init_nonce") ver ∧ Waiting c' i k areq (x.rnd "init_nonce") ver := by
  have hk : K k := by
    obtain ⟨_, _, _, _, _, b3, _⟩ := begin_ok hbegin
    exact init_key b3 ▸ hkx
  have hi0 : Inv K k none (run before h0) :=
    inv_run hK hk before (inv_new hnew.empty hnew.plain) hbefore (fun _ _ _ hw => by cases hw)
  have hf0 : Free K (x.rnd "init_nonce") k (run before h0) := by
    refine (free_run hK hk before (inv_new hnew.empty hnew.plain) hbefore hfresh.1 (fun _ _ _ hw => by cases hw) ?_).1
    intro j db hd
    rw [get?_stores, hnew.empty] at hd
    cases hd
  have hf1 := free_begun hK hkx hi0.plain hbegin hf0
  obtain ⟨_, c1, _, _, _, _, hi1⟩ := inv_begun hK hkx hi0 hbegin hsetup hne hname
  obtain ⟨j, c, areq, a1, a2, a3, a4, a5⟩ := C81_begin_waits hK (run before h0) h1 hi0.plain x issuer user req b url k hkx hv hmsg.1 hbegin
  rw [hsetup] at a1
  injection a1 with a1
  subst a1
  have hci := hname c a2
  have hg := hgiven c a2
  obtain ⟨ver, hw⟩ := a5 (x.rnd "init_nonce") (by rw [hci]; exact hne) (Or.inl ⟨hg, hn, hmsg.2⟩) (a4 hg hn hmsg.2)
  rw [hci] at hw
  have hcs : Dict.get? (stores h1) i = some c.db := by rw [get?_stores, a2]; rfl
  have hkeep' : ∀ i' p q, (some (i, getItem c1.db "auth_request" k, getItem c1.db "pkce" k) : Where) = some (i', p, q) →
      NeverReplaced i' after h1 := by
    intro i' p q he
    injection he with he
    injection he with he _
    subst he
    exact hkeep
  have hi2 := inv_run hK hk after hi1 hafter hkeep'
  obtain ⟨db1, f1, _, f3, f4⟩ := hi1.here i _ _ rfl
  obtain ⟨db', d1, d2, d3, d4⟩ := hi2.here i _ _ rfl
  rw [hcs] at f1
  injection f1 with f1
  subst f1
  obtain ⟨c', e1, e2, e3, e4⟩ := C70_setup_is_stable h1 hi1.plain i c a2 after (fun xc h => drawn_of_ok hK (hafter xc h)) hkeep
  have hdb : c'.db = db' := by
    rw [get?_stores, e1] at d1
    injection d1
  have hl : Leads (x.rnd "init_nonce") k c.db := by
    refine ⟨⟨?_, hw.index⟩, hw.refreshed⟩
    have := hw.nonce
    unfold getStateByX at this
    split at this
    · next s hs =>
      split at this
      · cases this
      · injection this with this; rw [hs, this]
    · next o ho => injection this with this; cases this
    · cases this
  obtain ⟨⟨l1, l2⟩, l3⟩ := (free_run hK hk after hi1 hafter hfresh.2 hkeep' hf1).2 i _ _ rfl c.db hcs hl c'.db (by rw [hdb]; exact d1)
  refine ⟨c, c', areq, ver, a2, e1, e2, e3, e4, a3, a4 hg hn hmsg.2, hw, ?_, ?_, ?_, l2, l3, ?_⟩
  · show getIss c'.db k = _
    rw [hdb]; exact d2
  · rw [hdb, d3, ← f3]; exact hw.request
  · unfold getStateByX
    rw [l1]
    simp [hK.nonempty k hk]
  · intro hp
    rw [hdb, d4, ← f4]
    exact hw.pkce (by rw [e2] at hp; exact hp)

theorem fresh_of {n : String} {h : Handler} {x : Ext} {issuer user j : String} {b : Obj}
    (h1 : x.rnd "init_nonce" ≠ n) (h2 : x.rnd "init_nonce" ≠ "") (hs : (clientSetup x issuer user b h).1 = .ok j)
    (hc : (Dict.get? (clientSetup x issuer user b h).2.issuer2rp j).map
      (fun c => Dict.get? (confObj c.ctx.config "request_args") "nonce") = some none) :
    FreshNonce n h (x, .begin issuer user [] b) := by
  refine ⟨h1, h2, fun i g c e1 e2 => ⟨rfl, ?_⟩⟩
  rw [e1] at hs hc
  injection hs with hs
  subst hs
  rw [e2] at hc
  injection hc

theorem earlier_fresh : FreshNonces "n1" earlier World.handler :=
  ⟨fresh_of (j := "https://op.example") (by decide) (by decide) (by rfl) (by rfl), trivial, trivial⟩

theorem otherCalls_fresh : FreshNonces "n1" otherCalls inFlight :=
  ⟨fresh_of (j := "https://op.example") (by decide) (by decide) (by rfl) (by rfl), trivial, trivial, trivial, trivial, trivial⟩

/-- Non-vacuity: in the small world the session of `inFlight` still waits after the calls for another session
(`otherCalls`), which do change the store; and then it can be finalized. -/
example : (∃ c c' areq ver, Dict.get? inFlight.issuer2rp "https://op.example" = some c ∧
      Dict.get? (run otherCalls inFlight).issuer2rp "https://op.example" = some c' ∧
      c'.ctx = { c.ctx with behaviour := c'.ctx.behaviour } ∧ c'.services = c.services ∧ c'.conf = c.conf ∧
      Dict.get? areq "state" = some (.str World.s1) ∧ Dict.get? areq "nonce" = some (.str "n1") ∧
      Waiting c "https://op.example" World.s1 areq "n1" ver ∧ Waiting c' "https://op.example" World.s1 areq "n1" ver) ∧
    (sessionInformation (run (otherCalls.take 3) inFlight) World.s2).isOk = true ∧
    (finalize (World.ext 1010 "" "" "n1") "https://op.example" codeResponse [] (run otherCalls inFlight)).1.isOk = true :=
  ⟨C81_waits_among_others Props.C10_generated_keys_are_safe World.handler newWorld earlier
    (World.ext 1000 World.s1 "n1" "") "https://op.example" "" [] [] _ World.s1 inFlight earlier_ok gen_s1
    (by decide) (by decide) ⟨by decide, by decide⟩ (by rfl) "https://op.example" (by rfl) (by decide) inFlight_named
    (fun c hc => ⟨rfl, by
      have h1 : (Dict.get? inFlight.issuer2rp "https://op.example").map
          (fun c => Dict.get? (confObj c.ctx.config "request_args") "nonce") = some none := by rfl
      rw [hc] at h1
      injection h1⟩)
    otherCalls otherCalls_ok ⟨fun _ => rfl, trivial, trivial, trivial, trivial, trivial⟩
    ⟨earlier_fresh, otherCalls_fresh⟩, by rfl, by rfl⟩

end Verif.Props
