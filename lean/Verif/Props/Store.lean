import Verif.Lemmas.StoreHistory
/-!
# Properties C01–C10: the session store (src/oidcrp/state_interface.py)

`dbAfter ops` is the store after the calls `ops` on a new store; `step q db` is one call.
-/

namespace Verif.Props
open StateInterface Spec.Store Spec.History StoreRefine StoreHistory

/-! ## C01 isolation -/

/-- C01: creating a session changes what is read under the created key only. -/
theorem C01_create_isolated (iss key rnd : String) (db db' : DB) (r : Except Exc String)
    (h : createState iss key rnd db = (r, db')) (k' : String) (hk : r ≠ .ok k') :
    getState db' k' = getState db k' ∧ getIss db' k' = getIss db k' ∧
      ∀ t, getItem db' t k' = getItem db t k' := by
  have hg : Dict.get? db' k' = Dict.get? db k' := by
    unfold createState at h
    split at h
    · cases h; exact Dict.get?_set_ne _ _ (fun e => hk (by rw [e]))
    · split at h
      · cases h; rfl
      · cases h; exact Dict.get?_set_ne _ _ (fun e => hk (by rw [e]))
  have hs : getState db' k' = getState db k' := by simp only [getState, hg]
  exact ⟨hs, by simp only [getIss, hs], fun t => by simp only [getItem, hs]⟩

/-- C01: storing an item changes what is read under that session key only. -/
theorem C01_store_isolated (item : Obj) (t k : String) (db : DB) (k' : String) (hk : k ≠ k') :
    getState (storeItem item t k db).2 k' = getState db k' ∧
      getIss (storeItem item t k db).2 k' = getIss db k' ∧
      ∀ t', getItem (storeItem item t k db).2 t' k' = getItem db t' k' := by
  have hg : Dict.get? (storeItem item t k db).2 k' = Dict.get? db k' := by
    unfold storeItem
    split
    · exact Dict.get?_set_ne _ _ hk
    · exact Dict.get?_set_ne _ _ hk
    · rfl
  have hs : getState (storeItem item t k db).2 k' = getState db k' := by simp only [getState, hg]
  exact ⟨hs, by simp only [getIss, hs], fun t => by simp only [getItem, hs]⟩

/-- C01: binding an index value changes no session (for session keys of any key space). -/
theorem C01_bind_isolated {K : String → Prop} (hK : KeySpace K) (x : XTyp) (v k : String)
    (hk : K k) (db : DB) (k' : String) (hk' : K k') :
    getState (storeX2State v k x db).2 k' = getState db k' ∧
      getIss (storeX2State v k x db).2 k' = getIss db k' ∧
      ∀ t', getItem (storeX2State v k x db).2 t' k' = getItem db t' k' := by
  have e1 : indexKey x v ≠ k' := fun e => KeySpace.ne_index hK hk' x v e.symm
  have e2 : refKey k ≠ k' := fun e => KeySpace.ne_ref hK hk' hk e.symm
  have hg : Dict.get? (storeX2State v k x db).2 k' = Dict.get? db k' := by
    unfold storeX2State
    simp only
    split <;> simp only [Dict.get?_set_ne _ _ e1, Dict.get?_set_ne _ _ e2]
  have hs : getState (storeX2State v k x db).2 k' = getState db k' := by simp only [getState, hg]
  exact ⟨hs, by simp only [getIss, hs], fun t => by simp only [getItem, hs]⟩

/-- Non-vacuity of C01: two live sessions, one is written to, the other still has its item. -/
example : getItem (storeItem [("code", .str "c2")] "auth_response" "k2"
      (dbAfter [.create "iss" "k1" "", .create "iss" "k2" "",
        .store [("code", .str "c1")] "auth_response" "k1"])).2 "auth_response" "k1"
    = .ok [("code", .str "c1")] := by rfl

/-! ## C02 read-back -/

/-- C02: after any history, reading item `t` of session `k` yields the item stored last (since the
session was last created or removed), without its empty parameters, and `KeyError` if there is
none. -/
theorem C02_item_read_back {K : String → Prop} (hK : KeySpace K) (ops : List Op)
    (hops : ∀ op ∈ ops, OpOk K op) (t k : String) (hk : K k) (ht : t ≠ "iss") :
    getItem (dbAfter ops) t k = match lastItem t k ops with
      | some o => .ok (withoutEmpty o)
      | none => .error .keyError := by
  have h := step_after hK hops (q := .item t k) ⟨hk, ht⟩
  have hs := (sess_after k ops).2 t
  simp only [StateInterface.step, Spec.Store.step] at h
  rw [← hs]
  cases hsk : (after ops).sess k with
  | none =>
    simp only [hsk, Option.bind_none] at h ⊢
    cases hg : getItem (dbAfter ops) t k <;> rw [hg] at h <;> simp [mapOut] at h ⊢; exact h
  | some s =>
    simp only [hsk, Option.bind_some] at h ⊢
    cases hi : s.items t with
    | none =>
      simp only [hi] at h ⊢
      cases hg : getItem (dbAfter ops) t k <;> rw [hg] at h <;> simp [mapOut] at h ⊢; exact h
    | some o =>
      simp only [hi] at h ⊢
      cases hg : getItem (dbAfter ops) t k <;> rw [hg] at h <;> simp [mapOut] at h ⊢; exact h

/-- C02: the issuer read for a session is the one of its creation; unknown sessions (and sessions
that were never given an issuer) are a `KeyError`. -/
theorem C02_issuer_read_back {K : String → Prop} (hK : KeySpace K) (ops : List Op)
    (hops : ∀ op ∈ ops, OpOk K op) (k : String) (hk : K k) :
    getIss (dbAfter ops) k = match sessionIss k ops with
      | some iss => if iss = "" then .error .keyError else .ok (.str iss)
      | none => .error .keyError := by
  have h := step_after hK hops (q := .issuer k) hk
  have hs := (sess_after k ops).1
  simp only [StateInterface.step, Spec.Store.step] at h
  rw [← hs]
  cases hsk : (after ops).sess k with
  | none =>
    simp only [hsk, Option.map_none] at h ⊢
    cases hg : getIss (dbAfter ops) k <;> rw [hg] at h <;> simp [mapOut] at h ⊢; exact h
  | some s =>
    simp only [hsk, Option.map_some] at h ⊢
    by_cases e : s.iss = ""
    · simp only [e, if_true] at h ⊢
      cases hg : getIss (dbAfter ops) k <;> rw [hg] at h <;> simp [mapOut] at h ⊢; exact h
    · simp only [e, if_false] at h ⊢
      cases hg : getIss (dbAfter ops) k <;> rw [hg] at h <;> simp [mapOut] at h ⊢; exact h

/-- C02, one call on an arbitrary store (not only those reached by a history): the stored item is
read back and the other items of the session are unaffected. -/
theorem C02_store_then_read (item : Obj) (t k : String) (db : DB)
    (hok : (storeItem item t k db).1 = .ok ()) :
    getItem (storeItem item t k db).2 t k = .ok (withoutEmpty item) ∧
    ∀ t', t' ≠ t → getItem (storeItem item t k db).2 t' k = getItem db t' k := by
  have key : ∀ st : Obj, getItem (Dict.set db k (.doc (Dict.set (Msg.ofDict st) t (.obj item)))) t k
        = .ok (withoutEmpty item) ∧ ∀ t', t' ≠ t →
        getItem (Dict.set db k (.doc (Dict.set (Msg.ofDict st) t (.obj item)))) t' k
          = asItem (Dict.get? (Msg.ofDict st) t') := by
    intro st
    have hne : Msg.ofDict (Dict.set (Msg.ofDict st) t (.obj item)) = Dict.set (Msg.ofDict st) t (.obj item) :=
      Msg.ofDict_of_noEmpty (Msg.noEmpty_set (Msg.ofDict_noEmpty st) t rfl)
    refine ⟨?_, ?_⟩
    · simp only [getItem, getState, Dict.get?_set_self, hne, asItem]
      rw [Msg.ofDict_eq_withoutEmpty]
    · intro t' ht'
      simp only [getItem, getState, Dict.get?_set_self, hne, Dict.get?_set_ne _ _ (Ne.symm ht')]
  unfold storeItem at hok ⊢
  cases hg : getState db k with
  | ok st =>
    have hst : Msg.ofDict st = st := by
      unfold getState at hg
      split at hg
      · cases hg
      · split at hg <;> cases hg
      · cases hg; exact Msg.ofDict_idem _
    have := key st
    rw [hst] at this
    simp only
    refine ⟨this.1, fun t' ht' => ?_⟩
    rw [this.2 t' ht']; simp only [getItem, hg]
  | error e =>
    rw [hg] at hok
    cases e with
    | keyError =>
      have := key []
      simp only
      refine ⟨this.1, fun t' ht' => ?_⟩
      have h2 := this.2 t' ht'
      simp only [Msg.ofDict, List.filter_nil, Dict.get?_nil, asItem] at h2
      rw [h2]; simp only [getItem, hg]
    | _ => simp at hok

/-- C02: reading anything of a session that does not exist is a `KeyError`. -/
theorem C02_unknown_session (db : DB) (k : String) (h : Dict.get? db k = none) (t : String) :
    getItem db t k = .error .keyError ∧ getIss db k = .error .keyError ∧
      getState db k = .error .keyError := by
  simp [getItem, getIss, getState, h]

/-! ## C03 reverse look-ups -/

/-- C03 (soundness, any history): whatever a look-up returns is the session the value was bound to
last; in every other case it is a `KeyError`. -/
theorem C03_lookup_sound {K : String → Prop} (hK : KeySpace K) (ops : List Op)
    (hops : ∀ op ∈ ops, OpOk K op) (x : XTyp) (v : String) :
    (∃ k, getStateByX (dbAfter ops) v x = .ok (.raw k) ∧ lastBind x v ops = some k) ∨
    getStateByX (dbAfter ops) v x = .error .keyError := by
  have h := step_after hK hops (q := .lookup x v) trivial
  simp only [StateInterface.step, Spec.Store.step] at h
  cases hi : (after ops).idx x v with
  | none =>
    simp only [hi] at h
    cases hg : getStateByX (dbAfter ops) v x <;> rw [hg] at h <;> simp [mapOut] at h ⊢; exact h
  | some k =>
    simp only [hi] at h
    left
    refine ⟨k, ?_, (idx_inv ops).1 x v k hi⟩
    cases hg : getStateByX (dbAfter ops) v x <;> rw [hg] at h <;> simp [mapOut] at h ⊢; exact h

/-- C03 (completeness): unless a session the value was bound to has been removed, the look-up
returns exactly the session it was bound to last. -/
theorem C03_lookup_last_bound {K : String → Prop} (hK : KeySpace K) (ops : List Op)
    (hops : ∀ op ∈ ops, OpOk K op) (x : XTyp) (v : String)
    (hrem : ∀ k, Op.remove k ∈ ops → Op.bind x v k ∉ ops) :
    getStateByX (dbAfter ops) v x = match lastBind x v ops with
      | some k => .ok (.raw k)
      | none => .error .keyError := by
  have h := step_after hK hops (q := .lookup x v) trivial
  have hc := idx_complete x v ops hrem
  simp only [StateInterface.step, Spec.Store.step] at h
  rw [← hc]
  cases hi : (after ops).idx x v with
  | none =>
    simp only [hi] at h
    cases hg : getStateByX (dbAfter ops) v x <;> rw [hg] at h <;> simp [mapOut] at h ⊢; exact h
  | some k =>
    simp only [hi] at h
    cases hg : getStateByX (dbAfter ops) v x <;> rw [hg] at h <;> simp [mapOut] at h ⊢; exact h

/-! ## C04 index kinds do not interfere -/

/-- C04: binding one value leaves the look-up of every other (kind, value) pair unchanged, on any
store and for arbitrary strings. -/
theorem C04_indexes_independent (db : DB) (x y : XTyp) (v w k : String)
    (h : ¬ (x = y ∧ v = w)) :
    getStateByX (storeX2State v k x db).2 w y = getStateByX db w y := by
  have e1 : indexKey x v ≠ indexKey y w := fun e => h (indexKey_inj.1 e)
  have hg : Dict.get? (storeX2State v k x db).2 (indexKey y w) = Dict.get? db (indexKey y w) := by
    unfold storeX2State
    simp only
    split <;>
      simp only [Dict.get?_set_ne _ _ e1, Dict.get?_set_ne _ _ (refKey_ne_indexKey y w k)]
  simp only [getStateByX, hg]

/-- C04: the value just bound resolves (non-empty session key). -/
theorem C04_bound_resolves (db : DB) (x : XTyp) (v k : String) (hk : k ≠ "") :
    getStateByX (storeX2State v k x db).2 v x = .ok (.raw k) := by
  have hg : Dict.get? (storeX2State v k x db).2 (indexKey x v) = some (.raw k) := by
    unfold storeX2State
    simp only
    split <;> simp [Dict.get?_set_ne _ _ (refKey_ne_indexKey x v k)]
  simp [getStateByX, hg, hk]

/-- Non-vacuity of C04: a subject that looks like a nonce entry does not touch the nonce index. -/
example : getStateByX (dbAfter [.create "i" "k1" "", .bind .nonce "n" "k1",
    .bind .subjectId "__n__" "k2", .bind .sessionId "n" "k2"]) "n" .nonce = .ok (.raw "k1") := by rfl

/-! ## C05 reserved keys -/

/-- C05 is violated: a caller-supplied key of the shape of a logout-state index entry is accepted,
and binding that logout state then destroys the session. -/
theorem C05_reserved_keys_violated :
    ¬ (∀ (iss key rnd : String) (db : DB), (∃ x v, key = indexKey x v) →
        ∃ e, createState iss key rnd db = (.error e, db)) := by
  intro h
  obtain ⟨e, he⟩ := h "https://op" "::a::" "" [] ⟨.logoutState, "a", rfl⟩
  have : createState "https://op" "::a::" "" [] =
    (.ok "::a::", [("::a::", .doc [("iss", .str "https://op")])]) := by rfl
  rw [this] at he; cases he

/-- C05, consequence: the accepted session is overwritten by an index entry. -/
theorem C05_reserved_key_overwritten :
    (step (.issuer "::a::") (dbAfter [.create "https://op" "::a::" ""])).1
        = .ok (.val (.str "https://op")) ∧
    (step (.issuer "::a::") (dbAfter [.create "https://op" "::a::" "",
        .create "https://op" "k" "", .bind .logoutState "a" "k"])).1 = .error .valueError := by
  constructor <;> rfl

/-- C05 (what holds): a key is refused, without any effect, exactly if it is not empty and both
starts and ends with "__"; in particular every key of the shape of a nonce entry is. -/
theorem C05_partial (iss key rnd : String) (db : DB) :
    ((∃ e, (createState iss key rnd db).1 = .error e) ↔
      key ≠ "" ∧ "__".toList <+: key.toList ∧ "__".toList <:+ key.toList) ∧
    (∀ e, (createState iss key rnd db).1 = .error e →
      createState iss key rnd db = (.error .valueError, db)) ∧
    (∀ v, createState iss ("__" ++ v ++ "__") rnd db = (.error .valueError, db)) := by
  have hd := dunder_iff key
  refine ⟨?_, ?_, ?_⟩
  · unfold createState
    by_cases e : key = ""
    · simp [e]
    · simp only [ne_eq, e, not_false_eq_true, true_and, ← hd]
      cases dunder key <;> simp
  · intro e he
    unfold createState at he ⊢
    by_cases e' : key = ""
    · simp [e'] at he
    · simp only [if_neg e'] at he ⊢
      cases hdk : dunder key <;> simp [hdk] at he ⊢
  · intro v
    have hne : "__" ++ v ++ "__" ≠ "" := by
      intro h; have := congrArg String.toList h; simp at this
    have hdv : dunder ("__" ++ v ++ "__") = true := (dunder_iff _).2
      ⟨⟨v.toList ++ ['_', '_'], by simp⟩, ⟨['_', '_'] ++ v.toList, by simp⟩⟩
    simp [createState, hne, hdv]

/-! ## C06 removal erases -/

/-- C06 is violated: rebinding a nonce leaves the first binding behind after removal. -/
theorem C06_remove_erases_violated :
    ¬ (∀ (ops : List Op) (k : String), (step (.remove k) (dbAfter ops)).1 = .ok .unit →
        ∀ x v, getStateByX (step (.remove k) (dbAfter ops)).2 v x ≠ .ok (.raw k)) := by
  intro h
  exact h [.create "https://op" "k" "", .bind .nonce "n1" "k", .bind .nonce "n2" "k"] "k"
    (by rfl) .nonce "n1" (by rfl)

/-- C06 (what holds, any history): a removal that does not fail with `KeyError` before it starts
leaves no record, whatever happened before. -/
theorem C06_record_gone {K : String → Prop} (hK : KeySpace K) (ops : List Op)
    (hops : ∀ op ∈ ops, OpOk K op) (k : String) (hk : K k) :
    getState (step (.remove k) (dbAfter ops)).2 k = .error .keyError := by
  have hR := (R_step hK (R_after hK hops) (op := .remove k) hk).2
  refine getState_none hR hk ?_
  rw [dropRefs_step_sess]; simp

/-- C06 (what holds): if the session never had two different values of one kind bound to it, then
after a successful removal no value at all resolves to it. -/
theorem C06_partial {K : String → Prop} (hK : KeySpace K) (ops : List Op)
    (hops : ∀ op ∈ ops, OpOk K op) (k : String) (hk : K k)
    (honce : ∀ x v w, Op.bind x v k ∈ ops → Op.bind x w k ∈ ops → v = w)
    (hok : (step (.remove k) (dbAfter ops)).1 = .ok .unit) (x : XTyp) (v : String) :
    getStateByX (step (.remove k) (dbAfter ops)).2 v x ≠ .ok (.raw k) := by
  have hs := R_step hK (R_after hK hops) (op := .remove k) hk
  rw [hs.1] at hok
  have hR := hs.2
  intro hg
  have hi := hR.idx x v
  have hidx : (Spec.Store.step (after ops) (.remove k)).2.idx x v = some k := by
    simp only [getStateByX] at hg
    rw [hi] at hg
    cases hx : (Spec.Store.step (after ops) (.remove k)).2.idx x v with
    | none => rw [hx] at hg; simp at hg
    | some k' =>
      rw [hx] at hg; simp only [Option.map_some] at hg
      split at hg
      · cases hg
      · injection hg with hg; injection hg with hg; rw [hg]
  -- the pair was bound to k
  have hb0 : (after ops).idx x v = some k := by
    rcases remove_idx (after ops) k x v with h | ⟨h, _⟩
    · rw [← h]; exact hidx
    · rw [h] at hidx; cases hidx
  have hlast := (idx_inv ops).1 x v k hb0
  have hbind : Op.bind x v k ∈ ops := by
    clear hok hs hR hg hi hidx hb0 honce hops
    induction ops using snoc_induction with
    | h0 => simp [lastBind] at hlast
    | h1 ops op ih =>
      simp only [lastBind, List.foldl_append, List.foldl_cons, List.foldl_nil] at hlast ih
      cases op <;> simp only at hlast <;> first
        | exact List.mem_append_left _ (ih hlast)
        | (split at hlast
           · next e => obtain ⟨rfl, rfl⟩ := e; cases hlast; simp
           · exact List.mem_append_left _ (ih hlast))
  obtain ⟨l, w, hl, hm⟩ := (idx_inv ops).2.2.2 x v k hbind
  have hw := (idx_inv ops).2.1 x w k l hl hm
  have := honce x v w hbind hw; subst this
  -- the walk removed it
  simp only [Spec.Store.step] at hok hidx
  cases hsk : (after ops).sess k with
  | none => simp [hsk] at hok
  | some s =>
    simp only [hsk, hl] at hok hidx
    rcases hd : dropRefs l (after ops).idx with ⟨r, i⟩
    rw [hd] at hok hidx
    cases r with
    | error e => simp at hok
    | ok u =>
      simp only at hidx
      have := dropRefs_ok_none l (after ops).idx (by rw [hd]) x v hm
      rw [hd] at this; simp only at this; rw [this] at hidx; cases hidx

/-- Non-vacuity of C06_partial: a finalized session (nonce, sub and sid bound) is removed. -/
example : (step (.remove "k") (dbAfter [.create "https://op" "k" "", .bind .nonce "n" "k",
    .bind .subjectId "s" "k", .bind .sessionId "i" "k"])).1 = .ok .unit := by rfl

/-! ## C07 removal succeeds -/

/-- C07: removing an unknown session is a `KeyError` and changes nothing. -/
theorem C07_remove_unknown (db : DB) (k : String) (h : Dict.get? db k = none) :
    removeState k db = (.error .keyError, db) := by
  simp [removeState, Dict.has, h]

/-- C07 is violated: a live session nothing was bound to cannot be removed without an exception
(`TypeError`), although its record is deleted. -/
theorem C07_remove_succeeds_violated :
    ¬ (∀ (ops : List Op) (k : String), (∃ i, getIss (dbAfter ops) k = .ok i) →
        (step (.remove k) (dbAfter ops)).1 = .ok .unit) := by
  intro h
  have := h [.create "https://op" "k" ""] "k" ⟨.str "https://op", by rfl⟩
  have e : (step (.remove "k") (dbAfter [.create "https://op" "k" ""])).1 = .error .typeError := by rfl
  rw [e] at this; cases this

/-- C07, second violation: of two sessions of the same subject the one removed last raises
`KeyError`, and keeps its remaining index entries. -/
theorem C07_shared_subject_violated :
    let ops : List Op := [.create "https://op" "k1" "", .bind .nonce "n1" "k1",
      .bind .subjectId "s" "k1", .create "https://op" "k2" "", .bind .subjectId "s" "k2",
      .bind .nonce "n2" "k2", .remove "k1"]
    (step (.remove "k2") (dbAfter ops)).1 = .error .keyError ∧
    getStateByX (step (.remove "k2") (dbAfter ops)).2 "n2" .nonce = .ok (.raw "k2") := by
  constructor <;> rfl

/-- C07 (what holds): a live session is removed without an exception if something was bound to it
and no value bound to it was also bound to a session removed before. -/
theorem C07_partial {K : String → Prop} (hK : KeySpace K) (ops : List Op)
    (hops : ∀ op ∈ ops, OpOk K op) (k : String) (hk : K k)
    (hlive : sessionIss k ops ≠ none)
    (hbound : ∃ x v, Op.bind x v k ∈ ops)
    (hfree : ∀ k' x v, Op.remove k' ∈ ops → Op.bind x v k ∈ ops → Op.bind x v k' ∉ ops) :
    (step (.remove k) (dbAfter ops)).1 = .ok .unit := by
  rw [(R_step hK (R_after hK hops) (op := .remove k) hk).1]
  simp only [Spec.Store.step]
  cases hsk : (after ops).sess k with
  | none =>
    have := (sess_after k ops).1
    rw [hsk] at this; exact absurd this.symm hlive
  | some s =>
    obtain ⟨x, v, hb⟩ := hbound
    obtain ⟨l, w, hl, hm⟩ := (idx_inv ops).2.2.2 x v k hb
    simp only [hl]
    have hnd : l.Nodup := by
      have := (idx_inv ops).2.2.1 k l hl
      exact List.Pairwise.of_map Prod.fst (fun a b hab e => hab (by rw [e])) this
    have hok := dropRefs_ok_of_present l (after ops).idx hnd (by
      intro y u hyu
      have hby := (idx_inv ops).2.1 y u k l hl hyu
      rw [idx_complete y u ops (fun k' hr => hfree k' y u hr hby)]
      clear hops hlive hb hl hm hnd hsk hyu hfree
      induction ops using snoc_induction with
      | h0 => simp at hby
      | h1 ops op ih =>
        simp only [lastBind, List.foldl_append, List.foldl_cons, List.foldl_nil] at ih ⊢
        rcases List.mem_append.1 hby with h | h
        · have := ih h
          split
          · split
            · simp
            · exact this
          · exact this
        · simp at h; subst h; simp)
    rcases hd : dropRefs l (after ops).idx with ⟨r, i⟩
    rw [hd] at hok; simp only at hok; subst hok; rfl

/-! ## C08 removal leaves the others alone -/

/-- C08 is violated: removing one session makes the subject of another live session unresolvable. -/
theorem C08_remove_isolated_violated :
    ¬ (∀ (ops : List Op) (k k' : String) (x : XTyp) (v : String), k ≠ k' →
        getStateByX (dbAfter ops) v x = .ok (.raw k') →
        getStateByX (step (.remove k) (dbAfter ops)).2 v x = .ok (.raw k')) := by
  intro h
  have := h [.create "https://op" "k1" "", .bind .subjectId "s" "k1",
    .create "https://op" "k2" "", .bind .subjectId "s" "k2"] "k1" "k2" .subjectId "s"
    (by decide) (by rfl)
  have e : getStateByX (step (.remove "k1") (dbAfter [.create "https://op" "k1" "",
    .bind .subjectId "s" "k1", .create "https://op" "k2" "", .bind .subjectId "s" "k2"])).2 "s"
      .subjectId = .error .keyError := by rfl
  rw [e] at this; cases this

/-- C08 (what holds, any history): the records of all other sessions, and the look-up of every
value never bound to the removed session, are unchanged. -/
theorem C08_partial {K : String → Prop} (hK : KeySpace K) (ops : List Op)
    (hops : ∀ op ∈ ops, OpOk K op) (k : String) (hk : K k) :
    (∀ k', K k' → k ≠ k' →
      getIss (step (.remove k) (dbAfter ops)).2 k' = getIss (dbAfter ops) k' ∧
      ∀ t, t ≠ "iss" → getItem (step (.remove k) (dbAfter ops)).2 t k' = getItem (dbAfter ops) t k') ∧
    (∀ x v, Op.bind x v k ∉ ops →
      getStateByX (step (.remove k) (dbAfter ops)).2 v x = getStateByX (dbAfter ops) v x) := by
  have hops' : ∀ op ∈ ops ++ [.remove k], OpOk K op := by
    intro op h
    rcases List.mem_append.1 h with h | h
    · exact hops op h
    · simp at h; subst h; exact hk
  rw [← dbAfter_snoc]
  refine ⟨?_, ?_⟩
  · intro k' hk' hne
    constructor
    · rw [C02_issuer_read_back hK _ hops' k' hk', C02_issuer_read_back hK _ hops k' hk']
      simp [sessionIss, List.foldl_append, hne]
    · intro t ht
      rw [C02_item_read_back hK _ hops' t k' hk' ht, C02_item_read_back hK _ hops t k' hk' ht]
      simp [lastItem, List.foldl_append, hne]
  · intro x v hnb
    have h1 := (R_after hK hops').idx x v
    have h2 := (R_after hK hops).idx x v
    have h3 : (after (ops ++ [.remove k])).idx x v = (after ops).idx x v := by
      rw [after_snoc]
      rcases remove_idx (after ops) k x v with h | ⟨_, l, hl, hm⟩
      · exact h
      · exact absurd ((idx_inv ops).2.1 x v k l hl hm) hnb
    rw [h3] at h1
    simp only [getStateByX, h1, h2]

/-! ## C09 refinement -/

/-- C09: any history of calls with session keys from a key space has exactly the results of the
abstract store of sessions and four index maps. -/
theorem C09_store_refines_spec {K : String → Prop} (hK : KeySpace K) (ops : List Op)
    (hops : ∀ op ∈ ops, OpOk K op) :
    (StateInterface.run ops init).1 = (Spec.Store.run ops Spec.Store.empty).1 :=
  (R_run hK ops (R_init K) hops).1

/-! ## C10 generated keys -/

theorem alnum_cases {c : Char} (h : alnum c = true) : c ≠ '_' ∧ c ≠ ':' ∧ c ≠ '.' ∧ c ≠ '=' := by
  refine ⟨?_, ?_, ?_, ?_⟩ <;> rintro rfl <;> simp [alnum] at h

/-- C10: the keys the library generates form a key space: they are never an index entry and never
the bookkeeping entry of another generated session. -/
theorem C10_generated_keys_are_safe : KeySpace Generated := by
  refine ⟨?_, ?_, ?_⟩
  · rintro k ⟨h, _⟩ rfl; simp at h
  · rintro k ⟨_, h⟩ m hm ⟨⟨t, ht⟩, _⟩
    have hc : ∀ c ∈ m.toList, c ∈ k.toList := fun c hc => by rw [← ht]; simp [hc]
    simp only [List.mem_cons, List.not_mem_nil, or_false] at hm
    rcases hm with rfl | rfl | rfl | rfl
    · exact (alnum_cases (h '_' (hc _ (by simp)))).1 rfl
    · exact (alnum_cases (h ':' (hc _ (by simp)))).2.1 rfl
    · exact (alnum_cases (h '.' (hc _ (by simp)))).2.2.1 rfl
    · exact (alnum_cases (h '=' (hc _ (by simp)))).2.2.2 rfl
  · rintro k k' ⟨h, _⟩ ⟨h', _⟩ rfl
    simp only [String.toList_append, List.length_append, h'] at h
    have h3 : "ref".toList.length = 3 := by decide
    omega

/-- C10, spelled out. -/
theorem C10_generated_key_ne_index (k : String) (h : Generated k) :
    (∀ x v, k ≠ indexKey x v) ∧ (∀ k', Generated k' → k ≠ refKey k') :=
  ⟨fun x v => KeySpace.ne_index C10_generated_keys_are_safe h x v,
   fun _ h' => KeySpace.ne_ref C10_generated_keys_are_safe h h'⟩

/-- Non-vacuity: there are generated keys; a whole login history uses them. -/
example : Generated "abcdefghijklmnopqrstuvwxyz012345" := by
  refine ⟨by decide, by decide⟩

example : ∀ op ∈ ([.create "https://op" "" "abcdefghijklmnopqrstuvwxyz012345",
    .bind .nonce "n" "abcdefghijklmnopqrstuvwxyz012345",
    .store [("code", .str "c")] "auth_response" "abcdefghijklmnopqrstuvwxyz012345",
    .remove "abcdefghijklmnopqrstuvwxyz012345"] : List Op), OpOk Generated op := by
  have h : Generated "abcdefghijklmnopqrstuvwxyz012345" := by refine ⟨by decide, by decide⟩
  simp [OpOk, h]

end Verif.Props
