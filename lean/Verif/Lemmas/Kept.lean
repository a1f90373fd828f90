import Verif.Lemmas.Frame
import Verif.Lemmas.Finalize
import Verif.Lemmas.Resolve
import Verif.Spec.Store
/-!
# What is kept of a started session

`Safe K k`: a call of the session store that leaves alone what was written when session `k` was started.
-/

namespace Verif
open StateInterface
open Spec.Store (KeySpace)

/-- The store knows issuers of sessions in `K` only. -/
def Known (K : String → Prop) (db : DB) : Prop := ∀ κ v, getIss db κ = .ok v → K κ

/-- What was written when session `k` was started is the same in both stores. -/
structure SameStart (k : String) (db db' : DB) : Prop where
  iss : getIss db' k = getIss db k
  request : getItem db' "auth_request" k = getItem db "auth_request" k
  pkce : getItem db' "pkce" k = getItem db "pkce" k

theorem SameStart.refl (k : String) (db : DB) : SameStart k db db := ⟨rfl, rfl, rfl⟩

theorem SameStart.trans {k : String} {a b c : DB} (h : SameStart k a b) (h' : SameStart k b c) : SameStart k a c :=
  ⟨h'.iss.trans h.iss, h'.request.trans h.request, h'.pkce.trans h.pkce⟩

theorem SameStart.of_getState {k : String} {db db' : DB} (h : getState db' k = getState db k) : SameStart k db db' := by
  refine ⟨?_, ?_, ?_⟩ <;> simp only [getIss, getItem, h]

/-- A call of the store that other sessions' calls, and calls for `k` after it was started, make. -/
def Safe (K : String → Prop) (k : String) : Op → Prop
  | .create _ key rnd => K (if key = "" then rnd else key) ∧ (if key = "" then rnd else key) ≠ k
  | .store _ t k' => (K k' ∧ k' ≠ k ∧ t ≠ "iss") ∨ ((K k' ∨ k' = "") ∧ t ∉ STARTED)
  | .bind _ _ k' => K k'
  | .remove k' => k' ≠ k
  | _ => True

namespace Kept
variable {K : String → Prop}

theorem getState_storeX2State {κ : String} (hκi : ∀ x v, κ ≠ indexKey x v) {k' : String} (hκr : κ ≠ refKey k')
    (x : XTyp) (v : String) (db : DB) : getState (storeX2State v k' x db).2 κ = getState db κ := by
  unfold storeX2State
  simp only
  split
  · unfold getState; rw [Dict.get?_set_ne _ _ (Ne.symm hκr), Dict.get?_set_ne _ _ (Ne.symm (hκi x v))]
  · unfold getState; rw [Dict.get?_set_ne _ _ (Ne.symm hκr), Dict.get?_set_ne _ _ (Ne.symm (hκi x v))]
  · unfold getState; rw [Dict.get?_set_ne _ _ (Ne.symm (hκi x v))]

theorem getState_storeItem_ne {κ k' : String} (h : κ ≠ k') (item : Obj) (t : String) (db : DB) :
    getState (storeItem item t k' db).2 κ = getState db κ := by
  unfold storeItem
  split <;> first | exact getState_set_ne _ _ h | rfl

theorem getState_storeItem_self (item : Obj) (t : String) (k' : String) (db : DB) :
    (∃ st, getState db k' = .ok st ∧ getState (storeItem item t k' db).2 k' = .ok (Dict.set st t (.obj item))) ∨
    (getState db k' = .error .keyError ∧ getState (storeItem item t k' db).2 k' = .ok [(t, .obj item)]) ∨
    (∃ e, e ≠ .keyError ∧ getState db k' = .error e ∧ (storeItem item t k' db).2 = db) := by
  unfold storeItem
  cases h : getState db k' with
  | ok st =>
    left
    exact ⟨st, rfl, getState_set _ _ (set_noEmpty (getState_noEmpty h) _ _)⟩
  | error e =>
    right
    by_cases he : e = .keyError
    · subst he
      left
      refine ⟨rfl, ?_⟩
      exact getState_set _ _ (by intro p hp; simp [Dict.set] at hp; subst hp; rfl)
    · right
      refine ⟨e, he, rfl, ?_⟩
      cases e <;> first | rfl | exact absurd rfl he

/-- Storing an item of another kind keeps an item (and the issuer). -/
theorem getItem_storeItem_ne {t t' : String} (ht : t ≠ t') (item : Obj) (k' : String) (db : DB) (κ : String) :
    getItem (storeItem item t k' db).2 t' κ = getItem db t' κ := by
  by_cases h : κ = k'
  · subst h
    rcases getState_storeItem_self item t κ db with ⟨st, h1, h2⟩ | ⟨h1, h2⟩ | ⟨e, _, _, h2⟩
    · simp only [getItem, h1, h2, Dict.get?_set_ne _ _ ht]
    · simp only [getItem, h1, h2, Dict.get?_cons, if_neg ht]; rfl
    · rw [h2]
  · unfold getItem; rw [getState_storeItem_ne h]

theorem getIss_storeItem {t : String} (ht : t ≠ "iss") (item : Obj) (k' : String) (db : DB) (κ : String) :
    getIss (storeItem item t k' db).2 κ = getIss db κ := by
  by_cases h : κ = k'
  · subst h
    rcases getState_storeItem_self item t κ db with ⟨st, h1, h2⟩ | ⟨h1, h2⟩ | ⟨e, _, _, h2⟩
    · have e : (Dict.set st t (.obj item)).isEmpty = false := by
        cases st with
        | nil => rfl
        | cons p st => simp only [Dict.set]; split <;> rfl
      simp only [getIss, h1, h2, e, Bool.false_eq_true, if_false, Dict.getItem, Dict.get?_set_ne _ _ ht]
      cases st with
      | nil => rfl
      | cons p st => rfl
    · simp only [getIss, h1, h2, List.isEmpty_cons, Bool.false_eq_true, if_false, Dict.getItem, Dict.get?_cons, if_neg ht]
      rfl
    · rw [h2]
  · unfold getIss; rw [getState_storeItem_ne h]

theorem getIss_raw {db : DB} {κ s : String} (h : Dict.get? db κ = some (.raw s)) (v : Val) : getIss db κ ≠ .ok v := by
  unfold getIss getState
  rw [h]
  simp only
  by_cases hs : s = ""
  · simp [hs]
  · simp [hs]

/-- Binding a value makes no session known. -/
theorem known_bind {K : String → Prop} {db : DB} (hK : Known K db) (x : XTyp) (v k' : String) :
    Known K (storeX2State v k' x db).2 := by
  intro κ w h
  by_cases hi : κ = indexKey x v
  · exfalso
    subst hi
    refine getIss_raw (s := k') ?_ w h
    unfold storeX2State
    simp only
    split
    · rw [Dict.get?_set_ne _ _ (refKey_ne_indexKey x v k'), Dict.get?_set_self]
    · rw [Dict.get?_set_ne _ _ (refKey_ne_indexKey x v k'), Dict.get?_set_self]
    · rw [Dict.get?_set_self]
  · by_cases hr : κ = refKey k'
    · subst hr
      unfold storeX2State at h
      simp only at h
      rw [Dict.get?_set_ne _ _ (indexKey_ne_refKey x v k')] at h
      split at h
      · next hd =>
        exfalso
        obtain ⟨st, h1, h2⟩ := getIss_ok h
        simp only [getState, Dict.get?_set_self] at h1
        injection h1 with h1
        subst h1
        have : Dict.get? (Msg.ofDict [(x.name, .str v)]) "iss" = none :=
          Msg.get?_ofDict_none (by cases x <;> simp [Dict.get?, XTyp.name])
        rw [this] at h2
        cases h2
      · next refs hd =>
        obtain ⟨st, h1, h2⟩ := getIss_ok h
        simp only [getState, Dict.get?_set_self] at h1
        injection h1 with h1
        subst h1
        have hmem := Dict.get?_eq_some_mem h2
        have hst : Dict.get? (Msg.ofDict refs) "iss" ≠ none := by
          intro hn
          rw [Dict.get?_eq_none_iff] at hn
          apply hn
          have : ("iss", w) ∈ Msg.ofDict refs := by
            unfold Msg.ofDict at hmem ⊢
            rw [List.mem_filter] at hmem ⊢
            refine ⟨?_, hmem.2⟩
            rcases Dict.mem_set hmem.1 with h | h
            · exact h
            · exfalso
              have := congrArg Prod.fst h
              cases x <;> simp [XTyp.name] at this
          exact List.mem_map_of_mem (f := Prod.fst) this
        cases h3 : Dict.get? (Msg.ofDict refs) "iss" with
        | none => exact absurd h3 hst
        | some w' =>
          refine hK _ w' (getIss_of (st := Msg.ofDict refs) ?_ h3)
          unfold getState
          rw [hd]
      · next s hd =>
        exfalso
        refine getIss_raw (s := s) ?_ w h
        rw [Dict.get?_set_ne _ _ (indexKey_ne_refKey x v k')]
        exact hd
    · have : getState (storeX2State v k' x db).2 κ = getState db κ := by
        unfold storeX2State
        simp only
        split
        · unfold getState; rw [Dict.get?_set_ne _ _ (Ne.symm hr), Dict.get?_set_ne _ _ (Ne.symm hi)]
        · unfold getState; rw [Dict.get?_set_ne _ _ (Ne.symm hr), Dict.get?_set_ne _ _ (Ne.symm hi)]
        · unfold getState; rw [Dict.get?_set_ne _ _ (Ne.symm hi)]
      unfold getIss at h
      rw [this] at h
      exact hK κ w h

theorem getIss_removeRefs {κ : String} {w : Val} : ∀ (refs : Obj) (db : DB),
    getIss (removeRefs refs db).2 κ = .ok w → getIss db κ = .ok w := by
  intro refs
  induction refs with
  | nil => intro db h; exact h
  | cons p refs ih =>
    obtain ⟨xt, v⟩ := p
    intro db h
    unfold removeRefs at h
    split at h
    · next x s _ =>
      split at h
      · have := ih _ h
        by_cases e : indexKey x s = κ
        · subst e
          simp [getIss, getState] at this
        · simpa [getIss, getState, Dict.get?_del_ne _ e] using this
      · exact h
    · exact h

theorem known_remove {K : String → Prop} {db : DB} (hK : Known K db) (k' : String) : Known K (removeState k' db).2 := by
  intro κ w h
  have hdel : ∀ {d : DB}, getIss (Dict.del d k') κ = .ok w → getIss d κ = .ok w := by
    intro d h
    by_cases e : k' = κ
    · subst e
      simp [getIss, getState] at h
    · simpa [getIss, getState, Dict.get?_del_ne _ e] using h
  unfold removeState at h
  split at h
  · simp only at h
    split at h
    · exact hK κ w (hdel h)
    · exact hK κ w (hdel h)
    · exact hK κ w (hdel (getIss_removeRefs _ _ h))
  · exact hK κ w h

theorem step_snd_store (item : Obj) (t key : String) (db : DB) :
    (StateInterface.step (.store item t key) db).2 = (storeItem item t key db).2 := by
  simp only [StateInterface.step]
  rcases storeItem item t key db with ⟨r, d⟩
  cases r <;> rfl

theorem step_snd_bind (x : XTyp) (v key : String) (db : DB) :
    (StateInterface.step (.bind x v key) db).2 = (storeX2State v key x db).2 := by
  simp only [StateInterface.step]
  rcases storeX2State v key x db with ⟨r, d⟩
  cases r <;> rfl

theorem step_snd_create (iss key rnd : String) (db : DB) :
    (StateInterface.step (.create iss key rnd) db).2 = (createState iss key rnd db).2 := by
  simp only [StateInterface.step]
  rcases createState iss key rnd db with ⟨r, d⟩
  cases r <;> rfl

theorem step_snd_remove (key : String) (db : DB) :
    (StateInterface.step (.remove key) db).2 = (removeState key db).2 := by
  simp only [StateInterface.step]
  rcases removeState key db with ⟨r, d⟩
  cases r <;> rfl

theorem createState_cases (iss key rnd : String) (db : DB) :
    (createState iss key rnd db).2 = db ∨
    (createState iss key rnd db).2 =
      Dict.set db (if key = "" then rnd else key) (.doc (Msg.ofDict [("iss", .str iss)])) := by
  unfold createState
  by_cases h : key = ""
  · simp [h]
  · simp only [if_neg h]
    split
    · left; rfl
    · right; rfl

/-- A safe call keeps what the store knows within `K`, and what `k` was started with. -/
theorem safe_step (hK : KeySpace K) {k : String} (hk : K k) (op : Op) (db : DB) (hs : Safe K k op) (hd : Known K db) :
    Known K (StateInterface.step op db).2 ∧ SameStart k db (StateInterface.step op db).2 := by
  cases op with
  | create iss key rnd =>
    rw [step_snd_create]
    obtain ⟨h1, h2⟩ := hs
    rcases createState_cases iss key rnd db with h | h <;> rw [h]
    · exact ⟨hd, SameStart.refl _ _⟩
    · refine ⟨?_, SameStart.of_getState (getState_set_ne _ _ (Ne.symm h2))⟩
      intro κ v hκ
      by_cases e : κ = if key = "" then rnd else key
      · rw [e]; exact h1
      · unfold getIss at hκ
        rw [getState_set_ne _ _ e] at hκ
        exact hd κ v hκ
  | store item t k' =>
    rw [step_snd_store]
    have ht : t ≠ "iss" := by
      rcases hs with h | h
      · exact h.2.2
      · intro e; subst e; exact h.2 (by simp)
    refine ⟨?_, ?_⟩
    · intro κ v h
      rw [getIss_storeItem ht] at h
      exact hd κ v h
    · rcases hs with h | h
      · exact SameStart.of_getState (getState_storeItem_ne (Ne.symm h.2.1) _ _ _)
      · refine ⟨getIss_storeItem ht _ _ _ _, ?_, ?_⟩
        · exact getItem_storeItem_ne (by intro e; subst e; exact h.2 (by simp)) _ _ _ _
        · exact getItem_storeItem_ne (by intro e; subst e; exact h.2 (by simp)) _ _ _ _
  | bind x v k' =>
    rw [step_snd_bind]
    exact ⟨known_bind hd x v k',
      SameStart.of_getState (getState_storeX2State (fun x v => KeySpace.ne_index hK hk x v) (KeySpace.ne_ref hK hk hs) x v db)⟩
  | remove k' =>
    rw [step_snd_remove]
    refine ⟨known_remove hd k', SameStart.of_getState ?_⟩
    unfold getState
    rw [Handler.get?_removeState (fun x v => KeySpace.ne_index hK hk x v), if_neg hs]
  | item t k' => 
    have : (StateInterface.step (.item t k') db).2 = db := by
      simp only [StateInterface.step]; cases getItem db t k' <;> rfl
    rw [this]; exact ⟨hd, SameStart.refl _ _⟩
  | issuer k' =>
    have : (StateInterface.step (.issuer k') db).2 = db := by
      simp only [StateInterface.step]; cases getIss db k' <;> rfl
    rw [this]; exact ⟨hd, SameStart.refl _ _⟩
  | lookup x v =>
    have : (StateInterface.step (.lookup x v) db).2 = db := by
      simp only [StateInterface.step]; cases getStateByX db v x <;> rfl
    rw [this]; exact ⟨hd, SameStart.refl _ _⟩

theorem safe_acts (hK : KeySpace K) {k : String} (hk : K k) {db db' : DB} (h : Acts (Safe K k) db db') (hd : Known K db) :
    Known K db' ∧ SameStart k db db' :=
  h.invariant (I := fun d => Known K d ∧ SameStart k db d)
    (fun op d hop hi => let ⟨h1, h2⟩ := safe_step hK hk op d hop hi.1; ⟨h1, hi.2.trans h2⟩)
    ⟨hd, SameStart.refl _ _⟩

/-- Calls that work for one session are safe. -/
theorem safe_of_touches {k k' : String} (hk' : K k') {db db' : DB} (h : Acts (Touches k') db db') :
    Acts (Safe K k) db db' := by
  refine h.mono fun op hop => ?_
  cases op with
  | store item t q =>
    obtain ⟨h1, h2⟩ := hop
    refine Or.inr ⟨?_, h2⟩
    rcases h1 with rfl | rfl
    · exact Or.inl hk'
    · exact Or.inr rfl
  | bind x v q => obtain ⟨rfl, -⟩ := hop; exact hk'
  | _ => exact hop.elim

end Kept
end Verif
