import Verif.Lemmas.StoreRefine
import Verif.Spec.StoreHistory
/-! Invariants of the abstract store over histories. -/

namespace Verif.StoreHistory
open StateInterface Spec.Store Spec.History StoreRefine

theorem snoc_induction {α : Type} {P : List α → Prop} (h0 : P [])
    (h1 : ∀ l a, P l → P (l ++ [a])) : ∀ l, P l := by
  intro l
  have : ∀ l : List α, P l.reverse := by
    intro l
    induction l with
    | nil => exact h0
    | cons a l ih => rw [List.reverse_cons]; exact h1 _ _ ih
  simpa using this l.reverse

/-- The abstract store after a history. -/
def after (ops : List Op) : Store := (Spec.Store.run ops Spec.Store.empty).2

theorem run_append_snd (ops ops' : List Op) : ∀ s : Store,
    (Spec.Store.run (ops ++ ops') s).2 = (Spec.Store.run ops' (Spec.Store.run ops s).2).2 := by
  induction ops with
  | nil => intro s; rfl
  | cons op ops ih => intro s; simp only [List.cons_append, Spec.Store.run]; exact ih _

theorem after_snoc (ops : List Op) (op : Op) :
    after (ops ++ [op]) = (Spec.Store.step (after ops) op).2 := by
  simp [after, run_append_snd, Spec.Store.run]

theorem after_nil : after [] = Spec.Store.empty := rfl

theorem db_run_append_snd (ops ops' : List Op) : ∀ db : DB,
    (StateInterface.run (ops ++ ops') db).2
      = (StateInterface.run ops' (StateInterface.run ops db).2).2 := by
  induction ops with
  | nil => intro s; rfl
  | cons op ops ih => intro s; simp only [List.cons_append, StateInterface.run]; exact ih _

theorem dbAfter_snoc (ops : List Op) (op : Op) :
    dbAfter (ops ++ [op]) = (StateInterface.step op (dbAfter ops)).2 := by
  simp [dbAfter, db_run_append_snd, StateInterface.run]

theorem R_after {K : String → Prop} (hK : KeySpace K) {ops : List Op}
    (hops : ∀ op ∈ ops, OpOk K op) : R K (dbAfter ops) (after ops) :=
  (R_run hK ops (R_init K) hops).2

/-- A call after a history has the abstract result. -/
theorem step_after {K : String → Prop} (hK : KeySpace K) {ops : List Op}
    (hops : ∀ op ∈ ops, OpOk K op) {q : Op} (hq : OpOk K q) :
    (StateInterface.step q (dbAfter ops)).1 = (Spec.Store.step (after ops) q).1 :=
  (R_step hK (R_after hK hops) hq).1

/-! ### sessions and items -/

theorem dropRefs_step_sess (s : Store) (k k' : String) :
    ((Spec.Store.step s (.remove k)).2).sess k' = if k = k' then none else s.sess k' := by
  simp only [Spec.Store.step]
  cases hk : s.sess k with
  | none =>
    simp only
    split
    · next e => subst e; exact hk
    · rfl
  | some ss =>
    simp only
    cases s.refs k with
    | none => simp [upd]
    | some l =>
      simp only
      rcases dropRefs l s.idx with ⟨r, i⟩
      cases r <;> simp [upd]

theorem sess_after (k : String) (ops : List Op) :
    ((after ops).sess k).map (fun s => s.iss) = sessionIss k ops ∧
    ∀ t, ((after ops).sess k).bind (fun s => s.items t) = lastItem t k ops := by
  induction ops using snoc_induction with
  | h0 => simp [after_nil, Spec.Store.empty, sessionIss, lastItem]
  | h1 ops op ih =>
    obtain ⟨ih1, ih2⟩ := ih
    rw [after_snoc]
    simp only [sessionIss, lastItem, List.foldl_append, List.foldl_cons, List.foldl_nil] at ih1 ih2 ⊢
    cases op with
    | create iss key rnd =>
      simp only [Spec.Store.step, upd]
      by_cases e : (if key = "" then rnd else key) = k
      · simp [e]
      · simp only [e, if_false]; exact ⟨ih1, ih2⟩
    | store item t' k' =>
      simp only [Spec.Store.step, upd]
      by_cases e : k' = k
      · subst e
        simp only [if_true, and_true, Option.map_some, Option.bind_some]
        refine ⟨?_, ?_⟩
        · rw [← ih1]; cases (after ops).sess k' <;> simp
        · intro t
          by_cases et : t' = t
          · simp [et, upd]
          · simp only [et, if_false, ← ih2 t]
            cases (after ops).sess k' <;> simp [upd, et]
      · simp only [e, if_false, and_false]; exact ⟨ih1, ih2⟩
    | remove k' =>
      rw [dropRefs_step_sess]
      by_cases e : k' = k
      · simp [e]
      · simp only [e, if_false]; exact ⟨ih1, ih2⟩
    | bind x v k' => exact ⟨ih1, ih2⟩
    | item t' k' =>
      have : (Spec.Store.step (after ops) (.item t' k')).2 = after ops := by
        simp only [Spec.Store.step]; repeat' (first | rfl | split)
      rw [this]; exact ⟨ih1, ih2⟩
    | issuer k' =>
      have : (Spec.Store.step (after ops) (.issuer k')).2 = after ops := by
        simp only [Spec.Store.step]; repeat' (first | rfl | split)
      rw [this]; exact ⟨ih1, ih2⟩
    | lookup x v =>
      have : (Spec.Store.step (after ops) (.lookup x v)).2 = after ops := by
        simp only [Spec.Store.step]; repeat' (first | rfl | split)
      rw [this]; exact ⟨ih1, ih2⟩

/-! ### indexes -/

theorem dropRefs_idx_or (l : List (XTyp × String)) : ∀ (idx : XTyp → String → Option String)
    (x : XTyp) (v : String), (dropRefs l idx).2 x v = idx x v ∨
      ((dropRefs l idx).2 x v = none ∧ (x, v) ∈ l) := by
  induction l with
  | nil => intro idx x v; exact .inl rfl
  | cons p l ih =>
    obtain ⟨y, w⟩ := p
    intro idx x v
    simp only [dropRefs]
    cases hy : idx y w with
    | none => exact .inl rfl
    | some k =>
      simp only
      rcases ih (upd idx y (upd (idx y) w none)) x v with h | ⟨h, hm⟩
      · by_cases e : y = x ∧ w = v
        · obtain ⟨rfl, rfl⟩ := e
          simp only [upd_self] at h
          exact .inr ⟨h, by simp⟩
        · left; rw [h]
          by_cases ey : y = x
          · subst ey
            have : w ≠ v := fun ew => e ⟨rfl, ew⟩
            simp [upd_self, upd_ne _ _ this]
          · simp [upd_ne _ _ ey]
      · exact .inr ⟨h, by simp [hm]⟩

theorem dropRefs_ok_none (l : List (XTyp × String)) : ∀ (idx : XTyp → String → Option String),
    (dropRefs l idx).1 = .ok () → ∀ x v, (x, v) ∈ l → (dropRefs l idx).2 x v = none := by
  induction l with
  | nil => intro idx _ x v h; simp at h
  | cons p l ih =>
    obtain ⟨y, w⟩ := p
    intro idx hok x v hm
    simp only [dropRefs] at hok ⊢
    cases hy : idx y w with
    | none => simp [hy] at hok
    | some k =>
      simp only [hy] at hok ⊢
      rcases List.mem_cons.1 hm with e | hm
      · injection e with e1 e2
        subst e1 e2
        rcases dropRefs_idx_or l (upd idx x (upd (idx x) v none)) x v with h | ⟨h, _⟩
        · rw [h]; simp [upd_self]
        · exact h
      · exact ih _ hok x v hm

theorem dropRefs_ok_of_present (l : List (XTyp × String)) :
    ∀ (idx : XTyp → String → Option String), l.Nodup →
      (∀ x v, (x, v) ∈ l → idx x v ≠ none) → (dropRefs l idx).1 = .ok () := by
  induction l with
  | nil => intro idx _ _; rfl
  | cons p l ih =>
    obtain ⟨y, w⟩ := p
    intro idx hn hp
    simp only [dropRefs]
    cases hy : idx y w with
    | none => exact absurd hy (hp y w (by simp))
    | some k =>
      simp only
      rw [List.nodup_cons] at hn
      apply ih _ hn.2
      intro x v hm
      have hne : ¬ (y = x ∧ w = v) := by rintro ⟨rfl, rfl⟩; exact hn.1 hm
      have := hp x v (by simp [hm])
      by_cases ey : y = x
      · subst ey
        have hw : w ≠ v := fun ew => hne ⟨rfl, ew⟩
        simpa [upd_self, upd_ne _ _ hw] using this
      · simpa [upd_ne _ _ ey] using this

theorem remove_idx (s : Store) (k : String) (x : XTyp) (v : String) :
    ((Spec.Store.step s (.remove k)).2).idx x v = s.idx x v ∨
    (((Spec.Store.step s (.remove k)).2).idx x v = none ∧ ∃ l, s.refs k = some l ∧ (x, v) ∈ l) := by
  simp only [Spec.Store.step]
  cases hk : s.sess k with
  | none => exact .inl rfl
  | some ss =>
    simp only
    cases hr : s.refs k with
    | none => exact .inl rfl
    | some l =>
      simp only
      have := dropRefs_idx_or l s.idx x v
      rcases hd : dropRefs l s.idx with ⟨r, i⟩
      rw [hd] at this
      cases r <;> simp only at this ⊢ <;>
        rcases this with h | ⟨h, hm⟩ <;> first | exact .inl h | exact .inr ⟨h, l, rfl, hm⟩

theorem remove_refs (s : Store) (k : String) :
    ((Spec.Store.step s (.remove k)).2).refs = s.refs := by
  simp only [Spec.Store.step]
  cases s.sess k with
  | none => rfl
  | some ss =>
    simp only
    cases s.refs k with
    | none => rfl
    | some l => simp only; rcases dropRefs l s.idx with ⟨r, i⟩; cases r <;> rfl

theorem query_state (s : Store) : (∀ t k, (Spec.Store.step s (.item t k)).2 = s) ∧
    (∀ k, (Spec.Store.step s (.issuer k)).2 = s) ∧
    (∀ x v, (Spec.Store.step s (.lookup x v)).2 = s) := by
  refine ⟨?_, ?_, ?_⟩ <;> intros <;> simp only [Spec.Store.step] <;> repeat' (first | rfl | split)

theorem setRef_mem {l : List (XTyp × String)} {x y : XTyp} {v w : String}
    (h : (y, w) ∈ setRef l x v) : (y, w) ∈ l ∨ (y, w) = (x, v) := by
  induction l with
  | nil => simp [setRef] at h; exact .inr (by simp [h])
  | cons p l ih =>
    obtain ⟨z, u⟩ := p
    simp only [setRef] at h
    by_cases e : z = x
    · rw [if_pos e] at h
      rcases List.mem_cons.1 h with h | h
      · subst e; exact .inr h
      · exact .inl (by simp [h])
    · rw [if_neg e] at h
      rcases List.mem_cons.1 h with h | h
      · exact .inl (by simp [h])
      · rcases ih h with h | h
        · exact .inl (by simp [h])
        · exact .inr h

theorem setRef_self (l : List (XTyp × String)) (x : XTyp) (v : String) :
    (x, v) ∈ setRef l x v := by
  induction l with
  | nil => simp [setRef]
  | cons p l ih =>
    obtain ⟨z, u⟩ := p
    simp only [setRef]; split
    · next e => subst e; simp
    · simp [ih]

theorem setRef_other {l : List (XTyp × String)} {x y : XTyp} {w : String} (v : String)
    (h : (y, w) ∈ l) (hne : y ≠ x) : (y, w) ∈ setRef l x v := by
  induction l with
  | nil => simp at h
  | cons p l ih =>
    obtain ⟨z, u⟩ := p
    simp only [setRef]
    rcases List.mem_cons.1 h with h | h
    · cases h; rw [if_neg hne]; simp
    · split
      · simp [h]
      · simp [ih h]

theorem setRef_fst_nodup {l : List (XTyp × String)} (hn : (l.map Prod.fst).Nodup) (x : XTyp)
    (v : String) : ((setRef l x v).map Prod.fst).Nodup := by
  induction l with
  | nil => simp [setRef]
  | cons p l ih =>
    obtain ⟨z, u⟩ := p
    simp only [List.map_cons, List.nodup_cons] at hn
    simp only [setRef]
    by_cases e : z = x
    · rw [if_pos e]; simpa [List.nodup_cons] using hn
    · rw [if_neg e]
      simp only [List.map_cons, List.nodup_cons]
      refine ⟨?_, ih hn.2⟩
      intro hm
      obtain ⟨⟨a, b⟩, hab, rfl⟩ := List.mem_map.1 hm
      rcases setRef_mem hab with h | h
      · exact hn.1 (List.mem_map.2 ⟨(a, b), h, rfl⟩)
      · cases h; exact e rfl

/-- Index and reference invariants of the abstract store. -/
theorem idx_inv (ops : List Op) :
    (∀ x v k, (after ops).idx x v = some k → lastBind x v ops = some k) ∧
    (∀ x v k l, (after ops).refs k = some l → (x, v) ∈ l → Op.bind x v k ∈ ops) ∧
    (∀ k l, (after ops).refs k = some l → (l.map Prod.fst).Nodup) ∧
    (∀ x v k, Op.bind x v k ∈ ops → ∃ l w, (after ops).refs k = some l ∧ (x, w) ∈ l) := by
  induction ops using snoc_induction with
  | h0 => simp [after_nil, Spec.Store.empty]
  | h1 ops op ih =>
    obtain ⟨i1, i2, i3, i4⟩ := ih
    rw [after_snoc]
    have hmem : ∀ o, o ∈ ops → o ∈ ops ++ [op] := fun o h => by simp [h]
    have hq := query_state (after ops)
    have lb : ∀ x v, (∀ k, op ≠ .bind x v k) → lastBind x v (ops ++ [op]) = lastBind x v ops := by
      intro x v hne
      simp only [lastBind, List.foldl_append, List.foldl_cons, List.foldl_nil]
      split
      · next x' v' k' =>
        split
        · next e => obtain ⟨rfl, rfl⟩ := e; exact absurd rfl (hne k')
        · rfl
      · rfl
    have triv : (Spec.Store.step (after ops) op).2.idx = (after ops).idx →
        (Spec.Store.step (after ops) op).2.refs = (after ops).refs →
        (∀ x v k, op ≠ .bind x v k) →
        (∀ x v k, (Spec.Store.step (after ops) op).2.idx x v = some k →
          lastBind x v (ops ++ [op]) = some k) ∧
        (∀ x v k l, (Spec.Store.step (after ops) op).2.refs k = some l → (x, v) ∈ l →
          Op.bind x v k ∈ ops ++ [op]) ∧
        (∀ k l, (Spec.Store.step (after ops) op).2.refs k = some l → (l.map Prod.fst).Nodup) ∧
        (∀ x v k, Op.bind x v k ∈ ops ++ [op] →
          ∃ l w, (Spec.Store.step (after ops) op).2.refs k = some l ∧ (x, w) ∈ l) := by
      intro e1 e2 hne
      rw [e1, e2]
      refine ⟨?_, ?_, i3, ?_⟩
      · intro x v k h; rw [lb x v (hne x v)]; exact i1 x v k h
      · intro x v k l h hm; exact hmem _ (i2 x v k l h hm)
      · intro x v k h
        rcases List.mem_append.1 h with h | h
        · exact i4 x v k h
        · simp at h; exact absurd h.symm (hne x v k)
    cases op with
    | create iss key rnd => exact triv rfl rfl (by simp)
    | store item t k => exact triv rfl rfl (by simp)
    | item t k => exact triv (by rw [hq.1]) (by rw [hq.1]) (by simp)
    | issuer k => exact triv (by rw [hq.2.1]) (by rw [hq.2.1]) (by simp)
    | lookup x v => exact triv (by rw [hq.2.2]) (by rw [hq.2.2]) (by simp)
    | remove k0 =>
      rw [remove_refs]
      refine ⟨?_, ?_, i3, ?_⟩
      · intro x v k h
        rw [lb x v (by simp)]
        rcases remove_idx (after ops) k0 x v with h' | ⟨h', _⟩
        · rw [h'] at h; exact i1 x v k h
        · rw [h'] at h; cases h
      · intro x v k l h hm; exact hmem _ (i2 x v k l h hm)
      · intro x v k h
        rcases List.mem_append.1 h with h | h
        · exact i4 x v k h
        · simp at h
    | bind x0 v0 k0 =>
      simp only [Spec.Store.step]
      refine ⟨?_, ?_, ?_, ?_⟩
      · intro x v k h
        by_cases e : x0 = x ∧ v0 = v
        · obtain ⟨rfl, rfl⟩ := e
          simp only [upd_self] at h
          simp [lastBind, h]
        · rw [lb x v (by intro k' hk'; cases hk'; exact e ⟨rfl, rfl⟩)]
          apply i1
          by_cases ex : x0 = x
          · subst ex
            have : v0 ≠ v := fun ev => e ⟨rfl, ev⟩
            simpa [upd_self, upd_ne _ _ this] using h
          · simpa [upd_ne _ _ ex] using h
      · intro x v k l h hm
        by_cases ek : k0 = k
        · subst ek
          simp only [upd_self, Option.some.injEq] at h
          subst h
          rcases setRef_mem hm with hm | hm
          · cases hr : (after ops).refs k0 with
            | none => rw [hr] at hm; simp at hm
            | some l0 => rw [hr] at hm; exact hmem _ (i2 x v k0 l0 hr hm)
          · cases hm; simp
        · rw [upd_ne _ _ ek] at h
          exact hmem _ (i2 x v k l h hm)
      · intro k l h
        by_cases ek : k0 = k
        · subst ek
          simp only [upd_self, Option.some.injEq] at h
          subst h
          apply setRef_fst_nodup
          cases hr : (after ops).refs k0 with
          | none => simp
          | some l0 => simpa [hr] using i3 k0 l0 hr
        · rw [upd_ne _ _ ek] at h; exact i3 k l h
      · intro x v k h
        by_cases ek : k0 = k
        · subst ek
          rw [upd_self]
          by_cases ex : x = x0
          · subst ex; exact ⟨_, v0, rfl, setRef_self _ _ _⟩
          · rcases List.mem_append.1 h with h | h
            · obtain ⟨l, w, hl, hm⟩ := i4 x v k0 h
              refine ⟨_, w, rfl, setRef_other _ ?_ ex⟩
              rw [hl]; exact hm
            · simp at h; exact absurd h.1 ex
        · rw [upd_ne _ _ ek]
          rcases List.mem_append.1 h with h | h
          · exact i4 x v k h
          · simp at h; exact absurd h.2.2.symm ek

/-- Completeness of the index: values of sessions that were not removed stay resolvable. -/
theorem idx_complete (x : XTyp) (v : String) (ops : List Op)
    (hrem : ∀ k, Op.remove k ∈ ops → Op.bind x v k ∉ ops) :
    (after ops).idx x v = lastBind x v ops := by
  induction ops using snoc_induction with
  | h0 => rfl
  | h1 ops op ih =>
    have ih' := ih (fun k h1 h2 => hrem k (by simp [h1]) (by simp [h2]))
    rw [after_snoc]
    have hq := query_state (after ops)
    simp only [lastBind, List.foldl_append, List.foldl_cons, List.foldl_nil] at ih' ⊢
    cases op with
    | create iss key rnd => exact ih'
    | store item t k => exact ih'
    | item t k => rw [hq.1]; exact ih'
    | issuer k => rw [hq.2.1]; exact ih'
    | lookup y w => rw [hq.2.2]; exact ih'
    | bind x0 v0 k0 =>
      simp only [Spec.Store.step]
      by_cases e : x0 = x ∧ v0 = v
      · obtain ⟨rfl, rfl⟩ := e; simp [upd_self]
      · rw [if_neg e, ← ih']
        by_cases ex : x0 = x
        · subst ex
          have : v0 ≠ v := fun ev => e ⟨rfl, ev⟩
          simp [upd_self, upd_ne _ _ this]
        · simp [upd_ne _ _ ex]
    | remove k0 =>
      rcases remove_idx (after ops) k0 x v with h | ⟨_, l, hl, hm⟩
      · rw [h]; exact ih'
      · have := (idx_inv ops).2.1 x v k0 l hl hm
        exact absurd (by simp [this]) (hrem k0 (by simp))

end Verif.StoreHistory
