import Verif.Spec.Store
/-! Helper lemmas about the session store model. -/

namespace Verif
open StateInterface

/-! ### key patterns -/

theorem indexKey_toList (x : XTyp) (v : String) :
    ∃ c, (indexKey x v).toList = [c, c] ++ v.toList ++ [c, c] ∧
      c = (match x with | .nonce => '_' | .logoutState => ':' | .sessionId => '.' | .subjectId => '=') := by
  cases x <;> simp [indexKey]

theorem indexKey_inj {x y : XTyp} {v w : String} :
    indexKey x v = indexKey y w ↔ x = y ∧ v = w := by
  constructor
  · intro h
    have h' := congrArg String.toList h
    cases x <;> cases y <;> simp [indexKey] at h' ⊢ <;> exact String.toList_inj.1 h'
  · rintro ⟨rfl, rfl⟩; rfl

theorem refKey_inj {s t : String} : refKey s = refKey t ↔ s = t := by
  constructor
  · intro h; have h' := congrArg String.toList h; exact String.toList_inj.1 (by simpa [refKey] using h')
  · rintro rfl; rfl

theorem indexKey_ne_refKey (x : XTyp) (v s : String) : indexKey x v ≠ refKey s := by
  intro h
  have h' := congrArg String.toList h
  cases x <;> simp [indexKey, refKey] at h'

theorem refKey_ne_indexKey (x : XTyp) (v s : String) : refKey s ≠ indexKey x v :=
  fun h => indexKey_ne_refKey x v s h.symm

theorem XTyp.ofName?_name (x : XTyp) : XTyp.ofName? x.name = some x := by
  cases x <;> simp [XTyp.name, XTyp.ofName?]

theorem XTyp.name_inj {x y : XTyp} : x.name = y.name ↔ x = y := by
  cases x <;> cases y <;> simp [XTyp.name]

/-! ### messages -/

theorem Msg.emptyVal_iff (v : Val) : Msg.emptyVal v = true ↔ v = .str "" ∨ v = .list [.str ""] := by
  unfold Msg.emptyVal
  split <;> simp_all

theorem Msg.ofDict_eq_withoutEmpty (o : Obj) : Msg.ofDict o = Spec.Store.withoutEmpty o := by
  unfold Msg.ofDict Spec.Store.withoutEmpty
  apply List.filter_congr
  intro p _
  have h := Msg.emptyVal_iff p.2
  cases hb : Msg.emptyVal p.2
  · have : ¬ (p.2 = .str "" ∨ p.2 = .list [.str ""]) := by rw [← h]; simp [hb]
    rw [not_or] at this
    simp [this.1, this.2]
  · rcases h.1 hb with h | h <;> simp [h]

theorem Msg.get?_ofDict_some {o : Obj} {k : String} {v : Val} (h : Dict.get? o k = some v)
    (hv : Msg.emptyVal v = false) : Dict.get? (Msg.ofDict o) k = some v := by
  unfold Msg.ofDict
  induction o with
  | nil => simp at h
  | cons p o ih =>
    obtain ⟨q, w⟩ := p
    simp only [Dict.get?] at h
    by_cases hq : q = k
    · subst hq
      rw [if_pos rfl] at h; cases h
      simp [List.filter, hv, Dict.get?]
    · rw [if_neg hq] at h
      simp only [List.filter]
      split
      · simp [Dict.get?, hq, ih h]
      · exact ih h

theorem Msg.get?_ofDict_none {o : Obj} {k : String} (h : Dict.get? o k = none) :
    Dict.get? (Msg.ofDict o) k = none := by
  rw [Dict.get?_eq_none_iff] at h ⊢
  intro hm; apply h
  simp only [Dict.keys, Msg.ofDict, List.mem_map, List.mem_filter] at hm ⊢
  obtain ⟨p, ⟨hp, _⟩, rfl⟩ := hm
  exact ⟨p, hp, rfl⟩

theorem Msg.keys_ofDict_nodup {o : Obj} (hn : (Dict.keys o).Nodup) :
    (Dict.keys (Msg.ofDict o)).Nodup := by
  unfold Dict.keys Msg.ofDict at *
  exact hn.sublist (List.Sublist.map _ List.filter_sublist)

/-- Look-up in a message built from a dictionary with unique keys. -/
theorem Msg.get?_ofDict {o : Obj} (hn : (Dict.keys o).Nodup) (k : String) :
    Dict.get? (Msg.ofDict o) k = (Dict.get? o k).filter (fun v => !Msg.emptyVal v) := by
  cases h : Dict.get? o k with
  | none => simp [Msg.get?_ofDict_none h]
  | some v =>
    cases hv : Msg.emptyVal v with
    | false => simp [Option.filter, hv, Msg.get?_ofDict_some h hv]
    | true =>
      simp only [Option.filter, hv]
      rw [if_neg (by simp)]
      rw [Dict.get?_eq_none_iff]
      intro hm
      simp only [Dict.keys, Msg.ofDict, List.mem_map, List.mem_filter] at hm
      obtain ⟨p, ⟨hp, hpe⟩, rfl⟩ := hm
      have := Dict.get?_of_mem_nodup hn (k := p.1) (v := p.2) hp
      rw [this] at h; cases h
      simp [hv] at hpe

theorem Msg.ofDict_of_noEmpty {o : Obj} (h : ∀ p ∈ o, Msg.emptyVal p.2 = false) :
    Msg.ofDict o = o := by
  unfold Msg.ofDict
  apply List.filter_eq_self.2
  intro p hp; simp [h p hp]

theorem Msg.ofDict_noEmpty (o : Obj) : ∀ p ∈ Msg.ofDict o, Msg.emptyVal p.2 = false := by
  intro p hp
  simp only [Msg.ofDict, List.mem_filter] at hp
  simpa using hp.2

theorem Msg.ofDict_idem (o : Obj) : Msg.ofDict (Msg.ofDict o) = Msg.ofDict o :=
  Msg.ofDict_of_noEmpty (Msg.ofDict_noEmpty o)

theorem Dict.mem_set {α : Type} {d : Dict α} {k : String} {v : α} {p : String × α}
    (h : p ∈ Dict.set d k v) : p ∈ d ∨ p = (k, v) := by
  induction d with
  | nil => simp [Dict.set] at h; exact .inr h
  | cons q d ih =>
    obtain ⟨q, w⟩ := q
    simp only [Dict.set] at h
    by_cases hq : q = k
    · rw [if_pos hq] at h
      rcases List.mem_cons.1 h with h | h
      · subst hq; exact .inr h
      · exact .inl (List.mem_cons_of_mem _ h)
    · rw [if_neg hq] at h
      rcases List.mem_cons.1 h with h | h
      · exact .inl (by rw [h]; simp)
      · rcases ih h with h | h
        · exact .inl (List.mem_cons_of_mem _ h)
        · exact .inr h

theorem Msg.noEmpty_set {o : Obj} (h : ∀ p ∈ o, Msg.emptyVal p.2 = false) (k : String) {v : Val}
    (hv : Msg.emptyVal v = false) : ∀ p ∈ Dict.set o k v, Msg.emptyVal p.2 = false := by
  intro p hp
  rcases Dict.mem_set hp with hp | hp
  · exact h p hp
  · rw [hp]; exact hv

/-! ### key spaces -/

open Spec.Store in
theorem KeySpace.ne_index {K : String → Prop} (hK : KeySpace K) {k : String} (hk : K k)
    (x : XTyp) (v : String) : k ≠ indexKey x v := by
  rintro rfl
  cases x
  · exact hK.plain _ hk "__" (by simp) ⟨⟨v.toList ++ ['_', '_'], by simp [indexKey]⟩,
      ⟨['_', '_'] ++ v.toList, by simp [indexKey]⟩⟩
  · exact hK.plain _ hk "::" (by simp) ⟨⟨v.toList ++ [':', ':'], by simp [indexKey]⟩,
      ⟨[':', ':'] ++ v.toList, by simp [indexKey]⟩⟩
  · exact hK.plain _ hk ".." (by simp) ⟨⟨v.toList ++ ['.', '.'], by simp [indexKey]⟩,
      ⟨['.', '.'] ++ v.toList, by simp [indexKey]⟩⟩
  · exact hK.plain _ hk "==" (by simp) ⟨⟨v.toList ++ ['=', '='], by simp [indexKey]⟩,
      ⟨['=', '='] ++ v.toList, by simp [indexKey]⟩⟩

open Spec.Store in
theorem KeySpace.ne_ref {K : String → Prop} (hK : KeySpace K) {k k' : String} (hk : K k)
    (hk' : K k') : k ≠ refKey k' := hK.noRef k k' hk hk'

theorem dunder_iff (k : String) :
    dunder k = true ↔ "__".toList <+: k.toList ∧ "__".toList <:+ k.toList := by
  unfold dunder
  rw [Bool.and_eq_true, List.isPrefixOf_iff_prefix, List.isSuffixOf_iff_suffix]

open Spec.Store in
theorem KeySpace.not_dunder {K : String → Prop} (hK : KeySpace K) {k : String} (hk : K k) :
    dunder k = false := by
  cases h : dunder k with
  | false => rfl
  | true => exact absurd ((dunder_iff k).1 h) (hK.plain k hk "__" (by simp))

end Verif
