import Verif.Py.Val
/-!
# Insertion-ordered dictionaries

Python `dict` with string keys as an association list with first-match look-up.
-/

namespace Verif

/-- Python `dict` with `str` keys. -/
abbrev Dict (α : Type) := List (String × α)

namespace Dict
variable {α : Type}

/-- `d.get(k)`. -/
def get? : Dict α → String → Option α
  | [], _ => none
  | (k', v) :: d, k => if k' = k then some v else get? d k

/-- `k in d`. -/
def has (d : Dict α) (k : String) : Bool := (get? d k).isSome

/-- `d[k] = v` (in place if present, else appended). -/
def set : Dict α → String → α → Dict α
  | [], k, v => [(k, v)]
  | (k', v') :: d, k, v => if k' = k then (k', v) :: d else (k', v') :: set d k v

/-- `del d[k]`, on the representation (no exception; callers check membership). -/
def del (d : Dict α) (k : String) : Dict α := d.filter (fun p => p.1 ≠ k)

/-- `d.update(e)`. -/
def update (d e : Dict α) : Dict α := e.foldl (fun acc p => set acc p.1 p.2) d

/-- `list(d.keys())` -/
def keys (d : Dict α) : List String := d.map Prod.fst

@[simp] theorem get?_nil (k : String) : get? ([] : Dict α) k = none := rfl

theorem get?_cons (k' : String) (v : α) (d : Dict α) (k : String) :
    get? ((k', v) :: d) k = if k' = k then some v else get? d k := rfl

theorem get?_set (d : Dict α) (k : String) (v : α) (k' : String) :
    get? (set d k v) k' = if k = k' then some v else get? d k' := by
  induction d with
  | nil => simp [set, get?]
  | cons p d ih =>
    obtain ⟨q, w⟩ := p
    simp only [set]
    by_cases h : q = k
    · subst h; simp only [if_true, get?]; split <;> rfl
    · simp only [if_neg h, get?, ih]
      by_cases h1 : q = k'
      · subst h1; have h2 : ¬ k = q := fun h' => h h'.symm
        simp [h2]
      · simp [h1]

@[simp] theorem get?_set_self (d : Dict α) (k : String) (v : α) :
    get? (set d k v) k = some v := by simp [get?_set]

theorem get?_set_ne (d : Dict α) {k k' : String} (v : α) (h : k ≠ k') :
    get? (set d k v) k' = get? d k' := by simp [get?_set, h]

theorem get?_del (d : Dict α) (k k' : String) :
    get? (del d k) k' = if k = k' then none else get? d k' := by
  induction d with
  | nil => simp [del]
  | cons p d ih =>
    obtain ⟨q, w⟩ := p
    unfold del at ih ⊢
    by_cases h : q = k
    · subst h
      simp only [List.filter, ne_eq, not_true, decide_false, ih, get?]
      split <;> simp_all
    · simp only [List.filter, ne_eq, h, not_false_eq_true, decide_true, get?, ih]
      by_cases h1 : q = k'
      · subst h1; have h2 : ¬ k = q := fun h' => h h'.symm
        simp [h2]
      · simp [h1]

@[simp] theorem get?_del_self (d : Dict α) (k : String) : get? (del d k) k = none := by
  simp [get?_del]

theorem get?_del_ne (d : Dict α) {k k' : String} (h : k ≠ k') :
    get? (del d k) k' = get? d k' := by simp [get?_del, h]

theorem get?_append (d e : Dict α) (k : String) :
    get? (d ++ e) k = (get? d k).or (get? e k) := by
  induction d with
  | nil => simp
  | cons p d ih =>
    obtain ⟨q, w⟩ := p
    simp only [List.cons_append, get?]
    split <;> simp [ih]

theorem get?_isSome_iff_mem_keys (d : Dict α) (k : String) :
    (get? d k).isSome ↔ k ∈ keys d := by
  induction d with
  | nil => simp [keys]
  | cons p d ih =>
    obtain ⟨q, w⟩ := p
    simp only [get?, keys, List.map_cons, List.mem_cons]
    by_cases h : q = k
    · simp [h]
    · have : ¬ k = q := fun h' => h h'.symm
      simp only [if_neg h, this, false_or]; exact ih

theorem get?_eq_none_iff (d : Dict α) (k : String) :
    get? d k = none ↔ k ∉ keys d := by
  rw [← get?_isSome_iff_mem_keys]; cases get? d k <;> simp

theorem get?_eq_some_mem {d : Dict α} {k : String} {v : α} (h : get? d k = some v) :
    (k, v) ∈ d := by
  induction d with
  | nil => simp at h
  | cons p d ih =>
    obtain ⟨q, w⟩ := p
    simp only [get?] at h
    split at h
    · next hq => cases h; subst hq; simp
    · exact List.mem_cons_of_mem _ (ih h)

/-- With unique keys membership and look-up agree. -/
theorem get?_of_mem_nodup {d : Dict α} (hn : (keys d).Nodup) {k : String} {v : α}
    (h : (k, v) ∈ d) : get? d k = some v := by
  induction d with
  | nil => simp at h
  | cons p d ih =>
    obtain ⟨q, w⟩ := p
    simp only [keys, List.map_cons, List.nodup_cons] at hn
    simp only [get?]
    rcases List.mem_cons.1 h with h | h
    · cases h; simp
    · have : k ∈ keys d := List.mem_map.2 ⟨(k, v), h, rfl⟩
      have hq : q ≠ k := by rintro rfl; exact hn.1 this
      simp [hq, ih hn.2 h]

theorem keys_set (d : Dict α) (k : String) (v : α) :
    keys (set d k v) = if k ∈ keys d then keys d else keys d ++ [k] := by
  induction d with
  | nil => simp [set, keys]
  | cons p d ih =>
    obtain ⟨q, w⟩ := p
    simp only [set]
    by_cases h : q = k
    · subst h; simp [keys]
    · have h' : ¬ k = q := fun e => h e.symm
      simp only [if_neg h, keys, List.map_cons, List.mem_cons, h', false_or] at ih ⊢
      rw [ih]; split <;> simp_all

theorem nodup_set {d : Dict α} (hn : (keys d).Nodup) (k : String) (v : α) :
    (keys (set d k v)).Nodup := by
  rw [keys_set]; split
  · exact hn
  · next h => exact List.nodup_append.2 ⟨hn, by simp, by
      intro a ha b hb; simp at hb; subst hb; rintro rfl; exact h ha⟩

theorem keys_del (d : Dict α) (k : String) : keys (del d k) = (keys d).filter (· ≠ k) := by
  simp only [keys, del, List.filter_map, Function.comp_def]

theorem nodup_del {d : Dict α} (hn : (keys d).Nodup) (k : String) :
    (keys (del d k)).Nodup := by
  rw [keys_del]; exact hn.filter _

theorem get?_map (f : α → β) (d : Dict α) (k : String) :
    get? (d.map (fun p => (p.1, f p.2))) k = (get? d k).map f := by
  induction d with
  | nil => rfl
  | cons p d ih =>
    obtain ⟨q, w⟩ := p
    simp only [List.map_cons, get?, ih]; split <;> simp

/-- last-write-wins look-up of `update` -/
theorem get?_update (d e : Dict α) (k : String) :
    get? (update d e) k = match e.reverse.find? (fun p => p.1 = k) with
      | some p => some p.2
      | none => get? d k := by
  unfold update
  induction e generalizing d with
  | nil => simp
  | cons p e ih =>
    obtain ⟨q, w⟩ := p
    simp only [List.foldl_cons, List.reverse_cons, List.find?_append, ih, get?_set]
    cases he : e.reverse.find? (fun p => p.1 = k) with
    | some x => simp
    | none => by_cases h : q = k <;> simp [h]

theorem find?_reverse_nodup {e : Dict α} (hn : (keys e).Nodup) (k : String) :
    (e.reverse.find? (fun p => p.1 = k)).map Prod.snd = get? e k := by
  induction e with
  | nil => rfl
  | cons p e ih =>
    obtain ⟨q, w⟩ := p
    simp only [keys, List.map_cons, List.nodup_cons] at hn
    simp only [List.reverse_cons, List.find?_append, get?]
    have ih := ih hn.2
    by_cases h : q = k
    · subst h
      have hnone : get? e q = none := (get?_eq_none_iff e q).2 hn.1
      rw [hnone] at ih
      simp only [Option.map_eq_none_iff] at ih
      simp [ih]
    · simp only [if_neg h, ← ih]
      cases e.reverse.find? (fun p => p.1 = k) <;> simp [h]

theorem get?_update_nodup (d : Dict α) {e : Dict α} (hn : (keys e).Nodup) (k : String) :
    get? (update d e) k = (get? e k).or (get? d k) := by
  rw [get?_update, ← find?_reverse_nodup hn]
  cases e.reverse.find? (fun p => p.1 = k) <;> simp

theorem nodup_update {d : Dict α} (hn : (keys d).Nodup) (e : Dict α) :
    (keys (update d e)).Nodup := by
  unfold update
  induction e generalizing d with
  | nil => simpa
  | cons p e ih => exact ih (nodup_set hn _ _)

theorem has_eq (d : Dict α) (k : String) : has d k = (get? d k).isSome := rfl

/-- Setting twice is setting once. -/
theorem set_set {α : Type} (d : Dict α) (k : String) (v w : α) : set (set d k v) k w = set d k w := by
  induction d with
  | nil => simp [set]
  | cons p d ih =>
    obtain ⟨k', u⟩ := p
    by_cases h : k' = k
    · simp [set, h]
    · simp [set, h, ih]

end Dict

/-- A JSON object / message content. -/
abbrev Obj := Dict Val

end Verif
