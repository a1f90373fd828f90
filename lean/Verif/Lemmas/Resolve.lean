import Verif.Model.Handler
import Verif.Lemmas.StoreHistory
/-!
# Which client a session is resolved to

Resolution depends only on the session stores of the clients, in the order the handler keeps them.
-/

namespace Verif.Handler
open Verif Verif.Service Verif.StateInterface

/-- The stores of the clients. -/
def stores (h : Handler) : Dict DB := h.issuer2rp.map (fun p => (p.1, p.2.db))

/-- `findIssuer`, on the stores. -/
def findIn (k : String) : Dict DB → Except Exc (Option Val)
  | [] => .ok none
  | (_, db) :: l => match getIss db k with
    | .error .keyError => findIn k l
    | .error e => .error e
    | .ok v => if v.truthy then .ok (some v) else findIn k l

theorem findIssuer_stores (k : String) (l : Dict Client) :
    findIssuer k l = findIn k (l.map (fun p => (p.1, p.2.db))) := by
  induction l with
  | nil => rfl
  | cons p l ih =>
    obtain ⟨i, c⟩ := p
    simp only [findIssuer, List.map_cons, findIn, ih]
    cases getIss c.db k with
    | ok v => rfl
    | error e => cases e <;> rfl

theorem get?_stores (h : Handler) (i : String) :
    Dict.get? (stores h) i = (Dict.get? h.issuer2rp i).map (fun c => c.db) := by
  unfold stores
  induction h.issuer2rp with
  | nil => rfl
  | cons p l ih =>
    obtain ⟨j, c⟩ := p
    simp only [List.map_cons, Dict.get?_cons]
    split
    · rfl
    · exact ih

theorem sessionIssuer_stores (h : Handler) (k : String) :
    sessionIssuer h k = match findIn k (stores h) with
      | .error e => .error e
      | .ok (some (.str i)) => if Dict.has (stores h) i then .ok i else .error .keyError
      | .ok _ => .error .keyError := by
  unfold sessionIssuer state2issuer
  rw [findIssuer_stores]
  have hhas : ∀ i, Dict.has h.issuer2rp i = Dict.has (stores h) i := by
    intro i
    rw [Dict.has_eq, Dict.has_eq, get?_stores]
    cases Dict.get? h.issuer2rp i <;> rfl
  rw [show List.map (fun p : String × Client => (p.1, p.2.db)) h.issuer2rp = stores h from rfl]
  cases findIn k (stores h) with
  | error e => rfl
  | ok o =>
    cases o with
    | none => rfl
    | some v =>
      cases v <;> simp only [hhas]

theorem stores_share (cfg : String) (b : Obj) (h : Handler) : stores (share cfg b h) = stores h := by
  unfold share
  split
  · rfl
  · split
    · simp only [stores, List.map_map]
      apply List.map_congr_left
      intro p _
      simp only [Function.comp, sharedClient]
      split <;> rfl
    · rfl

theorem map_set {α β : Type} (f : α → β) (d : Dict α) (k : String) (v : α) :
    (Dict.set d k v).map (fun p => (p.1, f p.2)) = Dict.set (d.map (fun p => (p.1, f p.2))) k (f v) := by
  induction d with
  | nil => rfl
  | cons p d ih =>
    obtain ⟨q, w⟩ := p
    simp only [Dict.set, List.map_cons]
    split
    · rfl
    · simp only [List.map_cons, ih]

theorem stores_onClient {α : Type} {issuer : String} {m : Py Client α} {h : Handler} {c : Client}
    (hc : Dict.get? h.issuer2rp issuer = some c) :
    stores (onClient issuer m h).2 = Dict.set (stores h) issuer (m c).2.db := by
  unfold onClient
  rw [hc]
  simp only [stores_share]
  exact map_set _ _ _ _

theorem stores_onNew {α : Type} {m : Py Client α} {h : Handler} {c : Client} :
    stores (onNew c m h).2 = stores h := by
  unfold onNew
  exact stores_share _ _ _

/-- Replacing a store by one that says the same about `k` changes nothing in the search for `k`. -/
theorem findIn_set {k i : String} {db db' : DB} (hg : getIss db' k = getIss db k) :
    ∀ {l : Dict DB}, Dict.get? l i = some db → findIn k (Dict.set l i db') = findIn k l := by
  intro l
  induction l with
  | nil => intro h; cases h
  | cons p l ih =>
    obtain ⟨j, d⟩ := p
    intro h
    rw [Dict.get?_cons] at h
    simp only [Dict.set]
    split at h
    · next e =>
      subst e
      injection h with h; subst h
      simp only [if_true, findIn, hg]
    · next e =>
      rw [if_neg e]
      simp only [findIn, ih h]

/-- A session no store knows is found nowhere. -/
theorem findIn_none {k : String} : ∀ {l : Dict DB}, (∀ p ∈ l, getIss p.2 k = .error .keyError) →
    findIn k l = .ok none := by
  intro l
  induction l with
  | nil => intro _; rfl
  | cons p l ih =>
    obtain ⟨j, d⟩ := p
    intro h
    simp only [findIn, h (j, d) (by simp)]
    exact ih fun q hq => h q (by simp [hq])

/-- A session that exactly one store knows is found there. -/
theorem findIn_one {k i : String} {db : DB} {v : Val} (hv : v.truthy = true) (hg : getIss db k = .ok v) :
    ∀ {l : Dict DB}, (i, db) ∈ l → (∀ p ∈ l, p ≠ (i, db) → getIss p.2 k = .error .keyError) →
    findIn k l = .ok (some v) := by
  intro l
  induction l with
  | nil => intro h; cases h
  | cons p l ih =>
    intro h hall
    by_cases e : p = (i, db)
    · subst e
      simp only [findIn, hg, hv, if_true]
    · obtain ⟨j, d⟩ := p
      have h1 := hall (j, d) (by simp) e
      simp only [findIn, h1]
      refine ih ?_ fun q hq => hall q (by simp [hq])
      rcases List.mem_cons.1 h with h | h
      · exact absurd h.symm e
      · exact h

/-! ## Removing a session -/

theorem get?_removeRefs {k : String} (hk : ∀ x v, k ≠ indexKey x v) :
    ∀ (refs : Obj) (db : DB), Dict.get? (removeRefs refs db).2 k = Dict.get? db k := by
  intro refs
  induction refs with
  | nil => intro db; rfl
  | cons p refs ih =>
    obtain ⟨xt, v⟩ := p
    intro db
    unfold removeRefs
    split
    · next x s _ =>
      split
      · rw [ih, Dict.get?_del_ne _ (fun e => hk x s e.symm)]
      · rfl
    · rfl

/-- What `remove_state` does to session records (whether or not it raises). -/
theorem get?_removeState {k k' : String} (hk : ∀ x v, k' ≠ indexKey x v) (db : DB) :
    Dict.get? (removeState k db).2 k' = if k = k' then none else Dict.get? db k' := by
  unfold removeState
  split
  · simp only
    split
    · exact Dict.get?_del _ _ _
    · exact Dict.get?_del _ _ _
    · rw [get?_removeRefs hk, Dict.get?_del]
  · next hh =>
    split
    · next e =>
      subst e
      rw [Dict.has_eq] at hh
      cases h : Dict.get? db k <;> simp_all
    · rfl

end Verif.Handler
