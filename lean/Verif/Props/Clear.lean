import Verif.Lemmas.Resolve
import Verif.Props.SessionTokens
/-!
# C29: clearing a session
-/

namespace Verif.Props
open Verif Verif.Service Verif.Handler Verif.StateInterface Verif.Spec.Session Verif.Spec.HandlerView

theorem getState_removeState {K : String → Prop} (hK : Spec.Store.KeySpace K) (k : String) (db : DB) {k' : String} (hk' : K k') :
    getState (removeState k db).2 k' = if k = k' then .error .keyError else getState db k' := by
  unfold getState
  rw [get?_removeState (fun x v => KeySpace.ne_index hK hk' x v)]
  by_cases e : k = k'
  · simp [e]
  · simp [e]

/-- The sessions of the client kept for an issuer. -/
def sessionAt (h : Handler) (i k : String) : Option (Except Exc Obj) :=
  (Dict.get? h.issuer2rp i).map (fun c => getState c.db k)

/-- The session value `k` was given out by at most the client kept for `i`. -/
def OnlyAt (h : Handler) (k i : String) : Prop :=
  ∀ j c, (j, c) ∈ h.issuer2rp → j ≠ i → getState c.db k = .error .keyError

/-- **C29**, what holds.  After `clear_session(k)`, whether or not it raised:
the handler does not resolve `k` to a client; an authorization response for it is refused by every client,
without sending anything and without changing any session; the record of every other session is unchanged
at every client, and resolved as before.  (Session values are random, so that at most one client has `k`;
clients are kept under different issuers.)  Missing: look-ups by subject of other sessions, see
`C29_other_subject_violated`. -/
theorem C29_cleared_partial {K : String → Prop} (hK : Spec.Store.KeySpace K) (k : String) (hk : K k) (h : Handler)
    (hn : (Dict.keys h.issuer2rp).Nodup) (i : String) (hi : sessionIssuer h k = .ok i) (huniq : OnlyAt h k i) :
    getClientFromSessionKey (clearSession k h).2 k = .error .keyError ∧
    state2issuer (clearSession k h).2 k = .ok none ∧
    (∀ x issuer response b,
      (∀ c resp, Dict.get? (clearSession k h).2.issuer2rp issuer = some c → ParsedAs x c response resp →
        Dict.has resp "error" = false ∧ Dict.get? resp "state" = some (.str k)) →
      (∃ e, (finalize x issuer response b (clearSession k h).2).1 = .error e) ∧
        Untouched (clearSession k h).2 (finalize x issuer response b (clearSession k h).2).2) ∧
    (∀ k', K k' → k' ≠ k → (∀ j, sessionAt (clearSession k h).2 j k' = sessionAt h j k') ∧
      sessionIssuer (clearSession k h).2 k' = sessionIssuer h k') := by
  have hc : ∃ c, Dict.get? h.issuer2rp i = some c := by
    have hi' := hi
    unfold sessionIssuer at hi'
    split at hi'
    · cases hi'
    · split at hi'
      · next hh =>
        injection hi' with hi'; subst hi'
        rw [Dict.has_eq, Option.isSome_iff_exists] at hh
        exact hh
      · cases hi'
    · cases hi'
  obtain ⟨c, hc⟩ := hc
  have hcl : clearSession k h = onClient i (onDB (removeState k)) h := by
    unfold clearSession onSession
    rw [hi]
  have hst : stores (clearSession k h).2 = Dict.set (stores h) i (removeState k c.db).2 := by
    rw [hcl, stores_onClient hc]; rfl
  have hcs : Dict.get? (stores h) i = some c.db := by rw [get?_stores, hc]; rfl
  have hdb : ∀ j c', Dict.get? (clearSession k h).2.issuer2rp j = some c' →
      Dict.get? (Dict.set (stores h) i (removeState k c.db).2) j = some c'.db := by
    intro j c' hj
    rw [← hst, get?_stores, hj]; rfl
  have hgone : ∀ j c', Dict.get? (clearSession k h).2.issuer2rp j = some c' → getState c'.db k = .error .keyError := by
    intro j c' hj
    have h1 := hdb j c' hj
    rw [Dict.get?_set] at h1
    split at h1
    · injection h1 with h1
      rw [← h1, getState_removeState hK k c.db hk, if_pos rfl]
    · next hne =>
      rw [get?_stores] at h1
      cases hj2 : Dict.get? h.issuer2rp j with
      | none => rw [hj2] at h1; cases h1
      | some c2 =>
        rw [hj2] at h1
        injection h1 with h1
        rw [← h1]
        exact huniq j c2 (Dict.get?_eq_some_mem hj2) (fun e => hne e.symm)
  have hkeys : (Dict.keys (stores (clearSession k h).2)).Nodup := by
    rw [hst]
    refine Dict.nodup_set ?_ _ _
    have : Dict.keys (stores h) = Dict.keys h.issuer2rp := by
      unfold stores Dict.keys; rw [List.map_map]; rfl
    rw [this]; exact hn
  have hfind : findIn k (stores (clearSession k h).2) = .ok none := by
    refine findIn_none fun p hp => ?_
    obtain ⟨j, db⟩ := p
    have hg := Dict.get?_of_mem_nodup hkeys hp
    rw [get?_stores] at hg
    cases hj : Dict.get? (clearSession k h).2.issuer2rp j with
    | none => rw [hj] at hg; cases hg
    | some c' =>
      rw [hj] at hg
      injection hg with hg
      have := hgone j c' hj
      rw [show c'.db = db from hg] at this
      simp only [getIss, this]
  refine ⟨?_, ?_, ?_, ?_⟩
  · unfold getClientFromSessionKey
    rw [sessionIssuer_stores, hfind]
  · unfold state2issuer
    rw [findIssuer_stores]
    exact hfind
  · intro x issuer response b hno
    refine C14_unknown_state_refused x issuer response b _ fun c' resp hc' hp => ?_
    obtain ⟨h1, h2⟩ := hno c' resp hc' hp
    exact ⟨h1, Or.inr ⟨k, h2, hgone issuer c' hc'⟩⟩
  · intro k' hk' hne
    have hkeep : getState (removeState k c.db).2 k' = getState c.db k' := by
      rw [getState_removeState hK k c.db hk', if_neg (fun e => hne e.symm)]
    refine ⟨fun j => ?_, ?_⟩
    · have h1 : (Dict.get? (stores (clearSession k h).2) j).map (fun db => getState db k') =
          (Dict.get? (stores h) j).map (fun db => getState db k') := by
        rw [hst, Dict.get?_set]
        split
        · next e => subst e; rw [hcs]; simp [hkeep]
        · rfl
      rw [get?_stores, get?_stores, Option.map_map, Option.map_map] at h1
      exact h1
    · rw [sessionIssuer_stores, sessionIssuer_stores, hst]
      have hiss : getIss (removeState k c.db).2 k' = getIss c.db k' := by unfold getIss; rw [hkeep]
      rw [findIn_set hiss hcs]
      have hhas : ∀ j, Dict.has (Dict.set (stores h) i (removeState k c.db).2) j = Dict.has (stores h) j := by
        intro j
        rw [Dict.has_eq, Dict.has_eq, Dict.get?_set]
        split
        · next e => subst e; rw [hcs]; rfl
        · rfl
      cases findIn k' (stores h) with
      | error e => rfl
      | ok o =>
        cases o with
        | none => rfl
        | some v => cases v <;> simp only [hhas]

/-- A state no client knows is left alone, with an exception. -/
theorem C29_unknown (k : String) (h : Handler) (e : Exc) (he : sessionIssuer h k = .error e) :
    clearSession k h = (.error e, h) := by
  unfold clearSession onSession
  rw [he]

/-- Two sessions of `alice` at one provider, both finalized. -/
def twoSessions : Handler :=
  (finalize (World.ext 1002 "" "" "n2") "https://op.example" [("code", .str "code2"), ("state", .str World.s2)] []
    (begin_ (World.ext 1001 World.s2 "n2" "") "https://op.example" "" [] [] finalized).2).2

/-- **C29** is violated for look-ups: two sessions of the same user; clearing the older one makes the other
one impossible to find by its subject. -/
theorem C29_other_subject_violated :
    atProvider twoSessions (fun c => (getStateByX c.db "alice" .subjectId).toOption) = some (some (.raw World.s2)) ∧
    (clearSession World.s1 twoSessions).1.isOk = true ∧
    (sessionIssuer (clearSession World.s1 twoSessions).2 World.s2).isOk = true ∧
    atProvider (clearSession World.s1 twoSessions).2 (fun c => (getStateByX c.db "alice" .subjectId).toOption) = some none := by
  refine ⟨by rfl, by rfl, by rfl, by rfl⟩

/-- Non-vacuity of C29. -/
example :
    sessionIssuer twoSessions World.s1 = .ok "https://op.example" ∧
    Dict.keys twoSessions.issuer2rp = ["https://op.example"] ∧ OnlyAt twoSessions World.s1 "https://op.example" ∧
    (clearSession World.s1 twoSessions).1.isOk = true ∧
    sessionIssuer (clearSession World.s1 twoSessions).2 World.s2 = .ok "https://op.example" ∧
    (finalize (World.ext 1002 "" "" "n2") "https://op.example" [("code", .str "c"), ("state", .str World.s1)] []
      (clearSession World.s1 twoSessions).2).1 = .error .keyError := by
  refine ⟨by rfl, by rfl, ?_, by rfl, by rfl, by rfl⟩
  intro j c hj hne
  have : ∀ p ∈ twoSessions.issuer2rp, p.1 = "https://op.example" := by
    intro p hp
    have hk : p.1 ∈ Dict.keys twoSessions.issuer2rp := List.mem_map_of_mem hp
    rw [show Dict.keys twoSessions.issuer2rp = ["https://op.example"] from rfl] at hk
    simpa using hk
  exact absurd (this _ hj) hne

end Verif.Props
