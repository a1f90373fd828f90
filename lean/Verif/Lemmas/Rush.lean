import Verif.Model.Rush
import Verif.Props.InFlight
/-!
# Client objects by reference and by value
-/

namespace Verif.Rush
open Verif Verif.Service Verif.Handler

/-- References are used once, and only those handed out. -/
structure Hall.Ok (H : Hall) : Prop where
  keys : (Dict.keys H.rp).Nodup
  once : ∀ i j r, Dict.get? H.rp i = some r → Dict.get? H.rp j = some r → i = j
  made : ∀ i r, Dict.get? H.rp i = some r → r < H.next

theorem put_same (o : Nat → Client) (r : Nat) (c : Client) : put o r c r = c := by simp [put]

theorem put_other (o : Nat → Client) {r q : Nat} (c : Client) (h : q ≠ r) : put o r c q = o q := by simp [put, h]

theorem map_put_other (o : Nat → Client) (r : Nat) (c : Client) (l : Dict Nat) (h : ∀ p ∈ l, p.2 ≠ r) :
    l.map (fun p => (p.1, put o r c p.2)) = l.map (fun p => (p.1, o p.2)) := by
  refine List.map_congr_left fun p hp => ?_
  rw [put_other _ _ (h p hp)]

theorem map_put (o : Nat → Client) (r : Nat) (c : Client) (i : String) : ∀ (l : Dict Nat), (Dict.keys l).Nodup →
    (∀ p ∈ l, p.2 = r ↔ p.1 = i) → (∃ p ∈ l, p.1 = i) →
    Dict.set (l.map (fun p => (p.1, o p.2))) i c = l.map (fun p => (p.1, put o r c p.2)) := by
  intro l
  induction l with
  | nil => rintro - - ⟨p, hp, -⟩; simp at hp
  | cons p l ih =>
    obtain ⟨j, q⟩ := p
    intro hn h he
    simp only [List.map_cons, Dict.set]
    rw [Dict.keys, List.map_cons, List.nodup_cons] at hn
    have hjq : q = r ↔ j = i := h (j, q) (by simp)
    by_cases hj : j = i
    · rw [if_pos hj, hjq.2 hj, put_same]
      congr 1
      rw [map_put_other]
      intro p hp hpr
      have := (h p (by simp [hp])).1 hpr
      exact hn.1 (by rw [hj, ← this]; exact List.mem_map.2 ⟨p, hp, rfl⟩)
    · rw [if_neg hj, put_other _ _ (fun e => hj (hjq.1 e))]
      congr 1
      refine ih hn.2 (fun p hp => h p (by simp [hp])) ?_
      obtain ⟨p, hp, e⟩ := he
      rcases List.mem_cons.1 hp with rfl | hp
      · exact absurd e hj
      · exact ⟨p, hp, e⟩

theorem handler_share (cfg : String) (b : Obj) (H : Hall) : (share cfg b H).handler = Handler.share cfg b H.handler := by
  unfold share Handler.share
  simp only [Hall.handler]
  cases Dict.get? H.configs cfg with
  | none => rfl
  | some cc =>
    simp only
    by_cases h : Dict.has cc.config "behaviour"
    · rw [if_pos h, if_pos h]
      simp [List.map_map, Function.comp_def]
    · rw [if_neg h, if_neg h]

theorem share_rp (cfg : String) (b : Obj) (H : Hall) : (share cfg b H).rp = H.rp ∧ (share cfg b H).next = H.next := by
  unfold share
  split
  · exact ⟨rfl, rfl⟩
  · split <;> exact ⟨rfl, rfl⟩

theorem onRef_rp {α : Type} (r : Nat) (m : Py Client α) (H : Hall) : (onRef r m H).2.rp = H.rp ∧ (onRef r m H).2.next = H.next :=
  share_rp _ _ _

theorem Hall.Ok.of {H H' : Hall} (h : H.Ok) (e : H'.rp = H.rp ∧ H'.next = H.next) : H'.Ok :=
  ⟨by rw [e.1]; exact h.keys, by rw [e.1]; exact h.once, by rw [e.1, e.2]; exact h.made⟩

theorem get_handler (H : Hall) (i : String) : Dict.get? H.handler.issuer2rp i = (Dict.get? H.rp i).map H.objs := by
  simp only [Hall.handler]
  rw [Dict.get?_map]

theorem has_handler (H : Hall) (i : String) : Dict.has H.handler.issuer2rp i = (Dict.get? H.rp i).isSome := by
  rw [Dict.has_eq, get_handler]; simp

/-- Work on the object of a provider is work on its client. -/
theorem onRef_kept {α : Type} {H : Hall} (ho : H.Ok) {i : String} {r : Nat} (hr : Dict.get? H.rp i = some r) (m : Py Client α) :
    (onRef r m H).1 = (onClient i m H.handler).1 ∧ (onRef r m H).2.handler = (onClient i m H.handler).2 := by
  have hc : Dict.get? H.handler.issuer2rp i = some (H.objs r) := by rw [get_handler, hr]; rfl
  unfold onRef onClient
  rw [hc]
  simp only
  refine ⟨trivial, ?_⟩
  rw [handler_share]
  congr 1
  simp only [Hall.handler]
  congr 1
  refine (map_put _ _ _ _ _ ho.keys (fun p hp => ?_) ⟨(i, r), Dict.get?_eq_some_mem hr, rfl⟩).symm
  have hp' : Dict.get? H.rp p.1 = some p.2 := Dict.get?_of_mem_nodup ho.keys hp
  constructor
  · intro e; rw [e] at hp'; exact ho.once _ _ _ hp' hr
  · intro e; rw [e, hr] at hp'; exact (Option.some.inj hp').symm

/-- Work on an object the handler does not keep. -/
theorem onRef_new {α : Type} {H : Hall} {r : Nat} (hr : ∀ i, Dict.get? H.rp i ≠ some r) (hn : (Dict.keys H.rp).Nodup) (m : Py Client α) :
    (onRef r m H).1 = (m (H.objs r)).1 ∧
    (onRef r m H).2.handler = Handler.share (m (H.objs r)).2.cfg (m (H.objs r)).2.ctx.behaviour H.handler := by
  refine ⟨rfl, ?_⟩
  unfold onRef
  simp only
  rw [handler_share]
  congr 1
  simp only [Hall.handler]
  congr 1
  refine map_put_other _ _ _ _ fun p hp e => ?_
  exact hr p.1 (by rw [Dict.get?_of_mem_nodup hn hp, e])

/-- The object itself, after work on it. -/
theorem onRef_self {α : Type} (r : Nat) (m : Py Client α) (H : Hall) : (onRef r m H).2.objs r = (m (H.objs r)).2 := by
  unfold onRef
  simp only
  unfold share
  simp only
  split
  · exact put_same _ _ _
  · split
    · simp only [put_same, sharedClient, if_true]
    · exact put_same _ _ _

/-- Another object: only its behaviour can change. -/
theorem onRef_other {α : Type} {r q : Nat} (hq : q ≠ r) (m : Py Client α) (H : Hall) :
    ∃ bh, (onRef r m H).2.objs q = Verif.Props.reBehaviour bh (H.objs q) := by
  unfold onRef
  simp only
  unfold share
  simp only
  split
  · exact ⟨(H.objs q).ctx.behaviour, (put_other _ _ hq).trans rfl⟩
  · split
    · simp only [put_other _ _ hq, sharedClient]
      split
      · exact ⟨_, rfl⟩
      · exact ⟨(H.objs q).ctx.behaviour, rfl⟩
    · exact ⟨(H.objs q).ctx.behaviour, (put_other _ _ hq).trans rfl⟩

end Verif.Rush
