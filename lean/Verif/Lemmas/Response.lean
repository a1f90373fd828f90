import Verif.Lemmas.Frame
/-! What a parsed response went through. -/

namespace Verif.Service
open Verif

theorem parseResponse_plain {x : Ext} {srv : Srv} {info : Info} {f state : String} {c : Client}
    (hj : isJose (formatOf c srv f) = false) :
    parseResponse x srv info f state c =
      match parseInfo x c.ctx srv info (formatOf c srv f) with
      | .ok parsed => verified x srv parsed state c
      | .error e => (.error e, c) := by
  unfold parseResponse
  simp only [Py.read_bind_run]
  simp only [hj, Bool.false_eq_true, if_false]
  rw [Py.bind_run]
  simp only [Py.lift_run]
  cases parseInfo x c.ctx srv info (formatOf c srv f) <;> rfl

theorem verified_error {x : Ext} {srv : Srv} {parsed : Obj} {state : String} {c : Client}
    (h : Msg.isError parsed = true) : verified x srv parsed state c = (.ok (.msg parsed), c) := by
  unfold verified checkedResponse
  rw [if_pos h, Py.pure_bind_run]
  have : parsed.isEmpty = false := by
    cases parsed with
    | nil => simp [Msg.isError, Dict.has] at h
    | cons => rfl
  simp [this]

theorem verified_ok {x : Ext} {srv : Srv} {parsed : Obj} {state : String} {c c' : Client} {r : Resp}
    (hne : Msg.isError parsed = false) (h : verified x srv parsed state c = (.ok r, c')) :
    ∃ v o, x.verify c.ctx srv parsed (gatherVerify c.ctx srv) = .ok v ∧
      postParse x srv v state c = (.ok o, c') ∧ o ≠ [] ∧ r = .msg o := by
  unfold verified checkedResponse at h
  rw [hne] at h
  obtain ⟨o, c1, h1, h2⟩ := Py.bind_eq_ok.1 h
  simp only [Bool.false_eq_true, if_false] at h1
  obtain ⟨v, c2, h3, h4⟩ := Py.bind_eq_ok.1 h1
  simp only [ask, Prod.mk.injEq] at h3
  obtain ⟨h3, rfl⟩ := h3
  cases o with
  | nil => simp at h2
  | cons p o =>
    simp only [List.isEmpty_cons, Bool.false_eq_true, if_false] at h2
    rw [Py.pure_run] at h2
    injection h2 with h5 h6
    injection h5 with h5
    subst h5 h6
    exact ⟨v, _, h3, h4, by simp, rfl⟩

theorem postParseText_ok {db : DB} {srv : Srv} {s state : String} {r : Resp} (h : postParseText db srv s state = .ok r) :
    r = .text s := by
  unfold postParseText at h
  split at h
  · cases h
  · split at h
    · split at h
      · cases h
      · split at h
        · cases h
        · injection h with h; exact h.symm
    · split at h
      · cases h
      · injection h with h; exact h.symm

/-- What a returned response went through. -/
theorem parseResponse_ok {x : Ext} {srv : Srv} {info : Info} {f state : String} {c c' : Client} {r : Resp}
    (h : parseResponse x srv info f state c = (.ok r, c')) :
    (isJose (formatOf c srv f) = true ∧ ∃ s, info = .text s ∧ r = .text s ∧ c' = c) ∨
    (isJose (formatOf c srv f) = false ∧ ∃ parsed, parseInfo x c.ctx srv info (formatOf c srv f) = .ok parsed ∧
      ((Msg.isError parsed = true ∧ r = .msg parsed ∧ c' = c) ∨
       (Msg.isError parsed = false ∧ ∃ v o,
          x.verify c.ctx srv parsed (gatherVerify c.ctx srv) = .ok v ∧
          postParse x srv v state c = (.ok o, c') ∧ o ≠ [] ∧ r = .msg o))) := by
  cases hj : isJose (formatOf c srv f) with
  | true =>
    left
    refine ⟨rfl, ?_⟩
    unfold parseResponse at h
    simp only [Py.read_bind_run] at h
    simp only [hj, if_true] at h
    cases info with
    | dict o => simp at h
    | text s =>
      simp only [Py.lift_run, Prod.mk.injEq] at h
      obtain ⟨h1, rfl⟩ := h
      exact ⟨s, rfl, postParseText_ok h1, rfl⟩
  | false =>
    right
    refine ⟨rfl, ?_⟩
    rw [parseResponse_plain hj] at h
    cases hp : parseInfo x c.ctx srv info (formatOf c srv f) with
    | error e => rw [hp] at h; simp at h
    | ok parsed =>
      rw [hp] at h
      simp only at h
      refine ⟨parsed, rfl, ?_⟩
      cases he : Msg.isError parsed with
      | true =>
        rw [verified_error he] at h
        injection h with h1 h2; injection h1 with h1
        exact Or.inl ⟨rfl, h1.symm, h2.symm⟩
      | false => exact Or.inr ⟨rfl, verified_ok he h⟩

end Verif.Service
