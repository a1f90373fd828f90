import Verif.Lemmas.Requests
import Verif.Lemmas.Response
/-!
# Accepting an authorization response
-/

namespace Verif
open Service

/-- Nothing changed. -/
def Same (c c' : Client) : Prop := c' = c

instance : FrameRel Same where
  refl _ := rfl
  trans h h' := Eq.trans h' h

namespace Service

/-- Parsing an authorization response changes nothing. -/
theorem same_parse_authorization (x : Ext) (info : Info) (f s : String) (c : Client) :
    (parseResponse x .authorization info f s c).2 = c :=
  frame_parseResponse (R := Same) info f (fun _ => by
    unfold postParse; exact Frame.ask _) c

end Service

namespace StateInterface

theorem storeItem_run {db : DB} {key : String} {st : Obj} (h : getState db key = .ok st) (item : Obj) (t : String) :
    storeItem item t key db = (.ok (), Dict.set db key (.doc (Dict.set st t (.obj item)))) := by
  unfold storeItem; rw [h]

theorem getState_set (db : DB) (key : String) {st : Obj} (h : ∀ p ∈ st, Msg.emptyVal p.2 = false) :
    getState (Dict.set db key (.doc st)) key = .ok st := by
  unfold getState
  simp [Msg.ofDict_of_noEmpty h]

theorem getState_noEmpty {db : DB} {key : String} {st : Obj} (h : getState db key = .ok st) :
    ∀ p ∈ st, Msg.emptyVal p.2 = false := by
  unfold getState at h
  split at h
  · cases h
  · split at h <;> cases h
  · injection h with h
    subst h
    exact Msg.ofDict_noEmpty _

theorem set_noEmpty {st : Obj} (h : ∀ p ∈ st, Msg.emptyVal p.2 = false) (t : String) (o : Obj) :
    ∀ p ∈ Dict.set st t (.obj o), Msg.emptyVal p.2 = false := by
  intro p hp
  rcases Dict.mem_set hp with h' | rfl
  · exact h p h'
  · rfl

theorem getState_set_ne (db : DB) {key k' : String} (st : DbVal) (h : k' ≠ key) :
    getState (Dict.set db key st) k' = getState db k' := by
  unfold getState
  rw [Dict.get?_set_ne _ _ (Ne.symm h)]

theorem getIss_ok {db : DB} {key : String} {v : Val} (h : getIss db key = .ok v) :
    ∃ st, getState db key = .ok st ∧ Dict.get? st "iss" = some v := by
  unfold getIss at h
  cases hs : getState db key with
  | error e => rw [hs] at h; cases h
  | ok st =>
    rw [hs] at h
    simp only at h
    split at h
    · cases h
    · exact ⟨st, rfl, Dict.getItem_eq_ok.1 h⟩

theorem getIss_of {db : DB} {key : String} {v : Val} {st : Obj} (hs : getState db key = .ok st)
    (h : Dict.get? st "iss" = some v) : getIss db key = .ok v := by
  unfold getIss
  rw [hs]
  simp only
  split
  · next he =>
    cases st with
    | nil => simp at h
    | cons _ _ => simp at he
  · exact Dict.getItem_eq_ok.2 h

end StateInterface

namespace Handler
open StateInterface

theorem checkIssuer_ok {db : DB} {issuer : String} {resp : Obj} {k : String}
    (h : checkIssuer db issuer resp = .ok k) :
    Dict.get? resp "state" = some (.str k) ∧ getIss db k = .ok (.str issuer) := by
  unfold checkIssuer at h
  cases h1 : Dict.getItem resp "state" with
  | error e => rw [h1] at h; cases h
  | ok v =>
    rw [h1] at h
    simp only at h
    rw [Dict.getItem_eq_ok] at h1
    cases v <;> simp only [dbKey] at h <;> first | cases h | skip
    next s =>
    cases h2 : getIss db s with
    | error e => rw [h2] at h; cases h
    | ok i =>
      rw [h2] at h
      simp only at h
      split at h
      · next hi =>
        injection h with h
        subst h; subst hi
        exact ⟨h1, h2⟩
      · cases h

/-- What `finalize_auth` does: it raises and changes nothing; or returns an error response and changes
nothing; or accepts the response for a session of the issuer, and stores it there. -/
theorem finalizeAuth_cases (x : Ext) (issuer : String) (response : Obj) (c : Client) :
    (∃ e, finalizeAuth x issuer response c = (.error e, c)) ∨
    (∃ resp, parseResponse x .authorization (.dict response) "dict" "" c = (.ok (.msg resp), c) ∧
      .authorization ∈ c.services ∧
      ((Msg.isError resp = true ∧ finalizeAuth x issuer response c = (.ok resp, c)) ∨
       (Msg.isError resp = false ∧ ∃ k st resp', Dict.get? resp "state" = some (.str k) ∧
         getState c.db k = .ok st ∧ Dict.get? st "iss" = some (.str issuer) ∧ withExpiry x resp = .ok resp' ∧
         finalizeAuth x issuer response c =
           (.ok resp', { c with db := Dict.set c.db k (.doc (Dict.set st "auth_response" (.obj resp'))) })))) := by
  have hp := same_parse_authorization x (.dict response) "dict" "" c
  unfold finalizeAuth
  rw [Py.read_bind_run]
  split
  · exact Or.inl ⟨_, rfl⟩
  · next hs =>
    have hs : .authorization ∈ c.services := by simpa using hs
    rcases hr : parseResponse x .authorization (.dict response) "dict" "" c with ⟨r, c1⟩
    rw [hr] at hp
    simp only at hp
    subst hp
    cases r with
    | error e => left; rw [Py.bind_error hr]; exact ⟨e, rfl⟩
    | ok r =>
      rw [Py.bind_ok hr]
      cases ha : asMsg r with
      | error e => left; rw [Py.lift_bind_error rfl]; exact ⟨e, rfl⟩
      | ok resp =>
        rw [Py.lift_bind_ok rfl]
        obtain rfl : r = .msg resp := by
          cases r <;> simp [asMsg] at ha
          rw [ha]
        by_cases he : Msg.isError resp = true
        · right
          refine ⟨resp, rfl, hs, Or.inl ⟨he, ?_⟩⟩
          rw [if_pos he]; rfl
        · rw [if_neg he]
          cases hk : checkIssuer c1.db issuer resp with
          | error e => left; rw [ask_bind_error (by simpa using hk)]; exact ⟨e, rfl⟩
          | ok k =>
            rw [ask_bind_ok (by simpa using hk)]
            obtain ⟨k1, k2⟩ := checkIssuer_ok hk
            obtain ⟨st, k3, k4⟩ := getIss_ok k2
            simp only [updateMsg]
            unfold storeResponse
            cases hw : withExpiry x resp with
            | error e =>
              left
              refine ⟨e, ?_⟩
              rw [Py.bind_error (e := e) (s' := c1)]
              rfl
            | ok resp' =>
              right
              refine ⟨resp, rfl, hs, Or.inr ⟨by simpa using he, k, st, resp', k1, k3, k4, hw, ?_⟩⟩
              have e1 : ∀ c : Client, ∀ st, getState c.db k = .ok st →
                  onDB (StateInterface.storeItem resp' "auth_response" k) c =
                    (.ok (), { c with db := Dict.set c.db k (.doc (Dict.set st "auth_response" (.obj resp'))) }) := by
                intro c st h
                unfold onDB
                rw [storeItem_run h]
              rw [Py.bind_ok (a := resp') (s' := { c1 with db := Dict.set c1.db k (.doc (Dict.set st "auth_response" (.obj resp'))) })]
              · rw [Py.bind_ok (a := ()) (s' := { c1 with db := Dict.set c1.db k (.doc (Dict.set st "auth_response" (.obj resp'))) })]
                · rfl
                · rw [e1 _ (Dict.set st "auth_response" (.obj resp')) (getState_set _ _ (set_noEmpty (getState_noEmpty k3) _ _))]
                  simp only [Dict.set_set]
              · rw [Py.lift_bind_ok rfl, Py.bind_ok (e1 c1 st k3)]
                rfl

end Handler
end Verif
