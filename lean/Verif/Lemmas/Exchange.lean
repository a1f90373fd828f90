import Verif.Lemmas.Finalize
/-!
# A request and what is stored of its answer
-/

namespace Verif
open Service

/-- The store did not change. -/
def SameDb (c c' : Client) : Prop := c'.db = c.db ∧ c'.ctx = c.ctx ∧ c'.services = c.services

instance : FrameRel SameDb where
  refl _ := ⟨rfl, rfl, rfl⟩
  trans h h' := ⟨h'.1.trans h.1, h'.2.1.trans h.2.1, h'.2.2.trans h.2.2⟩

instance : ClientRel SameDb where
  send _ _ := fun _ => ⟨rfl, rfl, rfl⟩
  dpop := frame_dpopKey fun _ _ _ => ⟨rfl, rfl, rfl⟩

namespace Service

/-- The services that talk to the token endpoint. -/
def TokenService (srv : Srv) : Prop := srv.endpointName = "token_endpoint"

theorem tokenService_cases {srv : Srv} (h : TokenService srv) : srv = .accesstoken ∨ srv = .refreshToken ∨
    srv = .oauth2AccessToken ∨ srv = .oauth2RefreshToken ∨ srv = .ccAccessToken ∨ srv = .ccRefreshToken := by
  revert h
  unfold TokenService
  cases srv <;> decide

theorem sameDb_postParse {x : Ext} {srv : Srv} (hs : TokenService srv) (r : Obj) (s : String) :
    Frame SameDb (postParse x srv r s) := by
  rcases tokenService_cases hs with rfl | rfl | rfl | rfl | rfl | rfl <;> exact Frame.pure _

/-- What a request at the token endpoint does to the store: nothing, unless the answer is a message that is
no error; then that message is stored. -/
theorem doRequest_stores' {x : Ext} {srv : Srv} (hs : TokenService srv) (args : Obj) (o : CallOpts)
    (kwargs : Obj) (c : Client) :
    (SameDb c (doRequest x srv args o kwargs c).2 ∧
      ((∃ e, (doRequest x srv args o kwargs c).1 = .error e) ∨
       (∃ r, (doRequest x srv args o kwargs c).1 = .ok r ∧ r.isError = true))) ∨
    ∃ info bt resp c0 c1, getRequestParameters x srv args o kwargs c = (.ok info, c0) ∧
      getResponse x srv info bt (stateOf kwargs) c0 = (.ok (.msg resp), c1) ∧ SameDb c c0 ∧ SameDb c c1 ∧ Msg.isError resp = false ∧
      doRequest x srv args o kwargs c =
        match updateMsg x srv resp (stateOf kwargs) c1 with
        | (.ok o', c2) => (.ok (.msg o'), c2)
        | (.error e, c2) => (.error e, c2) := by
  have hc := tokenService_cases hs
  have hreq : Frame SameDb (getRequestParameters x srv args o kwargs) :=
    frame_request_reading' (by rcases hc with h | h | h | h | h | h <;> simp [h]) _ _ _
  unfold doRequest
  rw [Py.read_bind_run]
  split
  · exact Or.inl ⟨FrameRel.refl _, Or.inl ⟨_, rfl⟩⟩
  · have h0 := hreq c
    rcases hg : getRequestParameters x srv args o kwargs c with ⟨r, c0⟩
    rw [hg] at h0
    cases r with
    | error e => left; rw [Py.bind_error hg]; exact ⟨h0, Or.inl ⟨_, rfl⟩⟩
    | ok info =>
      rw [Py.bind_ok hg]
      generalize orElse o.responseBodyType (attr c srv "response_body_type" (responseBodyType srv)) = bt
      generalize stateOf kwargs = k
      unfold serviceRequest
      have h1 := frame_getResponse (R := SameDb) info bt (fun r => sameDb_postParse hs r k) (fun r => sameDb_postParse hs r "") c0 (x := x)
      rcases hr : getResponse x srv info bt k c0 with ⟨r, c1⟩
      rw [hr] at h1
      have h2 : SameDb c c1 := FrameRel.trans h0 h1
      cases r with
      | error e => left; rw [Py.bind_error hr]; exact ⟨h2, Or.inl ⟨_, rfl⟩⟩
      | ok r =>
        rw [Py.bind_ok hr]
        split
        · next he => left; exact ⟨h2, Or.inr ⟨r, rfl, he⟩⟩
        · next he =>
          cases r with
          | http h => left; rcases hc with rfl | rfl | rfl | rfl | rfl | rfl <;> exact ⟨h2, Or.inl ⟨_, rfl⟩⟩
          | text h => left; rcases hc with rfl | rfl | rfl | rfl | rfl | rfl <;> exact ⟨h2, Or.inl ⟨_, rfl⟩⟩
          | msg resp =>
            right
            refine ⟨info, bt, resp, c0, c1, rfl, hr, h0, h2, by simpa [Resp.isError] using he, ?_⟩
            simp only [update, Py.bind_run]
            rcases updateMsg x srv resp k c1 with ⟨r, c2⟩
            cases r <;> rfl

theorem doRequest_stores {x : Ext} {srv : Srv} (hs : srv = .accesstoken ∨ srv = .refreshToken) (args : Obj) (o : CallOpts)
    (k : String) (c : Client) :
    (SameDb c (doRequest x srv args o [("state", .str k)] c).2 ∧
      ((∃ e, (doRequest x srv args o [("state", .str k)] c).1 = .error e) ∨
       (∃ r, (doRequest x srv args o [("state", .str k)] c).1 = .ok r ∧ r.isError = true))) ∨
    ∃ info bt resp c0 c1, getRequestParameters x srv args o [("state", .str k)] c = (.ok info, c0) ∧
      getResponse x srv info bt k c0 = (.ok (.msg resp), c1) ∧ SameDb c c0 ∧ SameDb c c1 ∧ Msg.isError resp = false ∧
      doRequest x srv args o [("state", .str k)] c =
        match updateMsg x srv resp k c1 with
        | (.ok o', c2) => (.ok (.msg o'), c2)
        | (.error e, c2) => (.error e, c2) :=
  doRequest_stores' (by rcases hs with rfl | rfl <;> rfl) args o [("state", .str k)] c

end Service
end Verif
