import Verif.Lemmas.Progress
import Verif.Lemmas.Finalize
/-!
# What a client does with the answer to a request: inversion
-/

namespace Verif
open Service StateInterface

namespace Service

/-- A successful answer `rt` is read as the message `p`, which is no error, and verified with result `v`. -/
def Read (x : Ext) (c : Client) (srv : Srv) (rt : HttpResp) (p v : Obj) : Prop :=
  let bt := attr c srv "response_body_type" (responseBodyType srv)
  rt.status ∈ SUCCESSFUL ∧ isJose (valueType rt bt) = false ∧
  parseInfo x c.ctx srv (.text rt.text) (valueType rt bt) = .ok p ∧ Msg.isError p = false ∧
  x.verify c.ctx srv p (gatherVerify c.ctx srv) = .ok v

/-- What an answer is taken for. -/
inductive Taken (x : Ext) (c : Client) (srv : Srv) (rt : HttpResp) : Resp → Prop
  | redirect : 300 ≤ rt.status → rt.status < 400 → Taken x c srv rt (.http rt)
  | text (s : String) : isJose (valueType rt (attr c srv "response_body_type" (responseBodyType srv))) = true ∨
      attr c srv "response_body_type" (responseBodyType srv) = "html" → Taken x c srv rt (.text s)
  | message (p v : Obj) : Read x c srv rt p v → Taken x c srv rt (.msg v)
  | error (p : Obj) :
      parseInfo x c.ctx srv (.text rt.text) (valueType rt (attr c srv "response_body_type" (responseBodyType srv))) = .ok p →
      Msg.isError p = true → Taken x c srv rt (.msg p)
  | failure (o : Obj) : 400 ≤ rt.status → rt.status < 500 → Taken x c srv rt (.msg o)

/-- The services whose `post_parse_response` does nothing. -/
def Plain (srv : Srv) : Prop := srv ≠ .authorization ∧ srv ≠ .oauth2Authorization ∧ srv ≠ .userinfo

theorem postParse_plain {x : Ext} {srv : Srv} (hs : Plain srv) (resp : Obj) (k : String) :
    postParse x srv resp k = Pure.pure resp := by
  obtain ⟨h1, h2, h3⟩ := hs
  unfold postParse
  cases srv <;> first | rfl | contradiction

theorem format_valueType (c : Client) (srv : Srv) (rt : HttpResp) :
    formatOf c srv (valueType rt (attr c srv "response_body_type" (responseBodyType srv))) =
      valueType rt (attr c srv "response_body_type" (responseBodyType srv)) := by
  generalize ha : attr c srv "response_body_type" (responseBodyType srv) = bt
  unfold formatOf orElse
  rw [ha]
  split
  · next h =>
    rw [h]
    unfold valueType at h
    simp only at h
    split at h
    · next h' => rw [h] at h'; simp at h'
    · exact h
  · rfl

theorem frame_same_parse {x : Ext} {srv : Srv} (hs : Plain srv) (k : String) :
    ∀ r, Frame Same (postParse x srv r k) := by
  intro r
  rw [postParse_plain hs]
  exact Frame.pure _

theorem getResponse_taken {x : Ext} {srv : Srv} (hs : Plain srv) {info : ReqInfo} {k : String} {c c' : Client} {r : Resp}
    (h : getResponse x srv info (attr c srv "response_body_type" (responseBodyType srv)) k c = (.ok r, c')) :
    c' = { c with log := c.log ++ [sentFor srv info] } ∧
    ∃ rt, x.http c.log (sentFor srv info) = .ok rt ∧ Taken x { c with log := c.log ++ [sentFor srv info] } srv rt r := by
  unfold getResponse at h
  obtain ⟨rt, c1, e1, h⟩ := Py.bind_eq_ok.1 h
  have hc1 : c1 = { c with log := c.log ++ [sentFor srv info] } ∧ x.http c.log (sentFor srv info) = .ok rt := by
    have e1 : (x.http c.log (sentFor srv info), { c with log := c.log ++ [sentFor srv info] }) = (Except.ok rt, c1) := e1
    exact ⟨(congrArg Prod.snd e1).symm, congrArg Prod.fst e1⟩
  obtain ⟨rfl, hh⟩ := hc1
  rw [Py.read_bind_run] at h
  have hat : attr { c with log := c.log ++ [sentFor srv info] } srv "response_body_type" (responseBodyType srv)
      = attr c srv "response_body_type" (responseBodyType srv) := attr_congr rfl _ _ _
  have hbt : orElse (attr c srv "response_body_type" (responseBodyType srv))
      (attr c srv "response_body_type" (responseBodyType srv)) = attr c srv "response_body_type" (responseBodyType srv) := by
    unfold orElse; split <;> rfl
  simp only [hat, hbt] at h
  generalize hd : ({ c with log := c.log ++ [sentFor srv info] } : Client) = d at h
  split at h
  · next hr =>
    injection h with h1 h2
    injection h1 with h1
    subst h1 h2
    exact ⟨rfl, rt, hh, .redirect hr.1 hr.2⟩
  · split at h
    · injection h with h1 h2
      injection h1 with h1
      subst h1 h2
      exact ⟨rfl, rt, hh, .text _ (Or.inr (by rw [← hd, hat]; exact (by assumption : _ ∧ _).2))⟩
    · have hsame : c' = d := by
        have := frame_parseRequestResponse (R := Same) rt
          (if rt.status < 300 then attr c srv "response_body_type" (responseBodyType srv)
            else attr c srv "response_body_type" (responseBodyType srv)) (frame_same_parse (x := x) hs k) (frame_same_parse hs "") d
        rw [h] at this
        exact this
      refine ⟨hsame, rt, hh, ?_⟩
      subst hsame
      simp only [ite_self] at h
      unfold parseRequestResponse at h
      split at h
      · next hst =>
        have hat' : attr c srv "response_body_type" (responseBodyType srv) = attr c' srv "response_body_type" (responseBodyType srv) := by
          rw [← hd]; exact hat.symm
        rw [hat'] at h
        rcases parseResponse_ok h with ⟨hj, s, _, rfl, _⟩ | ⟨hj, p, hp, hc⟩
        · rw [format_valueType] at hj
          exact .text _ (Or.inl hj)
        · rw [format_valueType] at hj hp
          rcases hc with ⟨he, rfl, _⟩ | ⟨he, v, o, hv, hpost, _, rfl⟩
          · exact .error _ hp he
          · rw [postParse_plain hs] at hpost
            injection hpost with hpost _
            injection hpost with hpost
            subst hpost
            exact .message p _ ⟨hst, hj, hp, he, hv⟩
      · split at h
        · cases h
        · split at h
          · next hst =>
            obtain ⟨e, d', _, h⟩ := Py.bind_eq_ok.1 h
            obtain ⟨h, _⟩ := Py.lift_eq_ok.1 h
            unfold withStatus at h
            split at h
            · injection h with h
              subst h
              exact .failure _ hst.1 hst.2
            · cases h
          · cases h

/-- What a request that was no failure did. -/
theorem doRequest_taken {x : Ext} {srv : Srv} (hs : Plain srv) {args : Obj} {o : CallOpts} (ho : o.responseBodyType = "")
    {kwargs : Obj} {c c' : Client} {r : Resp} (h : doRequest x srv args o kwargs c = (.ok r, c'))
    (hconf : ∀ info c1, getRequestParameters x srv args o kwargs c = (.ok info, c1) → c1.conf = c.conf) :
    srv ∈ c.services ∧ ∃ info c1, getRequestParameters x srv args o kwargs c = (.ok info, c1) ∧
      ∃ rt r0, x.http c1.log (sentFor srv info) = .ok rt ∧
        Taken x { c1 with log := c1.log ++ [sentFor srv info] } srv rt r0 ∧
        ((r0.isError = true ∧ r = r0 ∧ c' = { c1 with log := c1.log ++ [sentFor srv info] }) ∨
         (r0.isError = false ∧ update x srv r0 (stateOf kwargs) { c1 with log := c1.log ++ [sentFor srv info] } = (.ok r, c'))) := by
  unfold doRequest at h
  rw [Py.read_bind_run] at h
  split at h
  · cases h
  · next hin =>
    refine ⟨by simpa using hin, ?_⟩
    obtain ⟨info, c1, e1, h⟩ := Py.bind_eq_ok.1 h
    have hc := hconf info c1 e1
    rw [ho] at h
    have hbt : orElse "" (attr c srv "response_body_type" (responseBodyType srv)) = attr c1 srv "response_body_type" (responseBodyType srv) := by
      rw [attr_congr hc]; rfl
    rw [hbt] at h
    unfold serviceRequest at h
    obtain ⟨r0, c2, e2, h⟩ := Py.bind_eq_ok.1 h
    obtain ⟨rfl, rt, hh, ht⟩ := getResponse_taken hs e2
    refine ⟨info, c1, e1, rt, r0, hh, ht, ?_⟩
    split at h
    · next he =>
      injection h with h1 h2
      injection h1 with h1
      exact Or.inl ⟨he, h1.symm, h2.symm⟩
    · next he => exact Or.inr ⟨by simpa using he, h⟩

/-- An answer that is taken for an error, although it could be read, is one the verification turned into one. -/
theorem taken_error {x : Ext} {c : Client} {srv : Srv} {rt : HttpResp} {r : Resp} (h : Taken x c srv rt r) (he : r.isError = true)
    (hb : attr c srv "response_body_type" (responseBodyType srv) ≠ "html") (p v : Obj) (hr : Read x c srv rt p v) :
    Msg.isError v = true := by
  obtain ⟨h1, h2, h3, h4, h5⟩ := hr
  cases h with
  | redirect a1 a2 => have := status_lt h1; omega
  | text s hs =>
    rcases hs with hs | hs
    · rw [h2] at hs; cases hs
    · exact absurd hs hb
  | message p' v' h' =>
    obtain ⟨_, _, g3, _, g5⟩ := h'
    have := Except.ok.inj (h3.symm.trans g3)
    subst this
    have := Except.ok.inj (h5.symm.trans g5)
    subst this
    exact he
  | error p' g3 g4 =>
    have := Except.ok.inj (h3.symm.trans g3)
    subst this
    rw [h4] at g4; cases g4
  | failure o a1 a2 => have := status_lt h1; omega

end Service
end Verif
