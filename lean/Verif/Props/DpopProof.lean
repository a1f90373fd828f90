import Verif.Model.Dpop
import Verif.Props.AddOn
/-!
# C87: DPoP proofs can be verified, and what verification means
-/

namespace Verif.Props
open Verif Verif.Service Verif.Handler Verif.Dpop

/-! ## Specification -/

/-- JWS as they should be: what was signed can be read and verified with the signing key, whose JWK is its name. -/
structure HonestJws (j : Jws) : Prop where
  read : ∀ key headers payload t, j.sign key headers payload = .ok t → j.headers t = some headers
  key : ∀ key, j.keyOf (.str key) = .ok key
  payload : ∀ key headers payload alg t, j.sign key headers payload = .ok t → Dict.get? headers "alg" = some alg →
    j.verify key alg t = .ok payload

/-- Only what was signed with a key verifies with it. -/
def Unforgeable (j : Jws) : Prop :=
  ∀ key alg t p, j.verify key alg t = .ok p → ∃ headers, j.sign key headers p = .ok t

/-- `proof` has all parameters of a DPoP proof. -/
def Complete (proof : Obj) : Prop := ∀ p ∈ ["typ", "alg", "jwk", "jti", "htm", "htu", "iat"], ∃ v, Dict.get? proof p = some v

/-! ## Steps -/

theorem pick_get {o : Obj} : ∀ {ps : List String} {r : Obj}, pick o ps = .ok r →
    Dict.keys r = ps ∧ ∀ p, Dict.get? r p = if p ∈ ps then Dict.get? o p else none := by
  intro ps
  induction ps with
  | nil => intro r h; simp only [pick, Except.ok.injEq] at h; subst h; simp [Dict.keys]
  | cons q ps ih =>
    intro r h
    unfold pick at h
    split at h <;> first | cases h | skip
    next v r' h1 h2 =>
    obtain ⟨g1, g2⟩ := ih h2
    refine ⟨by simp only [Dict.keys] at g1 ⊢; rw [List.map_cons, g1], fun p => ?_⟩
    rw [Dict.get?_cons, g2]
    by_cases e : q = p
    · subst e; rw [if_pos rfl, if_pos (by simp), Dict.getItem_eq_ok.1 h1]
    · rw [if_neg e]; simp [Ne.symm e]

theorem pick_progress {o : Obj} : ∀ {ps : List String}, (∀ p ∈ ps, ∃ v, Dict.get? o p = some v) → ∃ r, pick o ps = .ok r := by
  intro ps
  induction ps with
  | nil => intro _; exact ⟨_, rfl⟩
  | cons q ps ih =>
    intro h
    obtain ⟨v, hv⟩ := h q (by simp)
    obtain ⟨r, hr⟩ := ih (fun p hp => h p (by simp [hp]))
    exact ⟨(q, v) :: r, by simp [pick, Dict.getItem_eq_ok.2 hv, hr]⟩

/-! ## C87 -/

/-- **C87** (round trip).  A complete proof that names its key is signed into a header from which `verify_header` – of an
empty proof, as the receiver has it – restores exactly the seven parameters of the proof. -/
theorem C87_round_trip (j : Jws) (hj : HonestJws j) (key : String) (proof : Obj) (hc : Complete proof)
    (hk : Dict.get? proof "jwk" = some (.str key)) (t : String) (ht : createHeader j key proof = .ok t) :
    ∃ p, verifyHeader j [] t = .ok (some p) ∧
      ∀ q, Dict.get? p q = if q ∈ ["typ", "alg", "jwk", "jti", "htm", "htu", "iat"] then Dict.get? proof q else none := by
  unfold createHeader at ht
  split at ht <;> first | cases ht | skip
  next payload headers h1 h2 =>
  obtain ⟨g1, g2⟩ := pick_get h1
  obtain ⟨g3, g4⟩ := pick_get h2
  obtain ⟨alg, halg⟩ := hc "alg" (by simp)
  have ealg : Dict.get? headers "alg" = some alg := by rw [g4]; simpa using halg
  have ejwk : Dict.get? headers "jwk" = some (.str key) := by rw [g4]; simpa using hk
  refine ⟨Dict.update (Dict.update [] headers) payload, ?_, ?_⟩
  · unfold verifyHeader
    rw [hj.read _ _ _ _ ht]
    simp only [ejwk, hj.key, Dict.getItem_eq_ok.2 ealg, hj.payload _ _ _ _ _ ht ealg]
  · intro q
    rw [Dict.get?_update_nodup _ (by rw [g1]; decide), Dict.get?_update_nodup _ (by rw [g3]; decide), g2, g4]
    by_cases hb : q ∈ BODY_PARAMS
    · rw [if_pos hb]
      have hq : q ∈ ["typ", "alg", "jwk", "jti", "htm", "htu", "iat"] := by
        simp only [List.mem_cons, List.not_mem_nil, or_false] at hb ⊢
        rcases hb with rfl | rfl | rfl | rfl <;> simp
      rw [if_pos hq]
      obtain ⟨v, hv⟩ := hc q hq
      rw [hv]; rfl
    · rw [if_neg hb]
      by_cases hh : q ∈ HEADER_PARAMS
      · have hq : q ∈ ["typ", "alg", "jwk", "jti", "htm", "htu", "iat"] := by
          simp only [List.mem_cons, List.not_mem_nil, or_false] at hh ⊢
          rcases hh with rfl | rfl | rfl <;> simp
        rw [if_pos hh, if_pos hq]
        simp [Dict.get?]
      · have hq : q ∉ ["typ", "alg", "jwk", "jti", "htm", "htu", "iat"] := by
          simp only [List.mem_cons, List.not_mem_nil, or_false] at hh hb ⊢
          rintro (h | h | h | h | h | h | h) <;> simp [h] at hh hb
        rw [if_neg hh, if_neg hq]
        rfl

/-- **C87** (an incomplete proof is not sent). -/
theorem C87_incomplete (j : Jws) (key : String) (proof : Obj) (t : String) (ht : createHeader j key proof = .ok t) :
    Complete proof := by
  unfold createHeader at ht
  split at ht <;> first | cases ht | skip
  next payload headers h1 h2 =>
  have hall : ∀ ps r, pick proof ps = .ok r → ∀ p ∈ ps, ∃ v, Dict.get? proof p = some v := by
    intro ps
    induction ps with
    | nil => intro r _ p hp; cases hp
    | cons q ps ih =>
      intro r hr p hp
      unfold pick at hr
      split at hr <;> first | cases hr | skip
      next v r' h1 h2 =>
      rcases List.mem_cons.1 hp with rfl | hp
      · exact ⟨v, Dict.getItem_eq_ok.1 h1⟩
      · exact ih r' h2 p hp
  intro p hp
  simp only [List.mem_cons, List.not_mem_nil, or_false] at hp
  rcases hp with rfl | rfl | rfl | rfl | rfl | rfl | rfl
  · exact hall _ _ h2 _ (by simp)
  · exact hall _ _ h2 _ (by simp)
  · exact hall _ _ h2 _ (by simp)
  · exact hall _ _ h1 _ (by simp)
  · exact hall _ _ h1 _ (by simp)
  · exact hall _ _ h1 _ (by simp)
  · exact hall _ _ h1 _ (by simp)

/-- **C87** (possession), what holds.  If `verify_header` returns a proof, the header is a JWS that was signed with the key
in its own `jwk` header, and what the proof says about the request is what was signed.  That the proof returned names this
key needs a payload without a `jwk` of its own, see `C87_key_replaced_violated`. -/
theorem C87_possession_partial (j : Jws) (hj : Unforgeable j) (proof p : Obj) (t : String)
    (h : verifyHeader j proof t = .ok (some p)) :
    ∃ hs jwk key payload, j.headers t = some hs ∧ Dict.get? hs "jwk" = some jwk ∧ j.keyOf jwk = .ok key ∧
      (∃ headers, j.sign key headers payload = .ok t) ∧
      ((Dict.keys payload).Nodup → (∀ q v, Dict.get? payload q = some v → Dict.get? p q = some v) ∧
        ((Dict.keys hs).Nodup → Dict.get? payload "jwk" = none → Dict.get? p "jwk" = some jwk)) := by
  unfold verifyHeader at h
  split at h <;> first | cases h | skip
  next hs h1 =>
  split at h <;> first | cases h | skip
  next jwk h2 =>
  split at h <;> first | cases h | skip
  next key h3 =>
  split at h <;> first | cases h | skip
  next alg h4 =>
  split at h <;> first | cases h | skip
  next payload h5 =>
  refine ⟨hs, jwk, key, payload, h1, h2, h3, hj _ _ _ _ h5, fun hn => ⟨?_, ?_⟩⟩
  · intro q v hq
    rw [Dict.get?_update_nodup _ hn, hq]
    rfl
  · intro hn' hnone
    rw [Dict.get?_update_nodup _ hn, hnone, Dict.get?_update_nodup _ hn', h2]
    rfl

/-- **C87** (`verify`): a proof is accepted exactly if it is complete, has the type `dpop+jwt`, and an algorithm other than
`none`. -/
theorem C87_verify_iff (proof : Obj) : Dpop.verify proof = .ok () ↔
    Complete proof ∧ Dict.get? proof "typ" = some (.str "dpop+jwt") ∧ Dict.get? proof "alg" ≠ some (.str "none") := by
  have hall : (HEADER_PARAMS ++ BODY_PARAMS).all (fun p => Dict.has proof p) = true ↔ Complete proof := by
    rw [List.all_eq_true]
    unfold Complete
    constructor
    · intro h p hp
      have := h p (by simpa using hp)
      rw [Dict.has_eq, Option.isSome_iff_exists] at this
      exact this
    · intro h p hp
      rw [Dict.has_eq, Option.isSome_iff_exists]
      exact h p (by simpa using hp)
  unfold Dpop.verify
  split
  · next h =>
    rw [hall] at h
    split
    · next h' => simp [h']
    · next h' =>
      split
      · next h'' => simp [h'']
      · next h'' => simpa using ⟨h, Classical.not_not.1 h', h''⟩
  · next h =>
    rw [hall] at h
    simp [h]

/-- **C87** (what the client sends).  If the proof in a token or userinfo request is made by `create_header`, whoever
receives the request can verify it: `verify_header` and `verify` accept it, and it names the method and the endpoint of this
very request, the client's key and algorithm, and the time it was made. -/
theorem C87_sent_proof_verifies (j : Jws) (hj : HonestJws j) (x : Ext) (hx : ∀ key claims, x.dpopSign key claims = createHeader j key claims)
    (srv : Srv) (hs : srv.name = "accesstoken" ∨ srv.name = "userinfo") (args kwargs : Obj) (o : CallOpts) (c c' : Client) (info : ReqInfo)
    (h : getRequestParameters x srv args o kwargs c = (.ok info, c'))
    (hd : Dpop c) (hadv : AsAdvertised c srv kwargs) (d : String) (hdh : Dict.get? info.headers "dpop" = some d) :
    ∃ key alg url p, c'.dpopKey = some (key, alg) ∧ info.url = Util.getHttpUrl (x.ser srv) url info.request info.method ∧
      verifyHeader j [] d = .ok (some p) ∧ (alg ≠ "none" → Dpop.verify p = .ok ()) ∧
      Dict.get? p "htm" = some (.str info.method) ∧ Dict.get? p "htu" = some (.str url) ∧ Dict.get? p "jwk" = some (.str key) ∧
      Dict.get? p "alg" = some (.str alg) ∧ Dict.get? p "iat" = some (.int x.now) := by
  obtain ⟨key, alg, url, h1, h2, ⟨claims, g1, g2, g3, g4, g5, g6, g7⟩, h4⟩ :=
    C59_proof_describes_request_partial x srv hs args kwargs o c c' info h hd hadv d hdh
  rw [hx] at g1
  have hc := C87_incomplete j key claims d g1
  obtain ⟨p, p1, p2⟩ := C87_round_trip j hj key claims hc g5 d g1
  have hget : ∀ q ∈ ["typ", "alg", "jwk", "jti", "htm", "htu", "iat"], Dict.get? p q = Dict.get? claims q := by
    intro q hq
    rw [p2, if_pos hq]
  refine ⟨key, alg, url, p, h1, h4, p1, ?_, ?_, ?_, ?_, ?_, ?_⟩
  · intro hn
    rw [C87_verify_iff]
    refine ⟨fun q hq => ?_, ?_, ?_⟩
    · rw [hget q hq]; exact hc q hq
    · rw [hget _ (by simp)]; exact g6
    · rw [hget _ (by simp), g4]
      simpa using hn
  · rw [hget _ (by simp)]; exact g2
  · rw [hget _ (by simp)]; exact g3
  · rw [hget _ (by simp)]; exact g5
  · rw [hget _ (by simp)]; exact g4
  · rw [hget _ (by simp)]; exact g7

/-! ## What does not hold -/

/-- A JWS library for examples: a token is the text of its parts, by number. -/
def toyJws : Jws where
  sign k _ p := if k = "K" then
      (if p = [("htm", .str "POST")] then .ok "t1" else if p = [("jwk", .str "VICTIM")] then .ok "t2" else .ok "t3")
    else .ok ("by " ++ k)
  headers t := if t = "t1" then some [("typ", .str "JWT"), ("alg", .str "none"), ("jwk", .str "K")]
    else if t = "t2" then some [("typ", .str "dpop+jwt"), ("alg", .str "ES256"), ("jwk", .str "K")] else none
  keyOf v := match v with
    | .str s => .ok s
    | _ => .error .valueError
  verify k _ t := if k = "K" then
      (if t = "t1" then .ok [("htm", .str "POST")] else if t = "t2" then .ok [("jwk", .str "VICTIM")] else .error (.external "BadSignature"))
    else .error (.external "BadSignature")

theorem toy_unforgeable : Unforgeable toyJws := by
  intro key alg t p h
  refine ⟨[], ?_⟩
  simp only [toyJws] at h ⊢
  split at h
  · next hk =>
    subst hk
    split at h
    · next ht => injection h with h; subst h ht; rfl
    · split at h
      · next ht => injection h with h; subst h ht; rfl
      · cases h
  · cases h

/-- **C87** is violated: `verify_header` hands back a proof that `verify` refuses – wrong type, algorithm `none`, no
identifier, no URL, no time; it does not call `verify`. -/
theorem C87_unchecked_violated :
    verifyHeader toyJws [] "t1" = .ok (some [("typ", .str "JWT"), ("alg", .str "none"), ("jwk", .str "K"), ("htm", .str "POST")]) ∧
    Dpop.verify [("typ", .str "JWT"), ("alg", .str "none"), ("jwk", .str "K"), ("htm", .str "POST")] ≠ .ok () := by
  refine ⟨by rfl, ?_⟩
  intro h
  have := ((C87_verify_iff _).1 h).2.1
  simp [Dict.get?] at this

/-- **C87** is violated: a `jwk` in the payload replaces the key the signature was verified with.  The proof says that it was
made with the key `VICTIM`, it was made with `K`. -/
theorem C87_key_replaced_violated : Unforgeable toyJws ∧
    (verifyHeader toyJws [] "t2").toOption.bind (fun o => o.bind (fun p => Dict.get? p "jwk")) = some (.str "VICTIM") ∧
    (∀ headers payload, toyJws.sign "VICTIM" headers payload ≠ .ok "t2") := by
  refine ⟨toy_unforgeable, by rfl, ?_⟩
  intro headers payload
  simp [toyJws]

/-! ## Non-vacuity -/

/-- The proof of an example. -/
def aProof : Obj := [("typ", .str "dpop+jwt"), ("alg", .str "ES256"), ("jwk", .str "K"), ("jti", .str "1"), ("htm", .str "POST"),
  ("htu", .str "https://op.example/token"), ("iat", .int 1000)]

/-- A JWS library that signs only this proof. -/
def oneJws : Jws where
  sign k hs p := if k = "K" ∧ (pick aProof HEADER_PARAMS).toOption = some hs ∧ (pick aProof BODY_PARAMS).toOption = some p then .ok "t" else .error .valueError
  headers t := if t = "t" then (pick aProof HEADER_PARAMS).toOption else none
  keyOf v := match v with
    | .str s => .ok s
    | _ => .error .valueError
  verify k _ t := if k = "K" ∧ t = "t" then pick aProof BODY_PARAMS else .error (.external "BadSignature")

theorem one_honest : HonestJws oneJws := by
  refine ⟨?_, fun _ => rfl, ?_⟩
  · intro key headers payload t h
    simp only [oneJws] at h ⊢
    split at h <;> cases h
    next hc => rw [hc.2.1]; rfl
  · intro key headers payload alg t h _
    simp only [oneJws] at h ⊢
    split at h <;> cases h
    next hc =>
      rw [if_pos ⟨hc.1, rfl⟩]
      have e := hc.2.2
      cases hp : pick aProof BODY_PARAMS with
      | error _ => rw [hp] at e; cases e
      | ok q => rw [hp] at e; injection e with e; rw [e]

/-- The example is signed, verified, and accepted. -/
example : createHeader oneJws "K" aProof = .ok "t" ∧ Complete aProof ∧ verifyHeader oneJws [] "t" = .ok (some aProof) ∧
    Dpop.verify aProof = .ok () := by
  refine ⟨by rfl, ?_, by rfl, by rfl⟩
  exact C87_incomplete oneJws "K" aProof "t" (by rfl)

end Verif.Props
