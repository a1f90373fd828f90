import Verif.Props.Desk
import Verif.Props.Alone
import Verif.Props.DpopBound
/-!
# C124: sessions in flight, an example, and the first DPoP proofs
-/

namespace Verif.Props
open Verif Verif.Service Verif.Handler Verif.StateInterface Verif.Desk Verif.Spec.Desk Verif.Spec.Alone
open Verif.Spec.InFlight Verif.Spec.Session Verif.Spec.HandlerView Verif.Spec.Wire
open Verif.Spec.Store (KeySpace)

/-- **C124**, its hypothesis: a session that was begun, in whatever history, is one `C124_as_if_alone_partial` speaks of, and the
calls for it work at the client it was begun at, whatever was done for it and for others since (`Interleaved`: others draw other
nonces, do not set up the client anew, and leave its `behaviour`). -/
theorem C124_in_flight {K : String → Prop} (hK : KeySpace K) (h0 : Handler) (hnew : NewHandler h0)
    (before : List (Ext × Call)) (x : Ext) (issuer user : String) (req b : Obj) (url k : String) (h1 : Handler)
    (hbefore : ∀ xc ∈ before, CallOk K k xc) (hkx : K (x.rnd "init_state"))
    (hv : x.rnd "code_verifier" ≠ "") (hn : x.rnd "init_nonce" ≠ "")
    (hmsg : (Dict.keys (x.msg .authorization).defaults).Nodup ∧ "nonce" ∉ (x.msg .authorization).spaced)
    (hbegin : begin_ x issuer user req b (run before h0) = (.ok (url, k), h1))
    (i : String) (hsetup : (clientSetup x issuer user b (run before h0)).1 = .ok i) (hne : i ≠ "")
    (hname : NamedAfterIssuer h1 i) (hgiven : ∀ c, Dict.get? h1.issuer2rp i = some c → NoNonceGiven c req)
    (hdpop : ∀ c, Dict.get? h1.issuer2rp i = some c → Dict.has c.ctx.addOn "dpop" = true → c.dpopKey.isSome)
    (hfresh : FreshNonces (x.rnd "init_nonce") before h0)
    (l : Marked) (hl : Interleaved K i k (x.rnd "init_nonce") l h1) :
    K k ∧ sessionIssuer (run (calls l) h1) k = .ok i ∧
      ∃ c, Dict.get? (run (calls l) h1).issuer2rp i = some c ∧ Own (x.rnd "init_nonce") k c.db ∧
        (Dict.has c.ctx.addOn "dpop" = true → c.dpopKey.isSome) := by
  obtain ⟨hk, p, q, hal⟩ := alike_begun hK h0 hnew before x issuer user req b url k h1 hbefore hkx hv hn hmsg hbegin i hsetup hne
    hname hgiven hdpop hfresh
  obtain ⟨_, r2⟩ := alone_run hK hk hne l hal hl
  obtain ⟨c, c', e1, _, e3, _⟩ := r2.twin
  exact ⟨hk, inv_resolves r2.inv hne, c, e1, e3.own, fun hd => (e3.key hd).1⟩

/-! ## Non-vacuity -/

/-- Another session is started. -/
def second : Marked := [(false, World.ext 1002 World.s2 "n2" "", .begin "https://op.example" "" [] [])]

/-- Two sessions in flight. -/
def bothInFlight : Handler := run (calls second) inFlight

/-- The client they are at. -/
def bothClient : Client := (Dict.get? bothInFlight.issuer2rp "https://op.example").getD default

theorem bothClient_eq : Dict.get? bothInFlight.issuer2rp "https://op.example" = some bothClient := by
  have h : (Dict.get? bothInFlight.issuer2rp "https://op.example").isSome = true := by rfl
  obtain ⟨c, hc⟩ := Option.isSome_iff_exists.1 h
  unfold bothClient
  rw [hc]
  rfl

theorem gives_none {h : Handler} (hh : (Dict.get? h.issuer2rp "https://op.example").map
      (fun c => Dict.get? (confObj c.ctx.config "request_args") "nonce") = some none) :
    ∀ c, Dict.get? h.issuer2rp "https://op.example" = some c → NoNonceGiven c [] := by
  intro c hc
  refine ⟨rfl, ?_⟩
  rw [hc] at hh
  injection hh

theorem no_dpop {h : Handler} (hh : (Dict.get? h.issuer2rp "https://op.example").map
      (fun c => Dict.has c.ctx.addOn "dpop") = some false) :
    ∀ c, Dict.get? h.issuer2rp "https://op.example" = some c → Dict.has c.ctx.addOn "dpop" = true → c.dpopKey.isSome := by
  intro c hc hd
  rw [hc] at hh
  injection hh with hh
  exact absurd (hd.symm.trans hh) (by decide)

theorem first_own : Own "n1" World.s1 bothClient.db := by
  obtain ⟨_, _, c, h1, h2, _⟩ := C124_in_flight Props.C10_generated_keys_are_safe World.handler newWorld earlier
    (World.ext 1000 World.s1 "n1" "") "https://op.example" "" [] [] _ World.s1 inFlight earlier_ok gen_s1
    (by decide) (by decide) ⟨by decide, by decide⟩ (by rfl) "https://op.example" (by rfl) (by decide) inFlight_named
    (gives_none (by rfl)) (no_dpop (by rfl)) earlier_fresh second
    ⟨⟨gen_s2, show World.s2 ≠ World.s1 by decide⟩, show World.s2 ≠ World.s1 by decide, fun _ => rfl,
      fresh_of (j := "https://op.example") (by decide) (by decide) (by rfl) (by rfl), by decide +kernel, trivial⟩
  have := bothClient_eq.symm.trans h1
  injection this with this
  rw [this]
  exact h2

/-- What came before the second session. -/
def earlierToo : List (Ext × Call) := earlier ++ [(World.ext 1000 World.s1 "n1" "", .begin "https://op.example" "" [] [])]

theorem both_named : NamedAfterIssuer bothInFlight "https://op.example" := by
  intro c hc
  have h1 : (Dict.get? bothInFlight.issuer2rp "https://op.example").map (fun c => c.ctx.issuer) = some "https://op.example" := by rfl
  rw [hc] at h1
  injection h1

theorem second_own : Own "n2" World.s2 bothClient.db := by
  obtain ⟨_, _, c, h1, h2, _⟩ := C124_in_flight Props.C10_generated_keys_are_safe World.handler newWorld earlierToo
    (World.ext 1002 World.s2 "n2" "") "https://op.example" "" [] [] _ World.s2 bothInFlight
    (by
      intro xc h
      simp only [earlierToo, earlier, List.cons_append, List.nil_append, List.mem_cons, List.not_mem_nil, or_false] at h
      rcases h with rfl | rfl | rfl
      · exact ⟨gen_s3, by decide⟩
      · trivial
      · exact ⟨gen_s1, by decide⟩)
    gen_s2 (by decide) (by decide) ⟨by decide, by decide⟩ (by rfl) "https://op.example" (by rfl) (by decide) both_named
    (gives_none (by rfl)) (no_dpop (by rfl))
    ⟨fresh_of (j := "https://op.example") (by decide) (by decide) (by rfl) (by rfl), trivial,
      fresh_of (j := "https://op.example") (by decide) (by decide) (by rfl) (by rfl), trivial⟩ [] trivial
  have := bothClient_eq.symm.trans h1
  injection this with this
  rw [this]
  exact h2

/-- Two threads: each finalizes its session and then renews the tokens. -/
def twoDesks (u : Bool) : List (Ext × Job) :=
  if u then
    [(World.ext 1003 "" "" "n1", .finalize "https://op.example" [("code", .str "code1"), ("state", .str World.s1)] []),
     (World.ext 1004 "" "" "n1", .refresh World.s1 "")]
  else
    [(World.ext 1003 "" "" "n2", .finalize "https://op.example" [("code", .str "code2"), ("state", .str World.s2)] []),
     (World.ext 1004 "" "" "n2", .refresh World.s2 "")]

/-- They take turns. -/
def turns : Nat → List Bool
  | 0 => []
  | m + 1 => true :: false :: turns m

set_option maxRecDepth 100000 in
/-- Non-vacuity: in the small world two threads finalize two sessions, taking turns piece by piece, and renew the tokens; both finish;
all calls succeed, with what they do alone. -/
example : (∀ u : Bool, ∀ l : List Bool, (((Desk.start bothClient twoDesks).run l).thread u).finished →
      SameResults (((Desk.start bothClient twoDesks).run l).thread u).results (inTurn (twoDesks u) bothClient).1) ∧
    (∀ u : Bool, (((Desk.start bothClient twoDesks).run (turns 80)).thread u).finished ∧
      (((Desk.start bothClient twoDesks).run (turns 80)).thread u).results.map (·.isOk) = [true, true] ∧
      (((Desk.start bothClient twoDesks).run (turns 80)).thread u).sent.map (·.srv) = [.accesstoken, .userinfo, .refreshToken]) := by
  refine ⟨fun u l hl => ?_, fun u => ?_⟩
  · refine ((C124_as_if_alone_partial (K := Spec.History.Generated) Props.C10_generated_keys_are_safe bothClient
      (fun u => if u then World.s1 else World.s2) (fun u => if u then "n1" else "n2") twoDesks ?_ ?_ ?_ ?_ ?_ u).2 l hl).1
    · intro v; cases v
      · exact gen_s2
      · exact gen_s1
    · intro v w; cases v <;> cases w <;> decide
    · intro v; cases v
      · exact second_own
      · exact first_own
    · exact no_dpop (h := bothInFlight) (by rfl) _ bothClient_eq
    · intro v xj hx
      cases v <;> simp only [twoDesks, if_true, Bool.false_eq_true, if_false, List.mem_cons, List.not_mem_nil, or_false] at hx
      · rcases hx with rfl | rfl
        · exact ⟨world_forgetful _ _ _ _, world_answers _ _ _ _ _ _⟩
        · exact ⟨world_forgetful _ _ _ _, rfl⟩
      · rcases hx with rfl | rfl
        · exact ⟨world_forgetful _ _ _ _, world_answers _ _ _ _ _ _⟩
        · exact ⟨world_forgetful _ _ _ _, rfl⟩
  · cases u <;> exact ⟨⟨by decide +kernel, List.length_eq_zero_iff.1 (by decide +kernel)⟩, by decide +kernel, by decide +kernel⟩

/-! ## The first DPoP proofs -/

/-- Circumstances with a session value, a nonce and a key of the thread's own. -/
def keyWorld (who state nonce : String) : Ext :=
  { World.ext 1001 state nonce nonce with mintKey := fun a => who ++ "-" ++ a }

/-- A DPoP client with two sessions in flight, and no key yet. -/
def keyless : Client :=
  boundClient (run [(keyWorld "" World.s1 "n1", .begin "https://op.example" "" [] []),
    (keyWorld "" World.s2 "n2", .begin "https://op.example" "" [] [])] (dpopHandler [.str "PS256", .str "RS256", .str "ES256"]))

/-- Two threads, each of which finalizes its session. -/
def twoProvers (u : Bool) : List (Ext × Job) :=
  if u then [(keyWorld "A" World.s1 "n1", .finalize "https://op.example" [("code", .str "code1"), ("state", .str World.s1)] [])]
  else [(keyWorld "B" World.s2 "n2", .finalize "https://op.example" [("code", .str "code2"), ("state", .str World.s2)] [])]

/-- The first thread is interrupted when it has seen that there is no key, the second after its token request. -/
def keyRace : List Bool :=
  List.replicate 15 true ++ List.replicate 22 false ++ List.replicate 60 true ++ List.replicate 60 false

/-- Service and proof of what a thread has sent. -/
def proofs (t : Thread) : List (Srv × Option String) := t.sent.map (fun s => (s.srv, Dict.get? s.headers "dpop"))

set_option maxRecDepth 100000 in
/-- **C124** is violated by the first proofs at a client: two threads that finalize, each its session, while there is no DPoP key
yet: each makes one, and the second thread's access token, bound to the key it made, is used with a proof by the other's. Alone
(before or after the other) the proof sent with the token is by the key the token is bound to. -/
theorem C124_first_proof_violated : keyless.dpopKey = none ∧
    proofs (((Desk.start keyless twoProvers).run keyRace).thread false) =
      [(.accesstoken, some "proof-B-RS256"), (.userinfo, some "proof-A-RS256")] ∧
    proofs (((Desk.start keyless twoProvers).run keyRace).thread true) =
      [(.accesstoken, some "proof-A-RS256"), (.userinfo, some "proof-A-RS256")] ∧
    proofs (((Desk.start keyless twoProvers).run (List.replicate 80 false)).thread false) =
      [(.accesstoken, some "proof-B-RS256"), (.userinfo, some "proof-B-RS256")] := by
  refine ⟨by decide +kernel, by decide +kernel, by decide +kernel, by decide +kernel⟩

end Verif.Props
