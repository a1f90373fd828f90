import Verif.Props.Retry
import Verif.Props.HonestRefresh
import Verif.Props.Isolation
/-!
# C94: a session lives as long as it is refreshed, whatever happens to the others

The pieces put together: a login is begun among others (C81), attempts fail (C90), it is finalized, and from then on calls for
other sessions (C75) and refreshes (C86) alternate, any number of times.
-/

namespace Verif.Props
open Verif Verif.Service Verif.Handler Verif.StateInterface Verif.Spec.Session Verif.Spec.HandlerView Verif.Spec.Wire
open Verif.Spec.Store (KeySpace)
open Verif.Spec.InFlight

/-! ## Specification -/

/-- A round: calls are made for other sessions, then the session is refreshed: `x` is the outside world then, `answer` what the
provider answers, with the access token `token` and the next refresh token `next`. -/
structure Round where
  others : List (Ext × Call)
  x : Ext
  scope : String
  answer : Obj
  token : String
  next : String

/-- The calls of a round. -/
def Round.calls (k : String) (r : Round) : List (Ext × Call) := r.others ++ [(r.x, .refresh k r.scope)]

/-- Calls that do not concern session `k` of the client kept as `i`: other sessions are begun, finalized, used, cleared,
with any answers and failures; the client is not set up anew. -/
def Others (K : String → Prop) (i k : String) (l : List (Ext × Call)) (h : Handler) : Prop :=
  (∀ xc ∈ l, CallOk K k xc) ∧ (∀ xc ∈ l, ¬ Concerns k xc) ∧ NeverReplaced i l h

/-- In every round the provider honours the refresh token it gave last (`rt` at first) and gives another one; the client (as it
is then) can refresh. -/
def HonestRounds (K : String → Prop) (i k : String) : String → List Round → Handler → Prop
  | _, [], _ => True
  | rt, r :: l, h =>
    Others K i k r.others h ∧
    (∀ c, Dict.get? (run r.others h).issuer2rp i = some c → CanRefresh r.x c ∧ HonestRefresh r.x c rt r.token r.answer) ∧
    GivesRefresh r.answer r.next ∧ r.next ≠ "" ∧ HonestRounds K i k r.next l (run (r.calls k) h)

/-- In every round the refresh returns what the provider answered, with its expiry time, after one request with the refresh token
the provider gave last. -/
def AllRefreshed (i k : String) : String → List Round → Handler → Prop
  | _, [], _ => True
  | rt, r :: l, h =>
    (∃ c s o, Dict.get? (run r.others h).issuer2rp i = some c ∧ RefreshesWith r.x c rt s ∧ withExpiry r.x r.answer = .ok o ∧
      (exec r.x (.refresh k r.scope) (run r.others h)).1 = .ok (.resp (.msg o)) ∧
      (view (run (r.calls k) h) i).map Prod.snd = some (c.log ++ [s])) ∧
    AllRefreshed i k r.next l (run (r.calls k) h)

/-! ## Proof -/

/-- Session `k` of the client kept as `i` has the refresh token `rt`, the authorization response `a`, the token response `T`. -/
structure Live (K : String → Prop) (i k rt : String) (w : Except Exc Obj × Except Exc Obj) (a T : Except Exc Obj) (h : Handler) : Prop where
  inv : Inv K k (some (i, w.1, w.2)) h
  client : ∃ c, Dict.get? h.issuer2rp i = some c ∧ Refreshable c.db k rt ∧ getItem c.db "auth_response" k = a ∧
    getItem c.db "token_response" k = T

theorem run_append (l l' : List (Ext × Call)) (h : Handler) : run (l ++ l') h = run l' (run l h) := by
  induction l generalizing h with
  | nil => rfl
  | cons xc l ih => obtain ⟨x, c⟩ := xc; exact ih _

theorem getItem_of_getState {db db' : DB} {k : String} (h : getState db' k = getState db k) (t : String) :
    getItem db' t k = getItem db t k := by
  unfold getItem; rw [h]

theorem refreshable_of_getState {db db' : DB} {k rt : String} (h : getState db' k = getState db k) (hr : Refreshable db k rt) :
    Refreshable db' k rt := by
  obtain ⟨h1, h2, h3⟩ := hr
  refine ⟨?_, (getItem_of_getState h _).trans h2, ?_⟩
  · unfold storedIn at h1 ⊢; rw [getItem_of_getState h]; exact h1
  · unfold storedIn at h3 ⊢; rw [getItem_of_getState h]; exact h3

theorem live_others {K : String → Prop} (hK : KeySpace K) {i k rt : String} (hk : K k) {w a T} {l : List (Ext × Call)} {h : Handler}
    (hl : Live K i k rt w a T h) (ho : Others K i k l h) : Live K i k rt w a T (run l h) := by
  obtain ⟨hi, c, h1, h2, h3, h4⟩ := hl
  obtain ⟨o1, o2, o3⟩ := ho
  refine ⟨inv_run hK hk l hi o1 (fun i' p q hw => by
    injection hw with hw
    injection hw with hw _
    subst hw
    exact o3), ?_⟩
  obtain ⟨db', e1, e2⟩ := record_run hK hk l hi o1 o2 o3 c.db (by rw [get?_stores, h1]; rfl)
  rw [get?_stores] at e1
  cases hc : Dict.get? (run l h).issuer2rp i with
  | none => rw [hc] at e1; cases e1
  | some c' =>
    rw [hc] at e1
    injection e1 with e1
    subst e1
    exact ⟨c', rfl, refreshable_of_getState e2 h2, (getItem_of_getState e2 _).trans h3, (getItem_of_getState e2 _).trans h4⟩

theorem live_refresh {K : String → Prop} (hK : KeySpace K) {i k rt : String} (hk : K k) (hne : i ≠ "") (hrt : rt ≠ "") {w a T} {h : Handler}
    (hl : Live K i k rt w a T h) (x : Ext) (sc t next : String) (v : Obj)
    (hh : ∀ c, Dict.get? h.issuer2rp i = some c → CanRefresh x c ∧ HonestRefresh x c rt t v) (hg : GivesRefresh v next) (hnx : next ≠ "") :
    ∃ c s o, Dict.get? h.issuer2rp i = some c ∧ RefreshesWith x c rt s ∧ withExpiry x v = .ok o ∧
      (exec x (.refresh k sc) h).1 = .ok (.resp (.msg o)) ∧
      (view (exec x (.refresh k sc) h).2 i).map Prod.snd = some (c.log ++ [s]) ∧
      Live K i k next w a (.ok (Msg.ofDict o)) (exec x (.refresh k sc) h).2 ∧ Dict.get? v "access_token" = some (.str t) := by
  have hinv : Inv K k (some (i, w.1, w.2)) (exec x (.refresh k sc) h).2 :=
    inv_exec hK hk hl.inv (x, .refresh k sc) trivial (fun _ _ _ _ => trivial)
  obtain ⟨hi, c, h1, h2, h3, h4⟩ := hl
  obtain ⟨hq, hho⟩ := hh c h1
  obtain ⟨s, o, db', a1, a2, a3, a4, a5, a6⟩ := C86_refresh x k sc rt t hrt c v hq h2 hho
  have hs := inv_resolves hi hne
  have hexec : exec x (.refresh k sc) h = ret .resp (onClient i (refreshAccessToken x k sc)) h := by
    simp only [exec, ret, onSession, hs]
  have hview : view (exec x (.refresh k sc) h).2 i = some (db', c.log ++ [s]) := by
    rw [hexec]
    simp only [ret]
    rw [view_onClient h1, a3]
    simp
  refine ⟨c, s, o, h1, a1, a2, ?_, by rw [hview]; rfl, ⟨hinv, ?_⟩, hho.2.2.1⟩
  · rw [hexec]
    simp only [ret]
    rw [fst_onClient h1, a3]
    rfl
  · unfold view at hview
    cases hc : Dict.get? (exec x (.refresh k sc) h).2.issuer2rp i with
    | none => rw [hc] at hview; cases hview
    | some cf =>
      rw [hc] at hview
      injection hview with hview
      injection hview with hview _
      subst hview
      exact ⟨cf, rfl, refreshable_after a2 hg.token hnx hg.single hg.secret.1 hg.secret.2 a4 ((a5 _ (by decide)).trans h2.newest),
        (a5 _ (by decide)).trans h3, a4⟩

theorem live_rounds {K : String → Prop} (hK : KeySpace K) {i k : String} (hk : K k) (hne : i ≠ "") {w a} :
    ∀ (l : List Round) (rt : String) (T : Except Exc Obj) (h : Handler), rt ≠ "" → Live K i k rt w a T h → HonestRounds K i k rt l h →
      AllRefreshed i k rt l h ∧ ∃ rt' T', Live K i k rt' w a T' (run (l.flatMap (Round.calls k)) h) ∧
        ∀ l0 r, l = l0 ++ [r] → ∃ o, withExpiry r.x r.answer = .ok o ∧ T' = .ok (Msg.ofDict o) ∧
          Dict.get? r.answer "access_token" = some (.str r.token) := by
  intro l
  induction l with
  | nil =>
    intro rt T h _ hl _
    exact ⟨trivial, rt, T, hl, fun l0 r he => by cases l0 <;> cases he⟩
  | cons r l ih =>
    rintro rt T h hrt hl ⟨h1, h2, h3, h4, h5⟩
    obtain ⟨c, s, o, a1, a2, a3, a4, a5, a6, a7⟩ := live_refresh hK hk hne hrt (live_others hK hk hl h1) r.x r.scope r.token r.next r.answer h2 h3 h4
    have hcalls : run (r.calls k) h = (exec r.x (.refresh k r.scope) (run r.others h)).2 := by
      unfold Round.calls
      rw [run_append]
      rfl
    rw [← hcalls] at a5 a6
    obtain ⟨b1, rt', T', b2, b3⟩ := ih r.next _ _ h4 a6 h5
    refine ⟨⟨⟨c, s, o, a1, a2, a3, a4, a5⟩, b1⟩, rt', T', ?_, ?_⟩
    · rw [List.flatMap_cons, run_append]; exact b2
    · intro l0 q he
      cases l0 with
      | nil =>
        simp only [List.nil_append, List.cons.injEq] at he
        obtain ⟨rfl, rfl⟩ := he
        obtain ⟨_, c', e1, _, _, e4⟩ := a6
        obtain ⟨_, c'', f1, _, _, f4⟩ := b2
        have hsame : T' = .ok (Msg.ofDict o) := by
          have f1' : Dict.get? (run (r.calls k) h).issuer2rp i = some c'' := f1
          rw [e1] at f1'
          injection f1' with f1'
          subst f1'
          rw [← f4, ← e4]
        exact ⟨o, a3, hsame, a7⟩
      | cons p l0 =>
        rw [List.cons_append] at he
        injection he with _ he
        exact b3 l0 q he

/-! ## C94 -/

/-- **C94** (the life of a session).  A new handler; `begin` returned the session `k` of the client kept as `i`; anything is
done then (`after`) short of clearing `k`, attempts to finalize it among it; an honest response comes and is finalized, the
provider giving the refresh token `rt`.  Then, however often calls for other sessions and refreshes alternate, with a provider
that honours the refresh tokens it gives: `finalize` returned the user's claims and the tokens; every refresh returns what the
provider answered to the refresh token it gave last; and, whatever is done for other sessions after the last refresh, the token
that is then offered for use is the one that refresh got, as long as it has not expired. -/
theorem C94_session_lives {K : String → Prop} (hK : KeySpace K) (h0 : Handler) (hnew : NewHandler h0)
    (before : List (Ext × Call)) (x : Ext) (issuer user : String) (req b : Obj) (url k : String) (h1 : Handler)
    (hbefore : ∀ xc ∈ before, CallOk K k xc) (hkx : K (x.rnd "init_state"))
    (hv : x.rnd "code_verifier" ≠ "") (hn : x.rnd "init_nonce" ≠ "")
    (hmsg : (Dict.keys (x.msg .authorization).defaults).Nodup ∧ "nonce" ∉ (x.msg .authorization).spaced)
    (hbegin : begin_ x issuer user req b (run before h0) = (.ok (url, k), h1))
    (i : String) (hsetup : (clientSetup x issuer user b (run before h0)).1 = .ok i) (hne : i ≠ "")
    (hname : NamedAfterIssuer h1 i) (hgiven : ∀ c, Dict.get? h1.issuer2rp i = some c → NoNonceGiven c req)
    (hservice : ∀ c, Dict.get? h1.issuer2rp i = some c → .authorization ∈ c.services)
    (after : List (Ext × Call)) (hafter : ∀ xc ∈ after, CallOk K k xc)
    (hkeep : NeverReplaced i after h1)
    (hfresh : FreshNonces (x.rnd "init_nonce") before h0 ∧ FreshNonces (x.rnd "init_nonce") after h1) :
    ∃ c' areq ver, Dict.get? (run after h1).issuer2rp i = some c' ∧
      Dict.get? areq "state" = some (.str k) ∧ Dict.get? areq "nonce" = some (.str (x.rnd "init_nonce")) ∧
      getItem c'.db "auth_request" k = .ok areq ∧
      ∀ (y : Ext) (response resp idt u b' : Obj) (t sub rt : String),
        HonestLogin y c' k (x.rnd "init_nonce") areq ver response resp idt u t sub →
        rt ≠ "" →
        (∀ s a p v, s.srv = .accesstoken → y.http c'.log s = .ok a → Understood y c' .accesstoken a p v → GivesRefresh v rt) →
        (finalize y i response b' (run after h1)).1 =
          .ok (.done (.obj u) (.str k) (.str t) (.obj idt) ((Dict.get? resp "session_state").getD (.str ""))) ∧
        ∀ (rounds : List Round), HonestRounds K i k rt rounds (finalize y i response b' (run after h1)).2 →
          AllRefreshed i k rt rounds (finalize y i response b' (run after h1)).2 ∧
          ∀ (l0 : List Round) (last : Round), rounds = l0 ++ [last] → Dict.get? resp "access_token" = none →
            ∀ (others : List (Ext × Call)) (z : Ext) (e : Int),
              Others K i k others (run (rounds.flatMap (Round.calls k)) (finalize y i response b' (run after h1)).2) →
              last.token ≠ "" → Dict.get? last.answer "expires_in" = some (.int e) → 0 ≤ z.now → z.now < last.x.now + e →
              (exec z (.validToken k) (run others (run (rounds.flatMap (Round.calls k)) (finalize y i response b' (run after h1)).2))).1
                = .ok (.token (.str last.token) (last.x.now + e)) := by
  have hk : K k := by
    obtain ⟨_, _, _, _, _, b3, _⟩ := begin_ok hbegin
    exact init_key b3 ▸ hkx
  have hi0 : Inv K k none (run before h0) :=
    inv_run hK hk before (inv_new hnew.empty hnew.plain) hbefore (fun _ _ _ hw => by cases hw)
  obtain ⟨_, c1, _, _, _, _, hi1⟩ := inv_begun hK hkx hi0 hbegin hsetup hne hname
  have hi2 := inv_run hK hk after hi1 hafter (fun i' p q hw => by
    injection hw with hw
    injection hw with hw _
    subst hw
    exact hkeep)
  obtain ⟨c, c', areq, ver, a1, a2, _, a4, _, a6, a7, _, a9⟩ := C81_waits_among_others hK h0 hnew before x issuer user req b url k h1
    hbefore hkx hv hn hmsg hbegin i hsetup hne hname hgiven after hafter hkeep hfresh
  refine ⟨c', areq, ver, a2, a6, a7, a9.request, fun y response resp idt u b' t sub rt hh hrt hgives => ?_⟩
  obtain ⟨code, ru, rtv, g1, g2, g3, g4, g5, g6⟩ := hh.code
  obtain ⟨s1, s2, db', e1, _, e3, e4, _, a, p, v, r, e6, e7, e8, e9, _, e11, resp', e12, e13⟩ := C81_code_login hK y i response b' (run after h1) c' a2
    (by rw [a4]; exact hservice c a1) hh.equipped hh.asks k (x.rnd "init_nonce") t sub hk hh.token areq resp
    idt u code ru ver rtv a9 g3 g4 g5 hh.parsed hh.noError hh.session g1 g2 hh.expiry hh.idToken g6 hh.claims
  have hg := hgives s1 a p v e1.1 e6 e7
  have hinv := inv_exec hK hk hi2 (y, .finalize i response b') trivial (fun _ _ _ _ => trivial)
  obtain ⟨cf, hcf⟩ : ∃ cf, Dict.get? (finalize y i response b' (run after h1)).2.issuer2rp i = some cf ∧ cf.db = db' := by
    unfold view at e4
    cases hc : Dict.get? (finalize y i response b' (run after h1)).2.issuer2rp i with
    | none => rw [hc] at e4; cases e4
    | some cf => rw [hc] at e4; injection e4 with e4; injection e4 with e4 _; exact ⟨cf, rfl, e4⟩
  have hlive : Live K i k rt (getItem c1.db "auth_request" k, getItem c1.db "pkce" k) (.ok (Msg.ofDict resp')) (.ok (Msg.ofDict r))
      (finalize y i response b' (run after h1)).2 := by
    refine ⟨hinv, cf, hcf.1, ?_, ?_, ?_⟩ <;> rw [hcf.2]
    · exact refreshable_after e8 hg.token hrt hg.single hg.secret.1 hg.secret.2 e9 e11
    · exact e13
    · exact e9
  refine ⟨e3, fun rounds hrounds => ?_⟩
  obtain ⟨f1, rt', T', f2, f3⟩ := live_rounds hK hk hne rounds rt _ _ hrt hlive hrounds
  refine ⟨f1, fun l0 last hl hat others z e ho htok hexp hz hlt => ?_⟩
  obtain ⟨o, k1, k2, k3⟩ := f3 l0 last hl
  obtain ⟨hi, cl, m1, m2, m3, m4⟩ := live_others hK hk f2 ho
  have hs := inv_resolves hi hne
  have hval := C86_refreshed_token_is_valid last.x z k last.token last.answer o e hz hlt k3 htok hexp k1 cl (m4.trans k2) m2.newest
    (Or.inr ⟨_, m3, Msg.get?_ofDict_none (by rw [withExpiry_get e12 (by decide)]; exact hat)⟩)
  simp only [exec, ret, onSession, hs]
  rw [fst_onClient m1]
  simp only [ask, hval]
  rfl

/-! ## Non-vacuity -/

/-- The login of the small world is finalized, after the failures. -/
def lifeStart : Handler :=
  (finalize (World.ext 1010 "" "" "n1") "https://op.example" codeResponse [] (run (failures.map Attempt.call) inFlight)).2

deriving instance DecidableEq for Ctx
deriving instance DecidableEq for Client

/-- Two rounds; in both another session is begun, finalized, refreshed and cleared before the refresh. -/
def lifeRounds : List Round :=
  [⟨otherCalls, rotating 1100, "", rotated, "CC1", "CR1"⟩, ⟨otherCalls, rotating 1150, "openid", rotated, "CC1", "CR1"⟩]

theorem world_refreshing (now : Int) (rt : String) (c : Client) (h : c = { loggedIn with db := c.db, log := c.log }) :
    CanRefresh (rotating now) c ∧ HonestRefresh (rotating now) c rt "CC1" rotated := by
  rw [h]
  exact ⟨canRefresh_congr _ _ (world_canRefresh now), honest_congr _ _ (world_rotates now rt)⟩

theorem life_client (h : Handler) (he : (Dict.get? h.issuer2rp "https://op.example").map (fun c => ({ c with db := [], log := [] } : Client)) =
      some { loggedIn with db := [], log := [] }) (c : Client) (hc : Dict.get? h.issuer2rp "https://op.example" = some c) :
    c = { loggedIn with db := c.db, log := c.log } := by
  rw [hc] at he
  injection he with he
  cases c
  simp only [Client.mk.injEq] at he ⊢
  simp_all

theorem life_others (h : Handler) (hr : NeverReplaced "https://op.example" otherCalls h) :
    Others Spec.History.Generated "https://op.example" World.s1 otherCalls h := ⟨otherCalls_ok, otherCalls_elsewhere, hr⟩

theorem life_honest : HonestRounds Spec.History.Generated "https://op.example" World.s1 "RT1" lifeRounds lifeStart := by
  refine ⟨life_others _ ⟨fun _ => rfl, trivial, trivial, trivial, trivial, trivial⟩,
    fun c hc => world_refreshing _ _ c (life_client _ (by decide +kernel) c hc), ⟨by rfl, by rfl, by rfl, by rfl⟩, by decide,
    life_others _ ⟨fun _ => rfl, trivial, trivial, trivial, trivial, trivial⟩,
    fun c hc => world_refreshing _ _ c (life_client _ (by decide +kernel) c hc), ⟨by rfl, by rfl, by rfl, by rfl⟩, by decide, trivial⟩

/-- Non-vacuity of C94: in the small world the login fails four times, is finalized, and lives through two rounds and further calls
for another session. -/
example : AllRefreshed "https://op.example" World.s1 "RT1" lifeRounds lifeStart ∧
    (exec (rotating 1190) (.validToken World.s1) (run otherCalls (run (lifeRounds.flatMap (Round.calls World.s1)) lifeStart))).1
      = .ok (.token (.str "CC1") 1210) := by
  obtain ⟨g1, g2, g3⟩ := attempts_ok (K := Spec.History.Generated) (k := World.s1) (i := "https://op.example") (n := "n1") failures inFlight
  obtain ⟨c', areq, ver, a1, _, _, a4, a5⟩ := C94_session_lives C10_generated_keys_are_safe World.handler newWorld earlier
    (World.ext 1000 World.s1 "n1" "") "https://op.example" "" [] [] _ World.s1 inFlight earlier_ok gen_s1
    (by decide) (by decide) ⟨by decide, by decide⟩ (by rfl) "https://op.example" (by rfl) (by decide) inFlight_named
    (fun c hc => ⟨rfl, by
      have h1 : (Dict.get? inFlight.issuer2rp "https://op.example").map
          (fun c => Dict.get? (confObj c.ctx.config "request_args") "nonce") = some none := by rfl
      rw [hc] at h1
      injection h1⟩)
    (fun c hc => by
      have h1 : (Dict.get? inFlight.issuer2rp "https://op.example").map (fun c => decide (.authorization ∈ c.services)) = some true := by rfl
      rw [hc] at h1
      injection h1 with h1
      exact of_decide_eq_true h1)
    (failures.map Attempt.call) g1 g2 ⟨earlier_fresh, g3⟩
  have ec : c' = triedClient := by unfold triedClient; rw [a1]; rfl
  have er : areq = madeRequest := by
    rw [ec] at a4
    have : getItem triedClient.db "auth_request" World.s1 = .ok madeRequest := by rfl
    rw [this] at a4
    injection a4 with a4
    exact a4.symm
  subst ec er
  obtain ⟨_, b2⟩ := a5 (World.ext 1010 "" "" "n1") codeResponse codeResponse aliceToken [("sub", .str "alice"), ("name", .str "Alice")] []
    "AT1" "alice" "RT1" (world_honestLogin ver) (by decide) (by
      intro s a p v hs ha hu
      have e : a = World.answer { srv := .accesstoken, url := "", method := "" } := by
        have : Except.ok (World.answer s) = Except.ok a := ha
        injection this with this
        rw [← this]
        unfold World.answer
        rw [hs]
      subst e
      obtain ⟨_, _, _, _, u5, _, u7⟩ := hu
      have e1 : (Except.ok [("access_token", Val.str "AT1"), ("token_type", .str "Bearer"), ("expires_in", .int 300),
        ("refresh_token", .str "RT1"), ("id_token", .str "header.payload.signature")] : Except Exc Obj) = .ok p := u5
      injection e1 with e1
      subst e1
      have e2 : (Except.ok [("access_token", Val.str "AT1"), ("token_type", .str "Bearer"), ("expires_in", .int 300),
        ("refresh_token", .str "RT1"), ("id_token", .str "header.payload.signature"), ("__verified_id_token", .obj aliceToken)] :
        Except Exc Obj) = .ok v := u7
      injection e2 with e2
      subst e2
      exact ⟨by rfl, by rfl, by rfl, by rfl⟩)
  obtain ⟨d1, d2⟩ := b2 lifeRounds life_honest
  exact ⟨d1, d2 [⟨otherCalls, rotating 1100, "", rotated, "CC1", "CR1"⟩] ⟨otherCalls, rotating 1150, "openid", rotated, "CC1", "CR1"⟩ rfl (by rfl) otherCalls (rotating 1190) 60 (life_others _ ⟨fun _ => rfl, trivial, trivial, trivial, trivial, trivial⟩)
    (by decide) (by rfl) (by decide) (by decide)⟩

end Verif.Props
